import Verif.Components.Lemmas

/-!
Properties C09, C27, C28: filters based on connected pixels.
-/

namespace Cloudnet

/-- C27. `filter_isolated_pixels` keeps exactly the set pixels that have another set pixel among
their eight neighbours. -/
theorem C27_filter_isolated (nT nH : ℕ) (mask : Grid Bool) (t h : ℕ) (ht : t < nT) (hh : h < nH) :
    filterIsolatedPixels nT nH mask t h = true ↔
      mask t h = true ∧ ∃ q, Spec.IsSet nT nH mask q ∧ Spec.Neighbours8 (t, h) q := by
  unfold filterIsolatedPixels
  rw [filterRegions_iff ht hh]
  apply and_congr_right
  intro _
  constructor
  · rintro ⟨q, h1, h2, h3⟩
    exact ⟨q, h1, (adjFull_iff _ _ h2.symm).1 h3⟩
  · rintro ⟨q, h1, h2⟩
    exact ⟨q, h1, h2.1.symm, (adjFull_iff _ _ h2.1).2 h2⟩

/-- C27. `filter_x_pixels` keeps exactly the set pixels that are also set at the same gate in the
previous or next profile. -/
theorem C27_filter_x (nT nH : ℕ) (mask : Grid Bool) (t h : ℕ) (ht : t < nT) (hh : h < nH) :
    filterXPixels nT nH mask t h = true ↔
      mask t h = true ∧
        ((t + 1 < nT ∧ mask (t + 1) h = true) ∨ (0 < t ∧ mask (t - 1) h = true)) := by
  unfold filterXPixels
  rw [filterRegions_iff ht hh]
  apply and_congr_right
  intro _
  constructor
  · rintro ⟨⟨q1, q2⟩, ⟨h1, h1', h1''⟩, h2, h3⟩
    rw [adjX_iff _ _ h2.symm] at h3
    simp only at h3 h1 h1''
    obtain ⟨rfl, h4 | h4⟩ := h3
    · left; subst h4; exact ⟨h1, h1''⟩
    · right
      subst h4
      exact ⟨by omega, h1''⟩
  · rintro (⟨h1, h2⟩ | ⟨h1, h2⟩)
    · refine ⟨(t + 1, h), ⟨h1, hh, h2⟩, by simp, ?_⟩
      rw [adjX_iff _ _ (by simp)]; simp
    · have hne : ((t - 1, h) : ℕ × ℕ) ≠ (t, h) := by simp; omega
      refine ⟨(t - 1, h), ⟨by show t - 1 < nT; omega, hh, h2⟩, hne, ?_⟩
      rw [adjX_iff _ _ hne.symm]
      refine ⟨rfl, .inr ?_⟩
      show t - 1 + 1 = t
      omega

/-- C27. Filtering twice is the same as filtering once: the neighbour that saves a pixel is itself
saved. -/
theorem C27_filter_isolated_idempotent (nT nH : ℕ) (mask : Grid Bool) (t h : ℕ) (ht : t < nT)
    (hh : h < nH) :
    filterIsolatedPixels nT nH (filterIsolatedPixels nT nH mask) t h =
      filterIsolatedPixels nT nH mask t h := by
  rw [Bool.eq_iff_iff, C27_filter_isolated nT nH _ t h ht hh]
  constructor
  · exact fun h => h.1
  · intro h1
    refine ⟨h1, ?_⟩
    obtain ⟨hm, q, hq, hn⟩ := (C27_filter_isolated nT nH mask t h ht hh).1 h1
    refine ⟨q, ⟨hq.1, hq.2.1, ?_⟩, hn⟩
    refine (C27_filter_isolated nT nH mask q.1 q.2 hq.1 hq.2.1).2 ⟨hq.2.2, (t, h), ⟨ht, hh, hm⟩, ?_⟩
    exact ⟨hn.1.symm, ⟨hn.2.1.2, hn.2.1.1⟩, ⟨hn.2.2.2, hn.2.2.1⟩⟩

/-- C27. The same for the time-direction filter. -/
theorem C27_filter_x_idempotent (nT nH : ℕ) (mask : Grid Bool) (t h : ℕ) (ht : t < nT)
    (hh : h < nH) :
    filterXPixels nT nH (filterXPixels nT nH mask) t h = filterXPixels nT nH mask t h := by
  rw [Bool.eq_iff_iff, C27_filter_x nT nH _ t h ht hh]
  constructor
  · exact fun h => h.1
  · intro h1
    refine ⟨h1, ?_⟩
    obtain ⟨hm, ⟨h2, h3⟩ | ⟨h2, h3⟩⟩ := (C27_filter_x nT nH mask t h ht hh).1 h1
    · left
      refine ⟨h2, (C27_filter_x nT nH mask (t + 1) h h2 hh).2 ⟨h3, .inr ⟨by omega, ?_⟩⟩⟩
      simpa using hm
    · right
      refine ⟨h2, (C27_filter_x nT nH mask (t - 1) h (by omega) hh).2 ⟨h3, .inl ⟨by omega, ?_⟩⟩⟩
      rw [show t - 1 + 1 = t by omega]
      exact hm

/-- The examples of the docstrings (`utils.py:210`, `233`): a lone pixel goes; in the second example
only the two pixels on top of each other in the middle column stay. -/
example : filterIsolatedPixels 3 3 (fun t h => t == 1 && h == 1) 1 1 = false := by decide +kernel
example : (List.range 3).map (fun t => (List.range 3).map (filterXPixels 3 3
      (fun t h => (([[true, false, false], [false, true, false], [false, true, true]].getD t []).getD
        h false)) t)) =
    [[false, false, false], [false, true, false], [false, true, false]] := by decide +kernel

/-- C28. With face connectivity (`connectivity=1`), `remove_small_objects` keeps exactly the set
pixels whose object has more than `max_size` pixels. -/
theorem C28_remove_small_objects_faces (nT nH : ℕ) (mask : Grid Bool) (maxSize t h : ℕ) (ht : t < nT)
    (hh : h < nH) :
    removeSmallObjects nT nH mask maxSize 1 t h = true ↔
      mask t h = true ∧ Spec.ObjectLargerThan Spec.FaceNeighbours nT nH mask maxSize (t, h) :=
  removeSmall_iff adjConn1_iff (fun a b hab => by
    rintro rfl; unfold Spec.FaceNeighbours at hab; omega) ht hh

/-- C28. With full connectivity (`connectivity=2`) likewise, corners included. -/
theorem C28_remove_small_objects_corners (nT nH : ℕ) (mask : Grid Bool) (maxSize t h : ℕ)
    (ht : t < nT) (hh : h < nH) :
    removeSmallObjects nT nH mask maxSize 2 t h = true ↔
      mask t h = true ∧ Spec.ObjectLargerThan Spec.Neighbours8 nT nH mask maxSize (t, h) :=
  removeSmall_iff adjConn2_iff (fun _ _ hab => hab.1) ht hh

/-- A whole object stays or goes: if a pixel is kept, so is every pixel connected to it. -/
theorem C28_objects_stay_whole (nT nH : ℕ) (mask : Grid Bool) (maxSize : ℕ) (p q : ℕ × ℕ)
    (hp : Spec.IsSet nT nH mask p)
    (hpq : Spec.Connected Spec.FaceNeighbours nT nH mask p q)
    (hkeep : removeSmallObjects nT nH mask maxSize 1 p.1 p.2 = true) :
    removeSmallObjects nT nH mask maxSize 1 q.1 q.2 = true := by
  obtain ⟨_, s, hs, hc⟩ :=
    (C28_remove_small_objects_faces nT nH mask maxSize p.1 p.2 hp.1 hp.2.1).1 hkeep
  -- symmetric reachability
  have key : ∀ q, Spec.Connected Spec.FaceNeighbours nT nH mask p q →
      Spec.IsSet nT nH mask q ∧ Spec.Connected Spec.FaceNeighbours nT nH mask q p := by
    intro q hq
    induction hq with
    | refl => exact ⟨hp, .refl⟩
    | @tail b c _ hbc ih =>
      refine ⟨hbc.2, Relation.ReflTransGen.head ⟨?_, ih.1⟩ ih.2⟩
      have := hbc.1
      unfold Spec.FaceNeighbours at *
      omega
  obtain ⟨hq, hqp⟩ := key q hpq
  refine (C28_remove_small_objects_faces nT nH mask maxSize q.1 q.2 hq.1 hq.2.1).2
    ⟨hq.2.2, s, fun r hr => ?_, hc⟩
  exact Relation.ReflTransGen.trans hqp (hs r hr)

/-- C28. Removing small objects twice is the same as once. -/
theorem C28_idempotent (nT nH : ℕ) (mask : Grid Bool) (maxSize t h : ℕ) (ht : t < nT) (hh : h < nH) :
    removeSmallObjects nT nH (removeSmallObjects nT nH mask maxSize 1) maxSize 1 t h =
      removeSmallObjects nT nH mask maxSize 1 t h := by
  rw [Bool.eq_iff_iff, C28_remove_small_objects_faces nT nH _ maxSize t h ht hh]
  constructor
  · exact fun h => h.1
  · intro h1
    refine ⟨h1, ?_⟩
    obtain ⟨hm, s, hs, hc⟩ := (C28_remove_small_objects_faces nT nH mask maxSize t h ht hh).1 h1
    refine ⟨s, fun q hq => ?_, hc⟩
    have hpath := hs q hq
    -- every pixel on the path is kept
    have key : ∀ q, Spec.Connected Spec.FaceNeighbours nT nH mask (t, h) q →
        Spec.Connected Spec.FaceNeighbours nT nH (removeSmallObjects nT nH mask maxSize 1) (t, h) q
        := by
      intro q hq
      induction hq with
      | refl => exact .refl
      | @tail b c hab hbc ih =>
        refine ih.tail ⟨hbc.1, hbc.2.1, hbc.2.2.1, ?_⟩
        exact C28_objects_stay_whole nT nH mask maxSize (t, h) c ⟨ht, hh, hm⟩ (hab.tail hbc) h1
    exact key q hpath

/-- An L-shaped object of three pixels survives `max_size = 2`, a corner-touching single pixel
does not. -/
example : (List.range 3).map (fun t => (List.range 3).map (removeSmallObjects 3 3
      (fun t h => (([[true, true, false], [true, false, false], [false, true, false]].getD t []).getD
        h false)) 2 1 t)) =
    [[true, true, false], [true, false, false], [false, false, false]] := by decide +kernel

/-- C09. The cloud mask behind the cloud base and top heights is exactly: pixels of class droplets,
drizzle and droplets, ice, or ice and supercooled droplets, in a face-connected group of more than 20
such pixels. -/
theorem C09_cloud_mask (nT nH : ℕ) (classification : Grid ℕ) (t h : ℕ) (ht : t < nT) (hh : h < nH) :
    findCloudMask nT nH classification t h = true ↔
      classification t h ∈ [1, 3, 4, 5] ∧
      Spec.ObjectLargerThan Spec.FaceNeighbours nT nH
        (fun t h => decide (classification t h ∈ [1, 3, 4, 5])) 20 (t, h) := by
  have hmask : (((((Grid.const false : Grid Bool).assign (fun t h => classification t h == 1) true).assign
      (fun t h => classification t h == 3) true).assign
      (fun t h => classification t h == 4) true).assign
      (fun t h => classification t h == 5) true) =
      (fun t h => decide (classification t h ∈ [1, 3, 4, 5])) := by
    funext t h
    simp only [Grid.assign_apply, Grid.const_apply]
    by_cases h1 : classification t h = 1 <;> by_cases h3 : classification t h = 3 <;>
      by_cases h4 : classification t h = 4 <;> by_cases h5 : classification t h = 5 <;>
      simp [h1, h3, h4, h5, Bool.cond_eq_ite]
  unfold findCloudMask
  rw [hmask, C28_remove_small_objects_faces nT nH _ 20 t h ht hh]
  simp

/-- A 3 x 7 block of ice (21 pixels) is a cloud; drizzle-only pixels are not. -/
example : findCloudMask 3 8 (fun _ h => if h < 7 then 4 else 2) 1 3 = true ∧
    findCloudMask 3 8 (fun _ h => if h < 7 then 4 else 2) 1 7 = false := by decide +kernel

/-- With 20 pixels it is not reported. -/
example : findCloudMask 4 8 (fun _ h => if h < 5 then 4 else 2) 1 3 = false := by decide +kernel

end Cloudnet
