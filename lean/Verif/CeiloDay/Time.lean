import Verif.CeiloDay.Read

namespace Cloudnet

section
variable {α : Type} [Field α] [LinearOrder α] [IsStrictOrderedRing α] [FloorRing α]

theorem lidarOn_iff (f : NcLidarFile α) (d : ℤ) (t : α) : ⌊((f.epochDay : α) * 86400 + t) / 86400⌋ = d ↔ Spec.LidarOn f d t := by
  unfold Spec.LidarOn
  rw [Int.floor_eq_iff, le_div_iff₀ (by norm_num), div_lt_iff₀ (by norm_num)]

/-- The time of day. -/
theorem npMod_day (t : α) : 0 ≤ npMod t 86400 ∧ npMod t 86400 < 86400 ∧ t = 86400 * (⌊t / 86400⌋ : α) + npMod t 86400 := by
  unfold npMod
  have h1 := Int.floor_le (t / 86400)
  have h2 := Int.lt_floor_add_one (t / 86400)
  rw [le_div_iff₀ (by norm_num)] at h1
  rw [div_lt_iff₀ (by norm_num)] at h2
  refine ⟨by linarith, by linarith, by ring⟩

theorem pickRows_id {β : Type} (l : List β) : pickRows (List.range l.length) l = l := by
  apply List.ext_getElem?
  intro k
  rw [pickRows_get _ _ (fun i hi => List.mem_range.1 hi)]
  by_cases hk : k < l.length
  · rw [List.getElem?_range hk]; rfl
  · rw [List.getElem?_eq_none (by simpa using hk), List.getElem?_eq_none (by simpa using hk)]; rfl

/-- The profiles of the day: `ind` are their indices in the file. -/
structure LidarDayOf (f : NcLidarFile α) (date : Option ℤ) (d0 : NcLidarData α) (ind : List ℕ) (day : ℤ) (d : NcLidarData α) : Prop where
  exist : ∀ i ∈ ind, i < f.times.length
  some : ind ≠ []
  len : d.time.length = ind.length
  hour : ∀ k i : ℕ, ind[k]? = .some i → ∃ t h, f.times[i]? = .some t ∧ d.time[k]? = .some h ∧ 0 ≤ h ∧ h ≤ 24 ∧ ∃ days : ℤ, t = 86400 * days + 3600 * h
  range : d.range = d0.range
  zenith : d.zenith = d0.zenith
  beta : d.beta = pickRows ind d0.beta
  depol : d.depol = d0.depol.map (pickRows ind)
  all : date = none → ind = List.range f.times.length
  first : ∀ t, (pickRows ind f.times)[0]? = .some t → Spec.LidarOn f day t
  onDay : ∀ dd, date = .some dd → day = dd ∧ (pickRows ind f.times).Pairwise (· < ·) ∧
    (∀ t, t ∈ pickRows ind f.times ↔ t ∈ f.times ∧ Spec.LidarOn f dd t) ∧
    (2 ≤ ind.length → ∀ (k i : ℕ) (t h : α), ind[k]? = .some i → f.times[i]? = .some t → d.time[k]? = .some h →
      (f.epochDay : α) * 86400 + t = dd * 86400 + 3600 * h ∧ 0 ≤ h ∧ h < 24)

theorem hours_spec (n : ℕ) (s g : ℕ → α) (h : seconds2hours n s = .ok g) (k : ℕ) (hk : k < n) :
    (g k = npMod (s k) 86400 / 3600) ∨ (k = n - 1 ∧ npMod (s k) 86400 = 0 ∧ g k = 24) := by
  unfold seconds2hours at h
  rw [if_neg (by omega)] at h
  dsimp only at h
  have hg := Except.ok.inj h
  rw [← hg]
  dsimp only
  split_ifs with hc
  · obtain ⟨h1, h2⟩ := hc
    subst h1
    exact .inr ⟨rfl, by field_simp at h2; rw [mul_zero] at h2; exact h2, rfl⟩
  · exact .inl rfl

theorem finish_time (f : NcLidarFile α) (date : Option ℤ) (d0 d1 : NcLidarData α) (ind : List ℕ)
    (hex : ∀ i ∈ ind, i < f.times.length) (hne : ind ≠ []) (ht : d1.time = pickRows ind f.times) (hr : d1.range = d0.range)
    (hz : d1.zenith = d0.zenith) (hb : d1.beta = pickRows ind d0.beta) (hd : d1.depol = d0.depol.map (pickRows ind))
    (hall : date = none → ind = List.range f.times.length)
    (hon : ∀ dd, date = some dd → (pickRows ind f.times).Pairwise (· < ·) ∧ ∀ t, t ∈ pickRows ind f.times ↔ t ∈ f.times ∧ Spec.LidarOn f dd t) :
    ∃ day g, seconds2hours d1.time.length (vec d1.time) = .ok g ∧ day = dateOf ((f.epochDay : α) * 86400) (vec d1.time 0) ∧
      LidarDayOf f date d0 ind day { d1 with time := (List.range d1.time.length).map g } := by
  have hlen : d1.time.length = ind.length := by rw [ht, pickRows_length_of_lt _ _ hex]
  have hpos : 0 < ind.length := List.length_pos_iff.2 hne
  obtain ⟨g, hg, -⟩ := (C36_seconds2hours d1.time.length (vec d1.time)).2 (by omega)
  have hvec : ∀ k i, ind[k]? = some i → ∃ t, f.times[i]? = some t ∧ vec d1.time k = t := by
    intro k i hk
    have hi := hex i (List.mem_of_getElem? hk)
    refine ⟨_, List.getElem?_eq_getElem hi, ?_⟩
    unfold vec
    rw [List.getD_eq_getElem?_getD, ht, pickRows_get _ _ hex, hk, Option.bind_some, List.getElem?_eq_getElem hi]
    rfl
  have hfirst : ∀ t, (pickRows ind f.times)[0]? = some t → vec d1.time 0 = t := by
    intro t h0
    unfold vec
    rw [List.getD_eq_getElem?_getD, ht, h0]
    rfl
  have hday : ∀ t, (pickRows ind f.times)[0]? = some t → Spec.LidarOn f (dateOf ((f.epochDay : α) * 86400) (vec d1.time 0)) t := by
    intro t h0
    rw [← lidarOn_iff, hfirst t h0]
    rfl
  refine ⟨_, g, hg, rfl, hex, hne, ?_, ?_, hr, hz, hb, hd, hall, hday, ?_⟩
  · simp [hlen]
  · intro k i hk
    obtain ⟨t, h1, h2⟩ := hvec k i hk
    have hk' : k < d1.time.length := by rw [hlen]; exact (List.getElem?_eq_some_iff.1 hk).1
    refine ⟨t, g k, h1, ?_, ?_⟩
    · simp [hk']
    · obtain ⟨m1, m2, m3⟩ := npMod_day t
      rcases hours_spec _ _ _ hg k hk' with h | ⟨-, h0, h⟩
      · rw [h2] at h
        rw [h]
        refine ⟨by positivity, by rw [div_le_iff₀ (by norm_num)]; linarith, ⌊t / 86400⌋, ?_⟩
        rw [mul_div_cancel₀ _ (by norm_num)]
        exact m3
      · rw [h2] at h0
        rw [h]
        refine ⟨by norm_num, le_refl _, ⌊t / 86400⌋ - 1, ?_⟩
        push_cast
        rw [h0] at m3
        linarith
  · intro dd hdd
    obtain ⟨hp, hm⟩ := hon dd hdd
    have hd0 : dateOf ((f.epochDay : α) * 86400) (vec d1.time 0) = dd := by
      have hl : 0 < (pickRows ind f.times).length := by rw [pickRows_length_of_lt _ _ hex]; exact hpos
      have h0 : (pickRows ind f.times)[0]? = some (pickRows ind f.times)[0] := List.getElem?_eq_getElem hl
      have := ((hm _).1 (List.mem_of_getElem? h0)).2
      rw [hfirst _ h0]
      unfold dateOf
      rw [lidarOn_iff]
      exact this
    refine ⟨hd0, hp, hm, ?_⟩
    intro h2 k i t h hk hti hh
    obtain ⟨t', h1, h3⟩ := hvec k i hk
    rw [hti] at h1
    cases h1
    have hk' : k < d1.time.length := by rw [hlen]; exact (List.getElem?_eq_some_iff.1 hk).1
    have hgk : h = g k := by
      have : ((List.range d1.time.length).map g)[k]? = some (g k) := by simp [hk']
      rw [this] at hh
      exact (Option.some.inj hh).symm
    have hpk : (pickRows ind f.times)[k]? = some t := by rw [pickRows_get _ _ hex, hk]; exact hti
    have hon' := ((hm t).1 (List.mem_of_getElem? hpk)).2
    have hfl := (lidarOn_iff f dd t).2 hon'
    obtain ⟨m1, m2, m3⟩ := npMod_day t
    have hfl2 : (f.epochDay : α) + (⌊t / 86400⌋ : α) = dd := by
      rw [add_div, mul_div_cancel_right₀ _ (by norm_num : (86400 : α) ≠ 0), Int.floor_intCast_add] at hfl
      exact_mod_cast hfl
    have hnz : ¬ (k = d1.time.length - 1 ∧ npMod t 86400 = 0) := by
      rintro ⟨hk1, h0⟩
      rw [h0] at m3
      have hk0 : 0 < k := by omega
      rw [List.pairwise_iff_getElem] at hp
      have hl : (pickRows ind f.times).length = ind.length := pickRows_length_of_lt _ _ hex
      have := hp 0 k (by omega) (by omega) hk0
      have hm0 := ((hm _).1 (List.getElem_mem (l := pickRows ind f.times) (n := 0) (by omega))).2.1
      have hpk' : (pickRows ind f.times)[k]'(by omega) = t := by
        rw [List.getElem?_eq_getElem (by omega)] at hpk
        exact Option.some.inj hpk
      rw [hpk'] at this
      have : (f.epochDay : α) * 86400 + t = dd * 86400 := by rw [m3, ← hfl2]; ring
      linarith
    rcases hours_spec _ _ _ hg k hk' with hx | ⟨hx1, hx2, -⟩
    · rw [h3] at hx
      rw [hgk, hx]
      refine ⟨?_, by positivity, by rw [div_lt_iff₀ (by norm_num)]; linarith⟩
      rw [mul_div_cancel₀ _ (by norm_num), ← hfl2]
      linarith
    · exact absurd ⟨hx1, by rw [← h3]; exact hx2⟩ hnz

/-- The profiles of the day, and when there are none. -/
theorem lidarTime_spec (argsort : List α → List ℕ) (ha : ∀ l, Spec.IsArgsort l (argsort l)) (f : NcLidarFile α) (date : Option ℤ)
    (d0 : NcLidarData α) (ht : d0.time = f.times) (hn : date = none ∨ d0.range.length ≠ f.times.length)
    (hb : d0.beta.length = f.times.length) (hd : ∀ p, d0.depol = some p → p.length = f.times.length) :
    ((∃ r, lidarTime argsort f.epochDay date d0 = .ok r) ↔ ∃ t ∈ f.times, ∀ dd, date = some dd → Spec.LidarOn f dd t) ∧
    ∀ day d, lidarTime argsort f.epochDay date d0 = .ok (day, d) → ∃ ind, LidarDayOf f date d0 ind day d := by
  have hdep : ∀ ind, (d0.depol.map fun p => if p.length = d0.time.length then pickRows ind p else p) = d0.depol.map (pickRows ind) := by
    intro ind
    cases hp : d0.depol with
    | none => rfl
    | some p => simp [hd p hp, ht]
  unfold lidarTime
  cases date with
  | none =>
    simp only [bind, Except.bind, pure, Except.pure]
    by_cases he : f.times = []
    · have : d0.time.length = 0 := by rw [ht, he]; rfl
      rw [this]
      unfold seconds2hours
      rw [if_pos rfl, he]
      exact ⟨⟨fun ⟨r, hr⟩ => (by cases hr), fun ⟨t, hmem, _⟩ => by simp at hmem⟩, fun day d h => by cases h⟩
    · obtain ⟨day, g, hg, hday, hof⟩ := finish_time f none d0 d0 (List.range f.times.length) (fun i hi => List.mem_range.1 hi)
        (by intro hc; simp at hc; exact he hc) (by rw [pickRows_id, ht]) rfl rfl (by rw [← hb, pickRows_id])
        (by
          cases hp : d0.depol with
          | none => rfl
          | some p => rw [Option.map_some, ← hd p hp, pickRows_id])
        (fun _ => rfl) (fun dd h => by cases h)
      rw [hg]
      refine ⟨⟨fun _ => ?_, fun _ => ⟨_, rfl⟩⟩, fun day' d h => ?_⟩
      · cases hts : f.times with
        | nil => exact absurd hts he
        | cons t l => exact ⟨t, by simp, fun dd h => by cases h⟩
      · cases h
        exact ⟨_, hday ▸ hof⟩
  | some dd =>
    have hn' : d0.range.length ≠ f.times.length := hn.resolve_left (by simp)
    obtain ⟨c1, c2⟩ := C37_valid_indices d0.time (argsort d0.time) (ha _) ((f.epochDay : α) * 86400) dd
    simp only [bind, Except.bind, pure, Except.pure]
    cases hv : findValidTimeIndices (vec d0.time) (argsort d0.time) ((f.epochDay : α) * 86400) dd with
    | error e =>
      refine ⟨⟨fun ⟨r, hr⟩ => (by cases hr), fun ⟨t, hmem, hon⟩ => ?_⟩, fun day d h => by cases h⟩
      exact absurd ((lidarOn_iff f dd t).2 (hon dd rfl)) (c1.1 ⟨e, hv⟩ t (by rw [ht]; exact hmem))
    | ok ind =>
      obtain ⟨k1, k2, k3⟩ := c2 ind hv
      rw [ht] at k1 k2 k3
      have hmem : ∀ t, t ∈ pickRows ind f.times ↔ t ∈ f.times ∧ Spec.LidarOn f dd t := fun t => by
        rw [← lidarOn_iff]
        exact k3 t
      have hne : ind ≠ [] := by
        rintro rfl
        unfold findValidTimeIndices at hv
        dsimp only at hv
        split_ifs at hv with hc
        exact hc (Except.ok.inj hv)
      obtain ⟨day, g, hg, hday, hof⟩ := finish_time f (some dd) d0 (d0.pick ind) ind k1 hne (by rw [← ht]; rfl)
        (by unfold NcLidarData.pick; dsimp only; rw [if_neg (by rw [ht]; exact hn')]) rfl
        (by unfold NcLidarData.pick; dsimp only; rw [if_pos (by rw [ht]; exact hb)])
        (by unfold NcLidarData.pick; dsimp only; exact hdep ind)
        (fun h => by cases h) (fun dd' h => by cases h; exact ⟨k2, hmem⟩)
      dsimp only
      rw [hg]
      refine ⟨⟨fun _ => ?_, fun _ => ⟨_, rfl⟩⟩, fun day' d h => ?_⟩
      · have hl : 0 < (pickRows ind f.times).length := by rw [pickRows_length_of_lt _ _ k1]; exact List.length_pos_iff.2 hne
        have := (hmem _).1 (List.getElem_mem hl)
        exact ⟨_, this.1, fun dd' h => by cases h; exact this.2⟩
      · cases h
        exact ⟨ind, hday ▸ hof⟩

end

end Cloudnet
