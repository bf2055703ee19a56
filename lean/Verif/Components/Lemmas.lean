import Verif.Components.Model
import Verif.Components.Spec
import Mathlib.Logic.Function.Iterate

namespace Cloudnet

open Relation

variable {adj : Pixel → Pixel → Bool} {S R : Finset Pixel} {p q : Pixel}

theorem mem_grow : q ∈ grow adj S R ↔ q ∈ S ∧ (q ∈ R ∨ ∃ r ∈ R, adj r q = true) := by
  simp [grow]

theorem subset_grow (h : R ⊆ S) : R ⊆ grow adj S R := fun _ hq => mem_grow.2 ⟨h hq, .inl hq⟩

theorem grow_subset : grow adj S R ⊆ S := fun _ hq => (mem_grow.1 hq).1

theorem iterate_grow_subset (h : R ⊆ S) (n : ℕ) : (grow adj S)^[n] R ⊆ S := by
  cases n with
  | zero => simpa
  | succ n => rw [Function.iterate_succ_apply']; exact grow_subset

theorem iterate_grow_mono (h : R ⊆ S) (n : ℕ) :
    (grow adj S)^[n] R ⊆ (grow adj S)^[n + 1] R := by
  rw [Function.iterate_succ_apply']
  exact subset_grow (iterate_grow_subset h n)

/-- Either the flood fill has stopped before step `n`, or it has at least `n + card R` pixels. -/
theorem iterate_grow_card (h : R ⊆ S) (n : ℕ) :
    (∃ k < n, (grow adj S)^[k + 1] R = (grow adj S)^[k] R) ∨
      n + R.card ≤ ((grow adj S)^[n] R).card := by
  induction n with
  | zero => right; simp
  | succ n ih =>
    rcases ih with ⟨k, hk, e⟩ | ih
    · exact .inl ⟨k, by omega, e⟩
    · by_cases e : (grow adj S)^[n + 1] R = (grow adj S)^[n] R
      · exact .inl ⟨n, by omega, e⟩
      · right
        have := Finset.card_lt_card (Finset.ssubset_iff_subset_ne.2
          ⟨iterate_grow_mono (adj := adj) h n, fun e' => e e'.symm⟩)
        omega

theorem iterate_grow_fixed (h : R ⊆ S) (hR : R.Nonempty) :
    grow adj S ((grow adj S)^[S.card] R) = (grow adj S)^[S.card] R := by
  rcases iterate_grow_card (adj := adj) h S.card with ⟨k, hk, e⟩ | hc
  · have hstay : ∀ m, (grow adj S)^[k + m] R = (grow adj S)^[k] R := by
      intro m
      induction m with
      | zero => rfl
      | succ m ih =>
        rw [← Nat.add_assoc, Function.iterate_succ_apply', ih,
          ← Function.iterate_succ_apply' (f := grow adj S)]
        exact e
    have h1 := hstay (S.card - k)
    have h2 := hstay (S.card - k + 1)
    rw [show k + (S.card - k) = S.card by omega] at h1
    rw [show k + (S.card - k + 1) = S.card + 1 by omega, Function.iterate_succ_apply'] at h2
    rw [h2, h1]
  · have h1 := Finset.card_le_card (iterate_grow_subset (adj := adj) h S.card)
    have h2 := Finset.card_pos.2 hR
    omega

theorem component_subset (hp : p ∈ S) : component adj S p ⊆ S :=
  iterate_grow_subset (by simpa using hp) _

theorem iterate_grow_reach (n : ℕ) (hq : q ∈ (grow adj S)^[n] {p}) :
    ReflTransGen (fun a b => adj a b = true ∧ b ∈ S) p q := by
  induction n generalizing q with
  | zero =>
    simp at hq
    rw [hq]
  | succ n ih =>
    rw [Function.iterate_succ_apply'] at hq
    obtain ⟨hS, h1 | ⟨r, hr, hadj⟩⟩ := mem_grow.1 hq
    · exact ih h1
    · exact (ih hr).tail ⟨hadj, hS⟩

theorem subset_iterate_grow (h : R ⊆ S) (n : ℕ) : R ⊆ (grow adj S)^[n] R := by
  induction n with
  | zero => simp
  | succ n ih => exact ih.trans (iterate_grow_mono h n)

/-- The flood fill is exactly the set of reachable pixels. -/
theorem mem_component (hp : p ∈ S) :
    q ∈ component adj S p ↔ ReflTransGen (fun a b => adj a b = true ∧ b ∈ S) p q := by
  constructor
  · exact iterate_grow_reach _
  · intro h
    have hpS : ({p} : Finset Pixel) ⊆ S := by simpa using hp
    induction h with
    | refl => exact subset_iterate_grow hpS _ (by simp)
    | tail _ hbc ih =>
      have := iterate_grow_fixed (adj := adj) hpS ⟨p, by simp⟩
      unfold component at ih ⊢
      rw [← this]
      exact mem_grow.2 ⟨hbc.2, .inr ⟨_, ih, hbc.1⟩⟩

theorem mem_setPixels {nT nH : ℕ} {mask : Grid Bool} :
    p ∈ setPixels nT nH mask ↔ Spec.IsSet nT nH mask p := by
  simp [setPixels, Spec.IsSet, and_assoc]

/-- Structuring elements that differ only by containing the centre give the same reachability. -/
theorem reach_congr {nb : Pixel → Pixel → Prop} {P : Pixel → Prop}
    (h : ∀ a b, a ≠ b → (adj a b = true ↔ nb a b)) (h2 : ∀ a b, nb a b → a ≠ b) :
    ReflTransGen (fun a b => adj a b = true ∧ P b) p q ↔
      ReflTransGen (fun a b => nb a b ∧ P b) p q := by
  constructor
  · intro hr
    induction hr with
    | refl => exact .refl
    | @tail b c _ hbc ih =>
      by_cases e : b = c
      · exact e ▸ ih
      · exact ih.tail ⟨(h b c e).1 hbc.1, hbc.2⟩
  · intro hr
    induction hr with
    | refl => exact .refl
    | @tail b c _ hbc ih => exact ih.tail ⟨(h b c (h2 b c hbc.1)).2 hbc.1, hbc.2⟩

theorem adjFull_iff (a b : Pixel) (hne : a ≠ b) : adjFull a b = true ↔ Spec.Neighbours8 a b := by
  simp only [adjFull, Bool.and_eq_true, decide_eq_true_eq, Spec.Neighbours8, ne_eq, hne,
    not_false_eq_true, true_and]
  unfold idxDist
  omega

theorem adjX_iff (a b : Pixel) (hne : a ≠ b) :
    adjX a b = true ↔ (a.2 = b.2 ∧ (a.1 + 1 = b.1 ∨ b.1 + 1 = a.1)) := by
  obtain ⟨a1, a2⟩ := a
  obtain ⟨b1, b2⟩ := b
  simp only [adjX, Bool.and_eq_true, decide_eq_true_eq, ne_eq, Prod.mk.injEq] at *
  unfold idxDist
  omega

theorem adjConn1_iff (a b : Pixel) (hne : a ≠ b) :
    adjConn 1 a b = true ↔ Spec.FaceNeighbours a b := by
  obtain ⟨a1, a2⟩ := a
  obtain ⟨b1, b2⟩ := b
  simp only [adjConn, Bool.and_eq_true, decide_eq_true_eq, ne_eq, Prod.mk.injEq,
    Spec.FaceNeighbours] at *
  unfold idxDist
  generalize hx : a1 - b1 + (b1 - a1) = x
  generalize hy : a2 - b2 + (b2 - a2) = y
  constructor
  · rintro ⟨⟨h1, h2⟩, h3⟩
    rcases Nat.le_one_iff_eq_zero_or_eq_one.1 h1 with rfl | rfl <;>
      rcases Nat.le_one_iff_eq_zero_or_eq_one.1 h2 with rfl | rfl <;> simp at h3 <;> omega
  · intro h
    have : (x = 0 ∧ y = 1) ∨ (x = 1 ∧ y = 0) := by omega
    rcases this with ⟨rfl, rfl⟩ | ⟨rfl, rfl⟩ <;> simp

theorem adjConn2_iff (a b : Pixel) (hne : a ≠ b) :
    adjConn 2 a b = true ↔ Spec.Neighbours8 a b := by
  rw [← adjFull_iff a b hne]
  simp only [adjConn, adjFull, Bool.and_eq_true, decide_eq_true_eq]
  constructor
  · exact fun h => h.1
  · rintro ⟨h1, h2⟩
    refine ⟨⟨h1, h2⟩, ?_⟩
    rcases Nat.le_one_iff_eq_zero_or_eq_one.1 h1 with h | h <;>
      rcases Nat.le_one_iff_eq_zero_or_eq_one.1 h2 with h' | h' <;> simp [h, h']

/-- A region has size 1 iff the pixel has no other set pixel in its structuring element. -/
theorem component_card_one (hp : p ∈ S) :
    (component adj S p).card = 1 ↔ ∀ q ∈ S, q ≠ p → adj p q = false := by
  constructor
  · intro hc q hq hne
    by_contra hadj
    have hadj : adj p q = true := by simpa using hadj
    have h1 : q ∈ component adj S p := (mem_component hp).2 (.single ⟨hadj, hq⟩)
    have h2 : p ∈ component adj S p := (mem_component hp).2 .refl
    obtain ⟨x, hx⟩ := Finset.card_eq_one.1 hc
    rw [hx] at h1 h2
    simp at h1 h2
    exact hne (h1.trans h2.symm)
  · intro h
    have : component adj S p = {p} := by
      ext q
      rw [mem_component hp, Finset.mem_singleton]
      constructor
      · intro hr
        induction hr with
        | refl => rfl
        | @tail b c _ hbc ih =>
          subst ih
          by_contra hne
          have := h c hbc.2 hne
          rw [hbc.1] at this
          simp at this
      · rintro rfl
        exact .refl
    rw [this]; simp

theorem filterRegions_iff {nT nH : ℕ} {mask : Grid Bool} {t h : ℕ} (ht : t < nT) (hh : h < nH) :
    filterRegions adj nT nH mask t h = true ↔
      mask t h = true ∧ ∃ q, Spec.IsSet nT nH mask q ∧ q ≠ (t, h) ∧ adj (t, h) q = true := by
  simp only [filterRegions, Bool.and_eq_true, Bool.not_eq_true', decide_eq_false_iff_not]
  constructor
  · rintro ⟨hm, hc⟩
    have hp : ((t, h) : Pixel) ∈ setPixels nT nH mask := mem_setPixels.2 ⟨ht, hh, hm⟩
    rw [component_card_one hp] at hc
    push Not at hc
    obtain ⟨q, hq, hne, ha⟩ := hc
    exact ⟨hm, q, mem_setPixels.1 hq, hne, by simpa using ha⟩
  · rintro ⟨hm, q, hq, hne, ha⟩
    refine ⟨hm, ?_⟩
    have hp : ((t, h) : Pixel) ∈ setPixels nT nH mask := mem_setPixels.2 ⟨ht, hh, hm⟩
    rw [component_card_one hp]
    intro hall
    have := hall q (mem_setPixels.2 hq) hne
    rw [ha] at this
    simp at this

theorem removeSmall_iff {nb : Pixel → Pixel → Prop} {conn : ℕ}
    (h1 : ∀ a b, a ≠ b → (adjConn conn a b = true ↔ nb a b)) (h2 : ∀ a b, nb a b → a ≠ b)
    {nT nH : ℕ} {mask : Grid Bool} {t h n : ℕ} (ht : t < nT) (hh : h < nH) :
    removeSmallObjects nT nH mask n conn t h = true ↔
      mask t h = true ∧ Spec.ObjectLargerThan nb nT nH mask n (t, h) := by
  simp only [removeSmallObjects, Bool.and_eq_true, decide_eq_true_eq]
  apply and_congr_right
  intro hm
  have hp : ((t, h) : Pixel) ∈ setPixels nT nH mask := mem_setPixels.2 ⟨ht, hh, hm⟩
  have hmem : ∀ q, q ∈ component (adjConn conn) (setPixels nT nH mask) (t, h) ↔
      Spec.Connected nb nT nH mask (t, h) q := by
    intro q
    rw [mem_component hp]
    unfold Spec.Connected
    have := reach_congr (p := (t, h)) (q := q) (P := Spec.IsSet nT nH mask) h1 h2
    rw [← this]
    simp only [mem_setPixels]
  constructor
  · intro hc
    exact ⟨_, fun q hq => (hmem q).1 hq, hc⟩
  · rintro ⟨s, hs, hc⟩
    apply lt_of_lt_of_le hc
    apply Finset.card_le_card
    intro q hq
    exact (hmem q).2 (hs q hq)

end Cloudnet
