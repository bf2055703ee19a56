import Verif.Nwp.Spec
import Mathlib.Tactic

/-! Properties C136: interpolation on two-dimensional grids. -/

set_option linter.unusedSectionVars false
set_option linter.unusedVariables false
set_option linter.unusedSimpArgs false

namespace Cloudnet

section
variable {α : Type} [Field α] [LinearOrder α] [IsStrictOrderedRing α]

/-! ### Linear interpolation -/

/-- In the closed cell the value is on the line through the two ends. -/
theorem interpLinear_cell {m : ℕ} {x : ℕ → α} (hx : Spec.Increasing m x) (y : ℕ → α) {a : ℕ} (ha : a + 1 < m) {v : α}
    (h1 : x a ≤ v) (h2 : v ≤ x (a + 1)) :
    interpLinear m x y v = y a + (v - x a) / (x (a + 1) - x a) * (y (a + 1) - y a) := by
  have hlt : x a < x (a + 1) := hx a (a + 1) (by omega) ha
  rcases eq_or_lt_of_le h1 with e | l
  · rw [← e, interpLinear_node hx y (by omega)]; simp
  rcases eq_or_lt_of_le h2 with e | l2
  · rw [e, interpLinear_node hx y ha, div_self (sub_ne_zero.2 hlt.ne')]; ring
  · exact interpLinear_between hx y ha l l2

theorem interpLinear_left {m : ℕ} {x : ℕ → α} (hx : Spec.Increasing m x) (hm : 1 ≤ m) (y : ℕ → α) {v : α} (h : v ≤ x 0) :
    interpLinear m x y v = y 0 := by
  rcases eq_or_lt_of_le h with e | l
  · rw [e, interpLinear_node hx y (by omega)]
  · unfold interpLinear; rw [if_pos l]

theorem interpLinear_right {m : ℕ} {x : ℕ → α} (hx : Spec.Increasing m x) (hm : 1 ≤ m) (y : ℕ → α) {v : α} (h : x (m - 1) ≤ v) :
    interpLinear m x y v = y (m - 1) := by
  rcases eq_or_lt_of_le h with e | l
  · rw [← e, interpLinear_node hx y (by omega)]
  · unfold interpLinear
    have := hx.le (Nat.zero_le (m - 1)) (by omega)
    rw [if_neg (by linarith), if_pos l]

/-- A point in the range is in a cell. -/
theorem cell_exists {m : ℕ} {x : ℕ → α} (hx : Spec.Increasing m x) (hm : 2 ≤ m) {v : α} (h1 : x 0 ≤ v) (h2 : v ≤ x (m - 1)) :
    ∃ a, a + 1 < m ∧ x a ≤ v ∧ v ≤ x (a + 1) := by
  by_contra hc
  push Not at hc
  have : ∀ a, a < m → x a ≤ v := by
    intro a
    induction a with
    | zero => intro _; exact h1
    | succ a ih => intro ha; exact le_of_lt (hc a ha (ih (by omega)))
  have h := hc (m - 2) (by omega) (this _ (by omega))
  rw [show m - 2 + 1 = m - 1 by omega] at h
  linarith

/-- The value is a weighted mean of two neighbours or of one value. -/
theorem interpLinear_weights {m : ℕ} {x : ℕ → α} (hx : Spec.Increasing m x) (hm : 1 ≤ m) (v : α) :
    ∃ a b s, a < m ∧ b < m ∧ 0 ≤ s ∧ s ≤ 1 ∧ ∀ y : ℕ → α, interpLinear m x y v = (1 - s) * y a + s * y b := by
  rcases le_total v (x 0) with h | h1
  · exact ⟨0, 0, 0, by omega, by omega, le_refl _, zero_le_one, fun y => by rw [interpLinear_left hx hm y h]; ring⟩
  rcases le_total (x (m - 1)) v with h | h2
  · exact ⟨m - 1, 0, 0, by omega, by omega, le_refl _, zero_le_one, fun y => by rw [interpLinear_right hx hm y h]; ring⟩
  by_cases hm2 : m = 1
  · subst hm2
    exact ⟨0, 0, 0, by omega, by omega, le_refl _, zero_le_one, fun y => by
      rw [interpLinear_right hx hm y (by simpa using h1)]; ring⟩
  obtain ⟨a, ha, ha1, ha2⟩ := cell_exists hx (by omega) h1 h2
  have hlt : x a < x (a + 1) := hx a (a + 1) (by omega) ha
  refine ⟨a, a + 1, (v - x a) / (x (a + 1) - x a), by omega, ha, div_nonneg (by linarith) (by linarith),
    (div_le_one (by linarith)).2 (by linarith), fun y => ?_⟩
  rw [interpLinear_cell hx y ha ha1 ha2]; ring

/-! ### `interpolate_2d` -/

/-- **C136.** In a cell of the grid the value is the bilinear mean of the values at its corners. -/
theorem C136_cell (n m : ℕ) (x y : ℕ → α) (z : Grid α) (hx : Spec.Increasing n x) (hy : Spec.Increasing m y) (i j : ℕ)
    (hi : i + 1 < n) (hj : j + 1 < m) (u v : α) (hu : x i ≤ u ∧ u ≤ x (i + 1)) (hv : y j ≤ v ∧ v ≤ y (j + 1)) :
    interpolate2d n x m y z u v = Spec.fourCorners ((u - x i) / (x (i + 1) - x i)) ((v - y j) / (y (j + 1) - y j))
      (z i j) (z i (j + 1)) (z (i + 1) j) (z (i + 1) (j + 1)) := by
  unfold interpolate2d Spec.fourCorners
  rw [interpLinear_cell hx _ hi hu.1 hu.2, interpLinear_cell hy _ hj hv.1 hv.2, interpLinear_cell hy _ hj hv.1 hv.2]
  ring

/-- **C136.** There is no extrapolation: outside of the grid the value is that of the closest point of its edge. -/
theorem C136_edge (n m : ℕ) (x y : ℕ → α) (z : Grid α) (hn : 1 ≤ n) (hm : 1 ≤ m) (hx : Spec.Increasing n x)
    (hy : Spec.Increasing m y) (u v : α) :
    interpolate2d n x m y z u v =
      interpolate2d n x m y z (max (x 0) (min u (x (n - 1)))) (max (y 0) (min v (y (m - 1)))) := by
  have key : ∀ {m : ℕ} {y : ℕ → α}, 1 ≤ m → Spec.Increasing m y → ∀ (f : ℕ → α) (v : α),
      interpLinear m y f v = interpLinear m y f (max (y 0) (min v (y (m - 1)))) := by
    intro m y hm hy f v
    have h0 := hy.le (Nat.zero_le (m - 1)) (by omega)
    rcases le_total v (y 0) with h | h1
    · rw [interpLinear_left hy hm f h, min_eq_left (by linarith), max_eq_left h, interpLinear_left hy hm f (le_refl _)]
    rcases le_total (y (m - 1)) v with h | h2
    · rw [interpLinear_right hy hm f h, min_eq_right h, max_eq_right h0, interpLinear_right hy hm f (le_refl _)]
    · rw [min_eq_left h2, max_eq_right h1]
  unfold interpolate2d
  rw [key hn hx]
  congr 1
  funext i
  exact key hm hy (z i) v

/-- **C136.** Values at the points of the grid are kept, and all values are within the range of the data. -/
theorem C136_values (n m : ℕ) (x y : ℕ → α) (z : Grid α) (hn : 1 ≤ n) (hm : 1 ≤ m) (hx : Spec.Increasing n x)
    (hy : Spec.Increasing m y) :
    (∀ i < n, ∀ j < m, interpolate2d n x m y z (x i) (y j) = z i j) ∧
    ∀ lo hi, (∀ i < n, ∀ j < m, lo ≤ z i j ∧ z i j ≤ hi) → ∀ u v,
      lo ≤ interpolate2d n x m y z u v ∧ interpolate2d n x m y z u v ≤ hi := by
  constructor
  · intro i hi j hj
    unfold interpolate2d
    rw [interpLinear_node hx _ hi, interpLinear_node hy _ hj]
  · intro lo hi hz u v
    have key : ∀ {m : ℕ} {y : ℕ → α}, 1 ≤ m → Spec.Increasing m y → ∀ (f : ℕ → α) (v : α), (∀ j < m, lo ≤ f j ∧ f j ≤ hi) →
        lo ≤ interpLinear m y f v ∧ interpLinear m y f v ≤ hi := by
      intro m y hm hy f v hf
      obtain ⟨a, b, s, ha, hb, h0, h1, e⟩ := interpLinear_weights hy hm v
      rw [e]
      have := hf a ha
      have := hf b hb
      constructor <;> nlinarith
    exact key hn hx _ u fun i hi => key hm hy _ v (hz i hi)

/-- A grid of two by two points; outside, the value of the edge. -/
example : interpolate2d (α := ℚ) 2 (fun i => i) 2 (fun j => 100 * j) (fun i j => 10 * i + j) (1 / 2) 25 = 21 / 4 ∧
    interpolate2d (α := ℚ) 2 (fun i => i) 2 (fun j => 100 * j) (fun i j => 10 * i + j) 7 (-3) = 10 := by decide +kernel

/-! ### `interp1d` with extrapolation -/

theorem lineThrough_affine {m : ℕ} (hm : 2 ≤ m) {x : ℕ → α} (hx : Spec.Increasing m x) (y : ℕ → α) (a b : α)
    (h : ∀ i < m, y i = a + b * x i) (v : α) : lineThrough m x y v = a + b * v := by
  unfold lineThrough
  set hi := min (max (bisectLeft x v m) 1) (m - 1) with hhi
  have h1 : 1 ≤ hi := by omega
  have h2 : hi < m := by omega
  have hlt : x (hi - 1) < x hi := hx _ _ (by omega) h2
  dsimp only
  rw [h hi h2, h (hi - 1) (by omega)]
  have : x hi - x (hi - 1) ≠ 0 := sub_ne_zero.2 hlt.ne'
  field_simp
  ring

theorem lineThrough_cell {m : ℕ} {x : ℕ → α} (hx : Spec.Increasing m x) (y : ℕ → α) {a : ℕ} (ha : a + 1 < m) {v : α}
    (h1 : a = 0 ∨ x a < v) (h2 : a + 2 = m ∨ v ≤ x (a + 1)) :
    lineThrough m x y v = Spec.lineAt (x a) (y a) (x (a + 1)) (y (a + 1)) v := by
  obtain ⟨b1, b2⟩ := C74_bisect_left x v m (fun i j hij hj => hx.le hij hj)
  have hb : min (max (bisectLeft x v m) 1) (m - 1) = a + 1 := by
    have c1 : a = 0 ∨ a < bisectLeft x v m := h1.imp id fun h => (b2 a (by omega)).2 h
    have c2 : a + 2 = m ∨ ¬ a + 1 < bisectLeft x v m := h2.imp id fun h hc => absurd ((b2 (a + 1) ha).1 hc) (not_lt.2 h)
    omega
  unfold lineThrough Spec.lineAt
  rw [hb]
  dsimp only
  rw [Nat.add_sub_cancel]
  ring

/-- At the points themselves the values are kept. -/
theorem lineThrough_node {m : ℕ} (hm : 2 ≤ m) {x : ℕ → α} (hx : Spec.Increasing m x) (y : ℕ → α) {a : ℕ} (ha : a < m) :
    lineThrough m x y (x a) = y a := by
  by_cases h0 : a = 0
  · subst h0
    rw [lineThrough_cell hx y (a := 0) (by omega) (Or.inl rfl) (Or.inr (hx.le (by omega) (by omega)))]
    simp [Spec.lineAt]
  · obtain ⟨b, rfl⟩ := Nat.exists_eq_succ_of_ne_zero h0
    have hlt := hx b (b + 1) (by omega) ha
    rw [lineThrough_cell hx y (a := b) ha (Or.inr hlt) (Or.inr (le_refl _))]
    unfold Spec.lineAt
    rw [div_self (sub_ne_zero.2 hlt.ne')]
    ring

/-! ### The known points of a row -/

theorem knownPoints_mem (nNew : ℕ) (yNew : ℕ → α) (row : ℕ → Option α) (p : α × α) :
    p ∈ knownPoints nNew yNew row ↔ ∃ k < nNew, row k = some p.2 ∧ yNew k = p.1 := by
  unfold knownPoints
  rw [List.mem_filterMap]
  constructor
  · rintro ⟨k, hk, h⟩
    rw [Option.map_eq_some_iff] at h
    obtain ⟨r, hr, rfl⟩ := h
    exact ⟨k, List.mem_range.1 hk, hr, rfl⟩
  · rintro ⟨k, hk, h, e⟩
    exact ⟨k, List.mem_range.2 hk, by rw [h, e]; rfl⟩

theorem knownPoints_sorted (nNew : ℕ) (yNew : ℕ → α) (hy : Spec.Increasing nNew yNew) (row : ℕ → Option α) :
    (knownPoints nNew yNew row).Pairwise fun p q => p.1 < q.1 := by
  unfold knownPoints
  rw [List.pairwise_filterMap]
  refine (List.pairwise_lt_range (n := nNew)).imp_of_mem ?_
  intro a b ha hb hab p hp q hq
  simp only [Option.map_eq_some_iff] at hp hq
  obtain ⟨r, _, rfl⟩ := hp
  obtain ⟨s, _, rfl⟩ := hq
  exact hy a b hab (List.mem_range.1 hb)

theorem knownPoints_increasing (nNew : ℕ) (yNew : ℕ → α) (hy : Spec.Increasing nNew yNew) (row : ℕ → Option α) :
    Spec.Increasing (knownPoints nNew yNew row).length fun i => ((knownPoints nNew yNew row).getD i (0, 0)).1 := by
  intro i j hij hj
  have h := List.pairwise_iff_getElem.1 (knownPoints_sorted nNew yNew hy row) i j (by omega) hj hij
  dsimp only
  rw [List.getD_eq_getElem _ _ (by omega), List.getD_eq_getElem _ _ hj]
  exact h

theorem knownPoints_two (nNew : ℕ) (yNew : ℕ → α) (hy : Spec.Increasing nNew yNew) (row : ℕ → Option α) :
    2 ≤ (knownPoints nNew yNew row).length ↔ Spec.AtLeastTwo nNew fun k => (row k).isSome := by
  have key : (knownPoints nNew yNew row).length = ((List.range nNew).filter fun k => (row k).isSome).length := by
    unfold knownPoints
    induction List.range nNew with
    | nil => rfl
    | cons a l ih =>
      cases h : row a with
      | none => simp [List.filterMap_cons, h, ih]
      | some r => simp [List.filterMap_cons, h, ih]
  rw [key]
  set l := (List.range nNew).filter fun k => (row k).isSome with hl
  have hs : l.Pairwise (· < ·) := List.pairwise_lt_range.filter _
  constructor
  · intro h
    have h0 : 0 < l.length := by omega
    have h1 : 1 < l.length := by omega
    have hm : ∀ i (hi : i < l.length), l[i] < nNew ∧ (row l[i]).isSome = true := by
      intro i hi
      have h : ∀ k ∈ l, k < nNew ∧ (row k).isSome = true := by
        intro k hk
        rw [hl, List.mem_filter, List.mem_range] at hk
        exact hk
      exact h _ (List.getElem_mem hi)
    exact ⟨l[0], l[1], List.pairwise_iff_getElem.1 hs 0 1 h0 h1 (by omega), (hm 1 h1).1, (hm 0 h0).2, (hm 1 h1).2⟩
  · rintro ⟨p, q, hpq, hq, h1, h2⟩
    have hp' : p ∈ l := by rw [hl, List.mem_filter, List.mem_range]; exact ⟨by omega, h1⟩
    have hq' : q ∈ l := by rw [hl, List.mem_filter, List.mem_range]; exact ⟨hq, h2⟩
    match l, hp', hq' with
    | [a], ha, hb =>
      simp only [List.mem_singleton] at ha hb
      omega
    | a :: b :: t, _, _ => simp

/-- A row after extrapolation. -/
theorem extrapolateRow_cases (nNew : ℕ) (yNew : ℕ → α) (hy : Spec.Increasing nNew yNew) (row : ℕ → Option α) (l : ℕ) (hl : l < nNew) :
    (∀ r, row l = some r → extrapolateRow nNew yNew row l = some r) ∧
    (row l = none → ¬ (Spec.AtLeastTwo nNew fun k => (row k).isSome) → extrapolateRow nNew yNew row l = none) ∧
    (row l = none → (Spec.AtLeastTwo nNew fun k => (row k).isSome) → extrapolateRow nNew yNew row l =
      some (lineThrough (knownPoints nNew yNew row).length (fun i => ((knownPoints nNew yNew row).getD i (0, 0)).1)
        (fun i => ((knownPoints nNew yNew row).getD i (0, 0)).2) (yNew l))) := by
  have ht := knownPoints_two nNew yNew hy row
  unfold extrapolateRow
  refine ⟨?_, ?_, ?_⟩
  · intro r hr
    split
    · simp [hr]
    · exact hr
  · intro h h2
    rw [if_neg (fun hc => h2 (ht.1 hc.2))]
    exact h
  · intro h h2
    have ha : ((List.range nNew).any fun k => (row k).isNone) = true := by
      rw [List.any_eq_true]
      exact ⟨l, List.mem_range.2 hl, by simp [h]⟩
    rw [if_pos ⟨ha, ht.2 h2⟩, h, Option.getD_none]

end

end Cloudnet
