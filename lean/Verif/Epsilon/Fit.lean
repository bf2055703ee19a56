import Verif.Epsilon.Model
import Verif.Epsilon.Spec
import Verif.Search.Props
import Mathlib.Tactic.Linarith
import Mathlib.Tactic.FieldSimp
import Mathlib.Tactic.Ring
import Mathlib.Data.List.GetD

/-! Lemmas on least squares and cumulative sums. -/

namespace Cloudnet

theorem bisectRightLoop_spec {α : Type*} [LinearOrder α] (a : ℕ → α) (x : α) :
    ∀ fuel lo hi, hi - lo ≤ fuel → lo ≤ hi →
      (∀ i j, i ≤ j → j < hi → a i ≤ a j) →
      (∀ i < lo, a i ≤ x) →
      let r := bisectRightLoop a x fuel lo hi
      lo ≤ r ∧ r ≤ hi ∧ (∀ i < r, a i ≤ x) ∧ (∀ i, r ≤ i → i < hi → x < a i) := by
  intro fuel
  induction fuel with
  | zero =>
    intro lo hi hf hle hs hlo
    simp only [bisectRightLoop]
    exact ⟨le_refl _, hle, hlo, fun i h1 h2 => by omega⟩
  | succ n ih =>
    intro lo hi hf hle hs hlo
    simp only [bisectRightLoop]
    by_cases h : lo < hi
    · rw [if_pos h]
      by_cases hm : x < a ((lo + hi) / 2)
      · rw [if_pos hm]
        obtain ⟨h1, h2, h3, h4⟩ := ih lo ((lo + hi) / 2) (by omega) (by omega)
          (fun i j h1 h2 => hs i j h1 (by omega)) hlo
        refine ⟨h1, by omega, h3, ?_⟩
        intro i hi1 hi2
        by_cases hi3 : i < (lo + hi) / 2
        · exact h4 i hi1 hi3
        · exact lt_of_lt_of_le hm (hs _ _ (by omega) hi2)
      · rw [if_neg hm]
        obtain ⟨h1, h2, h3, h4⟩ := ih ((lo + hi) / 2 + 1) hi (by omega) (by omega) hs (by
          intro i hi'
          exact le_trans (hs i ((lo + hi) / 2) (by omega) (by omega)) (not_lt.1 hm))
        exact ⟨by omega, h2, h3, h4⟩
    · rw [if_neg h]
      exact ⟨le_refl _, hle, hlo, fun i h1 h2 => by omega⟩

theorem bisectRight_spec {α : Type*} [LinearOrder α] (a : ℕ → α) (x : α) (hi : ℕ)
    (hs : ∀ i j, i ≤ j → j < hi → a i ≤ a j) :
    bisectRight a x hi ≤ hi ∧ ∀ i < hi, (i < bisectRight a x hi ↔ a i ≤ x) := by
  obtain ⟨_, h2, h3, h4⟩ := bisectRightLoop_spec a x hi 0 hi (by omega) (by omega) hs
    (fun i h => absurd h (by omega))
  refine ⟨h2, fun i hi => ⟨h3 i, fun h => ?_⟩⟩
  by_contra hc
  exact absurd (h4 i (not_lt.1 hc) hi) (not_lt.2 h)

/-! ### Sums over lists of points -/

theorem cumulative_eq (l : List ℝ) (i : ℕ) (hi : i ≤ l.length) : cumulative l i = (l.take i).sum := by
  have key : ∀ (l : List ℝ) (s : ℝ) (i : ℕ), i ≤ l.length →
      (l.scanl (· + ·) s).getD i 0 = s + (l.take i).sum := by
    intro l
    induction l with
    | nil =>
      intro s i hi
      have : i = 0 := by simpa using hi
      subst this
      simp
    | cons x l ih =>
      intro s i hi
      cases i with
      | zero => simp
      | succ i =>
        rw [List.scanl_cons, List.getD_cons_succ, ih _ _ (by simpa using hi)]
        simp [add_assoc]
  unfold cumulative
  rw [key l 0 i hi, zero_add]

theorem cumulative_sub (l : List ℝ) (lo hi : ℕ) (h1 : lo ≤ hi) (h2 : hi ≤ l.length) :
    cumulative l hi - cumulative l lo = ((l.take hi).drop lo).sum := by
  rw [cumulative_eq l hi h2, cumulative_eq l lo (by omega)]
  have : (l.take hi).sum = ((l.take hi).take lo).sum + ((l.take hi).drop lo).sum := by
    rw [← List.sum_append, List.take_append_drop]
  rw [this, List.take_take, min_eq_left h1]
  ring

/-- The part of a sorted list between two binary searches. -/
theorem slice_eq_filter {β : Type} (l : List β) (f : β → ℝ) (d : β) (a b : ℝ) (hab : a < b)
    (hs : l.Pairwise fun p q => f p < f q) :
    let lo := bisectRight (fun i => f (l.getD i d)) a l.length
    let hi := bisectLeft (fun i => f (l.getD i d)) b l.length
    lo ≤ hi ∧ hi ≤ l.length ∧
      (l.take hi).drop lo = l.filter fun p => decide (a < f p ∧ f p < b) := by
  intro lo hi
  have hmono : ∀ i j, i ≤ j → j < l.length → f (l.getD i d) ≤ f (l.getD j d) := by
    intro i j hij hj
    rcases Nat.lt_or_eq_of_le hij with h | h
    · rw [List.getD_eq_getElem _ _ (by omega), List.getD_eq_getElem _ _ hj]
      exact le_of_lt (List.pairwise_iff_getElem.1 hs i j (by omega) hj h)
    · rw [h]
  obtain ⟨r1, r2⟩ := bisectRight_spec (fun i => f (l.getD i d)) a l.length hmono
  obtain ⟨l1, l2⟩ := C74_bisect_left (fun i => f (l.getD i d)) b l.length hmono
  change lo ≤ _ at r1
  change ∀ i < l.length, i < lo ↔ _ at r2
  change hi ≤ _ at l1
  change ∀ i < l.length, i < hi ↔ _ at l2
  have hle : lo ≤ hi := by
    by_contra hc
    have h1 : hi < lo := not_le.1 hc
    have h2 := (r2 hi (by omega)).1 h1
    have h3 := (l2 hi (by omega)).2 (lt_of_le_of_lt h2 hab)
    omega
  refine ⟨hle, l1, ?_⟩
  have hdec : l = (l.take hi).take lo ++ ((l.take hi).drop lo ++ l.drop hi) := by
    rw [← List.append_assoc, List.take_append_drop, List.take_append_drop]
  have e1 : ((l.take hi).take lo).filter (fun p => decide (a < f p ∧ f p < b)) = [] := by
    rw [List.filter_eq_nil_iff]
    intro p hp
    rw [List.take_take, min_eq_left hle, List.mem_take_iff_getElem] at hp
    obtain ⟨i, hi', rfl⟩ := hp
    have hlt : i < l.length := by omega
    have := (r2 i hlt).1 (by omega)
    rw [List.getD_eq_getElem _ _ hlt] at this
    simp [not_lt.2 this]
  have e2 : ((l.take hi).drop lo).filter (fun p => decide (a < f p ∧ f p < b)) = (l.take hi).drop lo := by
    rw [List.filter_eq_self]
    intro p hp
    rw [List.mem_drop_iff_getElem] at hp
    obtain ⟨i, hi', rfl⟩ := hp
    rw [List.length_take] at hi'
    have hlt : lo + i < l.length := by omega
    have h1 := (l2 (lo + i) hlt).1 (by omega)
    have h2 : ¬ lo + i < lo := by omega
    rw [r2 (lo + i) hlt, not_le] at h2
    rw [List.getD_eq_getElem _ _ hlt] at h1 h2
    rw [List.getElem_take]
    simp [h1, h2]
  have e3 : (l.drop hi).filter (fun p => decide (a < f p ∧ f p < b)) = [] := by
    rw [List.filter_eq_nil_iff]
    intro p hp
    rw [List.mem_drop_iff_getElem] at hp
    obtain ⟨i, hi', rfl⟩ := hp
    have hlt : hi + i < l.length := by omega
    have h1 : ¬ hi + i < hi := by omega
    rw [l2 (hi + i) hlt, not_lt] at h1
    rw [List.getD_eq_getElem _ _ hlt] at h1
    simp [h1]
  conv_rhs => rw [hdec]
  rw [List.filter_append, List.filter_append, e1, e2, e3]
  simp

/-! ### Least squares -/

/-- Expansion of the squared error. -/
theorem squaredError_expand (pts : List (ℝ × ℝ)) (a b a' b' : ℝ) :
    Spec.squaredError pts a' b' = Spec.squaredError pts a b +
      (pts.map fun p => ((a - a') + (b - b') * p.1) ^ 2).sum +
      2 * ((a - a') * ((pts.map (·.2)).sum - (pts.length * a + b * (pts.map (·.1)).sum)) +
        (b - b') * ((pts.map fun p => p.1 * p.2).sum -
          (a * (pts.map (·.1)).sum + b * (pts.map fun p => p.1 * p.1).sum))) := by
  unfold Spec.squaredError
  induction pts with
  | nil => simp
  | cons p pts ih =>
    simp only [List.map_cons, List.sum_cons, List.length_cons, Nat.cast_add, Nat.cast_one]
    rw [ih]
    ring

/-- Two different abscissas make the determinant positive. -/
theorem det_pos (pts : List (ℝ × ℝ)) (p q : ℝ × ℝ) (hp : p ∈ pts) (hq : q ∈ pts) (hne : p.1 ≠ q.1) :
    0 < pts.length * (pts.map fun p => p.1 * p.1).sum - (pts.map (·.1)).sum * (pts.map (·.1)).sum := by
  have hlen : 0 < (pts.length : ℝ) := by
    have := List.length_pos_of_mem hp
    exact_mod_cast this
  set S := (pts.map (·.1)).sum with hS
  set m := S / pts.length with hm
  have hexp : ∀ l : List (ℝ × ℝ), (l.map fun p => (p.1 - m) ^ 2).sum =
      (l.map fun p => p.1 * p.1).sum - 2 * m * (l.map (·.1)).sum + l.length * m ^ 2 := by
    intro l
    induction l with
    | nil => simp
    | cons p l ih =>
      simp only [List.map_cons, List.sum_cons, List.length_cons, Nat.cast_add, Nat.cast_one]
      rw [ih]
      ring
  have hpos : 0 < (pts.map fun p => (p.1 - m) ^ 2).sum := by
    have hnn : ∀ x ∈ pts.map fun p => (p.1 - m) ^ 2, (0 : ℝ) ≤ x := by
      intro x hx
      obtain ⟨y, -, rfl⟩ := List.mem_map.1 hx
      positivity
    have hex : ∃ r ∈ pts, r.1 ≠ m := by
      by_cases h : p.1 = m
      · exact ⟨q, hq, fun h' => hne (h.trans h'.symm)⟩
      · exact ⟨p, hp, h⟩
    obtain ⟨r, hr, hrm⟩ := hex
    have h1 : (r.1 - m) ^ 2 ≤ (pts.map fun p => (p.1 - m) ^ 2).sum :=
      List.single_le_sum hnn _ (List.mem_map_of_mem (f := fun p : ℝ × ℝ => (p.1 - m) ^ 2) hr)
    have h2 : 0 < (r.1 - m) ^ 2 := by
      have : r.1 - m ≠ 0 := sub_ne_zero.2 hrm
      positivity
    linarith
  rw [hexp, ← hS] at hpos
  have hmS : m * pts.length = S := by rw [hm]; field_simp
  nlinarith [mul_pos hlen hpos]

/-- The line of least squares is the solution of the normal equations. -/
theorem lineFit_iff (pts : List (ℝ × ℝ)) (p q : ℝ × ℝ) (hp : p ∈ pts) (hq : q ∈ pts) (hne : p.1 ≠ q.1)
    (a b : ℝ) :
    Spec.LineFit pts a b ↔
      b = (pts.length * (pts.map fun p => p.1 * p.2).sum - (pts.map (·.1)).sum * (pts.map (·.2)).sum) /
        (pts.length * (pts.map fun p => p.1 * p.1).sum - (pts.map (·.1)).sum * (pts.map (·.1)).sum) ∧
      a = ((pts.map (·.2)).sum - b * (pts.map (·.1)).sum) / pts.length := by
  have hdet := det_pos pts p q hp hq hne
  have hlen : 0 < (pts.length : ℝ) := by
    have := List.length_pos_of_mem hp
    exact_mod_cast this
  set N : ℝ := (pts.length : ℝ) with hN
  set Sx := (pts.map (·.1)).sum
  set Sy := (pts.map (·.2)).sum
  set Sxx := (pts.map fun p => p.1 * p.1).sum
  set Sxy := (pts.map fun p => p.1 * p.2).sum
  have hsol : ∀ a b : ℝ, b = (N * Sxy - Sx * Sy) / (N * Sxx - Sx * Sx) ∧ a = (Sy - b * Sx) / N →
      Sy - (N * a + b * Sx) = 0 ∧ Sxy - (a * Sx + b * Sxx) = 0 := by
    rintro a b ⟨hb, ha⟩
    have e1 : N * a = Sy - b * Sx := by rw [ha]; field_simp
    have e2 : b * (N * Sxx - Sx * Sx) = N * Sxy - Sx * Sy := by
      rw [hb]; exact div_mul_cancel₀ _ (ne_of_gt hdet)
    refine ⟨by linarith, ?_⟩
    have : N * (Sxy - (a * Sx + b * Sxx)) = 0 := by
      have : N * (Sxy - (a * Sx + b * Sxx)) = N * Sxy - (N * a) * Sx - b * (N * Sxx) := by ring
      rw [this, e1]
      linarith
    rcases mul_eq_zero.1 this with h | h
    · exact absurd h (ne_of_gt hlen)
    · exact h
  have hmin : ∀ a b : ℝ, b = (N * Sxy - Sx * Sy) / (N * Sxx - Sx * Sx) ∧ a = (Sy - b * Sx) / N →
      ∀ a' b', Spec.squaredError pts a' b' = Spec.squaredError pts a b +
        (pts.map fun p => ((a - a') + (b - b') * p.1) ^ 2).sum := by
    intro a b h a' b'
    obtain ⟨h1, h2⟩ := hsol a b h
    rw [squaredError_expand pts a b a' b']
    change _ + _ + 2 * ((a - a') * (Sy - (N * a + b * Sx)) + (b - b') * (Sxy - (a * Sx + b * Sxx))) = _
    rw [h1, h2]
    ring
  have hnn : ∀ c d : ℝ, ∀ x ∈ pts.map fun p => (c + d * p.1) ^ 2, (0 : ℝ) ≤ x := by
    intro c d x hx
    obtain ⟨y, -, rfl⟩ := List.mem_map.1 hx
    positivity
  constructor
  · intro hfit
    set b0 := (N * Sxy - Sx * Sy) / (N * Sxx - Sx * Sx) with hb0
    set a0 := (Sy - b0 * Sx) / N with ha0
    have h1 := hmin a0 b0 ⟨rfl, rfl⟩ a b
    have h2 := hfit a0 b0
    have h3 : (pts.map fun p => ((a0 - a) + (b0 - b) * p.1) ^ 2).sum ≤ 0 := by linarith
    have hz : ∀ r ∈ pts, (a0 - a) + (b0 - b) * r.1 = 0 := by
      intro r hr
      have := List.single_le_sum (hnn (a0 - a) (b0 - b)) _
        (List.mem_map_of_mem (f := fun p : ℝ × ℝ => ((a0 - a) + (b0 - b) * p.1) ^ 2) hr)
      have h4 : ((a0 - a) + (b0 - b) * r.1) ^ 2 = 0 := le_antisymm (by linarith) (sq_nonneg _)
      exact pow_eq_zero_iff (two_ne_zero) |>.1 h4
    have e1 := hz p hp
    have e2 := hz q hq
    have e3 : (b0 - b) * (p.1 - q.1) = 0 := by linarith
    have hb : b = b0 := by
      rcases mul_eq_zero.1 e3 with h | h
      · linarith
      · exact absurd (sub_eq_zero.1 h) hne
    refine ⟨hb, ?_⟩
    rw [hb] at e1 ⊢
    change a = a0
    linarith
  · intro h a' b'
    rw [hmin a b h a' b']
    have := List.sum_nonneg (hnn (a - a') (b - b'))
    linarith

end Cloudnet
