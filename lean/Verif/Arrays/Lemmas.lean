import Verif.Arrays.Model
import Mathlib.Algebra.BigOperators.Intervals
import Mathlib.Algebra.Order.BigOperators.Group.Finset
import Mathlib.Tactic.Linarith
import Mathlib.Tactic.Ring

namespace Cloudnet

variable {α : Type*}

theorem le_runMax [LinearOrder α] (f : ℕ → α) {i j : ℕ} (h : i ≤ j) : f i ≤ runMax f j := by
  induction j with
  | zero => obtain rfl : i = 0 := by omega
            exact le_refl _
  | succ n ih =>
    rcases Nat.lt_or_ge i (n + 1) with hi | hi
    · exact le_trans (ih (by omega)) (le_max_left _ _)
    · obtain rfl : i = n + 1 := by omega
      exact le_max_right _ _

theorem runMax_le [LinearOrder α] (f : ℕ → α) (j : ℕ) (b : α) (h : ∀ i ≤ j, f i ≤ b) :
    runMax f j ≤ b := by
  induction j with
  | zero => exact h 0 (le_refl _)
  | succ n ih => exact max_le (ih fun i hi => h i (by omega)) (h _ (le_refl _))

theorem runMax_eq [LinearOrder α] (f : ℕ → α) {j k : ℕ} (hk : k ≤ j) (h : ∀ i ≤ j, f i ≤ f k) :
    runMax f j = f k :=
  le_antisymm (runMax_le f j _ h) (le_runMax f hk)

theorem ffill_eq_of_last [DecidableEq α] (a : ℕ → α) (v : α) {j k : ℕ} (hk : k ≤ j)
    (hne : a k ≠ v) (hlast : ∀ i, k < i → i ≤ j → a i = v) : ffill a v j = a k := by
  unfold ffill
  have : runMax (fun i => if a i ≠ v then i else 0) j = k := by
    rw [runMax_eq _ hk]
    · simp [hne]
    · intro i hi
      simp only [ne_eq, hne, not_false_eq_true, if_true]
      split
      · by_contra hc
        exact absurd (hlast i (by omega) hi) (by assumption)
      · omega
  rw [this]

theorem ffill_eq_of_none [DecidableEq α] (a : ℕ → α) (v : α) {j : ℕ}
    (h : ∀ i ≤ j, a i = v) : ffill a v j = v := by
  unfold ffill
  have : runMax (fun i => if a i ≠ v then i else 0) j = 0 := by
    apply Nat.le_zero.1
    apply runMax_le
    intro i hi
    simp [h i hi]
  rw [this]
  exact h 0 (by omega)

/-- Either nothing differs from the value up to `j`, or there is a last index that does. -/
theorem exists_last_ne [DecidableEq α] (a : ℕ → α) (v : α) (j : ℕ) :
    (∀ i ≤ j, a i = v) ∨ ∃ k ≤ j, a k ≠ v ∧ ∀ i, k < i → i ≤ j → a i = v := by
  induction j with
  | zero =>
    by_cases h : a 0 = v
    · left; intro i hi; obtain rfl : i = 0 := by omega
      exact h
    · right; exact ⟨0, le_refl _, h, fun i h1 h2 => by omega⟩
  | succ n ih =>
    by_cases h : a (n + 1) = v
    · rcases ih with ih | ⟨k, hk, hne, hl⟩
      · left; intro i hi
        rcases Nat.lt_or_ge i (n + 1) with h1 | h1
        · exact ih i (by omega)
        · obtain rfl : i = n + 1 := by omega
          exact h
      · right
        refine ⟨k, by omega, hne, fun i h1 h2 => ?_⟩
        rcases Nat.lt_or_ge i (n + 1) with h3 | h3
        · exact hl i h1 (by omega)
        · obtain rfl : i = n + 1 := by omega
          exact h
    · right; exact ⟨n + 1, le_refl _, h, fun i h1 h2 => by omega⟩

theorem ffill_bool (a : ℕ → Bool) (j : ℕ) : ffill a false j = true ↔ ∃ k ≤ j, a k = true := by
  rcases exists_last_ne a false j with h | ⟨k, hk, hne, hl⟩
  · rw [ffill_eq_of_none a false h]
    constructor
    · intro h'; simp at h'
    · rintro ⟨k, hk, hk'⟩; rw [h k hk] at hk'; simp at hk'
  · rw [ffill_eq_of_last a false hk hne hl]
    simp only [ne_eq, Bool.not_eq_false] at hne
    exact ⟨fun _ => ⟨k, hk, hne⟩, fun _ => hne⟩

theorem cumsum_eq_sum [AddCommMonoid α] (a : ℕ → α) (j : ℕ) :
    cumsum a j = ∑ k ∈ Finset.range (j + 1), a k := by
  induction j with
  | zero => simp [cumsum]
  | succ n ih => rw [cumsum, ih, Finset.sum_range_succ _ (n + 1)]

section
variable [Ring α] [LinearOrder α] [IsStrictOrderedRing α]

theorem cumsum_mono (a : ℕ → α) {i j : ℕ} (hij : i ≤ j) (h : ∀ k ≤ j, 0 ≤ a k) :
    cumsum a i ≤ cumsum a j := by
  rw [cumsum_eq_sum, cumsum_eq_sum]
  apply Finset.sum_le_sum_of_subset_of_nonneg
  · intro x hx; simp at *; omega
  · intro x hx _; simp at hx; exact h x (by omega)

theorem cumsum_nonneg (a : ℕ → α) {j : ℕ} (h : ∀ k ≤ j, 0 ≤ a k) : 0 ≤ cumsum a j := by
  rw [cumsum_eq_sum]
  apply Finset.sum_nonneg
  intro x hx; simp at hx; exact h x (by omega)

theorem cumsumr_of_last_zero (a : ℕ → α) {j k : ℕ} (hk : k ≤ j) (h : ∀ i ≤ j, 0 ≤ a i)
    (h0 : a k = 0) (hl : ∀ i, k < i → i ≤ j → a i ≠ 0) :
    cumsumr a j = ∑ i ∈ Finset.Ioc k j, a i := by
  unfold cumsumr
  rw [runMax_eq _ hk]
  · simp only [h0, if_true, mul_one]
    rw [cumsum_eq_sum, cumsum_eq_sum, ← Finset.sum_Ico_eq_sub _ (by omega : k + 1 ≤ j + 1)]
    apply Finset.sum_congr _ (fun _ _ => rfl)
    ext x; simp
  · intro i hi
    simp only [h0, if_true, mul_one]
    split
    · rename_i hi0
      rw [mul_one]
      apply cumsum_mono a _ (fun m hm => h m (by omega))
      by_contra hc
      exact hl i (by omega) hi hi0
    · rw [mul_zero]
      exact cumsum_nonneg a (fun m hm => h m (by omega))

omit [IsStrictOrderedRing α] in
theorem cumsumr_of_no_zero (a : ℕ → α) {j : ℕ} (h0 : ∀ i ≤ j, a i ≠ 0) :
    cumsumr a j = ∑ i ∈ Finset.range (j + 1), a i := by
  unfold cumsumr
  rw [← cumsum_eq_sum]
  have : runMax (fun i => cumsum a i * (if a i = 0 then 1 else 0)) j = 0 := by
    have h00 : cumsum a 0 * (if a 0 = 0 then 1 else 0) = 0 := by
      rw [if_neg (h0 0 (by omega)), mul_zero]
    rw [runMax_eq _ (Nat.zero_le j)]
    · exact h00
    · intro i hi
      rw [h00, if_neg (h0 i hi), mul_zero]
  rw [this, sub_zero]

omit [IsStrictOrderedRing α] in
theorem exists_last_zero (a : ℕ → α) (j : ℕ) :
    (∀ i ≤ j, a i ≠ 0) ∨ ∃ k ≤ j, a k = 0 ∧ ∀ i, k < i → i ≤ j → a i ≠ 0 := by
  classical
  rcases exists_last_ne (fun i => decide (a i = 0)) false j with h | ⟨k, hk, hne, hl⟩
  · left; intro i hi; simpa using h i hi
  · right; exact ⟨k, hk, by simpa using hne, fun i h1 h2 => by simpa using hl i h1 h2⟩

/-- The recursion satisfied by `cumsumr` on non-negative input. -/
theorem cumsumr_succ (a : ℕ → α) {j : ℕ} (h : ∀ i ≤ j + 1, 0 ≤ a i) :
    cumsumr a (j + 1) = if a (j + 1) = 0 then 0 else cumsumr a j + a (j + 1) := by
  by_cases h0 : a (j + 1) = 0
  · rw [if_pos h0, cumsumr_of_last_zero a (le_refl _) h h0 (fun i h1 h2 => by omega)]
    simp
  · rw [if_neg h0]
    rcases exists_last_zero a j with hz | ⟨k, hk, hk0, hl⟩
    · rw [cumsumr_of_no_zero a hz, cumsumr_of_no_zero a (j := j + 1), Finset.sum_range_succ]
      intro i hi
      rcases Nat.lt_or_ge i (j + 1) with h1 | h1
      · exact hz i (by omega)
      · obtain rfl : i = j + 1 := by omega
        exact h0
    · have hl' : ∀ i, k < i → i ≤ j + 1 → a i ≠ 0 := by
        intro i h1 h2
        rcases Nat.lt_or_ge i (j + 1) with h3 | h3
        · exact hl i h1 (by omega)
        · obtain rfl : i = j + 1 := by omega
          exact h0
      rw [cumsumr_of_last_zero a hk (fun i hi => h i (by omega)) hk0 hl,
        cumsumr_of_last_zero a (by omega) h hk0 hl']
      exact Finset.sum_Ioc_succ_top hk a

end

theorem argmin_spec [LinearOrder α] (f : ℕ → α) (n : ℕ) :
    argmin f n ≤ n ∧ (∀ i ≤ n, f (argmin f n) ≤ f i) ∧ ∀ i < argmin f n, f (argmin f n) < f i := by
  induction n with
  | zero =>
    refine ⟨le_refl _, ?_, ?_⟩
    · intro i hi; obtain rfl : i = 0 := by omega
      exact le_refl _
    · intro i hi; simp [argmin] at hi
  | succ n ih =>
    obtain ⟨h1, h2, h3⟩ := ih
    unfold argmin
    split
    · rename_i hlt
      refine ⟨le_refl _, ?_, ?_⟩
      · intro i hi
        rcases Nat.lt_or_ge i (n + 1) with h | h
        · exact le_of_lt (lt_of_lt_of_le hlt (h2 i (by omega)))
        · obtain rfl : i = n + 1 := by omega
          exact le_refl _
      · intro i hi
        exact lt_of_lt_of_le hlt (h2 i (by omega))
    · rename_i hge
      refine ⟨by omega, ?_, h3⟩
      intro i hi
      rcases Nat.lt_or_ge i (n + 1) with h | h
      · exact h2 i (by omega)
      · obtain rfl : i = n + 1 := by omega
        exact not_lt.1 hge

theorem argmin_unique [LinearOrder α] (f : ℕ → α) (n k : ℕ) (hk : k ≤ n)
    (h1 : ∀ i ≤ n, f k ≤ f i) (h2 : ∀ i < k, f k < f i) : argmin f n = k := by
  obtain ⟨g1, g2, g3⟩ := argmin_spec f n
  rcases lt_trichotomy (argmin f n) k with h | h | h
  · exact absurd (g2 k hk) (not_le.2 (h2 _ h))
  · exact h
  · exact absurd (h1 _ g1) (not_le.2 (g3 k h))

theorem argmax_spec [LinearOrder α] (f : ℕ → α) (n : ℕ) :
    argmax f n ≤ n ∧ (∀ i ≤ n, f i ≤ f (argmax f n)) ∧ ∀ i < argmax f n, f i < f (argmax f n) := by
  have : ∀ n, argmax f n = argmin (fun i => OrderDual.toDual (f i)) n := by
    intro n
    induction n with
    | zero => rfl
    | succ n ih => unfold argmax argmin; rw [ih]; rfl
  rw [this]
  exact argmin_spec (fun i => OrderDual.toDual (f i)) n

theorem argmax_unique [LinearOrder α] (f : ℕ → α) (n k : ℕ) (hk : k ≤ n)
    (h1 : ∀ i ≤ n, f i ≤ f k) (h2 : ∀ i < k, f i < f k) : argmax f n = k := by
  obtain ⟨g1, g2, g3⟩ := argmax_spec f n
  rcases lt_trichotomy (argmax f n) k with h | h | h
  · exact absurd (g2 k hk) (not_le.2 (h2 _ h))
  · exact h
  · exact absurd (h1 _ g1) (not_le.2 (g3 k h))

end Cloudnet
