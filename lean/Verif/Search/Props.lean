import Verif.Search.Model

/-! Property C74 (table look-up by bisection). -/

namespace Cloudnet

theorem bisectLeftLoop_spec {α : Type*} [LinearOrder α] (a : ℕ → α) (x : α) :
    ∀ fuel lo hi, hi - lo ≤ fuel → lo ≤ hi →
      (∀ i j, i ≤ j → j < hi → a i ≤ a j) →
      (∀ i < lo, a i < x) →
      let r := bisectLeftLoop a x fuel lo hi
      lo ≤ r ∧ r ≤ hi ∧ (∀ i < r, a i < x) ∧ (∀ i, r ≤ i → i < hi → x ≤ a i) := by
  intro fuel
  induction fuel with
  | zero =>
    intro lo hi hf hle hs hlo
    simp only [bisectLeftLoop]
    exact ⟨le_refl _, hle, hlo, fun i h1 h2 => by omega⟩
  | succ n ih =>
    intro lo hi hf hle hs hlo
    simp only [bisectLeftLoop]
    by_cases h : lo < hi
    · rw [if_pos h]
      by_cases hm : a ((lo + hi) / 2) < x
      · rw [if_pos hm]
        obtain ⟨h1, h2, h3, h4⟩ := ih ((lo + hi) / 2 + 1) hi (by omega) (by omega) hs (by
          intro i hi'
          exact lt_of_le_of_lt (hs i ((lo + hi) / 2) (by omega) (by omega)) hm)
        exact ⟨by omega, h2, h3, h4⟩
      · rw [if_neg hm]
        obtain ⟨h1, h2, h3, h4⟩ := ih lo ((lo + hi) / 2) (by omega) (by omega)
          (fun i j h1 h2 => hs i j h1 (by omega)) hlo
        refine ⟨h1, by omega, h3, ?_⟩
        intro i hi1 hi2
        by_cases hi3 : i < (lo + hi) / 2
        · exact h4 i hi1 hi3
        · exact le_trans (not_lt.1 hm) (hs _ _ (by omega) hi2)
    · rw [if_neg h]
      exact ⟨le_refl _, hle, hlo, fun i h1 h2 => by omega⟩

/-- Whatever the array, binary search stays within its bounds. -/
theorem bisectLeftLoop_bounds {α : Type*} [LT α] [DecidableLT α] (a : ℕ → α) (x : α) :
    ∀ fuel lo hi, lo ≤ hi →
      lo ≤ bisectLeftLoop a x fuel lo hi ∧ bisectLeftLoop a x fuel lo hi ≤ hi := by
  intro fuel
  induction fuel with
  | zero => intro lo hi h; exact ⟨le_refl _, h⟩
  | succ n ih =>
    intro lo hi h
    simp only [bisectLeftLoop]
    split
    · next hlt =>
      split
      · obtain ⟨h1, h2⟩ := ih ((lo + hi) / 2 + 1) hi (by omega); exact ⟨by omega, h2⟩
      · obtain ⟨h1, h2⟩ := ih lo ((lo + hi) / 2) (by omega); exact ⟨h1, by omega⟩
    · exact ⟨le_refl _, h⟩

/-- C74. Table look-up by bisection: in a sorted table the index returned is the number of entries below
the value (all smaller entries lie before it, none after it), and it never leaves the table range. -/
theorem C74_bisect_left {α : Type*} [LinearOrder α] (a : ℕ → α) (x : α) (hi : ℕ)
    (hs : ∀ i j, i ≤ j → j < hi → a i ≤ a j) :
    bisectLeft a x hi ≤ hi ∧ ∀ i < hi, (i < bisectLeft a x hi ↔ a i < x) := by
  obtain ⟨_, h2, h3, h4⟩ := bisectLeftLoop_spec a x hi 0 hi (by omega) (by omega) hs
    (fun i h => absurd h (by omega))
  refine ⟨h2, fun i hi => ⟨h3 i, fun h => ?_⟩⟩
  by_contra hc
  exact absurd (h4 i (not_lt.1 hc) hi) (not_le.2 h)

example : bisectLeft (fun i => (10 * i : ℕ)) 25 6 = 3 := by decide

end Cloudnet
