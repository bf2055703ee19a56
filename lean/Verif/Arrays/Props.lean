import Verif.Arrays.Lemmas

/-!
Properties C25 (`utils.ffill`) and C26 (`utils.cumsumr`).
-/

namespace Cloudnet

variable {α : Type*}

/-- C25. `ffill(a, v)` has at every position `j` the last element at or before `j` that differs from
`v`; if there is none, it has `v` itself (the elements up to `j` are all equal to `v`). -/
theorem C25_ffill [DecidableEq α] (a : ℕ → α) (v : α) (j : ℕ) :
    (∀ k ≤ j, a k ≠ v → (∀ i, k < i → i ≤ j → a i = v) → ffill a v j = a k) ∧
    ((∀ k ≤ j, a k = v) → ffill a v j = v) :=
  ⟨fun _ hk hne hl => ffill_eq_of_last a v hk hne hl, fun h => ffill_eq_of_none a v h⟩

/-- C25. One of the two cases of `C25_ffill` always applies, so it determines the result. -/
theorem C25_ffill_total [DecidableEq α] (a : ℕ → α) (v : α) (j : ℕ) :
    (∃ k ≤ j, a k ≠ v ∧ (∀ i, k < i → i ≤ j → a i = v) ∧ ffill a v j = a k) ∨
    ((∀ k ≤ j, a k = v) ∧ ffill a v j = v) := by
  rcases exists_last_ne a v j with h | ⟨k, hk, hne, hl⟩
  · exact .inr ⟨h, ffill_eq_of_none a v h⟩
  · exact .inl ⟨k, hk, hne, hl, ffill_eq_of_last a v hk hne hl⟩

/-- C25. On boolean masks, in every row of a 2-D array, the result is true exactly at and after the
first true element of that row; rows do not influence each other. -/
theorem C25_ffill_mask (a : Grid Bool) (t j : ℕ) :
    ffillGrid a false t j = true ↔ ∃ k ≤ j, a t k = true :=
  ffill_bool (a t) j

/-- C25. Filling twice is the same as filling once. -/
theorem C25_ffill_idempotent [DecidableEq α] (a : ℕ → α) (v : α) :
    ffill (ffill a v) v = ffill a v := by
  funext j
  rcases exists_last_ne a v j with h | ⟨k, hk, hne, hl⟩
  · rw [ffill_eq_of_none a v h]
    exact ffill_eq_of_none _ v (fun i hi => ffill_eq_of_none a v (fun m hm => h m (by omega)))
  · have h1 : ffill a v j ≠ v := by rw [ffill_eq_of_last a v hk hne hl]; exact hne
    exact ffill_eq_of_last _ v (le_refl j) h1 (fun i h1 h2 => by omega)

/-- The example of the docstring of `ffill`. -/
example : (List.range 6).map (ffill (fun i => [0, 5, 0, 0, 2, 0].getD i 0) 0) = [0, 5, 5, 5, 2, 2] :=
  by decide

section
variable [Ring α] [LinearOrder α] [IsStrictOrderedRing α]

/-- C26. On non-negative input `cumsumr(a)[j]` is the sum of the elements after the last zero at or
before `j`, and the plain cumulative sum if there is no zero yet. -/
theorem C26_cumsumr (a : ℕ → α) (j : ℕ) (hnn : ∀ i ≤ j, 0 ≤ a i) :
    (∀ k ≤ j, a k = 0 → (∀ i, k < i → i ≤ j → a i ≠ 0) →
      cumsumr a j = ∑ i ∈ Finset.Ioc k j, a i) ∧
    ((∀ i ≤ j, a i ≠ 0) → cumsumr a j = ∑ i ∈ Finset.range (j + 1), a i) :=
  ⟨fun _ hk h0 hl => cumsumr_of_last_zero a hk hnn h0 hl, fun h => cumsumr_of_no_zero a h⟩

/-- C26. In particular it is zero at every zero, never negative, and continues by adding the next
element. -/
theorem C26_cumsumr_step (a : ℕ → α) (hnn : ∀ i, 0 ≤ a i) (j : ℕ) :
    cumsumr a 0 = a 0 ∧
    cumsumr a (j + 1) = (if a (j + 1) = 0 then 0 else cumsumr a j + a (j + 1)) ∧
    0 ≤ cumsumr a j := by
  have h0 : cumsumr a 0 = a 0 := by
    by_cases h : a 0 = 0
    · rw [(C26_cumsumr a 0 (fun i _ => hnn i)).1 0 (le_refl _) h (fun i h1 h2 => by omega), h]
      simp
    · rw [(C26_cumsumr a 0 (fun i _ => hnn i)).2 (fun i hi => by
        obtain rfl : i = 0 := by omega
        exact h)]
      simp
  refine ⟨h0, cumsumr_succ a (fun i _ => hnn i), ?_⟩
  induction j with
  | zero => rw [h0]; exact hnn 0
  | succ n ih =>
    rw [cumsumr_succ a (fun i _ => hnn i)]
    split
    · exact le_refl _
    · exact add_nonneg ih (hnn _)

end

/-- The example of the docstring of `cumsumr`. -/
example : (List.range 10).map (cumsumr (fun i => [0, 0, 1, 1, 0, 0, 0, 1, 1, 1].getD i (0 : ℤ))) =
    [0, 0, 1, 2, 0, 0, 0, 1, 2, 3] := by decide

/-- C26. The restriction to non-negative input is needed: with a negative element the result at a
zero is not zero. (`melting.py:133-137` can pass such input: velocities with `v_diff == 0` are left
in the array handed to `cumsumr`.) -/
theorem C26_cumsumr_negative_input_fails :
    ¬ ∀ (a : ℕ → ℤ) (j : ℕ), a j = 0 → cumsumr a j = 0 := by
  intro h
  have := h (fun i => [-1, 0, 1].getD i 0) 1 rfl
  revert this
  decide

end Cloudnet
