import Mathlib.Tactic
import Verif.InPlace.Model
import Verif.ModelEval.Props
import Verif.Bits.Props

/-!
C177: functions that change the arrays of the caller.
-/

namespace Cloudnet

section
variable {α : Type} [Field α] [LinearOrder α] [IsStrictOrderedRing α]

namespace Spec

/-- Elements of the arrays were masked; nothing else happened to them. -/
def OnlyMasked (s s' : StatArrays α) : Prop :=
  ∀ k, (s'.model k = s.model k ∨ s'.model k = none) ∧ (s'.obs k = s.obs k ∨ s'.obs k = none)

end Spec

theorem onlyMasked_refl (s : StatArrays α) : Spec.OnlyMasked s s := fun _ => ⟨Or.inl rfl, Or.inl rfl⟩

theorem onlyMasked_trans {s s' s'' : StatArrays α} (h : Spec.OnlyMasked s s') (h' : Spec.OnlyMasked s' s'') : Spec.OnlyMasked s s'' := by
  intro k
  refine ⟨?_, ?_⟩
  · rcases (h' k).1 with e | e
    · rw [e]; exact (h k).1
    · exact Or.inr e
  · rcases (h' k).2 with e | e
    · rw [e]; exact (h k).2
    · exact Or.inr e

theorem modelAbove_cases (n : ℕ) (model obs : ℕ → Option α) (k : ℕ) :
    modelAbove n model obs k = model k ∨ modelAbove n model obs k = none := by
  unfold modelAbove
  cases model k with
  | none => exact Or.inl rfl
  | some m =>
    rw [Option.bind_some]
    split_ifs
    · exact Or.inr rfl
    · exact Or.inl rfl

theorem combineMasked_fst (n : ℕ) (model obs : ℕ → Option α) (k : ℕ) :
    (combineMasked n model obs).1 k = if (obs k).isNone then none else modelAbove n model obs k := rfl

theorem combineMasked_snd (n : ℕ) (model obs : ℕ → Option α) (k : ℕ) :
    (combineMasked n model obs).2 k = if (modelAbove n model obs k).isNone then none else obs k := rfl

theorem afterStatistics_onlyMasked (n : ℕ) (s : StatArrays α) (m : StatMethod) : Spec.OnlyMasked s (afterStatistics n s m) := by
  have hc : Spec.OnlyMasked s ⟨(combineMasked n s.model s.obs).1, (combineMasked n s.model s.obs).2⟩ := by
    intro k
    dsimp only
    rw [combineMasked_fst, combineMasked_snd]
    refine ⟨?_, ?_⟩
    · split_ifs
      · exact Or.inr rfl
      · exact modelAbove_cases n s.model s.obs k
    · split_ifs
      · exact Or.inr rfl
      · exact Or.inl rfl
  cases m with
  | error => exact hc
  | aerror => exact hc
  | area => exact fun k => ⟨modelAbove_cases n s.model s.obs k, Or.inl rfl⟩
  | hist => exact onlyMasked_refl s
  | vertical => exact onlyMasked_refl s

/-- **C177.** Whatever statistics are computed from two arrays, in whatever order and however often: no value of the arrays changes, and what is masked
stays masked. -/
theorem C177_only_masked (n : ℕ) (s : StatArrays α) (calls : List StatMethod) : Spec.OnlyMasked s (afterAll n s calls) := by
  unfold afterAll
  induction calls generalizing s with
  | nil => exact onlyMasked_refl s
  | cons m calls ih => exact onlyMasked_trans (afterStatistics_onlyMasked n s m) (ih _)

theorem exists_smallest (n : ℕ) (obs : ℕ → Option α) (h : ∃ k < n, ∃ v, obs k = some v) : ∃ low, Spec.IsSmallest n obs low := by
  classical
  obtain ⟨k, hk, v, hv⟩ := h
  have hne : ((Finset.range n).filter fun k => (obs k).isSome).Nonempty := ⟨k, by simp [hk, hv]⟩
  obtain ⟨j, hj, hmin⟩ := Finset.exists_min_image _ (fun k => (obs k).getD 0) hne
  rw [Finset.mem_filter, Finset.mem_range] at hj
  obtain ⟨w, hw⟩ := Option.isSome_iff_exists.1 hj.2
  refine ⟨w, ⟨j, hj.1, hw⟩, fun i hi u hu => ?_⟩
  have := hmin i (by simp [hi, hu])
  simpa [hw, hu] using this

theorem smallest_onlyMasked {n : ℕ} {s s' : StatArrays α} (h : Spec.OnlyMasked s s') {low low' : α} (h1 : Spec.IsSmallest n s.obs low)
    (h2 : Spec.IsSmallest n s'.obs low') : low ≤ low' := by
  obtain ⟨k, hk, e⟩ := h2.1
  rcases (h k).2 with e' | e'
  · exact h1.2 k hk low' (by rw [← e', e])
  · rw [e'] at e; cases e

/-- **C177.** An error that is computed after other statistics of the same arrays is the error that would have been computed first, or it is missing. -/
theorem C177_errors_after (n : ℕ) (s : StatArrays α) (calls : List StatMethod) (k : ℕ) (hk : k < n) (y : α) :
    (relativeError n (afterAll n s calls).model (afterAll n s calls).obs k = some y → relativeError n s.model s.obs k = some y) ∧
    (absoluteError n (afterAll n s calls).model (afterAll n s calls).obs k = some y → absoluteError n s.model s.obs k = some y) := by
  have hm := C177_only_masked n s calls
  set s' := afterAll n s calls
  have hmodel : ∀ m, s'.model k = some m → s.model k = some m := fun m e => by
    rcases (hm k).1 with e' | e'
    · rw [← e', e]
    · rw [e'] at e; cases e
  have hobs : ∀ o, s'.obs k = some o → s.obs k = some o := fun m e => by
    rcases (hm k).2 with e' | e'
    · rw [← e', e]
    · rw [e'] at e; cases e
  cases ho : s'.obs k with
  | none =>
    have e1 : (combineMasked n s'.model s'.obs).1 k = none := by rw [combineMasked_fst, ho]; rfl
    refine ⟨fun h => ?_, fun h => ?_⟩
    · unfold relativeError at h; dsimp only at h; rw [e1] at h; cases h
    · unfold absoluteError at h; dsimp only at h; rw [e1] at h; cases h
  | some o =>
    obtain ⟨low', h2⟩ := exists_smallest n s'.obs ⟨k, hk, o, ho⟩
    obtain ⟨low, h1⟩ := exists_smallest n s.obs ⟨k, hk, o, hobs o ho⟩
    have hle := smallest_onlyMasked hm h1 h2
    refine ⟨fun h => ?_, fun h => ?_⟩
    · obtain ⟨m, o', em, eo, hlm, h0, e⟩ := (C96_errors n s'.model s'.obs low' h2 k y).1.1 h
      exact (C96_errors n s.model s.obs low h1 k y).1.2 ⟨m, o', hmodel m em, hobs o' eo, hle.trans hlm, h0, e⟩
    · obtain ⟨m, o', em, eo, hlm, e⟩ := (C96_errors n s'.model s'.obs low' h2 k y).2.1 h
      exact (C96_errors n s.model s.obs low h1 k y).2.2 ⟨m, o', hmodel m em, hobs o' eo, hle.trans hlm, e⟩

theorem modelAbove_twice (n : ℕ) (model obs : ℕ → Option α) : modelAbove n (modelAbove n model obs) obs = modelAbove n model obs := by
  funext k
  unfold modelAbove
  cases model k with
  | none => rfl
  | some m =>
    by_cases h : m < minKnown n obs
    · simp [h]
    · simp [h]

/-- **C177.** Histograms and vertical profiles leave both arrays as they are. The common area leaves the observation as it is, and it can be computed
again: without an error in between, it is the same number each time. -/
theorem C177_without_errors (n : ℕ) (s : StatArrays α) (calls : List StatMethod) :
    ((∀ m ∈ calls, m = .hist ∨ m = .vertical) → afterAll n s calls = s) ∧
    ((∀ m ∈ calls, m ≠ .error ∧ m ≠ .aerror) →
      (afterAll n s calls).obs = s.obs ∧ commonArea n (afterAll n s calls).model (afterAll n s calls).obs = commonArea n s.model s.obs) := by
  have hca : ∀ (model obs : ℕ → Option α), commonArea n (modelAbove n model obs) obs = commonArea n model obs := by
    intro model obs
    let g : (ℕ → Option α) → α := fun x =>
      let valid := ((List.range n).filter fun k => !((x k).isNone && (obs k).isNone)).length
      if valid = 0 then 0
      else (((List.range n).filter fun k => !((x k).isNone || (obs k).isNone)).length : α) / (valid : α) * 100
    have e : ∀ x : ℕ → Option α, commonArea n x obs = g (modelAbove n x obs) := fun x => rfl
    rw [e, e, modelAbove_twice]
  unfold afterAll
  constructor
  · induction calls generalizing s with
    | nil => intro _; rfl
    | cons m calls ih =>
      intro h
      have hs : afterStatistics n s m = s := by
        rcases h m List.mem_cons_self with rfl | rfl <;> rfl
      rw [List.foldl_cons, hs]
      exact ih s fun m' hm' => h m' (List.mem_cons_of_mem _ hm')
  · induction calls generalizing s with
    | nil => intro _; exact ⟨rfl, rfl⟩
    | cons m calls ih =>
      intro h
      rw [List.foldl_cons]
      obtain ⟨h1, h2⟩ := ih (afterStatistics n s m) fun m' hm' => h m' (List.mem_cons_of_mem _ hm')
      rw [h1, ← h1, h2]
      have := h m List.mem_cons_self
      cases m with
      | error => exact absurd rfl this.1
      | aerror => exact absurd rfl this.2
      | area => exact ⟨h1, hca s.model s.obs⟩
      | hist => exact ⟨h1, rfl⟩
      | vertical => exact ⟨h1, rfl⟩

/-! ### Errors again and again -/

/-- The arrays have `n` elements. -/
def Spec.HasSize (n : ℕ) (s : StatArrays α) : Prop := ∀ k, n ≤ k → s.model k = none ∧ s.obs k = none

theorem hasSize_onlyMasked {n : ℕ} {s s' : StatArrays α} (h : Spec.OnlyMasked s s') (hs : Spec.HasSize n s) : Spec.HasSize n s' := by
  intro k hk
  obtain ⟨h1, h2⟩ := hs k hk
  refine ⟨?_, ?_⟩
  · rcases (h k).1 with e | e
    · rw [e, h1]
    · exact e
  · rcases (h k).2 with e | e
    · rw [e, h2]
    · exact e

/-- Number of known elements of the model. -/
def knownCount (n : ℕ) (s : StatArrays α) : ℕ := ((Finset.range n).filter fun k => (s.model k).isSome = true).card

theorem combined_masks (n : ℕ) (s : StatArrays α) (k : ℕ) :
    ((afterStatistics n s .error).model k).isSome = ((afterStatistics n s .error).obs k).isSome := by
  change ((combineMasked n s.model s.obs).1 k).isSome = ((combineMasked n s.model s.obs).2 k).isSome
  rw [combineMasked_fst, combineMasked_snd]
  cases s.obs k <;> cases modelAbove n s.model s.obs k <;> rfl

theorem statArrays_ext {s s' : StatArrays α} (h1 : ∀ k, s.model k = s'.model k) (h2 : ∀ k, s.obs k = s'.obs k) : s = s' := by
  cases s; cases s'
  congr
  · exact funext h1
  · exact funext h2

theorem error_step (n : ℕ) (s : StatArrays α) (hs : Spec.HasSize n s) (he : ∀ k, (s.model k).isSome = (s.obs k).isSome) :
    afterStatistics n s .error = s ∨ knownCount n (afterStatistics n s .error) < knownCount n s := by
  have hm := afterStatistics_onlyMasked n s .error
  have hc := combined_masks n s
  set s' := afterStatistics n s .error
  by_cases hall : ∀ k < n, (s.model k).isSome → (s'.model k).isSome
  · left
    have hk : ∀ k, (s'.model k).isSome = (s.model k).isSome := by
      intro k
      by_cases hkn : k < n
      · rcases (hm k).1 with e | e
        · rw [e]
        · cases hmk : (s.model k).isSome with
          | false => rw [e]; rfl
          | true => rw [hall k hkn hmk]
      · have := hs k (not_lt.1 hkn)
        rcases (hm k).1 with e | e <;> simp [e, this]
    refine statArrays_ext (fun k => ?_) fun k => ?_
    · rcases (hm k).1 with e | e
      · exact e
      · have := hk k
        rw [e] at this
        rw [e]
        exact (Option.isSome_eq_false_iff.1 this.symm |> Option.isNone_iff_eq_none.1).symm
    · rcases (hm k).2 with e | e
      · exact e
      · have := hk k
        rw [hc k, e, he k] at this
        rw [e]
        exact (Option.isSome_eq_false_iff.1 this.symm |> Option.isNone_iff_eq_none.1).symm
  · right
    push Not at hall
    obtain ⟨k, hkn, h1, h2⟩ := hall
    unfold knownCount
    apply Finset.card_lt_card
    refine ⟨fun j hj => ?_, fun hsub => ?_⟩
    · rw [Finset.mem_filter] at hj ⊢
      refine ⟨hj.1, ?_⟩
      rcases (hm j).1 with e | e
      · rw [← e]; exact hj.2
      · rw [e] at hj; simp at hj
    · have := hsub (Finset.mem_filter.2 ⟨Finset.mem_range.2 hkn, h1⟩)
      rw [Finset.mem_filter] at this
      exact h2 this.2

theorem error_fixed_all (n : ℕ) (s : StatArrays α) (h : afterStatistics n s .error = s) (calls : List StatMethod) : afterAll n s calls = s := by
  have harea : afterStatistics n s .area = s := by
    refine statArrays_ext (fun k => ?_) fun k => rfl
    change modelAbove n s.model s.obs k = s.model k
    rcases modelAbove_cases n s.model s.obs k with e | e
    · exact e
    · have : (afterStatistics n s .error).model k = none := by
        change (combineMasked n s.model s.obs).1 k = none
        rw [combineMasked_fst, e]
        split_ifs <;> rfl
      rw [h] at this
      rw [e, this]
  unfold afterAll
  induction calls with
  | nil => rfl
  | cons m calls ih =>
    rw [List.foldl_cons]
    have : afterStatistics n s m = s := by
      cases m with
      | error => exact h
      | aerror => exact h
      | area => exact harea
      | hist => rfl
      | vertical => rfl
    rw [this, ih]

theorem errors_settle (n : ℕ) (calls : List StatMethod) (h : ∀ m ∈ calls, m = .error ∨ m = .aerror) (s : StatArrays α) (hs : Spec.HasSize n s)
    (he : ∀ k, (s.model k).isSome = (s.obs k).isSome) (hc : knownCount n s ≤ calls.length) :
    afterStatistics n (afterAll n s calls) .error = afterAll n s calls := by
  induction calls generalizing s with
  | nil =>
    rcases error_step n s hs he with e | e
    · exact e
    · simp only [List.length_nil] at hc
      omega
  | cons m calls ih =>
    rcases error_step n s hs he with e | e
    · rw [error_fixed_all n s e]; exact e
    · have hm : afterStatistics n s m = afterStatistics n s .error := by
        rcases h m List.mem_cons_self with rfl | rfl <;> rfl
      unfold afterAll
      rw [List.foldl_cons, hm]
      refine ih (fun m' hm' => h m' (List.mem_cons_of_mem _ hm')) _ (hasSize_onlyMasked (afterStatistics_onlyMasked n s .error) hs)
        (combined_masks n s) ?_
      simp only [List.length_cons] at hc
      omega

/-- **C177.** Each error that is computed can mask more elements, but this comes to an end: after one more computation than there are elements, nothing
changes any more, whatever is computed from the arrays then. -/
theorem C177_settles (n : ℕ) (s : StatArrays α) (hs : Spec.HasSize n s) (calls : List StatMethod) (h : ∀ m ∈ calls, m = .error ∨ m = .aerror)
    (hl : n < calls.length) (more : List StatMethod) : afterAll n s (calls ++ more) = afterAll n s calls := by
  match calls with
  | [] => simp at hl
  | m :: calls =>
    have hm : afterStatistics n s m = afterStatistics n s .error := by
      rcases h m List.mem_cons_self with rfl | rfl <;> rfl
    have hfix := errors_settle n calls (fun m' hm' => h m' (List.mem_cons_of_mem _ hm')) (afterStatistics n s .error)
      (hasSize_onlyMasked (afterStatistics_onlyMasked n s .error) hs) (combined_masks n s) (by
        have : knownCount n (afterStatistics n s .error) ≤ n := by
          unfold knownCount
          exact (Finset.card_filter_le _ _).trans (by rw [Finset.card_range])
        simp only [List.length_cons] at hl
        omega)
    have e : afterAll n s (m :: calls) = afterAll n (afterStatistics n s .error) calls := by
      unfold afterAll; rw [List.foldl_cons, hm]
    rw [← e] at hfix
    have := error_fixed_all n _ hfix more
    unfold afterAll at this ⊢
    rw [List.foldl_append]
    exact this

end

/-- **C177 (exceptions).** The second computation of an error from the same arrays can differ from the first one, and the common area is different after
an error. -/
theorem C177_order_matters :
    (∃ s : StatArrays ℚ, relativeError 2 s.model s.obs 1 = some (-40) ∧
      relativeError 2 (afterAll 2 s [.error]).model (afterAll 2 s [.error]).obs 1 = none) ∧
    (∃ s : StatArrays ℚ, commonArea 2 s.model s.obs = 50 ∧
      commonArea 2 (afterAll 2 s [.aerror]).model (afterAll 2 s [.aerror]).obs = 100) := by
  refine ⟨⟨⟨fun k => if k = 1 then some 3 else none, fun k => if k = 0 then some 1 else if k = 1 then some 5 else none⟩, ?_, ?_⟩,
    ⟨fun k => if k < 2 then some 2 else none, fun k => if k = 0 then some 1 else none⟩, ?_, ?_⟩ <;> decide +kernel

example : Spec.HasSize 2 (⟨fun k => if k = 1 then some 3 else none, fun k => if k = 0 then some 1 else if k = 1 then some 5 else none⟩ : StatArrays ℚ) :=
  fun k hk => ⟨if_neg (by omega), by simp [show k ≠ 0 by omega, show k ≠ 1 by omega]⟩

/-! ### `setbit` -/

/-- **C177.** `setbit` for an array changes the array itself: after any sequence of calls, each array has its old bits and all bits that were set in
calls for this array, and arrays without calls are as before. Every result is the array that was given, so that it also has the bits of later
calls. -/
theorem C177_setbit (mem mem' : IntHeap) (calls : List (ℕ × ℤ)) (h : setbitCalls mem calls = .ok mem') :
    (∀ array i j, (mem' array i).testBit j = ((mem array i).testBit j || decide ((array, (j : ℤ)) ∈ calls))) ∧
    (∀ c ∈ calls, 0 ≤ c.2) := by
  induction calls generalizing mem with
  | nil => cases h; simp
  | cons c calls ih =>
    obtain ⟨a, b⟩ := c
    unfold setbitCalls setbitArray at h
    split_ifs at h with hb
    · cases h
    · have hb' := not_lt.1 hb
      dsimp only [Except.bind] at h
      obtain ⟨h1, h2⟩ := ih _ h
      refine ⟨fun array i j => ?_, fun c hc => ?_⟩
      · rw [h1]
        by_cases ha : array = a
        · subst ha
          rw [Function.update_self, Int.testBit_lor, int_testBit_two_pow]
          have : decide ((array, (j : ℤ)) ∈ (array, b) :: calls) = (decide (b.toNat = j) || decide ((array, (j : ℤ)) ∈ calls)) := by
            rw [← Bool.decide_or, decide_eq_decide, List.mem_cons, Prod.mk.injEq]
            constructor
            · rintro (⟨-, e⟩ | e)
              · left; omega
              · exact Or.inr e
            · rintro (e | e)
              · left; exact ⟨rfl, by omega⟩
              · exact Or.inr e
          rw [this, Bool.or_assoc]
        · rw [Function.update_of_ne ha]
          have : decide ((array, (j : ℤ)) ∈ (a, b) :: calls) = decide ((array, (j : ℤ)) ∈ calls) := by
            rw [decide_eq_decide, List.mem_cons, Prod.mk.injEq]
            constructor
            · rintro (⟨e, -⟩ | e)
              · exact absurd e ha
              · exact e
            · exact Or.inr
          rw [this]
      · rcases List.mem_cons.1 hc with rfl | hc
        · exact hb'
        · exact h2 c hc

/-- **C177.** A negative bit is an error, and no array changes in this call; for other bits the result is the given array, whose elements are those of
`setbit` for numbers. -/
theorem C177_setbit_call (mem : IntHeap) (array : ℕ) (bit : ℤ) :
    (bit < 0 → ∃ e, setbitArray mem array bit = .error e) ∧
    (0 ≤ bit → ∃ mem', setbitArray mem array bit = .ok (mem', array) ∧ ∀ i, setbit (mem array i) bit = .ok (mem' array i)) := by
  unfold setbitArray
  refine ⟨fun h => ⟨_, if_pos h⟩, fun h => ?_⟩
  rw [if_neg (not_lt.2 h)]
  refine ⟨_, rfl, fun i => ?_⟩
  unfold setbit
  rw [if_neg (not_lt.2 h), Function.update_self]

example : ∃ mem', setbitCalls (fun _ _ => 0) [(0, 1), (1, 3), (0, 2)] = .ok mem' ∧ mem' 0 7 = 6 ∧ mem' 1 7 = 8 ∧ mem' 2 7 = 0 :=
  ⟨_, rfl, by decide, by decide, by decide⟩

end Cloudnet
