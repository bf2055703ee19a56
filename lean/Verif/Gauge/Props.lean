import Mathlib.Tactic.Linarith
import Mathlib.Tactic.Ring
import Mathlib.Tactic.NormNum
import Mathlib.Algebra.BigOperators.Group.List.Basic
import Verif.Gauge.Model
import Verif.Droplet.Props
import Verif.RadarError.Props

namespace Cloudnet

/-! ## C53: cumulative rain -/

section
variable {α : Type} [Field α] [LinearOrder α] [IsStrictOrderedRing α]

namespace Spec

/-- The rain that a gauge collected between its first and its last reading: what it shows more than at the reading before,
or all it shows if it was emptied in between. -/
def collected : List α → α
  | [] => 0
  | [_] => 0
  | a :: b :: l => (if b < a then b else b - a) + collected (b :: l)

/-- How often a gauge was emptied. -/
def resets : List α → ℕ
  | [] => 0
  | [_] => 0
  | a :: b :: l => (if b < a then 1 else 0) + resets (b :: l)

/-- The readings that are not missing, up to index `i`. -/
def readings (x : ℕ → Option α) (i : ℕ) : List α := (List.range (i + 1)).filterMap x

/-- `i` and `j` are consecutive readings that are not missing. -/
def Consecutive (x : ℕ → Option α) (i j : ℕ) : Prop := i < j ∧ (x i).isSome ∧ (x j).isSome ∧ ∀ k, i < k → k < j → x k = none

end Spec

omit [IsStrictOrderedRing α] in
/-- If the first value is known, the last amount is that of the last known value. -/
theorem gaugeState_last (x : ℕ → Option α) (i : ℕ) (v : α) (hv : x i = some v) :
    (gaugeState x i).2 = some (v + (gaugeState x i).1) := by
  cases i with
  | zero => simp [gaugeState, hv]
  | succ i =>
    rw [gaugeState, hv]
    rfl

omit [IsStrictOrderedRing α] in
theorem gaugeState_skip (x : ℕ → Option α) (i d : ℕ) (h : ∀ k, i < k → k ≤ i + d → x k = none) :
    gaugeState x (i + d) = gaugeState x i := by
  induction d with
  | zero => rfl
  | succ d ih =>
    rw [← Nat.add_assoc, gaugeState, h (i + d + 1) (by omega) (by omega), gaugeStep,
      ih fun k h1 h2 => h k h1 (by omega)]

omit [IsStrictOrderedRing α] in
theorem gaugeState_next (x : ℕ → Option α) (i j : ℕ) (h : Spec.Consecutive x i j) :
    gaugeState x j = gaugeStep (gaugeState x i) (x j) := by
  obtain ⟨hij, _, _, hno⟩ := h
  obtain ⟨d, rfl⟩ : ∃ d, j = i + d + 1 := ⟨j - i - 1, by omega⟩
  rw [gaugeState, gaugeState_skip x i d fun k h1 h2 => hno k h1 (by omega)]

/-- **C53.** The amount is missing where the reading is missing; everything is missing if the first reading is; the first
amount is zero. -/
theorem C53_missing (n : ℕ) (x out : ℕ → Option α) (h : normalizeAmount n x = .ok out) :
    (∀ i, out i = none ↔ x i = none ∨ x 0 = none) ∧ (x 0 ≠ none → out 0 = some 0) := by
  unfold normalizeAmount at h
  split at h
  · simp at h
  obtain rfl := Except.ok.inj h
  dsimp only
  constructor
  · intro i
    cases x i <;> cases x 0 <;> simp
  · intro h0
    obtain ⟨v, hv⟩ := Option.ne_none_iff_exists'.mp h0
    simp [hv, gaugeState]

theorem C53_raises (n : ℕ) (x : ℕ → Option α) : (∃ e, normalizeAmount n x = .error e) ↔ n = 0 := by
  unfold normalizeAmount
  split
  · rename_i h; exact ⟨fun _ => h, fun _ => ⟨_, rfl⟩⟩
  · rename_i h; exact ⟨fun ⟨e, he⟩ => (nomatch he), fun h' => absurd h' h⟩

/-- **C53.** Between consecutive readings the amount grows by the difference of the readings. If the second reading is
smaller, the amount grows by that reading and once more by all the rain of earlier resets, `a - (v - first)`. -/
theorem C53_increment (n : ℕ) (x out : ℕ → Option α) (h : normalizeAmount n x = .ok out) (first v w a : α) (i j : ℕ)
    (h0 : x 0 = some first) (hij : Spec.Consecutive x i j) (hv : x i = some v) (hw : x j = some w)
    (ha : out i = some a) :
    out j = some (if w < v then a + w + (a - (v - first)) else a + (w - v)) := by
  unfold normalizeAmount at h
  split at h
  · simp at h
  obtain rfl := Except.ok.inj h
  simp only [hv, hw, h0, Option.bind_some, Option.map_some, Option.some.injEq] at ha ⊢
  rw [gaugeState_next x i j hij, hw]
  unfold gaugeStep
  rw [gaugeState_last x i v hv]
  dsimp only
  subst ha
  by_cases hlt : w < v
  · rw [if_pos (by linarith), if_pos hlt]; ring
  · rw [if_neg (by linarith), if_neg hlt]; ring

/-- **C53.** For readings that are not negative the amount never decreases. -/
theorem C53_monotone (n : ℕ) (x out : ℕ → Option α) (h : normalizeAmount n x = .ok out)
    (hpos : ∀ i v, x i = some v → 0 ≤ v) (i j : ℕ) (hij : i ≤ j) (a b : α) (ha : out i = some a) (hb : out j = some b) :
    a ≤ b := by
  unfold normalizeAmount at h
  split at h
  · simp at h
  obtain rfl := Except.ok.inj h
  dsimp only at ha hb
  cases h0 : x 0 with
  | none => rw [h0] at ha; cases hx : x i <;> simp [hx] at ha
  | some first =>
    rw [h0] at ha hb
    -- offset and last amount never decrease, and stay non-negative
    have hinv : ∀ k, ∃ l, (gaugeState x k).2 = some l ∧ 0 ≤ l ∧ 0 ≤ (gaugeState x k).1 := by
      intro k
      induction k with
      | zero => exact ⟨first, by simp [gaugeState, h0], hpos 0 first h0, le_refl _⟩
      | succ k ih =>
        obtain ⟨l, h1, h2, h3⟩ := ih
        rw [gaugeState]
        cases hx : x (k + 1) with
        | none => exact ⟨l, h1, h2, h3⟩
        | some v =>
          have := hpos _ _ hx
          refine ⟨_, rfl, ?_, ?_⟩
          · rw [h1]
            dsimp only
            split <;> linarith
          · rw [gaugeStep, h1]
            dsimp only
            split <;> linarith
    have hmono : ∀ k d l m, (gaugeState x k).2 = some l → (gaugeState x (k + d)).2 = some m → l ≤ m := by
      intro k d
      induction d with
      | zero =>
        intro l m h1 h2
        rw [Nat.add_zero, h1] at h2
        exact (Option.some.inj h2).le
      | succ d ih =>
        intro l m h1 h2
        obtain ⟨l', h3, h4, h5⟩ := hinv (k + d)
        refine (ih l l' h1 h3).trans ?_
        rw [← Nat.add_assoc, gaugeState] at h2
        cases hx : x (k + d + 1) with
        | none =>
          rw [hx, gaugeStep, h3] at h2
          exact (Option.some.inj h2).le
        | some v =>
          have := hpos _ _ hx
          rw [hx, gaugeStep, h3] at h2
          dsimp only at h2
          rw [← Option.some.inj h2]
          split
          · linarith
          · rename_i hh; exact not_lt.mp hh
    cases hx : x i with
    | none => simp [hx] at ha
    | some v =>
      cases hy : x j with
      | none => simp [hy] at hb
      | some w =>
        rw [hx, Option.bind_some, Option.map_some] at ha
        rw [hy, Option.bind_some, Option.map_some] at hb
        rw [← Option.some.inj ha, ← Option.some.inj hb]
        have h1 := gaugeState_last x i v hx
        have h2 := gaugeState_last x j w hy
        have := hmono i (j - i) _ _ h1 (by rw [Nat.add_sub_cancel' hij]; exact h2)
        linarith

omit [IsStrictOrderedRing α] in
theorem collected_snoc (l : List α) (a b : α) :
    Spec.collected (l ++ [a, b]) = Spec.collected (l ++ [a]) + (if b < a then b else b - a) ∧
    Spec.resets (l ++ [a, b]) = Spec.resets (l ++ [a]) + (if b < a then 1 else 0) := by
  induction l with
  | nil => simp [Spec.collected, Spec.resets]
  | cons c l ih =>
    cases l with
    | nil =>
      simp [Spec.collected, Spec.resets]
    | cons d l =>
      simp only [List.cons_append, Spec.collected, Spec.resets] at ih ⊢
      rw [ih.1, ih.2]
      constructor
      · rw [add_assoc]
      · rw [add_assoc]

/-- **C53.** If the gauge was emptied at most once, the amount is exactly the rain that it collected. -/
theorem C53_exact (n : ℕ) (x out : ℕ → Option α) (h : normalizeAmount n x = .ok out) (i : ℕ) (h0 : x 0 ≠ none)
    (hi : x i ≠ none) (hres : Spec.resets (Spec.readings x i) ≤ 1) :
    out i = some (Spec.collected (Spec.readings x i)) := by
  unfold normalizeAmount at h
  split at h
  · simp at h
  obtain rfl := Except.ok.inj h
  dsimp only
  obtain ⟨first, hf⟩ := Option.ne_none_iff_exists'.mp h0
  obtain ⟨v, hv⟩ := Option.ne_none_iff_exists'.mp hi
  have key : ∀ i, ∃ l last, Spec.readings x i = l ++ [last] ∧ (gaugeState x i).2 = some (last + (gaugeState x i).1) ∧
      (Spec.resets (Spec.readings x i) = 0 → (gaugeState x i).1 = 0) ∧
      (Spec.resets (Spec.readings x i) ≤ 1 →
        Spec.collected (Spec.readings x i) = last + (gaugeState x i).1 - first) := by
    intro i
    induction i with
    | zero =>
      refine ⟨[], first, ?_, ?_, ?_, ?_⟩
      · simp [Spec.readings, hf]
      · simp [gaugeState, hf]
      · simp [gaugeState]
      · simp [Spec.readings, hf, gaugeState, Spec.collected]
    | succ i ih =>
      obtain ⟨l, last, h1, h2, h3, h4⟩ := ih
      have hr : Spec.readings x (i + 1) = Spec.readings x i ++ (x (i + 1)).toList := by
        unfold Spec.readings
        rw [List.range_succ (n := i + 1), List.filterMap_append]
        cases hx : x (i + 1) <;> simp [hx]
      cases hx : x (i + 1) with
      | none =>
        rw [hx, Option.toList_none, List.append_nil] at hr
        rw [hr, gaugeState, hx]
        exact ⟨l, last, h1, h2, h3, h4⟩
      | some w =>
        rw [hx, Option.toList_some] at hr
        obtain ⟨c1, c2⟩ := collected_snoc l last w
        have happ : Spec.readings x (i + 1) = l ++ [last, w] := by rw [hr, h1]; simp
        refine ⟨Spec.readings x i, w, hr, gaugeState_last x _ w hx, ?_, ?_⟩
        · rw [happ, c2, ← h1, gaugeState, hx, gaugeStep, h2]
          dsimp only
          intro hz
          have hlt : ¬w < last := by
            intro hlt
            rw [if_pos hlt] at hz
            omega
          rw [if_neg (by linarith)]
          exact h3 (by omega)
        · rw [happ, c1, c2, ← h1, gaugeState, hx, gaugeStep, h2]
          dsimp only
          intro hle
          by_cases hlt : w < last
          · rw [if_pos hlt] at hle ⊢
            rw [if_pos (by linarith), h4 (by omega), h3 (by omega)]
            ring
          · rw [if_neg hlt] at hle ⊢
            rw [if_neg (by linarith), h4 (by omega)]
            ring
  obtain ⟨l, last, h1, h2, _, h4⟩ := key i
  rw [hv, hf, Option.bind_some, Option.map_some, h4 hres]
  have := gaugeState_last x i v hv
  rw [h2] at this
  rw [Option.some.inj this]

end

/-- Readings of a gauge that is emptied twice. -/
def emptiedTwice : ℕ → Option ℚ := fun i => [some 0, some 10, some 0, none, some 5, some 0].getD i none

example : ∃ out, normalizeAmount 6 emptiedTwice = .ok out ∧ (List.range 6).map out =
    [some 0, some 10, some 10, none, some 15, some 25] := ⟨_, rfl, by decide +kernel⟩

/-- **C53, a limit.** The rain before the first reset is counted again at the second reset: 15 collected, 25 reported. -/
theorem C53_counted_again : ∃ (x out : ℕ → Option ℚ), normalizeAmount 6 x = .ok out ∧ (∀ i v, x i = some v → 0 ≤ v) ∧
    Spec.resets (Spec.readings x 5) = 2 ∧ Spec.collected (Spec.readings x 5) = 15 ∧ out 5 = some 25 := by
  refine ⟨emptiedTwice, _, rfl, ?_, by decide +kernel, by decide +kernel, by decide +kernel⟩
  intro i v hv
  rcases lt_or_ge i 6 with hi | hi
  · have : ∀ i < 6, ∀ v, emptiedTwice i = some v → 0 ≤ v := by
      intro i hi v
      interval_cases i <;> simp [emptiedTwice] <;> rintro rfl <;> norm_num
    exact this i hi v hv
  · simp [emptiedTwice, List.getD, List.getElem?_eq_none (l := [some (0 : ℚ), some 10, some 0, none, some 5, some 0]) (by simpa using hi)] at hv

/-! ## C89: rain amounts from rates -/

/-- **C89.** The rain amount calculated from rates is missing where the rate is missing. It is the sum of the known rates so
far times the median time step in seconds (so the first amount is a whole step, not zero). A single record has the amount
zero, even if its rate is missing. -/
theorem C89_amount (n : ℕ) (time : ℕ → ℝ) (rate : ℕ → Option ℝ) :
    (n = 1 → ∀ i, rainfallAmount n time rate i = some 0) ∧
    (2 ≤ n → ∃ step, Spec.IsMedian ((List.range (n - 1)).map fun i => time (i + 1) - time i) step ∧
      ∀ i, (rate i = none → rainfallAmount n time rate i = none) ∧
        (rate i ≠ none → rainfallAmount n time rate i =
          some (step * 3600 * ((List.range (i + 1)).filterMap rate).sum))) := by
  constructor
  · rintro rfl i
    simp [rainfallAmount]
  · intro hn
    refine ⟨_, median_isMedian _ ?_, ?_⟩
    · intro h0
      have := congrArg List.length h0
      simp at this
      omega
    · intro i
      unfold rainfallAmount
      rw [if_neg (by omega)]
      constructor
      · intro h; rw [h]; rfl
      · intro h
        obtain ⟨v, hv⟩ := Option.ne_none_iff_exists'.mp h
        rw [hv, Option.map_some]
        congr 1
        generalize median _ * (3600 : ℝ) = c
        generalize List.range (i + 1) = l
        induction l with
        | nil => simp
        | cons k l ih =>
          rw [List.map_cons, List.sum_cons, ih]
          cases hk : rate k with
          | none => rw [List.filterMap_cons_none hk]; simp
          | some r => rw [List.filterMap_cons_some hk, List.sum_cons, Option.getD_some]; ring

/-- **C89.** For increasing times and rates that are not negative the amount never decreases. -/
theorem C89_monotone (n : ℕ) (time : ℕ → ℝ) (rate : ℕ → Option ℝ) (htime : ∀ i, i + 1 < n → time i ≤ time (i + 1))
    (hrate : ∀ i v, rate i = some v → 0 ≤ v) (i j : ℕ) (hij : i ≤ j) (a b : ℝ)
    (ha : rainfallAmount n time rate i = some a) (hb : rainfallAmount n time rate j = some b) (hn : 0 < n) : a ≤ b := by
  obtain ⟨h1, h2⟩ := C89_amount n time rate
  rcases Nat.lt_or_ge n 2 with h | h
  · have hn1 : n = 1 := by omega
    rw [h1 hn1] at ha hb
    rw [← Option.some.inj ha, ← Option.some.inj hb]
  · obtain ⟨step, hstep, hval⟩ := h2 h
    have hs0 : 0 ≤ step := by
      obtain ⟨s, hperm, _, x, y, hx, hy, rfl⟩ := hstep
      have hmem : ∀ z ∈ s, 0 ≤ z := by
        intro z hz
        obtain ⟨k, hk, rfl⟩ := List.mem_map.mp (hperm.mem_iff.mp hz)
        have := htime k (by rw [List.mem_range] at hk; omega)
        linarith
      have := hmem x (List.mem_of_getElem? hx)
      have := hmem y (List.mem_of_getElem? hy)
      linarith
    have hi : rate i ≠ none := fun hc => by rw [(hval i).1 hc] at ha; simp at ha
    have hj : rate j ≠ none := fun hc => by rw [(hval j).1 hc] at hb; simp at hb
    rw [(hval i).2 hi] at ha
    rw [(hval j).2 hj] at hb
    rw [← Option.some.inj ha, ← Option.some.inj hb]
    apply mul_le_mul_of_nonneg_left _ (by linarith)
    obtain ⟨d, rfl⟩ : ∃ d, j = i + d := ⟨j - i, by omega⟩
    rw [show i + d + 1 = (i + 1) + d from by omega, List.range_add (n := i + 1) (m := d), List.filterMap_append, List.sum_append]
    have : 0 ≤ (((List.range d).map fun x => i + 1 + x).filterMap rate).sum := by
      apply List.sum_nonneg
      intro z hz
      obtain ⟨k, _, hk⟩ := List.mem_filterMap.mp hz
      exact hrate k z hk
    linarith

example : (0 : ℝ) ≤ 1 ∧ rainfallAmount 1 (fun _ => (0 : ℝ)) (fun _ => none) 0 = some 0 := by
  simp [rainfallAmount]

/-! ## C90: wind direction -/

/-- **C90.** A wind direction a little outside of `[0, 360)` is moved into it by a full turn; all other values are kept. -/
theorem C90_wind {α : Type} [Field α] [LinearOrder α] [IsStrictOrderedRing α] (v : α) :
    (-2 < v ∧ v < 0 → wrapWindDirection v = v + 360) ∧ (360 ≤ v ∧ v < 362 → wrapWindDirection v = v - 360) ∧
    (v ≤ -2 ∨ 0 ≤ v ∧ v < 360 ∨ 362 ≤ v → wrapWindDirection v = v) ∧
    (-2 < v ∧ v < 362 → 0 ≤ wrapWindDirection v ∧ wrapWindDirection v < 360) := by
  unfold wrapWindDirection
  dsimp only
  refine ⟨?_, ?_, ?_, ?_⟩
  · rintro ⟨h1, h2⟩
    rw [if_pos (c := -2 < v ∧ v < 0) ⟨h1, h2⟩, if_neg]
    rintro ⟨h3, _⟩
    linarith
  · rintro ⟨h1, h2⟩
    rw [if_neg (c := -2 < v ∧ v < 0) (fun h => by linarith [h.2]), if_pos ⟨h1, by linarith⟩]
  · intro h
    have h3 : ¬(-2 < v ∧ v < 0) := by
      rintro ⟨h1, h2⟩
      rcases h with h | ⟨h, _⟩ | h <;> linarith
    rw [if_neg h3, if_neg]
    rintro ⟨h1, h2⟩
    rcases h with h | ⟨_, h⟩ | h <;> linarith
  · rintro ⟨h1, h2⟩
    by_cases h3 : v < 0
    · rw [if_pos (c := -2 < v ∧ v < 0) ⟨h1, h3⟩, if_neg (fun h => by linarith [h.1])]
      constructor <;> linarith
    · rw [if_neg (c := -2 < v ∧ v < 0) (fun h => h3 h.2)]
      push Not at h3
      split
      · rename_i h; constructor <;> linarith [h.1]
      · rename_i h
        refine ⟨h3, ?_⟩
        by_contra hc
        exact h ⟨not_lt.mp hc, by linarith⟩

example : wrapWindDirection (-1 : ℚ) = 359 ∧ wrapWindDirection (361 : ℚ) = 1 ∧ wrapWindDirection (-5 : ℚ) = -5 := by
  decide +kernel

end Cloudnet
