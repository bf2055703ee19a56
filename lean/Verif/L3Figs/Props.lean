import Mathlib.Tactic
import Verif.L3Figs.Model
import Verif.ModelEval.Props

namespace Cloudnet

/-! ## C156: figures of Level 3 files -/

/-! ### Names -/

theorem insertAt_length {β : Type} (done r : List β) (m : β) : insertAt done.length m (done ++ r) = (done ++ [m]) ++ r := by
  unfold insertAt
  rw [List.take_left, List.drop_left]
  simp

theorem insert_fold {β : Type} (ms : List β) : ∀ done rest : List β,
    (ms.zipIdx done.length).foldl (fun a mi => insertAt mi.2 mi.1 a) (done ++ rest) = done ++ ms ++ rest := by
  induction ms with
  | nil => intro done rest; simp
  | cons m ms ih =>
    intro done rest
    rw [List.zipIdx_cons, List.foldl_cons]
    dsimp only
    rw [insertAt_length]
    have := ih (done ++ [m]) rest
    rw [List.length_append, List.length_singleton] at this
    rw [this]
    simp

theorem sort_fold (ms : List String) : ∀ done rest : List String, (done ++ ms).Nodup →
    (ms.zipIdx done.length).foldl (fun a mi => insertAt mi.2 mi.1 (a.erase mi.1)) (done ++ rest) = done ++ ms ++ rest.diff ms := by
  induction ms with
  | nil => intro done rest _; simp
  | cons m ms ih =>
    intro done rest hnd
    have hm : m ∉ done := by
      intro hc
      rw [List.nodup_append] at hnd
      exact hnd.2.2 m hc m (by simp) rfl
    rw [List.zipIdx_cons, List.foldl_cons]
    dsimp only
    rw [List.erase_append_right _ hm, insertAt_length]
    have := ih (done ++ [m]) (rest.erase m) (by simpa using hnd)
    rw [List.length_append, List.length_singleton] at this
    rw [this, List.diff_cons]
    simp

theorem sortModelFirst_eq (a : List String) (h : a.Nodup) : sortModelFirst a = a.filter isModelName ++ a.filter fun n => !isModelName n := by
  have := sort_fold (a.filter isModelName) [] a (by simpa using h.filter _)
  unfold sortModelFirst
  simp only [List.length_nil, List.nil_append] at this
  rw [this, h.diff_eq_filter]
  congr 1
  apply List.filter_congr
  intro x hx
  cases hm : isModelName x <;> simp [List.mem_filter, hx, hm]

namespace Spec

/-- Does the text occur in the name? -/
def Occurs (text name : String) : Prop := ∃ a b, name.toList = a ++ text.toList ++ b

/-- A name of the model. -/
def OfModel (name : String) : Prop := ∃ rest, name = "model_" ++ rest

open Classical in
/-- The names to choose from: those asked for, else those of the product in the file (those of variants, with cirrus or snow in the name, only if
`advance` is set). -/
noncomputable def asked (vars : List String) (product : String) (wanted : List String) (advance : Bool) : List String :=
  if wanted = [] then vars.filter fun n => decide (Occurs product n ∧ (advance = true ∨ (¬ Occurs "cirrus" n ∧ ¬ Occurs "snow" n))) else wanted

open Classical in
/-- The names of the standard figure: the model first. -/
noncomputable def standardNames (product : String) (names : List String) : List String :=
  (names.filter fun n => decide (Occurs product n ∧ ¬ Occurs "adv" n ∧ OfModel n)) ++
    names.filter fun n => decide (Occurs product n ∧ ¬ Occurs "adv" n ∧ ¬ OfModel n)

open Classical in
/-- The names of the figure of the time grid of advection: all names of the model first. -/
noncomputable def advectionNames (product : String) (names : List String) : List String :=
  (names.filter fun n => decide (OfModel n)) ++ names.filter fun n => decide (Occurs product n ∧ Occurs "adv" n)

end Spec

theorem hasText_iff (text name : String) : hasText text name = true ↔ Spec.Occurs text name := by
  unfold hasText Spec.Occurs
  rw [decide_eq_true_eq]
  constructor
  · rintro ⟨a, b, h⟩; exact ⟨a, b, h.symm⟩
  · rintro ⟨a, b, h⟩; exact ⟨a, b, h.symm⟩

theorem isModelName_iff (name : String) : isModelName name = true ↔ Spec.OfModel name := by
  unfold isModelName Spec.OfModel
  rw [List.isPrefixOf_iff_prefix]
  constructor
  · rintro ⟨r, h⟩
    refine ⟨String.ofList r, String.toList_injective ?_⟩
    rw [String.toList_append, ← h]
    simp
  · rintro ⟨r, rfl⟩
    rw [String.toList_append]
    exact List.prefix_append _ _

theorem chosenNames_eq (vars : List String) (product : String) (wanted : List String) (advance : Bool) :
    chosenNames vars product wanted advance = Spec.asked vars product wanted advance := by
  classical
  unfold chosenNames Spec.asked
  split_ifs with hw
  · unfold datasetKeys
    cases advance with
    | true =>
      apply List.filter_congr
      intro x _
      rw [Bool.eq_iff_iff, hasText_iff]
      simp
    | false =>
      dsimp only
      rw [if_neg (by simp), List.filter_filter]
      apply List.filter_congr
      intro x _
      rw [Bool.eq_iff_iff]
      simp only [Bool.and_eq_true, Bool.not_eq_true', ← Bool.not_eq_true, hasText_iff, decide_eq_true_eq]
      simp
      tauto
  · rfl

/-- **C156.** The names of the figures of a file. Each group has the names of the model first, in the order of the file. If the two groups have the
same number of names there is one figure of each (one only if they are the same or the time grid of advection is not wanted), else there is only
one figure, that of the group with more names. -/
theorem C156_figures (vars : List String) (product : String) (wanted : List String) (advance incl : Bool) (names S A : List String)
    (hnames : names = Spec.asked vars product wanted advance) (hnd : names.Nodup) (hS : S = Spec.standardNames product names)
    (hA : A = Spec.advectionNames product names) :
    (A.length < S.length → l3FigureNames (wantedNames vars product wanted advance) incl = [S]) ∧
    (S.length < A.length → l3FigureNames (wantedNames vars product wanted advance) incl = [A]) ∧
    (A.length = S.length → S ≠ [] → l3FigureNames (wantedNames vars product wanted advance) incl = if incl = true ∧ A ≠ S then [S, A] else [S]) ∧
    (S = [] → A = [] → l3FigureNames (wantedNames vars product wanted advance) incl = []) := by
  classical
  have hstd : sortModelFirst (names.filter fun n => hasText product n && !hasText "adv" n) = S := by
    rw [sortModelFirst_eq _ (hnd.filter _), List.filter_filter, List.filter_filter, hS]
    unfold Spec.standardNames
    congr 1 <;> apply List.filter_congr <;> intro x _ <;> rw [Bool.eq_iff_iff] <;>
      simp only [Bool.and_eq_true, Bool.not_eq_true', ← Bool.not_eq_true, hasText_iff, isModelName_iff, decide_eq_true_eq] <;> tauto
  have hadv : ((names.filter isModelName).zipIdx).foldl (fun a mi => insertAt mi.2 mi.1 a) (names.filter fun n => hasText product n && hasText "adv" n) = A := by
    have := insert_fold (names.filter isModelName) [] (names.filter fun n => hasText product n && hasText "adv" n)
    simp only [List.length_nil, List.nil_append] at this
    rw [this, hA]
    unfold Spec.advectionNames
    congr 1 <;> apply List.filter_congr <;> intro x _ <;> rw [Bool.eq_iff_iff] <;>
      simp only [Bool.and_eq_true, hasText_iff, isModelName_iff, decide_eq_true_eq]
  have hw : wantedNames vars product wanted advance =
      if A.length < S.length then (S, []) else if A.length > S.length then (A, []) else (S, A) := by
    unfold wantedNames
    dsimp only
    rw [chosenNames_eq, ← hnames, hstd, hadv]
  rw [hw]
  have hfig : ∀ X Y : List String, l3FigureNames (X, Y) incl =
      if incl = true ∧ Y ≠ X then [X, Y].filter fun ns => decide (ns ≠ []) else [X].filter fun ns => decide (ns ≠ []) := by
    intro X Y
    unfold l3FigureNames
    cases incl with
    | false => simp
    | true =>
      by_cases hXY : Y = X
      · simp [hXY]
      · simp [hXY]
  refine ⟨?_, ?_, ?_, ?_⟩
  · intro h
    have hne : S ≠ [] := by rintro rfl; simp at h
    rw [if_pos h, hfig]
    split_ifs <;> simp [hne]
  · intro h
    have hne : A ≠ [] := by rintro rfl; simp at h
    rw [if_neg (by omega), if_pos h, hfig]
    split_ifs <;> simp [hne]
  · intro h hne
    have hne' : A ≠ [] := by
      rintro rfl
      exact hne (List.length_eq_zero_iff.1 h.symm)
    rw [if_neg (by omega), if_neg (by omega), hfig]
    split_ifs <;> simp [hne, hne']
  · rintro rfl rfl
    simp [hfig]

set_option synthInstance.maxSize 2000 in
/-- A file of cloud fraction. -/
example : l3FigureNames (wantedNames ["time", "cf_V", "model_cf", "cf_A", "cf_V_adv", "cf_A_adv", "model_height"] "cf" [] false) true =
    [["model_cf", "cf_V", "cf_A"], ["model_cf", "cf_V_adv", "cf_A_adv"]] := by decide +kernel

/-- **C156**, findings: variables that were asked for may not be drawn at all, because only the larger group is drawn; if that is the group of
advection, it is drawn even if advection is not wanted. A name of the model that is given twice does not come first. -/
theorem C156_not_drawn :
    l3FigureNames (wantedNames [] "cf" ["model_cf", "cf_V", "cf_A", "cf_V_adv"] false) true = [["model_cf", "cf_V", "cf_A"]] ∧
    l3FigureNames (wantedNames [] "cf" ["model_cf", "cf_V", "cf_V_adv", "cf_A_adv"] false) false = [["model_cf", "cf_V_adv", "cf_A_adv"]] ∧
    sortModelFirst ["cf_V", "model_cf", "model_cf"] = ["cf_V", "model_cf", "model_cf"] := by decide +kernel

section
variable {α : Type} [Field α] [LinearOrder α] [IsStrictOrderedRing α]

/-! ### Data -/

/-- **C156.** Values that are not positive are not shown, nor liquid water contents below 1e-5 and ice water contents below 1e-7. -/
theorem C156_small (name : String) (x : Option α) (v : α) :
    maskSmall name x = some v ↔ x = some v ∧ 0 < v ∧ (Spec.Occurs "lwc" name → 1 / 100000 ≤ v) ∧ (Spec.Occurs "iwc" name → 1 / 10000000 ≤ v) := by
  unfold maskSmall
  cases x with
  | none => simp
  | some w =>
    simp only [Option.bind_some, ← hasText_iff]
    by_cases h0 : w ≤ 0
    · rw [if_pos h0]
      simp only [reduceCtorEq, false_iff]
      rintro ⟨h, h1, -⟩
      cases h
      exact absurd h0 (not_le.2 h1)
    · rw [if_neg h0]
      cases hl : hasText "lwc" name <;> cases hi : hasText "iwc" name
      · simp only [Bool.false_and, Bool.false_eq_true, if_false, Option.some.injEq, false_imp_iff, and_true]
        exact ⟨fun h => ⟨h, by rw [← h]; exact not_le.1 h0⟩, fun h => h.1⟩
      · simp only [Bool.false_and, Bool.true_and, Bool.false_eq_true, if_false, decide_eq_true_eq, false_imp_iff, true_and, true_imp_iff]
        by_cases hw : w < 1 / 10000000
        · rw [if_pos hw]
          simp only [reduceCtorEq, false_iff]
          rintro ⟨h, -, h1⟩
          cases h
          exact absurd hw (not_lt.2 h1)
        · rw [if_neg hw]
          exact ⟨fun h => by cases h; exact ⟨rfl, not_le.1 h0, not_lt.1 hw⟩, fun h => h.1⟩
      · simp only [Bool.false_and, Bool.true_and, Bool.false_eq_true, if_false, decide_eq_true_eq, false_imp_iff, and_true, true_imp_iff]
        by_cases hw : w < 1 / 100000
        · rw [if_pos hw]
          simp only [reduceCtorEq, false_iff]
          rintro ⟨h, -, h1⟩
          cases h
          exact absurd hw (not_lt.2 h1)
        · rw [if_neg hw]
          exact ⟨fun h => by cases h; exact ⟨rfl, not_le.1 h0, not_lt.1 hw⟩, fun h => h.1⟩
      · simp only [Bool.true_and, decide_eq_true_eq, true_imp_iff]
        by_cases hw : w < 1 / 100000
        · rw [if_pos hw]
          simp only [reduceCtorEq, false_iff]
          rintro ⟨h, -, h1, -⟩
          cases h
          exact absurd hw (not_lt.2 h1)
        · rw [if_neg hw]
          have hw2 : ¬ w < 1 / 10000000 := by
            push Not at hw ⊢
            exact le_trans (by norm_num) hw
          rw [if_neg hw2]
          exact ⟨fun h => by cases h; exact ⟨rfl, not_le.1 h0, not_lt.1 hw, not_lt.1 hw2⟩, fun h => h.1⟩

/-- **C156.** The classes of the figure of common areas: 0 without data, 1 model only, 2 both, 3 observation only. -/
theorem C156_classes {β : Type} (model obs : Option β) :
    (segmentValue model obs = 0 ↔ model = none ∧ obs = none) ∧ (segmentValue model obs = 1 ↔ model ≠ none ∧ obs = none) ∧
    (segmentValue model obs = 2 ↔ model ≠ none ∧ obs ≠ none) ∧ (segmentValue model obs = 3 ↔ model = none ∧ obs ≠ none) := by
  cases model <;> cases obs <;> simp [segmentValue]

/-- `m` is the mean of the known values of a list, if there are any. -/
def Spec.MeanOfKnown (l : List (Option α)) (m : Option α) : Prop :=
  (l.filterMap id = [] ∧ m = none) ∨ ∃ v, l.filterMap id ≠ [] ∧ m = some v ∧ v * (l.filterMap id).length = (l.filterMap id).sum

theorem maskedMean_mean (l : List (Option α)) : Spec.MeanOfKnown l (maskedMean l) := by
  unfold maskedMean Spec.MeanOfKnown
  by_cases h : l.filterMap id = []
  · left; exact ⟨h, by simp only; rw [if_pos h]⟩
  · right
    refine ⟨_, h, by simp only; rw [if_neg h], ?_⟩
    have : ((l.filterMap id).length : α) ≠ 0 := by
      have := List.length_pos_of_ne_nil h
      positivity
    field_simp

/-- **C156.** The curves of vertical profiles: each value is the mean of the known ones among itself and the `n - 1` above. -/
theorem C156_rolling (n : ℕ) (data : List (Option α)) : (rollingMean n data).length = data.length ∧
    ∀ (i : ℕ) (m : Option α), (rollingMean n data)[i]? = some m → Spec.MeanOfKnown ((data.drop i).take n) m := by
  unfold rollingMean
  refine ⟨by simp, fun i m h => ?_⟩
  rw [List.getElem?_map] at h
  cases hr : (List.range data.length)[i]? with
  | none => rw [hr] at h; cases h
  | some j =>
    rw [hr] at h
    obtain ⟨hj, rfl⟩ := List.getElem?_eq_some_iff.1 hr
    cases h
    rw [List.getElem_range]
    exact maskedMean_mean _

/-- **C156.** The vertical profile is the mean over the times with data. -/
theorem C156_vertical (nT : ℕ) (x : Grid (Option α)) (h : ℕ) : Spec.MeanOfKnown ((List.range nT).map fun t => x t h) (verticalMean nT x h) :=
  maskedMean_mean _

theorem foldl_min_le (l : List α) (a : α) : l.foldl min a ≤ a ∧ (∀ x ∈ l, l.foldl min a ≤ x) ∧ (l.foldl min a = a ∨ l.foldl min a ∈ l) := by
  induction l generalizing a with
  | nil => simp
  | cons b l ih =>
    obtain ⟨h1, h2, h3⟩ := ih (min a b)
    refine ⟨h1.trans (min_le_left _ _), ?_, ?_⟩
    · intro x hx
      rcases List.mem_cons.1 hx with rfl | hx
      · exact h1.trans (min_le_right _ _)
      · exact h2 x hx
    · rw [List.foldl_cons]
      rcases h3 with h | h
      · rcases min_choice a b with hm | hm
        · left; rw [h, hm]
        · right; rw [h, hm]; simp
      · right; exact List.mem_cons_of_mem _ h

theorem le_foldl_max (l : List α) (a : α) : a ≤ l.foldl max a ∧ (∀ x ∈ l, x ≤ l.foldl max a) ∧ (l.foldl max a = a ∨ l.foldl max a ∈ l) := by
  induction l generalizing a with
  | nil => simp
  | cons b l ih =>
    obtain ⟨h1, h2, h3⟩ := ih (max a b)
    refine ⟨(le_max_left _ _).trans h1, ?_, ?_⟩
    · intro x hx
      rcases List.mem_cons.1 hx with rfl | hx
      · exact (le_max_right _ _).trans h1
      · exact h2 x hx
    · rw [List.foldl_cons]
      rcases h3 with h | h
      · rcases max_choice a b with hm | hm
        · left; rw [h, hm]
        · right; rw [h, hm]; simp
      · right; exact List.mem_cons_of_mem _ h

/-- The upper end of the histogram: the highest observation, half a unit more if all are the same, and one if there are none. -/
def Spec.HistogramTop (obs : List α) (top : α) : Prop :=
  (obs = [] ∧ top = 1) ∨ ∃ hi ∈ obs, (∀ o ∈ obs, o ≤ hi) ∧ (((∀ o ∈ obs, o = hi) ∧ top = hi + 1 / 2) ∨ ((∃ o ∈ obs, o < hi) ∧ top = hi))

theorem histogramTop_isTop (obs : List α) : Spec.HistogramTop obs (histogramTop obs) := by
  cases obs with
  | nil => exact Or.inl ⟨rfl, rfl⟩
  | cons o os =>
    right
    obtain ⟨a1, a2, a3⟩ := foldl_min_le os o
    obtain ⟨b1, b2, b3⟩ := le_foldl_max os o
    have hhi : os.foldl max o ∈ o :: os := by
      rcases b3 with h | h
      · rw [h]; simp
      · exact List.mem_cons_of_mem _ h
    have hlo : os.foldl min o ∈ o :: os := by
      rcases a3 with h | h
      · rw [h]; simp
      · exact List.mem_cons_of_mem _ h
    have hle : ∀ x ∈ o :: os, x ≤ os.foldl max o := by
      intro x hx
      rcases List.mem_cons.1 hx with rfl | hx
      · exact b1
      · exact b2 x hx
    have hge : ∀ x ∈ o :: os, os.foldl min o ≤ x := by
      intro x hx
      rcases List.mem_cons.1 hx with rfl | hx
      · exact a1
      · exact a2 x hx
    refine ⟨_, hhi, hle, ?_⟩
    unfold histogramTop
    dsimp only
    split_ifs with h
    · left
      exact ⟨fun x hx => le_antisymm (hle x hx) (by rw [← h]; exact hge x hx), rfl⟩
    · right
      exact ⟨⟨_, hlo, lt_of_le_of_ne (hle _ hlo) h⟩, rfl⟩

/-- **C156.** The histogram has all known observations, rounded, and all known model values, rounded, but those above the upper end of the histogram
of the observations count as that end. -/
theorem C156_histogram (round : α → α) (model obs : List (Option α)) :
    (histogramData round model obs).2 = (obs.filterMap id).map round ∧
    ∃ top, Spec.HistogramTop ((obs.filterMap id).map round) top ∧
      List.Forall₂ (fun m x => (round m ≤ top ∧ x = round m) ∨ (top < round m ∧ x = top)) (model.filterMap id) (histogramData round model obs).1 := by
  refine ⟨rfl, _, histogramTop_isTop _, ?_⟩
  unfold histogramData
  dsimp only
  rw [List.map_map, List.forall₂_map_right_iff, List.forall₂_same]
  intro m _
  dsimp only [Function.comp]
  by_cases h : round m > histogramTop ((obs.filterMap id).map round)
  · rw [if_pos h]; exact Or.inr ⟨h, rfl⟩
  · rw [if_neg h]; exact Or.inl ⟨not_lt.1 h, rfl⟩

/-- **C156.** The heights of an image: the mean heights of the levels if all heights are known; if any is not, those of the first profile with a
height are used for all profiles. -/
theorem C156_heights (nT nH : ℕ) (height : Grid (Option α)) (hT : 0 < nT) :
    ((∀ t < nT, ∀ h < nH, height t h ≠ none) → ∃ zs, meshHeights nT nH height = .ok zs ∧ zs.length = nH ∧
      ∀ (h : ℕ) (z : Option α), zs[h]? = some z → Spec.MeanOfKnown ((List.range nT).map fun t => (height t h).map (· / 1000)) z) ∧
    ((∃ t < nT, ∃ h < nH, height t h = none) → ∀ first < nT, (∃ h < nH, height first h ≠ none) → (∀ t < first, ∀ h < nH, height t h = none) →
      meshHeights nT nH height = .ok ((List.range nH).map fun h => (height first h).map (· / 1000))) ∧
    (0 < nH → (∀ t < nT, ∀ h < nH, height t h = none) → meshHeights nT nH height = .error "IndexError") := by
  set row := fun t => (List.range nH).map fun h => (height t h).map fun z => z / 1000 with hrow
  have hnone : ∀ t, ((row t).any Option.isNone = true ↔ ∃ h < nH, height t h = none) := by
    intro t
    rw [hrow, List.any_eq_true]
    simp
  have hall : ∀ t, ((row t).all Option.isNone = true ↔ ∀ h < nH, height t h = none) := by
    intro t
    rw [hrow, List.all_eq_true]
    simp
  have hany : ((List.range nT).any fun t => (row t).any Option.isNone) = true ↔ ∃ t < nT, ∃ h < nH, height t h = none := by
    rw [List.any_eq_true]
    simp only [List.mem_range, hnone]
  have hdef : meshHeights nT nH height =
      if (List.range nT).any fun t => (row t).any Option.isNone then
        match ((List.range nT).map row).filter fun r => !r.all Option.isNone with
        | [] => .error "IndexError"
        | r :: _ => .ok r
      else .ok ((List.range nH).map fun h => maskedMean ((List.range nT).map fun t => (height t h).map fun z => z / 1000)) := rfl
  rw [hdef]
  refine ⟨?_, ?_, ?_⟩
  · intro h
    have hno : ¬ ((List.range nT).any fun t => (row t).any Option.isNone) = true := by
      rw [hany]; rintro ⟨t, ht, k, hk, e⟩; exact h t ht k hk e
    rw [if_neg hno]
    refine ⟨_, rfl, by simp, ?_⟩
    intro k z hz
    rw [List.getElem?_map] at hz
    cases hr : (List.range nH)[k]? with
    | none => rw [hr] at hz; cases hz
    | some j =>
      rw [hr] at hz
      obtain ⟨hj, rfl⟩ := List.getElem?_eq_some_iff.1 hr
      cases hz
      rw [List.getElem_range]
      exact maskedMean_mean _
  · intro h first hf hknown hbefore
    rw [if_pos (hany.2 h)]
    have hsplit : List.range nT = List.range first ++ first :: (List.range (nT - first - 1)).map (· + (first + 1)) := by
      apply List.ext_getElem
      · simp; omega
      · intro i h1 h2
        simp only [List.length_range] at h1
        rcases lt_trichotomy i first with hi | hi | hi
        · rw [List.getElem_append_left (by simpa using hi)]; simp
        · subst hi; simp [List.getElem_append_right]
        · rw [List.getElem_append_right (by simp; omega)]
          rw [List.getElem_cons]
          simp only [List.length_range, List.getElem_range, List.getElem_map]
          split_ifs <;> omega
    have hpre : ((List.range first).map row).filter (fun r => !r.all Option.isNone) = [] := by
      rw [List.filter_eq_nil_iff]
      intro r hr
      obtain ⟨t, ht, rfl⟩ := List.mem_map.1 hr
      have := (hall t).2 (hbefore t (List.mem_range.1 ht))
      rw [this]
      simp
    have hfirst : (!(row first).all Option.isNone) = true := by
      rw [Bool.not_eq_true', ← Bool.not_eq_true, hall]
      push Not
      obtain ⟨k, hk, e⟩ := hknown
      exact ⟨k, hk, e⟩
    rw [hsplit, List.map_append, List.filter_append, hpre, List.map_cons, List.filter_cons_of_pos (p := fun r : List (Option α) => !r.all Option.isNone) hfirst]
    rfl
  · intro hH h
    have : ((List.range nT).any fun t => (row t).any Option.isNone) = true := hany.2 ⟨0, hT, 0, hH, h 0 hT 0 hH⟩
    rw [if_pos this]
    have hnil : ((List.range nT).map row).filter (fun r => !r.all Option.isNone) = [] := by
      rw [List.filter_eq_nil_iff]
      intro r hr
      obtain ⟨t, ht, rfl⟩ := List.mem_map.1 hr
      have := (hall t).2 (h t (List.mem_range.1 ht))
      rw [this]
      simp
    rw [hnil]

/-! ### Statistics -/

/-- `y` is the error (relative if `rel`) of the model at pixel `k` in the panel of variable `j`: the model and all variables up to this one have values
there, and that of the model is not below the lowest value of any of them. -/
def Spec.PanelError (rel : Bool) (model : ℕ → Option α) (os : List (ℕ → Option α)) (low : ℕ → α) (j k : ℕ) (y : α) : Prop :=
  ∃ m o, model k = some m ∧ (∀ i ≤ j, ∀ x, os[i]? = some x → x k ≠ none ∧ low i ≤ m) ∧ (∃ x, os[j]? = some x ∧ x k = some o) ∧
    (rel = true → o ≠ 0) ∧ y = if rel = true then 100 * (m - o) / o else 100 * (o - m)

theorem combineMasked_model (n : ℕ) (model obs : ℕ → Option α) (low : α) (hlow : Spec.IsSmallest n obs low) (k : ℕ) (m : α) :
    (combineMasked n model obs).1 k = some m ↔ model k = some m ∧ obs k ≠ none ∧ low ≤ m := by
  unfold combineMasked
  rw [minKnown_spec n obs low hlow]
  dsimp only
  cases ho : obs k with
  | none => simp
  | some o =>
    cases hm : model k with
    | none => simp
    | some v =>
      by_cases h : v < low
      · simp only [Option.isNone_some, Bool.false_eq_true, if_false, Option.bind_some, if_pos h, reduceCtorEq, false_iff]
        rintro ⟨e, -, e2⟩
        cases e
        exact absurd h (not_lt.2 e2)
      · simp only [Option.isNone_some, Bool.false_eq_true, if_false, Option.bind_some, if_neg h, Option.some.injEq]
        exact ⟨fun e => by subst e; exact ⟨rfl, by simp, not_lt.1 h⟩, fun e => e.1⟩

theorem panelError_zero (rel : Bool) (n : ℕ) (model obs : ℕ → Option α) (rest : List (ℕ → Option α)) (low : ℕ → α)
    (hlow : Spec.IsSmallest n obs (low 0)) (k : ℕ) (y : α) :
    (if rel then relativeError n model obs else absoluteError n model obs) k = some y ↔ Spec.PanelError rel model (obs :: rest) low 0 k y := by
  obtain ⟨hr, ha⟩ := C96_errors n model obs (low 0) hlow k y
  unfold Spec.PanelError
  cases rel with
  | true =>
    rw [if_pos rfl, hr]
    constructor
    · rintro ⟨m, o, h1, h2, h3, h4, h5⟩
      refine ⟨m, o, h1, ?_, ⟨obs, rfl, h2⟩, fun _ => h4, by simpa using h5⟩
      intro i hi x hx
      obtain rfl : i = 0 := by omega
      cases hx
      exact ⟨by rw [h2]; simp, h3⟩
    · rintro ⟨m, o, h1, h2, ⟨x, hx, h3⟩, h4, h5⟩
      cases hx
      exact ⟨m, o, h1, h3, (h2 0 le_rfl obs rfl).2, h4 rfl, by simpa using h5⟩
  | false =>
    rw [if_neg (by simp), ha]
    constructor
    · rintro ⟨m, o, h1, h2, h3, h5⟩
      refine ⟨m, o, h1, ?_, ⟨obs, rfl, h2⟩, by simp, by simpa using h5⟩
      intro i hi x hx
      obtain rfl : i = 0 := by omega
      cases hx
      exact ⟨by rw [h2]; simp, h3⟩
    · rintro ⟨m, o, h1, h2, ⟨x, hx, h3⟩, h4, h5⟩
      cases hx
      exact ⟨m, o, h1, h3, (h2 0 le_rfl obs rfl).2, by simpa using h5⟩

theorem panelError_succ (rel : Bool) (n : ℕ) (model obs : ℕ → Option α) (rest : List (ℕ → Option α)) (low : ℕ → α)
    (hlow : Spec.IsSmallest n obs (low 0)) (j k : ℕ) (y : α) :
    Spec.PanelError rel (combineMasked n model obs).1 rest (fun i => low (i + 1)) j k y ↔ Spec.PanelError rel model (obs :: rest) low (j + 1) k y := by
  unfold Spec.PanelError
  constructor
  · rintro ⟨m, o, h1, h2, h3, h4⟩
    rw [combineMasked_model n model obs (low 0) hlow] at h1
    refine ⟨m, o, h1.1, ?_, by simpa using h3, h4⟩
    intro i hi x hx
    cases i with
    | zero => cases hx; exact h1.2
    | succ i => exact h2 i (by omega) x (by simpa using hx)
  · rintro ⟨m, o, h1, h2, h3, h4⟩
    refine ⟨m, o, (combineMasked_model n model obs (low 0) hlow k m).2 ⟨h1, h2 0 (by omega) obs rfl⟩, ?_, by simpa using h3, h4⟩
    intro i hi x hx
    exact h2 (i + 1) (by omega) x (by simpa using hx)

/-- **C156.** The figures of errors. The panel of each variable shows the error of the model where the model and this variable, and *all variables
before it*, have values and that of the model is not below the lowest of any of them; and the panels end at the first one without a value. -/
theorem C156_error_panels (rel : Bool) (n : ℕ) (model : ℕ → Option α) (os : List (ℕ → Option α)) (low : ℕ → α)
    (hlow : ∀ (i : ℕ) (o : ℕ → Option α), os[i]? = some o → Spec.IsSmallest n o (low i)) :
    (∀ (j : ℕ) (e : ℕ → Option α), (errorPanels rel n model os)[j]? = some e → ∀ k y, e k = some y ↔ Spec.PanelError rel model os low j k y) ∧
    ∀ j : ℕ, j < (errorPanels rel n model os).length ↔ j < os.length ∧ ∀ i ≤ j, ∃ k < n, ∃ y, Spec.PanelError rel model os low i k y := by
  induction os generalizing model low with
  | nil => simp [errorPanels]
  | cons obs rest ih =>
    have h0 := hlow 0 obs rfl
    obtain ⟨ih1, ih2⟩ := ih (combineMasked n model obs).1 (fun i => low (i + 1)) (fun i o ho => hlow (i + 1) o (by simpa using ho))
    have hzero := panelError_zero rel n model obs rest low h0
    have hsucc := panelError_succ rel n model obs rest low h0
    have hall : ((List.range n).all fun k => ((if rel then relativeError n model obs else absoluteError n model obs) k).isNone) = true ↔
        ¬ ∃ k < n, ∃ y, Spec.PanelError rel model (obs :: rest) low 0 k y := by
      rw [List.all_eq_true]
      constructor
      · rintro h ⟨k, hk, y, hy⟩
        have := h k (List.mem_range.2 hk)
        rw [(hzero k y).2 hy] at this
        cases this
      · intro h k hk
        cases he : (if rel then relativeError n model obs else absoluteError n model obs) k with
        | none => rfl
        | some y => exact absurd ⟨k, List.mem_range.1 hk, y, (hzero k y).1 he⟩ h
    rw [errorPanels]
    by_cases hno : ((List.range n).all fun k => ((if rel then relativeError n model obs else absoluteError n model obs) k).isNone) = true
    · rw [if_pos hno]
      refine ⟨fun j e he => by simp at he, fun j => ?_⟩
      simp only [List.length_nil, not_lt_zero, false_iff]
      rintro ⟨-, h⟩
      exact hall.1 hno (h 0 (by omega))
    · rw [if_neg hno]
      have hyes := not_not.1 (fun h => hno (hall.2 h))
      constructor
      · intro j e he k y
        cases j with
        | zero => cases he; exact hzero k y
        | succ j => rw [ih1 j e (by simpa using he) k y, hsucc]
      · intro j
        cases j with
        | zero =>
          simp only [List.length_cons, Nat.zero_lt_succ, true_and, true_iff]
          intro i hi
          obtain rfl : i = 0 := by omega
          exact hyes
        | succ j =>
          rw [List.length_cons, List.length_cons, Nat.succ_lt_succ_iff, Nat.succ_lt_succ_iff, ih2]
          refine and_congr_right fun _ => ?_
          constructor
          · intro h i hi
            cases i with
            | zero => exact hyes
            | succ i =>
              obtain ⟨k, hk, y, hy⟩ := h i (by omega)
              exact ⟨k, hk, y, (hsucc i k y).1 hy⟩
          · intro h i hi
            obtain ⟨k, hk, y, hy⟩ := h (i + 1) (by omega)
            exact ⟨k, hk, y, (hsucc i k y).2 hy⟩

theorem modelAbove_iff (n : ℕ) (model obs : ℕ → Option α) (low : α) (hlow : Spec.IsSmallest n obs low) (k : ℕ) (m : α) :
    modelAbove n model obs k = some m ↔ model k = some m ∧ low ≤ m := by
  unfold modelAbove
  rw [minKnown_spec n obs low hlow]
  cases hm : model k with
  | none => simp
  | some v =>
    by_cases h : v < low
    · simp only [Option.bind_some, if_pos h, reduceCtorEq, false_iff]
      rintro ⟨e, e2⟩
      cases e
      exact absurd h (not_lt.2 e2)
    · simp only [Option.bind_some, if_neg h, Option.some.injEq]
      exact ⟨fun e => by subst e; exact ⟨rfl, not_lt.1 h⟩, fun e => e.1⟩

/-- **C156.** The figures of common areas: there is a panel for each variable. A pixel is in the area of the model if the value of the model is not
below the lowest of this variable and *of all variables before it*, in the area of the variable if that has a value; the percentage is that of the
pixels in both areas of those in any. -/
theorem C156_area_panels (n : ℕ) (model : ℕ → Option α) (os : List (ℕ → Option α)) (low : ℕ → α)
    (hlow : ∀ (i : ℕ) (o : ℕ → Option α), os[i]? = some o → Spec.IsSmallest n o (low i)) :
    (areaPanels n model os).length = os.length ∧
    ∀ (j : ℕ) (p : α × (ℕ → ℕ)) (obs : ℕ → Option α) (M O : Finset ℕ), (areaPanels n model os)[j]? = some p → os[j]? = some obs →
      (∀ k, k ∈ M ↔ k < n ∧ ∃ m, model k = some m ∧ ∀ i ≤ j, low i ≤ m) → (∀ k, k ∈ O ↔ k < n ∧ ∃ o, obs k = some o) →
      p.1 * ((M ∪ O).card : α) = 100 * ((M ∩ O).card : α) ∧ (p.1 = 100 ↔ M = O) ∧
      ∀ k < n, p.2 k = if k ∈ M then (if k ∈ O then 2 else 1) else if k ∈ O then 3 else 0 := by
  induction os generalizing model low with
  | nil => simp [areaPanels]
  | cons ob rest ih =>
    have h0 := hlow 0 ob rfl
    obtain ⟨ih1, ih2⟩ := ih (modelAbove n model ob) (fun i => low (i + 1)) (fun i o ho => hlow (i + 1) o (by simpa using ho))
    rw [areaPanels]
    refine ⟨by simp [ih1], ?_⟩
    intro j p obs M O hp hobs hM hO
    cases j with
    | zero =>
      cases hp
      cases hobs
      have hM' : ∀ k, k ∈ M ↔ k < n ∧ ∃ m, model k = some m ∧ low 0 ≤ m := by
        intro k
        rw [hM]
        refine and_congr_right fun _ => exists_congr fun m => and_congr_right fun _ => ?_
        exact ⟨fun h => h 0 le_rfl, fun h i hi => by obtain rfl : i = 0 := by omega
                                                     exact h⟩
      obtain ⟨c1, -, -, c2⟩ := C96_common_area n model ob (low 0) h0 M O hM' hO
      refine ⟨c1, c2, fun k hk => ?_⟩
      obtain ⟨s0, s1, s2, s3⟩ := C156_classes (modelAbove n model ob k) (ob k)
      have hkM : k ∈ M ↔ modelAbove n model ob k ≠ none := by
        rw [hM', Option.ne_none_iff_exists']
        simp only [hk, true_and, modelAbove_iff n model ob (low 0) h0]
      have hkO : k ∈ O ↔ ob k ≠ none := by
        rw [hO, Option.ne_none_iff_exists']
        simp only [hk, true_and]
      dsimp only
      split_ifs with a b b
      · exact s2.2 ⟨hkM.1 a, hkO.1 b⟩
      · exact s1.2 ⟨hkM.1 a, not_not.1 fun h => b (hkO.2 h)⟩
      · exact s3.2 ⟨not_not.1 fun h => a (hkM.2 h), hkO.1 b⟩
      · exact s0.2 ⟨not_not.1 fun h => a (hkM.2 h), not_not.1 fun h => b (hkO.2 h)⟩
    | succ j =>
      refine ih2 j p obs M O (by simpa using hp) (by simpa using hobs) ?_ hO
      intro k
      rw [hM]
      refine and_congr_right fun _ => exists_congr fun m => ?_
      rw [modelAbove_iff n model ob (low 0) h0, and_assoc]
      refine and_congr_right fun _ => ?_
      constructor
      · exact fun h => ⟨h 0 (by omega), fun i hi => h (i + 1) (by omega)⟩
      · rintro ⟨a, b⟩ i hi
        cases i with
        | zero => exact a
        | succ i => exact b i (by omega)

end

/-- Three pixels with model data, two variables. -/
def exModelPixels : ℕ → Option ℚ := fun k => [some 1, some 2, some 4][k]?.join
/-- A variable with values in the last two pixels. -/
def exObsA : ℕ → Option ℚ := fun k => [none, some 3, some 3][k]?.join
/-- A variable with values in all pixels. -/
def exObsB : ℕ → Option ℚ := fun k => [some 1, some 1, some 2][k]?.join
/-- A variable with a value in the first pixel only. -/
def exObsC : ℕ → Option ℚ := fun k => [some 1, none, none][k]?.join

/-- Both figures of the example; the hypotheses of the theorems hold. -/
example : ((errorPanels true 3 exModelPixels [exObsB, exObsA]).map fun e => (List.range 3).map e) = [[some 0, some 100, some 100], [none, none, some (100 / 3)]] ∧
    ((areaPanels 3 exModelPixels [exObsA, exObsB]).map fun e => (e.1, (List.range 3).map e.2)) = [(50, [0, 3, 2]), (100 / 3, [3, 3, 2])] := by
  decide +kernel

example : Spec.IsSmallest 3 exObsA 3 ∧ Spec.IsSmallest 3 exObsB 1 ∧ Spec.IsSmallest 3 exObsC 1 := by
  refine ⟨⟨⟨1, by omega, rfl⟩, ?_⟩, ⟨⟨0, by omega, rfl⟩, ?_⟩, ⟨⟨0, by omega, rfl⟩, ?_⟩⟩ <;>
    (intro k hk v hv; interval_cases k <;> simp [exObsA, exObsB, exObsC] at hv <;> (try subst hv) <;> norm_num)

/-- **C156**, findings: the error (and the common area) of the same variable with the same model is another one if another variable is drawn before
it: the pixels where the variable before it has no value are lost. A variable without common pixels also removes the panels of the variables after
it. -/
theorem C156_order :
    ((errorPanels true 3 exModelPixels [exObsB]).map fun e => (List.range 3).map e) = [[some 0, some 100, some 100]] ∧
    ((errorPanels true 3 exModelPixels [exObsA, exObsB]).map fun e => (List.range 3).map e) = [[none, none, some (100 / 3)], [none, none, some 100]] ∧
    (errorPanels true 3 exModelPixels [exObsA, exObsC, exObsB]).length = 1 ∧
    (areaPanels 3 exModelPixels [exObsB]).map Prod.fst = [100] ∧ (areaPanels 3 exModelPixels [exObsA, exObsB]).map Prod.fst = [50, 100 / 3] := by
  decide +kernel

section
variable {α : Type} [Field α] [LinearOrder α] [IsStrictOrderedRing α]

/-- **C156.** Without any model data there are no panels of statistics. -/
theorem C156_no_model {β : Type} (panels : (ℕ → Option α) → List (ℕ → Option α) → List β) (n : ℕ) (model : ℕ → Option α) (os : List (ℕ → Option α)) :
    ((∀ k < n, model k = none) → statisticPanels panels n model os = []) ∧
    ((∃ k < n, model k ≠ none) → statisticPanels panels n model os = panels model os) := by
  unfold statisticPanels
  have : ((List.range n).all fun k => (model k).isNone) = true ↔ ∀ k < n, model k = none := by
    rw [List.all_eq_true]; simp
  constructor
  · intro h; rw [if_pos (this.2 h)]
  · rintro ⟨k, hk, h⟩; rw [if_neg (fun e => h (this.1 e k hk))]

end

/-- **C156.** Values of an image are shown in degrees Celsius if that is the label, as decimal logarithms on a logarithmic scale, and only from the
lower end of the scale. -/
theorem C156_image (celsius logScale : Bool) (vmin : ℝ) (x : Option ℝ) (y : ℝ) (hmin : logScale = true → 0 < vmin) :
    meshValue celsius logScale vmin x = some y ↔ ∃ v w, x = some v ∧ w = (if celsius = true then v - 273.15 else v) ∧ vmin ≤ w ∧
      y = if logScale = true then Real.log w / Real.log 10 else w := by
  have hc : (if celsius = true then x.map fun v => v - 27315 / 100 else x) = x.map fun v => if celsius = true then v - 273.15 else v := by
    cases celsius
    · simp
    · norm_num
  unfold meshValue
  simp only
  rw [hc]
  cases x with
  | none => cases logScale <;> simp
  | some v =>
    set w := (if celsius = true then v - 273.15 else v) with hw
    cases logScale with
    | false =>
      simp only [Option.map_some, Bool.false_eq_true, if_false, Option.bind_some, Option.some.injEq, exists_and_left, exists_eq_left']
      rw [← hw]
      by_cases h : w < vmin
      · rw [if_pos h]
        simp [not_le.2 h]
      · rw [if_neg h]
        simp only [Option.some.injEq, exists_eq_left]
        exact ⟨fun e => ⟨not_lt.1 h, e.symm⟩, fun e => e.2.symm⟩
    | true =>
      have h0 := hmin rfl
      simp only [Option.map_some, if_true, Option.bind_some, Option.some.injEq, exists_and_left, exists_eq_left']
      rw [← hw]
      by_cases hpos : 0 < w
      · rw [if_pos hpos]
        simp only [Option.bind_some, exists_eq_left]
        have hlt : Real.logb 10 w < Real.logb 10 vmin ↔ w < vmin := Real.logb_lt_logb_iff (by norm_num) hpos h0
        by_cases h : w < vmin
        · rw [if_pos (hlt.2 h)]; simp [not_le.2 h]
        · rw [if_neg (fun e => h (hlt.1 e))]
          simp only [Option.some.injEq]
          exact ⟨fun e => ⟨not_lt.1 h, e.symm⟩, fun e => e.2.symm⟩
      · rw [if_neg hpos]
        simp only [Option.bind_none, exists_eq_left, reduceCtorEq, false_iff]
        rintro ⟨h, -⟩
        exact hpos (lt_of_lt_of_le h0 h)

end Cloudnet
