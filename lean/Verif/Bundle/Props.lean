import Verif.Bundle.Model
import Verif.Concat.Props
import Verif.Geo.Props
import Mathlib.Tactic

/-! Properties C138 (daily files), and shortened and joined files. -/

set_option linter.unusedSectionVars false
set_option linter.unusedVariables false
set_option linter.unusedSimpArgs false

namespace Cloudnet

namespace Spec

/-- The date after a date of the calendar. -/
inductive NextDay : CivilDate → CivilDate → Prop where
  | day (y m d : ℤ) : IsDate y m d → IsDate y m (d + 1) → NextDay ⟨y, m, d⟩ ⟨y, m, d + 1⟩
  | month (y m d : ℤ) : IsDate y m d → ¬ IsDate y m (d + 1) → m < 12 → NextDay ⟨y, m, d⟩ ⟨y, m + 1, 1⟩
  | year (y d : ℤ) : IsDate y 12 d → ¬ IsDate y 12 (d + 1) → NextDay ⟨y, 12, d⟩ ⟨y + 1, 1, 1⟩

/-- The file has a time, in seconds since the date of its units, that is on the date `ordinal`. -/
def HasTimeOn {α : Type} [Field α] [LinearOrder α] (int : String → Option ℤ) (currentYear : ℤ) (ordinal : ℤ) (f : BundleFile α) : Prop :=
  ∃ units times epoch t, f.time = some (units, times) ∧ getEpoch int currentYear units = .ok epoch ∧ t ∈ times ∧
    (ordinal : α) * 86400 ≤ (dateOrdinal epoch : α) * 86400 + t ∧ (dateOrdinal epoch : α) * 86400 + t < ((ordinal : α) + 1) * 86400

/-- The file can be opened but has no usable time units. -/
def BadTime {α : Type} (int : String → Option ℤ) (currentYear : ℤ) (f : Option (BundleFile α)) : Prop :=
  ∃ c, f = some c ∧ ∀ units times, c.time = some (units, times) → ∃ e, getEpoch int currentYear units = .error e

end Spec

theorem isDate_iff (y m d : ℤ) : Spec.IsDate y m d ↔ 1 ≤ y ∧ y ≤ 9999 ∧ 1 ≤ m ∧ m ≤ 12 ∧ 1 ≤ d ∧ d ≤ daysInMonth y m := by
  have h := civilDate_iff y m d ⟨y, m, d⟩
  unfold civilDate at h
  by_cases hc : 1 ≤ y ∧ y ≤ 9999 ∧ 1 ≤ m ∧ m ≤ 12 ∧ 1 ≤ d ∧ d ≤ daysInMonth y m
  · rw [if_pos hc] at h
    exact iff_of_true (h.1 rfl).1 hc
  · rw [if_neg hc] at h
    exact iff_of_false (fun hd => by simpa using h.2 ⟨hd, rfl⟩) hc

/-- **C138.** Dates are numbered one after another: 1 January of the year 1 is 1 and the number of the next day of the calendar is one
more. -/
theorem C138_ordinal : dateOrdinal ⟨1, 1, 1⟩ = 1 ∧ ∀ a b, Spec.NextDay a b → dateOrdinal b = dateOrdinal a + 1 := by
  refine ⟨by decide +kernel, ?_⟩
  intro a b h
  cases h with
  | day y m d h1 h2 => unfold dateOrdinal; ring
  | month y m d h1 h2 hm =>
    rw [isDate_iff] at h1 h2
    have hd : d = daysInMonth y m := by omega
    unfold dateOrdinal
    dsimp only
    obtain ⟨k, hk⟩ : ∃ k : ℕ, m = k + 1 := ⟨(m - 1).toNat, by omega⟩
    subst hk
    rw [show ((k : ℤ) + 1 + 1 - 1).toNat = k + 1 by omega, show ((k : ℤ) + 1 - 1).toNat = k by omega, List.range_succ, List.map_append,
      List.sum_append, hd]
    simp only [List.map_cons, List.map_nil, List.sum_cons, List.sum_nil]
    ring
  | year y d h1 h2 =>
    rw [isDate_iff] at h1 h2
    have hd : d = daysInMonth y 12 := by omega
    have h12 : daysInMonth y 12 = 31 := rfl
    rw [h12] at hd
    unfold dateOrdinal
    dsimp only
    have e : (List.range ((12 : ℤ) - 1).toNat) = [0, 1, 2, 3, 4, 5, 6, 7, 8, 9, 10] := by decide
    rw [e, hd]
    have e2 : (List.range ((1 : ℤ) - 1).toNat) = [] := by decide
    rw [e2]
    simp only [List.map_cons, List.map_nil, List.sum_cons, List.sum_nil, daysInMonth]
    norm_num
    by_cases hl : 4 ∣ y ∧ (¬ 100 ∣ y ∨ 400 ∣ y)
    · rw [if_pos hl]; omega
    · rw [if_neg hl]; omega

section
variable {α : Type} [Field α] [LinearOrder α] [IsStrictOrderedRing α] [FloorRing α]

theorem bundleTakes_iff (int : String → Option ℤ) (currentYear : ℤ) (date : CivilDate) (f : Option (BundleFile α)) :
    (bundleTakes int currentYear date f = .ok true ↔ ∃ c, f = some c ∧ Spec.HasTimeOn int currentYear (dateOrdinal date) c) ∧
    ((∃ e, bundleTakes int currentYear date f = .error e) ↔ Spec.BadTime int currentYear f) := by
  have hday : ∀ e t : α, dateOf e t = dateOrdinal date ↔ (dateOrdinal date : α) * 86400 ≤ e + t ∧ e + t < ((dateOrdinal date : α) + 1) * 86400 := by
    intro e t
    unfold dateOf
    rw [Int.floor_eq_iff, le_div_iff₀ (by norm_num), div_lt_iff₀ (by norm_num)]
  unfold bundleTakes Spec.HasTimeOn Spec.BadTime
  cases f with
  | none => simp
  | some c =>
    cases ht : c.time with
    | none => simp [ht]
    | some p =>
      obtain ⟨units, times⟩ := p
      cases he : getEpoch int currentYear units with
      | error e => simp [ht, he, Except.map]
      | ok epoch => simp [ht, he, Except.map, hday]

theorem bundleSelect_ok {ν : Type} (int : String → Option ℤ) (currentYear : ℤ) (date : CivilDate) (files : List (ν × Option (BundleFile α))) :
    ((∃ e, bundleSelect int currentYear date files = .error e) ↔ ∃ f ∈ files, Spec.BadTime int currentYear f.2) ∧
    ∀ valid, bundleSelect int currentYear date files = .ok valid →
      (valid.map fun v => (v.1, some v.2)).Sublist files ∧
      ∀ name c, (name, c) ∈ valid ↔ (name, some c) ∈ files ∧ Spec.HasTimeOn int currentYear (dateOrdinal date) c := by
  induction files with
  | nil => simp [bundleSelect]
  | cons f l ih =>
    obtain ⟨ih1, ih2⟩ := ih
    obtain ⟨t1, t2⟩ := bundleTakes_iff int currentYear date f.2
    simp only [bundleSelect]
    cases ht : bundleTakes int currentYear date f.2 with
    | error e =>
      rw [ht] at t2
      refine ⟨iff_of_true ⟨e, rfl⟩ ⟨f, by simp, t2.1 ⟨e, rfl⟩⟩, ?_⟩
      intro v hv; cases hv
    | ok b =>
      have nb : ¬ Spec.BadTime int currentYear f.2 := fun h => by
        rw [ht] at t2
        obtain ⟨e, he⟩ := t2.2 h
        cases he
      cases hs : bundleSelect int currentYear date l with
      | error e =>
        rw [hs] at ih1
        obtain ⟨g, hg, hb⟩ := ih1.1 ⟨e, rfl⟩
        refine ⟨iff_of_true ⟨e, rfl⟩ ⟨g, by simp [hg], hb⟩, ?_⟩
        intro v hv; cases hv
      | ok r =>
        rw [hs] at ih1 ih2
        obtain ⟨i1, i2⟩ := ih2 r rfl
        refine ⟨iff_of_false (by rintro ⟨e, he⟩; cases he) ?_, ?_⟩
        · rintro ⟨g, hg, hb⟩
          rcases List.mem_cons.1 hg with rfl | hg
          · exact nb hb
          · obtain ⟨e, he⟩ := ih1.2 ⟨g, hg, hb⟩; cases he
        · intro valid hv
          simp only [Except.bind, Except.map, Except.ok.injEq] at hv
          subst hv
          obtain ⟨name, c⟩ := f
          cases c with
          | none =>
            simp only [bundleAdd]
            exact ⟨i1.cons _, fun n c => by rw [i2]; simp⟩
          | some c =>
            simp only [bundleAdd]
            cases b with
            | true =>
              simp only [if_true]
              have hc : Spec.HasTimeOn int currentYear (dateOrdinal date) c := by
                obtain ⟨c', e, h⟩ := t1.1 ht
                cases e
                exact h
              refine ⟨i1.cons₂ _, fun n c' => ?_⟩
              simp only [List.mem_cons, i2, Prod.mk.injEq, Option.some.injEq]
              constructor
              · rintro (⟨rfl, rfl⟩ | ⟨h1, h2⟩)
                · exact ⟨Or.inl ⟨rfl, rfl⟩, hc⟩
                · exact ⟨Or.inr h1, h2⟩
              · rintro ⟨⟨rfl, rfl⟩ | h1, h2⟩
                · exact Or.inl ⟨rfl, rfl⟩
                · exact Or.inr ⟨h1, h2⟩
            | false =>
              simp only [Bool.false_eq_true, if_false]
              have hc : ¬ Spec.HasTimeOn int currentYear (dateOrdinal date) c := fun h => by
                have := t1.2 ⟨c, rfl, h⟩
                rw [ht] at this
                cases this
              refine ⟨i1.cons _, fun n c' => ?_⟩
              simp only [List.mem_cons, i2, Prod.mk.injEq, Option.some.injEq]
              constructor
              · rintro ⟨h1, h2⟩
                exact ⟨Or.inr h1, h2⟩
              · rintro ⟨⟨rfl, rfl⟩ | h1, h2⟩
                · exact absurd h2 hc
                · exact ⟨h1, h2⟩

variable {ν : Type} [LinearOrder ν] (int : String → Option ℤ) (currentYear : ℤ) (dimensions : List String) (keep : Option (List String))
  (date : CivilDate)

/-- **C138, a finding.** A single file is copied, whatever the dates of its times are. -/
theorem C138_single (name : ν) (f : BundleFile α) (h : ∃ d ∈ dimensions, d ∈ f.dimensions) :
    bundleFiles int currentYear dimensions keep date [(name, some f)] = .ok (.copy f, [name]) := by
  unfold bundleFiles
  cases hd : dimensions.find? fun d => decide (d ∈ f.dimensions) with
  | none =>
    rw [List.find?_eq_none] at hd
    obtain ⟨d, h1, h2⟩ := h
    exact absurd (hd d h1) (by simpa using h2)
  | some d => simp [hd]

/-- **C138.** Of two or more files, those that can be opened and have a time on the date are returned, in the order given; they are joined
along the first of the dimensions that the first file has, without the ignored variables. -/
theorem C138_joined (files : List (ν × Option (BundleFile α))) (h2 : 2 ≤ files.length) (out : BundleOutput α) (names : List ν)
    (h : bundleFiles int currentYear dimensions keep date files = .ok (out, names)) :
    ∃ (used : List (ν × BundleFile α)) (first : BundleFile α) (before after : List String) (d : String) (content : NcFile α) (joined : List ν),
      names = used.map Prod.fst ∧ (used.map fun v => (v.1, some v.2)).Sublist files ∧
      (∀ name c, (name, c) ∈ used ↔ (name, some c) ∈ files ∧ Spec.HasTimeOn int currentYear (dateOrdinal date) c) ∧
      (files.map Prod.snd).head? = some (some first) ∧ dimensions = before ++ d :: after ∧ d ∈ first.dimensions ∧
      (∀ e ∈ before, e ∉ first.dimensions) ∧ out = .joined d content ∧
      concatenateFiles (used.map fun v => (v.1, v.2.content)) keep
        ["minimum", "maximum", "number_integrated_samples", "Min_LWP", "Max_LWP"] = .ok (content, joined) := by
  match files, h2 with
  | (n0, f0) :: g :: rest, _ =>
    unfold bundleFiles at h
    cases f0 with
    | none => cases h
    | some first =>
      dsimp only at h
      cases hd : dimensions.find? fun d => decide (d ∈ first.dimensions) with
      | none => rw [hd] at h; cases h
      | some d =>
        rw [hd] at h
        dsimp only at h
        rw [if_neg (by simp)] at h
        cases hs : bundleSelect int currentYear date ((n0, some first) :: g :: rest) with
        | error e => rw [hs] at h; cases h
        | ok used =>
          rw [hs] at h
          simp only [Except.bind] at h
          cases hc : concatenateFiles (used.map fun v => (v.1, v.2.content)) keep bundleIgnore with
          | error e => rw [hc] at h; cases h
          | ok r =>
            rw [hc] at h
            cases h
            obtain ⟨s1, s2⟩ := (bundleSelect_ok int currentYear date _).2 used hs
            obtain ⟨hp, before, after, e1, e2⟩ := List.find?_eq_some_iff_append.1 hd
            exact ⟨used, first, before, after, d, r.1, r.2, rfl, s1, s2, rfl, e1, by simpa using hp, by simpa using e2, rfl, hc⟩

/-- **C138.** Two or more files cannot be joined if and only if the first one cannot be opened or has none of the dimensions, some file
has no usable time, or no file with a time on the date has records and less than 10000 gates. -/
theorem C138_fails (files : List (ν × Option (BundleFile α))) (h2 : 2 ≤ files.length)
    (hread : ∀ name c, (name, some c) ∈ files → Spec.Readable c.content) (hnd : ∀ name c, (name, some c) ∈ files → (c.content.vars.map (·.1)).Nodup) :
    (∃ e, bundleFiles int currentYear dimensions keep date files = .error e) ↔
      (files.map Prod.snd).head? = some none ∨
      (∃ first, (files.map Prod.snd).head? = some (some first) ∧ ∀ d ∈ dimensions, d ∉ first.dimensions) ∨
      (∃ f ∈ files, Spec.BadTime int currentYear f.2) ∨
      ∀ name c, (name, some c) ∈ files → Spec.HasTimeOn int currentYear (dateOrdinal date) c →
        ¬ (0 < c.content.n ∧ c.content.rangeValues.length < 10000) := by
  match files, h2 with
  | (n0, f0) :: g :: rest, _ =>
    unfold bundleFiles
    cases f0 with
    | none => exact iff_of_true ⟨_, rfl⟩ (Or.inl rfl)
    | some first =>
      dsimp only
      cases hd : dimensions.find? fun d => decide (d ∈ first.dimensions) with
      | none =>
        rw [List.find?_eq_none] at hd
        exact iff_of_true ⟨_, rfl⟩ (Or.inr (Or.inl ⟨first, rfl, by simpa using hd⟩))
      | some d =>
        have hmem : d ∈ dimensions ∧ d ∈ first.dimensions := ⟨List.mem_of_find?_eq_some hd, by simpa using List.find?_some hd⟩
        dsimp only
        rw [if_neg (by simp)]
        obtain ⟨b1, b2⟩ := bundleSelect_ok int currentYear date ((n0, some first) :: g :: rest)
        cases hs : bundleSelect int currentYear date ((n0, some first) :: g :: rest) with
        | error e =>
          rw [hs] at b1
          exact iff_of_true ⟨e, rfl⟩ (Or.inr (Or.inr (Or.inl (b1.1 ⟨e, rfl⟩))))
        | ok used =>
          rw [hs] at b1 b2
          obtain ⟨s1, s2⟩ := b2 used rfl
          have hc := (C39_concatenate (used.map fun v => (v.1, v.2.content)) keep bundleIgnore (by decide) (by
            intro f hf
            obtain ⟨⟨name, c⟩, hv, rfl⟩ := List.mem_map.1 hf
            exact hread name c ((s2 name c).1 hv).1) (by
            intro f hf
            obtain ⟨⟨name, c⟩, hv, rfl⟩ := List.mem_map.1 hf
            exact hnd name c ((s2 name c).1 hv).1)).1
          have hL : (∃ e, ((Except.ok used : Except String (List (ν × BundleFile α))).bind fun valid =>
              (concatenateFiles (valid.map fun v => (v.1, v.2.content)) keep bundleIgnore).map fun r =>
                ((.joined d r.1 : BundleOutput α), valid.map Prod.fst)) = .error e) ↔
              ∃ e, concatenateFiles (used.map fun v => (v.1, v.2.content)) keep bundleIgnore = .error e := by
            simp only [Except.bind]
            cases concatenateFiles (used.map fun v => (v.1, v.2.content)) keep bundleIgnore <;> simp [Except.map]
          rw [hL, hc]
          constructor
          · intro h
            refine Or.inr (Or.inr (Or.inr fun name c hm ht => h (name, c.content) (List.mem_map.2 ⟨(name, c), (s2 name c).2 ⟨hm, ht⟩, rfl⟩)))
          · rintro (h | ⟨f, hf, h⟩ | h | h)
            · cases h
            · cases hf
              exact absurd hmem.2 (h d hmem.1)
            · obtain ⟨e, he⟩ := b1.2 h
              cases he
            · intro f hf
              obtain ⟨⟨name, c⟩, hv, rfl⟩ := List.mem_map.1 hf
              obtain ⟨q1, q2⟩ := (s2 name c).1 hv
              exact h name c q1 q2

/-- **C138, a finding.** Times are counted in seconds, whatever unit is given: units that begin with another word select the same files. -/
theorem C138_units (unit unit' since y m d : List Char) (year month day : ℤ)
    (hu : unit ≠ [] ∧ ∀ x ∈ unit, x.isWhitespace = false) (hu' : unit' ≠ [] ∧ ∀ x ∈ unit', x.isWhitespace = false)
    (hs : since ≠ [] ∧ ∀ x ∈ since, x.isWhitespace = false)
    (hy : ∀ x ∈ y, x.isDigit = true) (hm : ∀ x ∈ m, x.isDigit = true) (hd : ∀ x ∈ d, x.isDigit = true)
    (iy : int (String.ofList y) = some year) (im : int (String.ofList m) = some month) (id : int (String.ofList d) = some day)
    (hdate : 1900 < year ∧ year ≤ currentYear ∧ Spec.IsDate year month day) (dims : List String) (times : List α) (content : NcFile α) :
    bundleTakes int currentYear date (some ⟨dims, some (String.ofList (unit ++ ' ' :: (since ++ ' ' :: (y ++ '-' :: (m ++ '-' :: (d ++ []))))), times), content⟩) =
      bundleTakes int currentYear date (some ⟨dims, some (String.ofList (unit' ++ ' ' :: (since ++ ' ' :: (y ++ '-' :: (m ++ '-' :: (d ++ []))))), times), content⟩) := by
  unfold bundleTakes
  simp only
  rw [C135_units int currentYear unit since y m d [] year month day hu hs hy hm hd iy im id (Or.inl rfl) hdate,
    C135_units int currentYear unit' since y m d [] year month day hu' hs hy hm hd iy im id (Or.inl rfl) hdate]

end

example : dateOrdinal ⟨2024, 2, 29⟩ = 738945 ∧ Spec.NextDay ⟨2024, 2, 29⟩ ⟨2024, 3, 1⟩ ∧ dateOrdinal ⟨2024, 3, 1⟩ = 738946 := by
  refine ⟨by decide +kernel, .month 2024 2 29 ?_ ?_ (by norm_num), by decide +kernel⟩
  · rw [isDate_iff]; decide
  · rw [isDate_iff]; decide

/-- **C138, a finding.** Four files are given: two with times on the date, one that cannot be opened, and one of another date. One of the
two has HDF errors and is left out of the output, but both are returned. -/
theorem C138_returned_not_used :
    ((bundleFiles exampleInt 2026 ["time", "profile"] none ⟨2024, 2, 29⟩
      [(1, some ⟨["time", "range"], some ("seconds since 2024-02-29", [0, 1]), exampleFileA⟩),
       (2, some ⟨["time", "range"], some ("seconds since 2024-02-29", [7]), { exampleFileB with broken := ["Zh"] }⟩),
       (3, none),
       (4, some ⟨["time", "range"], some ("seconds since 2024-02-28", [7]), exampleFileB⟩)]).map fun r => r.2) = .ok [1, 2] ∧
    (concatenateFiles [(1, exampleFileA), (2, { exampleFileB with broken := ["Zh"] })] none bundleIgnore).map (fun r => r.2) =
      .ok [1] := by decide +kernel

/-! ### Shortened files -/

/-- **C138.** Variables of one or two dimensions along the shortened one get their first records, other variables are copied if the name is
not part of the name of their first dimension. **Findings:** variables of three dimensions along it lose all data; a limited dimension
whose name contains the other one (`time_2`) makes the program fail. -/
theorem C138_truncate {β : Type} (dimName : String) (n : ℕ) (rows : List β) :
    (∀ dims, dims.length ≤ 1 → truncateVar dimName n ⟨dimName :: dims, rows⟩ = .ok (some (rows.take n))) ∧
    (∀ dims, 2 ≤ dims.length → truncateVar dimName n ⟨dimName :: dims, rows⟩ = .ok none) ∧
    truncateVar dimName n ⟨[], rows⟩ = .ok (some rows) ∧
    (∀ d dims, ¬ (∃ a b, d = a ++ dimName ++ b) → truncateVar dimName n ⟨d :: dims, rows⟩ = .ok (some rows)) ∧
    ∀ a b dims, a ++ dimName ++ b ≠ dimName → dims.length ≤ 1 → n < rows.length →
      ∃ e, truncateVar dimName n ⟨(a ++ dimName ++ b) :: dims, rows⟩ = .error e := by
  have hself : dimName.toList <:+: dimName.toList := List.infix_refl _
  refine ⟨fun dims h => ?_, fun dims h => ?_, rfl, fun d dims h => ?_, fun a b dims h1 h2 h3 => ?_⟩
  · unfold truncateVar
    simp only [if_pos hself, if_pos h]
    rw [if_neg (by simp)]
  · unfold truncateVar
    simp only [if_pos hself]
    rw [if_neg (by omega)]
  · unfold truncateVar
    simp only
    rw [if_neg]
    rintro ⟨a, b, e⟩
    exact h ⟨String.ofList a, String.ofList b, String.ext (by simpa using e.symm)⟩
  · unfold truncateVar
    have : dimName.toList <:+: (a ++ dimName ++ b).toList := ⟨a.toList, b.toList, by simp⟩
    simp only [if_pos this, if_pos h2]
    rw [if_pos ⟨h1, by rw [List.length_take]; omega⟩]
    exact ⟨_, rfl⟩

/-- **C138.** Text files are joined byte by byte; if one cannot be read, the output has what was before it. -/
theorem C138_text (before after : List (List UInt8)) (rest : List (Option (List UInt8))) :
    concatenateText (before.map some) = (before.flatten, true) ∧
    concatenateText (before.map some ++ none :: rest) = (before.flatten, false) := by
  constructor
  · induction before with
    | nil => rfl
    | cons b l ih => simp [concatenateText, ih]
  · induction before with
    | nil => rfl
    | cons b l ih => simp [concatenateText, ih]

end Cloudnet
