import Verif.Times.Model
import Verif.Interp.Props
import Mathlib.Data.List.Nodup

/-!
Properties C37 (valid time indices, screening by date) and C38 (duplicate removal and sorting of time
stamps).
-/

set_option linter.unusedSectionVars false
set_option linter.unusedSimpArgs false

namespace Cloudnet

theorem mapM_ok {β γ : Type} (f : β → Except String γ) (g : β → γ) (l : List β)
    (h : ∀ x ∈ l, f x = .ok (g x)) : l.mapM f = .ok (l.map g) := by
  induction l with
  | nil => rfl
  | cons a l ih =>
    rw [List.mapM_cons, h a (by simp), ih (fun x hx => h x (by simp [hx]))]
    rfl

theorem take_idx {β : Type} (ind : List ℕ) (xs : List β) (h : ∀ i ∈ ind, i < xs.length) :
    (Selector.idx ind).take xs = .ok (ind.filterMap fun i => xs[i]?) := by
  unfold Selector.take
  simp only
  rw [if_pos]
  simpa using h

variable {α : Type} [Field α] [LinearOrder α] [IsStrictOrderedRing α]

namespace Spec

/-- The records number `ind` of a list. -/
def records {β : Type} (ind : List ℕ) (xs : List β) : List β := ind.filterMap fun i => xs[i]?

/-- A stored array after keeping the records `ind` along a time axis of length `n`: arrays of one to
three dimensions whose first axis has length `n` keep exactly these records, everything else is
unchanged. -/
def keepRecords (n : ℕ) (ind : List ℕ) : NdArray α → NdArray α
  | .d0 x => .d0 x
  | .d1 xs => .d1 (if xs.length = n then records ind xs else xs)
  | .d2 xs => .d2 (if xs.length = n then records ind xs else xs)
  | .d3 xs => .d3 (if xs.length = n then records ind xs else xs)
  | .dn xs => .dn xs

/-- `ind` could have been returned by `argsort`: a rearrangement of all positions that puts the values in
non-decreasing order. -/
def IsArgsort (ts : List α) (ind : List ℕ) : Prop :=
  ind.Perm (List.range ts.length) ∧ ind.Pairwise fun i j => vec ts i ≤ vec ts j

end Spec

theorem records_vec (ind : List ℕ) (ts : List α) (h : ∀ i ∈ ind, i < ts.length) :
    Spec.records ind ts = ind.map (vec ts) := by
  unfold Spec.records
  induction ind with
  | nil => rfl
  | cons a l ih =>
    have ha : a < ts.length := h a (by simp)
    rw [List.filterMap_cons, List.getElem?_eq_getElem ha, List.map_cons,
      ih (fun i hi => h i (by simp [hi]))]
    simp only [vec, List.getD_eq_getElem _ _ ha]

theorem records_length {β : Type} (ind : List ℕ) (xs : List β) (h : ∀ i ∈ ind, i < xs.length) :
    (Spec.records ind xs).length = ind.length := by
  unfold Spec.records
  induction ind with
  | nil => rfl
  | cons a l ih =>
    rw [List.filterMap_cons, List.getElem?_eq_getElem (h a (by simp)), List.length_cons,
      List.length_cons, ih (fun i hi => h i (by simp [hi]))]

theorem select_idx (ind : List ℕ) (a : NdArray α) (n : ℕ) (hn : a.len? = some n)
    (h : ∀ i ∈ ind, i < n) : a.select (.idx ind) = .ok (Spec.keepRecords n ind a) := by
  cases a <;> simp only [NdArray.len?, Option.some.injEq, reduceCtorEq] at hn <;>
    simp only [NdArray.select, Spec.keepRecords, hn, if_true]
  all_goals
    rw [take_idx _ _ (by rw [hn]; exact h)]
    rfl

theorem keepRecords_other (ind : List ℕ) (a : NdArray α) (n : ℕ) (hn : a.len? ≠ some n) :
    Spec.keepRecords n ind a = a := by
  cases a <;> simp only [NdArray.len?, Option.some.injEq, ne_eq] at hn <;>
    simp only [Spec.keepRecords, hn, if_false]

/-- Screening by a list of existing positions. -/
theorem screenTimeIndices_idx (d : Instrument α) (ind : List ℕ) (n : ℕ) (hn : d.getTime.length = n)
    (h2 : 2 ≤ n) (ht : d.time = [] ∨ d.time.length = n) (hne : ind ≠ []) (h : ∀ i ∈ ind, i < n) :
    d.screenTimeIndices (.idx ind) =
      .ok { data := d.data.map fun kv => (kv.1, Spec.keepRecords n ind kv.2),
            time := Spec.records ind d.time } := by
  have hm := mapM_ok (fun kv : String × NdArray α => do
      let a ← if kv.2.followsTime n then kv.2.select (.idx ind) else pure kv.2
      pure (kv.1, a)) (fun kv => (kv.1, Spec.keepRecords n ind kv.2)) d.data (by
    intro kv _
    by_cases hl : kv.2.len? = some n
    · have hf : kv.2.followsTime n = true := by
        unfold NdArray.followsTime
        rw [hl]
        simp only [beq_self_eq_true, Bool.and_true, bne_iff_ne, ne_eq]
        omega
      simp only [hf, if_true, select_idx ind kv.2 n hl h]
      rfl
    · have hf : kv.2.followsTime n = false := by
        unfold NdArray.followsTime
        cases hl' : kv.2.len? with
        | none => rfl
        | some m =>
          simp only
          have : m ≠ n := fun he => hl (by rw [hl', he])
          simp [this]
      rw [hf, keepRecords_other ind kv.2 n hl]
      rfl)
  unfold Instrument.screenTimeIndices
  have he : (Selector.idx ind).isEmpty n = false := by
    simp only [Selector.isEmpty]
    cases ind with
    | nil => exact absurd rfl hne
    | cons _ _ => rfl
  simp only [hn, he, Bool.false_eq_true, if_false]
  rw [hm]
  simp only [bind, Except.bind, pure, Except.pure]
  rcases ht with ht | ht
  · simp only [ht, List.length_nil, lt_irrefl, if_false]
    have : Spec.records ind ([] : List α) = [] := by
      unfold Spec.records
      simp
    rw [this]
  · rw [if_pos (by omega), take_idx ind d.time (by rw [ht]; exact h)]
    rfl

/-- C38. `remove_duplicate_timestamps` on at least two records: all time-dependent arrays keep the same
records, namely for each distinct time the first record with it, in increasing order of time; no time is
lost; everything else is unchanged. -/
theorem C38_remove_duplicates (d : Instrument α) (ts : List α) (hts : d.getTime = ts)
    (h2 : 2 ≤ ts.length) (ht : d.time = [] ∨ d.time.length = ts.length) :
    ∃ ind : List ℕ, d.removeDuplicateTimestamps =
        .ok { data := d.data.map fun kv => (kv.1, Spec.keepRecords ts.length ind kv.2),
              time := Spec.records ind d.time } ∧
      (∀ i ∈ ind, i < ts.length ∧ ∀ j < i, vec ts j ≠ vec ts i) ∧
      (Spec.records ind ts).Pairwise (· < ·) ∧
      (∀ t, t ∈ Spec.records ind ts ↔ t ∈ ts) := by
  obtain ⟨h1, h3⟩ := uniqueIndex_spec ts.length (vec ts)
  set ind := uniqueIndex ts.length (vec ts) with hind
  have hlt : ∀ i ∈ ind, i < ts.length := fun i hi => ((h1 i).1 hi).1
  have h0 : 0 ∈ ind := (h1 0).2 ⟨by omega, fun j hj => by omega⟩
  refine ⟨ind, ?_, fun i hi => (h1 i).1 hi, ?_, ?_⟩
  · unfold Instrument.removeDuplicateTimestamps
    rw [hts, ← hind]
    exact screenTimeIndices_idx d ind ts.length (by rw [hts]) h2 ht (List.ne_nil_of_mem h0) hlt
  · rw [records_vec ind ts hlt, List.pairwise_map]
    exact h3
  · intro t
    rw [records_vec ind ts hlt, List.mem_map]
    constructor
    · rintro ⟨i, hi, rfl⟩
      simp only [vec, List.getD_eq_getElem _ _ (hlt i hi)]
      exact List.getElem_mem _
    · intro hmem
      obtain ⟨p, hp, he⟩ := List.getElem_of_mem hmem
      have hv : vec ts p = t := by simp only [vec, List.getD_eq_getElem _ _ hp]; exact he
      -- the first position with this time
      have hfirst : ∀ p, p < ts.length → ∃ q ∈ ind, vec ts q = vec ts p := by
        intro p
        induction p using Nat.strong_induction_on with
        | _ p ih =>
          intro hp
          by_cases hc : ∀ j < p, vec ts j ≠ vec ts p
          · exact ⟨p, (h1 p).2 ⟨hp, hc⟩, rfl⟩
          · push Not at hc
            obtain ⟨j, hj, he⟩ := hc
            obtain ⟨q, hq, h4⟩ := ih j hj (by omega)
            exact ⟨q, hq, h4.trans he⟩
      obtain ⟨q, hq, h4⟩ := hfirst p hp
      exact ⟨q, hq, h4.trans hv⟩

/-- C38. `sort_timestamps` on at least two records, whatever order `argsort` gives to equal times: all
time-dependent arrays are rearranged in the same way, so that times are non-decreasing; no record is lost
or duplicated; everything else is unchanged. -/
theorem C38_sort (d : Instrument α) (ts : List α) (hts : d.getTime = ts) (h2 : 2 ≤ ts.length)
    (ht : d.time = [] ∨ d.time.length = ts.length) (ind : List ℕ) (hind : Spec.IsArgsort ts ind) :
    d.sortTimestamps ind =
        .ok { data := d.data.map fun kv => (kv.1, Spec.keepRecords ts.length ind kv.2),
              time := Spec.records ind d.time } ∧
      ind.Perm (List.range ts.length) ∧
      (Spec.records ind ts).Pairwise (· ≤ ·) ∧ (Spec.records ind ts).Perm ts := by
  obtain ⟨hp, hs⟩ := hind
  have hlt : ∀ i ∈ ind, i < ts.length := fun i hi => List.mem_range.1 (hp.mem_iff.1 hi)
  have hne : ind ≠ [] := by
    intro h
    have := hp.length_eq
    rw [h, List.length_range, List.length_nil] at this
    omega
  refine ⟨screenTimeIndices_idx d ind ts.length (by rw [hts]) h2 ht hne hlt, hp, ?_, ?_⟩
  · rw [records_vec ind ts hlt, List.pairwise_map]; exact hs
  · rw [records_vec ind ts hlt]
    refine (hp.map (vec ts)).trans ?_
    rw [show (List.range ts.length).map (vec ts) = ts from ?_]
    apply List.ext_getElem
    · simp
    · intro i h1 h2
      simp only [List.getElem_map, List.getElem_range, vec]
      rw [List.getD_eq_getElem]

/-- C38. A file with a single record is left as it is. -/
theorem C38_single_record (d : Instrument α) (t : α) (hts : d.getTime = [t])
    (ht : d.time = [] ∨ d.time = [t]) :
    d.removeDuplicateTimestamps = .ok d ∧ d.sortTimestamps [0] = .ok d := by
  have hu : uniqueIndex d.getTime.length (vec d.getTime) = [0] := by
    rw [hts]
    simp [uniqueIndex]
  have key : d.screenTimeIndices (.idx [0]) = .ok d := by
    have hm := mapM_ok (fun kv : String × NdArray α => do
        let a ← if kv.2.followsTime 1 then kv.2.select (.idx [0]) else pure kv.2
        pure (kv.1, a)) (fun kv => kv) d.data (by
      intro kv _
      have hf : kv.2.followsTime 1 = false := by
        unfold NdArray.followsTime
        cases kv.2.len? with
        | none => rfl
        | some m => simp only [Bool.and_eq_false_iff]; by_cases h : m = 1 <;> simp [h]
      rw [hf]; rfl)
    unfold Instrument.screenTimeIndices
    have hl : d.getTime.length = 1 := by rw [hts]; rfl
    have he : (Selector.idx [0]).isEmpty 1 = false := rfl
    simp only [hl, he, Bool.false_eq_true, if_false]
    rw [hm]
    simp only [bind, Except.bind, pure, Except.pure]
    rcases ht with ht | ht
    · simp only [ht, List.length_nil, lt_irrefl, if_false, List.map_id']
      cases d; simp only at ht; subst ht; rfl
    · rw [if_pos (by rw [ht]; simp), ht, take_idx [0] [t] (by simp)]
      cases d; simp only at ht; subst ht
      simp
  exact ⟨by unfold Instrument.removeDuplicateTimestamps; rw [hu]; exact key, key⟩

/-- C38. Screening with no record left raises, whether positions or a mask are given. -/
theorem C38_nothing_left (d : Instrument α) :
    (∃ e, d.screenTimeIndices (.idx []) = .error e) ∧
    ∃ e, d.screenTimeIndices (.mask (List.replicate d.getTime.length false)) = .error e := by
  constructor
  · exact ⟨_, by unfold Instrument.screenTimeIndices; rfl⟩
  · refine ⟨"ValidTimeStampError: All timestamps screened", ?_⟩
    unfold Instrument.screenTimeIndices
    have : (Selector.mask (List.replicate d.getTime.length false)).isEmpty d.getTime.length = true := by
      simp [Selector.isEmpty]
    simp only [this]
    rfl

/-- Three records, two at the same time; a profile variable and a scalar. -/
def exampleInstrument : Instrument ℚ :=
  { data := [("time", .d1 [2, 1, 2]), ("Zh", .d2 [[10, 11], [20, 21], [30, 31]]), ("altitude", .d0 5)],
    time := [] }

example : (match exampleInstrument.removeDuplicateTimestamps with
    | .ok d => decide (d.data = [("time", .d1 [1, 2]), ("Zh", .d2 [[20, 21], [10, 11]]),
        ("altitude", .d0 5)])
    | .error _ => false) = true := by decide +kernel

example : Spec.IsArgsort ([2, 1, 2] : List ℚ) [1, 2, 0] := by
  refine ⟨by decide, ?_⟩
  simp [vec]

/-! ### Screening by date -/

theorem findValid_fold [FloorRing α] (time : ℕ → α) (epoch : α) (expected : ℤ) (l acc : List ℕ)
    (hs : l.Pairwise fun i j => time i ≤ time j) (ha : acc.Pairwise fun i j => time i < time j)
    (hal : ∀ a ∈ acc, ∀ i ∈ l, time a ≤ time i)
    (hd : ∀ a ∈ acc, dateOf epoch (time a) = expected) :
    let r := l.foldl (fun (acc : List ℕ) i =>
      if dateOf epoch (time i) = expected ∧ ¬ (time i ∈ acc.map time) then acc ++ [i] else acc) acc
    r.Pairwise (fun i j => time i < time j) ∧
    (∀ i ∈ r, (i ∈ acc ∨ i ∈ l) ∧ dateOf epoch (time i) = expected) ∧
    (∀ i, i ∈ acc ∨ (i ∈ l ∧ dateOf epoch (time i) = expected) → ∃ j ∈ r, time j = time i) := by
  induction l generalizing acc with
  | nil => exact ⟨ha, fun i hi => ⟨Or.inl hi, hd i hi⟩, fun i hi => by
      rcases hi with h | h
      · exact ⟨i, h, rfl⟩
      · exact absurd h.1 (by simp)⟩
  | cons x l ih =>
    simp only [List.foldl_cons]
    rw [List.pairwise_cons] at hs
    obtain ⟨hx, hs⟩ := hs
    split
    · next hc =>
      obtain ⟨hc1, hc2⟩ := hc
      have hnew : (acc ++ [x]).Pairwise fun i j => time i < time j := by
        rw [List.pairwise_append]
        refine ⟨ha, List.pairwise_singleton _ _, ?_⟩
        intro a haa b hb
        rw [List.mem_singleton] at hb
        subst hb
        exact lt_of_le_of_ne (hal a haa b (by simp)) fun he => hc2 (List.mem_map.2 ⟨a, haa, he⟩)
      obtain ⟨r1, r2, r3⟩ := ih (acc ++ [x]) hs hnew (by
          intro a haa i hi
          rw [List.mem_append, List.mem_singleton] at haa
          rcases haa with h | h
          · exact hal a h i (by simp [hi])
          · rw [h]; exact hx i hi) (by
          intro a haa
          rw [List.mem_append, List.mem_singleton] at haa
          rcases haa with h | h
          · exact hd a h
          · rw [h]; exact hc1)
      refine ⟨r1, ?_, ?_⟩
      · intro i hi
        obtain ⟨h1, h2⟩ := r2 i hi
        refine ⟨?_, h2⟩
        rw [List.mem_append, List.mem_singleton] at h1
        rw [List.mem_cons]
        tauto
      · intro i hi
        apply r3
        rw [List.mem_append, List.mem_singleton]
        rw [List.mem_cons] at hi
        tauto
    · next hc =>
      obtain ⟨r1, r2, r3⟩ := ih acc hs ha (fun a haa i hi => hal a haa i (by simp [hi])) hd
      refine ⟨r1, ?_, ?_⟩
      · intro i hi
        obtain ⟨h1, h2⟩ := r2 i hi
        refine ⟨?_, h2⟩
        rw [List.mem_cons]
        tauto
      · intro i hi
        rcases hi with h | ⟨h, hdi⟩
        · exact r3 i (Or.inl h)
        · rcases List.mem_cons.1 h with he | h
          · subst he
            have : time i ∈ acc.map time := by
              by_contra hcc
              exact hc ⟨hdi, hcc⟩
            obtain ⟨a, haa, hae⟩ := List.mem_map.1 this
            obtain ⟨j, hj, hje⟩ := r3 a (Or.inl haa)
            exact ⟨j, hj, hje.trans hae⟩
          · exact r3 i (Or.inr ⟨h, hdi⟩)

/-- C37. `find_valid_time_indices`, whatever order `argsort` gives to equal times: it raises iff no time
stamp belongs to the expected day; otherwise it returns positions of time stamps of that day, in strictly
increasing order of time, one for each distinct time stamp of that day. -/
theorem C37_valid_indices [FloorRing α] (ts : List α) (ind : List ℕ) (hind : Spec.IsArgsort ts ind)
    (epoch : α) (expected : ℤ) :
    ((∃ e, findValidTimeIndices (vec ts) ind epoch expected = .error e) ↔
      ∀ t ∈ ts, ⌊(epoch + t) / 86400⌋ ≠ expected) ∧
    ∀ r, findValidTimeIndices (vec ts) ind epoch expected = .ok r →
      (∀ i ∈ r, i < ts.length) ∧ (Spec.records r ts).Pairwise (· < ·) ∧
      ∀ t, t ∈ Spec.records r ts ↔ t ∈ ts ∧ ⌊(epoch + t) / 86400⌋ = expected := by
  obtain ⟨hp, hs⟩ := hind
  have hrange : ∀ i, i ∈ ind ↔ i < ts.length := fun i => by rw [hp.mem_iff, List.mem_range]
  obtain ⟨f1, f2, f3⟩ := findValid_fold (vec ts) epoch expected ind [] hs List.Pairwise.nil
    (by simp) (by simp)
  unfold findValidTimeIndices
  set r := ind.foldl (fun (acc : List ℕ) i =>
      if dateOf epoch (vec ts i) = expected ∧ ¬ (vec ts i ∈ acc.map (vec ts)) then acc ++ [i] else acc)
      [] with hr
  have hin : ∀ i ∈ r, i < ts.length := by
    intro i hi
    have := (f2 i hi).1
    simp only [List.not_mem_nil, false_or] at this
    exact (hrange i).1 this
  have hiff : ∀ t, t ∈ Spec.records r ts ↔ t ∈ ts ∧ ⌊(epoch + t) / 86400⌋ = expected := by
    intro t
    rw [records_vec r ts hin, List.mem_map]
    constructor
    · rintro ⟨i, hi, rfl⟩
      refine ⟨?_, (f2 i hi).2⟩
      simp only [vec, List.getD_eq_getElem _ _ (hin i hi)]
      exact List.getElem_mem _
    · rintro ⟨hmem, hday⟩
      obtain ⟨p, hp', he⟩ := List.getElem_of_mem hmem
      have hv : vec ts p = t := by simp only [vec, List.getD_eq_getElem _ _ hp']; exact he
      obtain ⟨j, hj, hje⟩ := f3 p (Or.inr ⟨(hrange p).2 hp', by rw [hv]; exact hday⟩)
      exact ⟨j, hj, hje.trans hv⟩
  constructor
  · constructor
    · rintro ⟨e, he⟩ t ht hday
      have hnil : r = [] := by
        by_contra hc
        rw [if_neg hc] at he
        cases he
      have := (hiff t).2 ⟨ht, hday⟩
      rw [hnil] at this
      simp [Spec.records] at this
    · intro hall
      have hnil : r = [] := by
        by_contra hc
        obtain ⟨i, hi⟩ := List.exists_mem_of_ne_nil r hc
        have : vec ts i ∈ Spec.records r ts := by
          rw [records_vec r ts hin]; exact List.mem_map_of_mem hi
        obtain ⟨h1, h2⟩ := (hiff _).1 this
        exact hall _ h1 h2
      exact ⟨_, by rw [if_pos hnil]⟩
  · intro r' hr'
    simp only at hr'
    split at hr'
    · cases hr'
    · have := Except.ok.inj hr'
      rw [← this]
      refine ⟨hin, ?_, hiff⟩
      rw [records_vec r ts hin, List.pairwise_map]
      exact f1

/-- C37. `screen_by_time` on a dictionary without lists of several elements: when some time stamp belongs
to the expected day, every array of one to three dimensions along the time axis keeps the same records
(those chosen by `find_valid_time_indices`), and everything else is unchanged. -/
theorem C37_screen_by_time [FloorRing α] (data : List (String × DictValue α)) (ts : List α)
    (ind : List ℕ) (hind : Spec.IsArgsort ts ind) (epoch : α) (expected : ℤ)
    (hlist : ∀ k xs, (k, DictValue.list xs) ∈ data → xs.length ≤ 1)
    (hday : ∃ t ∈ ts, ⌊(epoch + t) / 86400⌋ = expected) :
    ∃ r, findValidTimeIndices (vec ts) ind epoch expected = .ok r ∧
      screenByTime data ts ind epoch expected = .ok (data.map fun kv => (kv.1, match kv.2 with
        | .list xs => .list xs
        | .array a => .array (Spec.keepRecords ts.length r a))) := by
  obtain ⟨h1, h2⟩ := C37_valid_indices ts ind hind epoch expected
  cases hr : findValidTimeIndices (vec ts) ind epoch expected with
  | error e =>
    obtain ⟨t, ht, hd⟩ := hday
    exact absurd hd (h1.1 ⟨e, hr⟩ t ht)
  | ok r =>
    refine ⟨r, rfl, ?_⟩
    obtain ⟨h3, -, -⟩ := h2 r hr
    unfold screenByTime
    rw [hr]
    apply mapM_ok
    rintro ⟨k, v⟩ hkv
    cases v with
    | list xs =>
      simp only
      rw [if_neg (by have := hlist k xs hkv; omega)]
      rfl
    | array a =>
      simp only
      by_cases hl : a.len? = some ts.length
      · rw [if_pos hl, select_idx r a ts.length hl h3]
        rfl
      · rw [if_neg hl, keepRecords_other r a ts.length hl]
        rfl

/-- C37. A list with several elements anywhere in the dictionary makes `screen_by_time` raise; so does a
day without time stamps. -/
theorem C37_screen_raises [FloorRing α] (data : List (String × DictValue α)) (ts : List α)
    (ind : List ℕ) (hind : Spec.IsArgsort ts ind) (epoch : α) (expected : ℤ) :
    ((∃ k xs, (k, DictValue.list xs) ∈ data ∧ 1 < xs.length) ∨
      (∀ t ∈ ts, ⌊(epoch + t) / 86400⌋ ≠ expected)) →
    ∃ e, screenByTime data ts ind epoch expected = .error e := by
  intro h
  cases hr : findValidTimeIndices (vec ts) ind epoch expected with
  | error e => exact ⟨e, by unfold screenByTime; rw [hr]; rfl⟩
  | ok r =>
    rcases h with ⟨k, xs, hmem, hlen⟩ | h
    · have hgen : ∀ (f : String × DictValue α → Except String (String × DictValue α))
          (l : List (String × DictValue α)), (∃ x ∈ l, ∃ e, f x = .error e) →
          ∃ e, l.mapM f = .error e := by
        intro f l
        induction l with
        | nil => rintro ⟨x, hx, _⟩; simp at hx
        | cons a l ih =>
          rintro ⟨x, hx, e, he⟩
          rw [List.mapM_cons]
          cases hfa : f a with
          | error e' => exact ⟨e', rfl⟩
          | ok b =>
            rcases List.mem_cons.1 hx with h | h
            · rw [h, hfa] at he; cases he
            · obtain ⟨e', he'⟩ := ih ⟨x, h, e, he⟩
              exact ⟨e', by rw [he']; rfl⟩
      unfold screenByTime
      rw [hr]
      exact hgen _ data ⟨_, hmem, "ValueError", by simp only; rw [if_pos hlen]; rfl⟩
    · obtain ⟨e, he⟩ := (C37_valid_indices ts ind hind epoch expected).1.2 h
      rw [hr] at he
      cases he

/-- Days are half open: of four time stamps around two midnights the first two belong to day 1; records
of the same time are merged. -/
example : (match findValidTimeIndices (vec ([172800, 86400, 100000, 86400] : List ℚ)) [1, 3, 2, 0] 0 1 with
    | .ok r => decide (r = [1, 2])
    | .error _ => false) = true ∧
    Spec.IsArgsort ([172800, 86400, 100000, 86400] : List ℚ) [1, 3, 2, 0] := by
  refine ⟨by decide +kernel, by decide, ?_⟩
  simp [vec]
  norm_num

end Cloudnet
