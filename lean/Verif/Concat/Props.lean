import Verif.Concat.Model
import Verif.Arrays.Lemmas
import Mathlib.Algebra.Order.Ring.Rat
import Mathlib.Algebra.BigOperators.Group.List.Basic
import Mathlib.Tactic.Linarith

/-!
Properties C39 (concatenating files) and C40 (updating a file).
-/

set_option linter.unusedSectionVars false
set_option linter.unusedSimpArgs false

namespace Cloudnet

variable {α : Type} [Field α] [LinearOrder α] [IsStrictOrderedRing α]

namespace Spec

/-- The record `r`, given at the gates `x`, brought to the gates `xTarget`: a gate outside the range of
`x` is missing; the others get the value of the nearest gate (the first one if several are). -/
def Resampled (x xTarget r r' : Row α) : Prop :=
  r'.length = xTarget.length ∧ ∀ (j : ℕ) (v : α), xTarget[j]? = some (some v) →
    (((∀ (i : ℕ) u, x[i]? = some (some u) → v < u) ∨ (∀ (i : ℕ) u, x[i]? = some (some u) → u < v)) →
      r'[j]? = some none) ∧
    (¬ ((∀ (i : ℕ) u, x[i]? = some (some u) → v < u) ∨ (∀ (i : ℕ) u, x[i]? = some (some u) → u < v)) →
      ∃ (i : ℕ) (u : α), x[i]? = some (some u) ∧ r'[j]? = some (r.getD i none) ∧
        ∀ (i' : ℕ) (u' : α), x[i']? = some (some u') →
          |u - v| ≤ |u' - v| ∧ (i' < i → |u - v| < |u' - v|))

/-- The record `row` is what a record `r` of a variable with the further dimensions `dims` contributes:
itself, or resampled if the variable has a range axis of another length than in the first file. -/
def Fitted (first f : NcFile α) (dims : List String) (r row : Row α) : Prop :=
  (¬ ("range" ∈ dims ∧ first.rangeValues.length ≠ f.rangeValues.length) → row = r) ∧
  ("range" ∈ dims ∧ first.rangeValues.length ≠ f.rangeValues.length →
    Resampled f.rangeValues first.rangeValues r row)

/-- What file `f` contributes as its record number `i` of the variable `key`: missing values (as many as
a record `fill` of the first file has) if it has no such variable, the value if it is constant in time,
else its record number `i`. -/
def Contribution (first f : NcFile α) (fill : Row α) (key : String) (i : ℕ) (row : Row α) : Prop :=
  (f.vars.lookup key = none → row = fill) ∧
  (∀ dims value, f.vars.lookup key = some (.static dims value) → Fitted first f dims value row) ∧
  (∀ dims rows, f.vars.lookup key = some (.series dims rows) → Fitted first f dims (rows i) row)

/-- A well-formed input file: has a time variable, reads without error, range gates are not masked. -/
def Readable (f : NcFile α) : Prop :=
  (∃ dims rows, f.vars.lookup "time" = some (.series dims rows)) ∧ f.broken = [] ∧
  (∀ u ∈ f.rangeValues, u.isSome) ∧ f.rangeValues ≠ []

/-- The variables of the first file that go to the output. -/
def Selected (keep : Option (List String)) (ignore : List String) (key : String) (v : NcVar α) : Prop :=
  key ∉ ignore ∧ ∀ ks dims rows, keep = some ks → v = .series dims rows → key = "time" ∨ key ∈ ks

end Spec

theorem getD_get {β : Type} (l : List β) (i : ℕ) (d : β) (h : i < l.length) :
    l[i]? = some (l.getD i d) := by
  rw [List.getD_eq_getElem?_getD, List.getElem?_eq_getElem h]; rfl

theorem interpRow_resampled (x xTarget r : Row α) (hx : ∀ u ∈ x, u.isSome) (hne : x ≠ []) :
    Spec.Resampled x xTarget r (interpRow x xTarget r) := by
  have hlen : 0 < x.length := List.length_pos_iff.2 hne
  set xs : ℕ → α := fun i => ((x.getD i none)).getD 0 with hxs
  set m := x.length - 1 with hm
  have hval : ∀ i, i ≤ m → x[i]? = some (some (xs i)) := by
    intro i hi
    have hi' : i < x.length := by omega
    rw [getD_get x i none hi']
    have := hx (x.getD i none) (by
      have := List.mem_of_getElem? (getD_get x i none hi')
      exact this)
    obtain ⟨u, hu⟩ := Option.isSome_iff_exists.1 this
    simp only [hxs, hu, Option.getD_some]
  have hval' : ∀ (i : ℕ) u, x[i]? = some (some u) → i ≤ m ∧ u = xs i := by
    intro i u h
    have hi : i < x.length := by
      by_contra hc
      rw [List.getElem?_eq_none (by omega)] at h
      cases h
    have h2 := hval i (by omega)
    rw [h] at h2
    exact ⟨by omega, Option.some.inj (Option.some.inj h2)⟩
  obtain ⟨a1, a2, -⟩ := argmin_spec xs m
  obtain ⟨b1, b2, -⟩ := argmax_spec xs m
  unfold Spec.Resampled interpRow
  refine ⟨by simp, ?_⟩
  intro j v hj
  simp only [List.getElem?_map, hj, Option.map_some, Option.getD_some]
  rw [← hm, ← hxs]
  have hiff : (v < xs (argmin xs m) ∨ xs (argmax xs m) < v) ↔
      ((∀ (i : ℕ) u, x[i]? = some (some u) → v < u) ∨
        (∀ (i : ℕ) u, x[i]? = some (some u) → u < v)) := by
    constructor
    · rintro (h | h)
      · left
        intro i u hu
        obtain ⟨h1, h2⟩ := hval' i u hu
        rw [h2]; exact lt_of_lt_of_le h (a2 i h1)
      · right
        intro i u hu
        obtain ⟨h1, h2⟩ := hval' i u hu
        rw [h2]; exact lt_of_le_of_lt (b2 i h1) h
    · rintro (h | h)
      · left; exact h _ _ (hval _ a1)
      · right; exact h _ _ (hval _ b1)
  constructor
  · intro h
    rw [if_pos (hiff.2 h)]
  · intro h
    rw [if_neg (fun hc => h (hiff.1 hc))]
    obtain ⟨c1, c2, c3⟩ := argmin_spec (fun i => |xs i - v|) m
    refine ⟨argmin (fun i => |xs i - v|) m, _, hval _ c1, rfl, ?_⟩
    intro i' u' hu'
    obtain ⟨h1, h2⟩ := hval' i' u' hu'
    rw [h2]; exact ⟨c2 i' h1, fun h => c3 i' h⟩

theorem appendRows_fitted (first file : NcFile α) (hf : Spec.Readable file) (key : String)
    (hk : key ≠ "range") (fill : Row α) (v : NcVar α) (hv : file.vars.lookup key = some v) (i : ℕ) :
    Spec.Contribution first file fill key i (appendRows first file key v i) := by
  obtain ⟨-, -, hx, hne⟩ := hf
  unfold Spec.Contribution
  rw [hv]
  refine ⟨by simp, ?_, ?_⟩
  · intro dims value he
    have he := Option.some.inj he
    subst he
    unfold appendRows expandArray
    simp only [hk, ne_eq, not_false_eq_true, if_true]
    constructor
    · intro h; rw [if_neg h]
    · intro h; rw [if_pos h]; exact interpRow_resampled _ _ _ hx hne
  · intro dims rows he
    have he := Option.some.inj he
    subst he
    unfold appendRows expandArray
    simp only
    constructor
    · intro h; rw [if_neg h]
    · intro h; rw [if_pos h]; exact interpRow_resampled _ _ _ hx hne

/-- What is true of one output variable after the files `done` have been written. -/
structure ConcatVar (first : NcFile α) (done : List (NcFile α)) (n : ℕ) (key : String) (v w : NcVar α) :
    Prop where
  range : key = "range" → ∀ dims value, v = .static dims value → w = v
  series : key ≠ "range" → ∃ dims rows, w = .series dims rows ∧
    (∀ i, n ≤ i → rows i = v.fillRow) ∧
    ∀ pre f post, done = pre ++ f :: post → ∀ i < f.n,
      Spec.Contribution first f v.fillRow key i (rows ((pre.map (·.n)).sum + i))

theorem appendData_step (first : NcFile α) (done : List (NcFile α)) (out file : NcFile α)
    (hfile : Spec.Readable file) (hout : ∃ w, ("time", w) ∈ out.vars)
    (hn : out.n = (done.map (·.n)).sum) :
    (appendData first out file).2 = true ∧
    (appendData first out file).1.n = ((done ++ [file]).map (·.n)).sum ∧
    (appendData first out file).1.vars.map (·.1) = out.vars.map (·.1) ∧
    ∀ key w', (key, w') ∈ (appendData first out file).1.vars → ∃ w, (key, w) ∈ out.vars ∧
      ∀ v, ConcatVar first done out.n key v w →
        ConcatVar first (done ++ [file]) (appendData first out file).1.n key v w' := by
  obtain ⟨⟨td, tr, htime⟩, hbroken, -, -⟩ := id hfile
  have hbad : (fun key => !(isAppended file key && file.broken.contains key)) = fun _ => true := by
    funext key; rw [hbroken]; simp
  have hwritten : ((out.vars.map (·.1)).takeWhile fun key =>
      !(isAppended file key && file.broken.contains key)).filter (isAppended file) =
      (out.vars.map (·.1)).filter (isAppended file) := by
    rw [hbad]
    congr 1
    generalize out.vars.map (·.1) = l
    induction l with
    | nil => rfl
    | cons a l ih => rw [List.takeWhile_cons]; simp only [if_true, ih]
  have hall : ((out.vars.map (·.1)).all fun key =>
      !(isAppended file key && file.broken.contains key)) = true := by
    rw [hbad]; simp
  have hnonempty : (out.vars.map (·.1)).filter (isAppended file) ≠ [] := by
    obtain ⟨w, hw⟩ := hout
    apply List.ne_nil_of_mem (a := "time")
    rw [List.mem_filter]
    refine ⟨List.mem_map.2 ⟨_, hw, rfl⟩, ?_⟩
    unfold isAppended
    rw [htime]; rfl
  have hn' : (appendData first out file).1.n = out.n + file.n := by
    unfold appendData
    simp only [hwritten, if_neg hnonempty]
  refine ⟨?_, ?_, ?_, ?_⟩
  · unfold appendData; exact hall
  · rw [hn', hn]; simp
  · unfold appendData
    simp only [List.map_map]
    apply List.map_congr_left
    intro kv _
    simp only [Function.comp]
    split <;> rfl
  · rw [hn']
    intro key w' hmem
    unfold appendData at hmem
    simp only [hwritten] at hmem
    obtain ⟨kv, hkv, he⟩ := List.mem_map.1 hmem
    obtain ⟨k0, w⟩ := kv
    by_cases hin : k0 ∈ (out.vars.map (·.1)).filter (isAppended file)
    · simp only [hin, if_true, Prod.mk.injEq] at he
      obtain ⟨rfl, rfl⟩ := he
      refine ⟨w, hkv, ?_⟩
      intro v hv
      have happ : isAppended file k0 = true := (List.mem_filter.1 hin).2
      unfold isAppended at happ
      rw [Bool.and_eq_true, bne_iff_ne] at happ
      obtain ⟨hsome, hne⟩ := happ
      obtain ⟨u, hu⟩ := Option.isSome_iff_exists.1 hsome
      refine ⟨fun h => absurd h hne, fun _ => ?_⟩
      obtain ⟨dims, rows, rfl, hfill, hdone⟩ := hv.series hne
      rw [hu]
      refine ⟨dims, _, rfl, ?_, ?_⟩
      · intro i hi
        rw [if_neg (by omega)]
        exact hfill i (by omega)
      · intro pre f post hpp i hi
        rcases List.append_eq_append_iff.1 hpp with ⟨c, h1, h2⟩ | ⟨c, h1, h2⟩
        · -- the split is inside the new part
          cases c with
          | nil =>
            simp only [List.nil_append, List.cons.injEq] at h2
            obtain ⟨rfl, _⟩ := h2
            rw [List.append_nil] at h1
            rw [h1, ← hn, if_pos (by omega), Nat.add_sub_cancel_left]
            exact appendRows_fitted first file hfile k0 hne _ u hu i
          | cons c0 cs =>
            rw [List.cons_append, List.cons.injEq] at h2
            have := congrArg List.length h2.2
            simp at this
        · cases c with
          | nil =>
            rw [List.nil_append, List.cons.injEq] at h2
            obtain ⟨rfl, _⟩ := h2
            rw [List.append_nil] at h1
            rw [← h1, ← hn, if_pos (by omega), Nat.add_sub_cancel_left]
            exact appendRows_fitted first f hfile k0 hne _ u hu i
          | cons c0 cs =>
            rw [List.cons_append, List.cons.injEq] at h2
            obtain ⟨rfl, _⟩ := h2
            have hlt : (pre.map (·.n)).sum + i < out.n := by
              rw [hn, h1]; simp; omega
            rw [if_neg (by omega)]
            exact hdone pre f cs h1 i hi
    · simp only [hin, if_false, Prod.mk.injEq] at he
      obtain ⟨rfl, rfl⟩ := he
      refine ⟨w, hkv, ?_⟩
      intro v hv
      refine ⟨hv.range, fun hne => ?_⟩
      obtain ⟨dims, rows, rfl, hfill, hdone⟩ := hv.series hne
      have hnone : file.vars.lookup k0 = none := by
        by_contra hc
        apply hin
        rw [List.mem_filter]
        refine ⟨List.mem_map.2 ⟨_, hkv, rfl⟩, ?_⟩
        unfold isAppended
        rw [Bool.and_eq_true, bne_iff_ne]
        exact ⟨Option.isSome_iff_ne_none.2 hc, hne⟩
      refine ⟨dims, rows, rfl, fun i hi => hfill i (by omega), ?_⟩
      have key : ∀ i, Spec.Contribution first file v.fillRow k0 i (rows (out.n + i)) := by
        intro i
        refine ⟨fun _ => hfill _ (by omega), ?_, ?_⟩
        · intro dims value h; rw [hnone] at h; cases h
        · intro dims value h; rw [hnone] at h; cases h
      intro pre f post hpp i hi
      rcases List.append_eq_append_iff.1 hpp with ⟨c, h1, h2⟩ | ⟨c, h1, h2⟩
      · cases c with
        | nil =>
          simp only [List.nil_append, List.cons.injEq] at h2
          obtain ⟨rfl, _⟩ := h2
          rw [List.append_nil] at h1
          rw [h1, ← hn]
          exact key i
        | cons c0 cs =>
          rw [List.cons_append, List.cons.injEq] at h2
          have := congrArg List.length h2.2
          simp at this
      · cases c with
        | nil =>
          rw [List.nil_append, List.cons.injEq] at h2
          obtain ⟨rfl, _⟩ := h2
          rw [List.append_nil] at h1
          rw [← h1, ← hn]
          exact key i
        | cons c0 cs =>
          rw [List.cons_append, List.cons.injEq] at h2
          obtain ⟨rfl, _⟩ := h2
          exact hdone pre f cs h1 i hi

theorem concat_fold {ν : Type} (first : NcFile α) (rest : List (ν × NcFile α))
    (hrest : ∀ f ∈ rest, Spec.Readable f.2) (done : List (NcFile α)) (names : List ν) (out : NcFile α)
    (hn : out.n = (done.map (·.n)).sum) (hout : ∃ w, ("time", w) ∈ out.vars)
    (src : String → NcVar α) (hinv : ∀ key w, (key, w) ∈ out.vars →
      ConcatVar first done out.n key (src key) w) :
    let r := rest.foldl (fun (acc : NcFile α × List ν) file =>
      let r := appendData first acc.1 file.2
      (r.1, if r.2 then acc.2 ++ [file.1] else acc.2)) (out, names)
    r.2 = names ++ rest.map (·.1) ∧
    r.1.n = ((done ++ rest.map (·.2)).map (·.n)).sum ∧
    r.1.vars.map (·.1) = out.vars.map (·.1) ∧
    ∀ key w, (key, w) ∈ r.1.vars →
      ConcatVar first (done ++ rest.map (·.2)) r.1.n key (src key) w := by
  induction rest generalizing done names out with
  | nil => simpa using ⟨hn, hinv⟩
  | cons f rest ih =>
    obtain ⟨s1, s2, s3, s4⟩ := appendData_step first done out f.2 (hrest f (by simp)) hout hn
    have hout' : ∃ w, ("time", w) ∈ (appendData first out f.2).1.vars := by
      obtain ⟨w, hw⟩ := hout
      have : "time" ∈ (appendData first out f.2).1.vars.map (·.1) := by
        rw [s3]; exact List.mem_map.2 ⟨_, hw, rfl⟩
      obtain ⟨⟨k, w'⟩, h1, h2⟩ := List.mem_map.1 this
      simp only at h2
      exact ⟨w', h2 ▸ h1⟩
    have := ih (fun g hg => hrest g (by simp [hg])) (done ++ [f.2]) (names ++ [f.1])
      (appendData first out f.2).1 s2 hout' (by
        intro key w' hw'
        obtain ⟨w, hw, hh⟩ := s4 key w' hw'
        exact hh _ (hinv key w hw))
    simp only [List.foldl_cons, s1, if_true]
    obtain ⟨r1, r2, r3, r4⟩ := this
    refine ⟨?_, ?_, ?_, ?_⟩
    · rw [r1]; simp
    · rw [r2]; simp
    · rw [r3, s3]
    · intro key w hw
      have := r4 key w hw
      simpa using this

/-- The first file after `_write_initial_data`. -/
theorem writeInitialData_spec (first : NcFile α) (keep : Option (List String)) (ignore : List String)
    (hread : Spec.Readable first) (hnd : (first.vars.map (·.1)).Nodup) :
    (writeInitialData first keep ignore).n = first.n ∧
    (∀ key, key ∈ (writeInitialData first keep ignore).vars.map (·.1) ↔
      ∃ v, (key, v) ∈ first.vars ∧ Spec.Selected keep ignore key v) ∧
    ∀ key w, (key, w) ∈ (writeInitialData first keep ignore).vars → ∃ v, (key, v) ∈ first.vars ∧
      ConcatVar first [first] first.n key v w := by
  have hsel : ∀ kv : String × NcVar α, (!((match keep with
          | some ks => !ks.contains kv.1 && kv.1 != "time" &&
              (match kv.2 with | .series _ _ => true | .static _ _ => false)
          | none => false)
        || ignore.contains kv.1)) = true ↔ Spec.Selected keep ignore kv.1 kv.2 := by
    rintro ⟨key, v⟩
    unfold Spec.Selected
    cases keep with
    | none => simp
    | some ks =>
      cases v with
      | static dims value => simp
      | series dims rows =>
        simp only [Bool.and_true, Bool.not_eq_true', Bool.or_eq_false_iff, Bool.and_eq_false_iff,
          Bool.not_eq_false', List.contains_eq_mem, decide_eq_true_eq, bne_eq_false_iff_eq,
          decide_eq_false_iff_not]
        constructor
        · rintro ⟨h1, h2⟩
          refine ⟨h2, fun ks' _ _ hk _ => ?_⟩
          cases hk
          exact h1.symm
        · rintro ⟨h1, h2⟩
          exact ⟨(h2 ks dims rows rfl rfl).symm, h1⟩
  have hlookup : ∀ key v, (key, v) ∈ first.vars → first.vars.lookup key = some v := by
    intro key v hmem
    generalize first.vars = l at hnd hmem
    induction l with
    | nil => simp at hmem
    | cons kv l ih =>
      obtain ⟨k0, v0⟩ := kv
      rw [List.map_cons, List.nodup_cons] at hnd
      rw [List.lookup_cons]
      rcases List.mem_cons.1 hmem with h | h
      · cases h; simp
      · have : key ≠ k0 := by
          rintro rfl
          exact hnd.1 (List.mem_map.2 ⟨_, h, rfl⟩)
        rw [beq_eq_false_iff_ne.2 this]
        exact ih hnd.2 h
  refine ⟨rfl, ?_, ?_⟩
  · intro key
    unfold writeInitialData
    simp only [List.map_map, List.mem_map, List.mem_filter, Function.comp]
    constructor
    · rintro ⟨⟨k, v⟩, ⟨h1, h2⟩, rfl⟩
      exact ⟨v, h1, (hsel _).1 h2⟩
    · rintro ⟨v, h1, h2⟩
      exact ⟨(key, v), ⟨h1, (hsel (key, v)).2 h2⟩, rfl⟩
  · intro key w hmem
    unfold writeInitialData at hmem
    simp only at hmem
    obtain ⟨⟨k0, v⟩, h1, h2⟩ := List.mem_map.1 hmem
    have hv : (k0, v) ∈ first.vars := (List.mem_filter.1 h1).1
    simp only [Prod.mk.injEq] at h2
    obtain ⟨rfl, rfl⟩ := h2
    refine ⟨v, hv, ?_, ?_⟩
    · rintro hk dims value rfl
      simp only [expandArray, hk, ne_eq, not_true_eq_false, if_false]
    · intro hk
      have hsplit : ∀ pre (f : NcFile α) post, [first] = pre ++ f :: post → pre = [] ∧ f = first := by
        intro pre f post h
        cases pre with
        | nil =>
          rw [List.nil_append, List.cons.injEq] at h
          exact ⟨rfl, h.1.symm⟩
        | cons a b =>
          have := congrArg List.length h
          simp at this
      cases v with
      | static dims value =>
        simp only [expandArray, hk, ne_eq, not_false_eq_true, if_true]
        refine ⟨dims, _, rfl, fun i hi => if_neg (by omega), ?_⟩
        intro pre f post hpp i hi
        obtain ⟨rfl, rfl⟩ := hsplit pre f post hpp
        have hl := hlookup k0 _ hv
        simp only [List.map_nil, List.sum_nil, Nat.zero_add, if_pos hi]
        refine ⟨fun h => (by rw [hl] at h; cases h), ?_, ?_⟩
        · intro dims' value' h
          rw [hl] at h
          cases h
          exact ⟨fun _ => rfl, fun h => absurd rfl h.2⟩
        · intro dims' value' h
          rw [hl] at h
          cases h
      | series dims rows =>
        simp only [expandArray]
        refine ⟨dims, _, rfl, fun i hi => if_neg (by omega), ?_⟩
        intro pre f post hpp i hi
        obtain ⟨rfl, rfl⟩ := hsplit pre f post hpp
        have hl := hlookup k0 _ hv
        simp only [List.map_nil, List.sum_nil, Nat.zero_add, if_pos hi]
        refine ⟨fun h => (by rw [hl] at h; cases h), ?_, ?_⟩
        · intro dims' value' h
          rw [hl] at h
          cases h
        · intro dims' value' h
          rw [hl] at h
          cases h
          exact ⟨fun _ => rfl, fun h => absurd rfl h.2⟩

/-- C39. The record of a variable that a file lacks: as wide as the records of the first file, and all values are missing. -/
theorem C39_missing (dims : List String) (value : Row α) (rows : ℕ → Row α) :
    (NcVar.static dims value).fillRow = List.replicate value.length none ∧
    (NcVar.series dims rows).fillRow = List.replicate (rows 0).length none := by
  simp [NcVar.fillRow, fillLike]

/-- C39. `concatenate_files` on readable files. It raises iff no file is valid (has a time stamp and fewer
than 10000 range gates). Otherwise the valid files, sorted by name, are all used; the output has the
records of all of them; it holds the selected variables of the first file; the range variable is that of
the first file; and record `i` of the file after the files `pre` is record number
`(number of records in pre) + i`, with what the file contributes. -/
theorem C39_concatenate {ν : Type} [LinearOrder ν] (files : List (ν × NcFile α))
    (keep : Option (List String)) (ignore : List String) (hi : "time" ∉ ignore)
    (hread : ∀ f ∈ files, Spec.Readable f.2) (hnd : ∀ f ∈ files, (f.2.vars.map (·.1)).Nodup) :
    ((∃ e, concatenateFiles files keep ignore = .error e) ↔
      ∀ f ∈ files, ¬ (0 < f.2.n ∧ f.2.rangeValues.length < 10000)) ∧
    ∀ out names, concatenateFiles files keep ignore = .ok (out, names) →
      ∃ first rest, (first :: rest).Perm (files.filter fun f =>
          decide (0 < f.2.n) && decide (f.2.rangeValues.length < 10000)) ∧
        (first :: rest).Pairwise (fun a b => a.1 ≤ b.1) ∧
        names = (first :: rest).map (·.1) ∧
        out.n = ((first :: rest).map (·.2.n)).sum ∧
        (∀ key, key ∈ out.vars.map (·.1) ↔
          ∃ v, (key, v) ∈ first.2.vars ∧ Spec.Selected keep ignore key v) ∧
        ∀ key w, (key, w) ∈ out.vars → ∃ v, (key, v) ∈ first.2.vars ∧
          (key = "range" → ∀ dims value, v = .static dims value → w = v) ∧
          (key ≠ "range" → ∃ dims rows, w = .series dims rows ∧
            ∀ pre f post, first :: rest = pre ++ f :: post → ∀ i < f.2.n,
              Spec.Contribution first.2 f.2 v.fillRow key i
                (rows ((pre.map (·.2.n)).sum + i))) := by
  have hperm := List.perm_insertionSort (fun a b : ν × NcFile α => a.1 ≤ b.1)
    (files.filter fun f => f.2.isValid)
  have : Std.Total (fun a b : ν × NcFile α => a.1 ≤ b.1) := ⟨fun a b => le_total _ _⟩
  have : IsTrans (ν × NcFile α) (fun a b => a.1 ≤ b.1) := ⟨fun a b c => le_trans⟩
  have hsort := List.pairwise_insertionSort (fun a b : ν × NcFile α => a.1 ≤ b.1)
    (files.filter fun f => f.2.isValid)
  have hvalid : ∀ f : ν × NcFile α, f.2.isValid = true ↔
      (0 < f.2.n ∧ f.2.rangeValues.length < 10000) := by
    intro f; unfold NcFile.isValid; rw [Bool.and_eq_true, decide_eq_true_eq, decide_eq_true_eq]
  unfold concatenateFiles
  cases hl : (files.filter fun f => f.2.isValid).insertionSort (fun a b => a.1 ≤ b.1) with
  | nil =>
    rw [hl] at hperm
    have hnil := List.nil_perm.1 hperm
    refine ⟨⟨fun _ f hf hc => ?_, fun _ => ⟨_, rfl⟩⟩, fun out names h => by cases h⟩
    have := List.filter_eq_nil_iff.1 hnil f hf
    exact this ((hvalid f).2 hc)
  | cons first rest =>
    rw [hl] at hperm hsort
    have hmem : ∀ f ∈ first :: rest, f ∈ files ∧ f.2.isValid = true := fun f hf =>
      List.mem_filter.1 (hperm.mem_iff.1 hf)
    constructor
    · constructor
      · rintro ⟨e, he⟩; cases he
      · intro h
        have := hmem first (by simp)
        exact absurd ((hvalid first).1 this.2) (h first this.1)
    · intro out names h
      have h := Except.ok.inj h
      have hfirst := hread first (hmem first (by simp)).1
      obtain ⟨w1, w2, w3⟩ := writeInitialData_spec first.2 keep ignore hfirst
        (hnd first (hmem first (by simp)).1)
      obtain ⟨⟨td, tr, htime⟩, -⟩ := id hfirst
      have htmem : ("time", NcVar.series td tr) ∈ first.2.vars := by
        generalize first.2.vars = l at htime
        induction l with
        | nil => simp at htime
        | cons kv l ih =>
          obtain ⟨k0, v0⟩ := kv
          rw [List.lookup_cons] at htime
          cases hb : ("time" == k0) with
          | true =>
            rw [hb] at htime
            simp only [Option.some.injEq] at htime
            rw [beq_iff_eq] at hb
            rw [hb, htime]; simp
          | false =>
            rw [hb] at htime
            exact List.mem_cons_of_mem _ (ih htime)
      have htout : ∃ w, ("time", w) ∈ (writeInitialData first.2 keep ignore).vars := by
        have : "time" ∈ (writeInitialData first.2 keep ignore).vars.map (·.1) :=
          (w2 "time").2 ⟨_, htmem, hi, fun _ _ _ _ _ => Or.inl rfl⟩
        obtain ⟨⟨k, w⟩, h1, h2⟩ := List.mem_map.1 this
        simp only at h2
        exact ⟨w, h2 ▸ h1⟩
      -- choose the source variable of each key
      classical
      let src : String → NcVar α := fun key =>
        if hk : ∃ v, (key, v) ∈ first.2.vars then hk.choose else .static [] []
      have huniq : ∀ key v v', (key, v) ∈ first.2.vars → (key, v') ∈ first.2.vars → v = v' := by
        intro key v v' h1 h2
        have hn1 := hnd first (hmem first (by simp)).1
        generalize first.2.vars = l at hn1 h1 h2
        induction l with
        | nil => simp at h1
        | cons kv l ih =>
          rw [List.map_cons, List.nodup_cons] at hn1
          rcases List.mem_cons.1 h1 with e1 | e1 <;> rcases List.mem_cons.1 h2 with e2 | e2
          · rw [← e1] at e2; exact (Prod.mk.inj e2).2.symm
          · exact absurd (List.mem_map.2 ⟨_, e2, by rw [← e1]⟩) hn1.1
          · exact absurd (List.mem_map.2 ⟨_, e1, by rw [← e2]⟩) hn1.1
          · exact ih hn1.2 e1 e2
      have hsrc : ∀ key v, (key, v) ∈ first.2.vars → src key = v := by
        intro key v hv
        have hk : ∃ v, (key, v) ∈ first.2.vars := ⟨v, hv⟩
        simp only [src, dif_pos hk]
        exact huniq key _ _ hk.choose_spec hv
      obtain ⟨r1, r2, r3, r4⟩ := concat_fold first.2 rest
        (fun f hf => hread f (hmem f (by simp [hf])).1) [first.2] [first.1]
        (writeInitialData first.2 keep ignore) (by simp [w1]) htout src (by
          intro key w hw
          obtain ⟨v, hv, hcv⟩ := w3 key w hw
          rw [hsrc key v hv, w1]
          exact hcv)
      unfold concatData at h
      rw [Prod.ext_iff] at h
      obtain ⟨h1, h2⟩ := h
      simp only at h1 h2
      rw [h1] at r2 r3 r4
      rw [h2] at r1
      refine ⟨first, rest, ?_, hsort, ?_, ?_, ?_, ?_⟩
      · exact hperm
      · rw [r1]; simp
      · rw [r2]; simp [Function.comp_def]
      · intro key; rw [r3]; exact w2 key
      · intro key w hw
        have hkey : key ∈ out.vars.map (·.1) := List.mem_map.2 ⟨_, hw, rfl⟩
        rw [r3, w2] at hkey
        obtain ⟨v, hv, -⟩ := hkey
        have hc := r4 key w hw
        rw [hsrc key v hv] at hc
        refine ⟨v, hv, hc.range, fun hk => ?_⟩
        obtain ⟨dims, rows, e1, -, e3⟩ := hc.series hk
        refine ⟨dims, rows, e1, ?_⟩
        intro pre f post hpp i hi
        have := e3 (pre.map (·.2)) f.2 (post.map (·.2)) (by
          have := congrArg (List.map (·.2)) hpp
          simpa using this) i hi
        simpa [Function.comp_def] using this

/-! ### Example files -/

/-- Two gates, two records. -/
def exampleFileA : NcFile ℚ :=
  { n := 2, broken := []
    vars := [("time", .series [] fun i => [some (i : ℚ)]), ("range", .static ["range"] [some 100, some 200]),
      ("Zh", .series ["range"] fun i => [some (10 + i : ℚ), some (20 + i : ℚ)]),
      ("altitude", .static [] [some 5])] }

/-- Three gates, one record, no altitude. -/
def exampleFileB : NcFile ℚ :=
  { n := 1, broken := []
    vars := [("time", .series [] fun _ => [some 7]),
      ("range", .static ["range"] [some 90, some 140, some 190]),
      ("Zh", .series ["range"] fun _ => [some 1, some 2, some 3])] }

/-- All records of a variable of the file. -/
def listVar (f : NcFile ℚ) (key : String) : List (Row ℚ) :=
  match f.vars.lookup key with
  | some (.series _ rows) => (List.range f.n).map rows
  | _ => []

example : Spec.Readable exampleFileA ∧ Spec.Readable exampleFileB ∧
    (match concatenateFiles [(2, exampleFileB), (1, exampleFileA)] none [] with
      | .ok (out, names) => decide (names = [1, 2] ∧ listVar out "time" = [[some 0], [some 1], [some 7]] ∧
          listVar out "Zh" = [[some 10, some 20], [some 11, some 21], [some 1, none]] ∧
          listVar out "altitude" = [[some 5], [some 5], [none]])
      | .error _ => false) = true := by
  refine ⟨⟨⟨_, _, rfl⟩, rfl, by decide, by decide⟩, ⟨⟨_, _, rfl⟩, rfl, by decide, by decide⟩, ?_⟩
  decide +kernel

/-- C39. A file whose reading fails with an HDF error half way is reported as not used, but the records
already written stay in the output: here the output has a third record although only the first file (two
records) is reported. -/
theorem C39_failed_file_leaves_records :
    ∃ out, concatenateFiles (α := ℚ) [(1, exampleFileA), (2, { exampleFileB with broken := ["Zh"] })]
        none [] = .ok (out, [1]) ∧ out.n = 3 ∧
      listVar out "time" = [[some 0], [some 1], [some 7]] ∧
      listVar out "Zh" = [[some 10, some 20], [some 11, some 21], [none, none]] := by
  refine ⟨_, rfl, ?_, ?_, ?_⟩ <;> decide +kernel

/-! ### Updating a file -/

namespace Spec

/-- The variable "time" of the file holds the times `t`. -/
def HasTimes (f : NcFile α) (t : ℕ → α) : Prop :=
  ∃ dims rows, dims.length ≤ 1 ∧ f.vars.lookup "time" = some (.series dims rows) ∧
    ∀ i < f.n, rows i = [some (t i)]

/-- The variable `key` of the file is a time series of at most two dimensions with the records `rows`. -/
def HasSeries (f : NcFile α) (key : String) (rows : ℕ → Row α) : Prop :=
  ∃ dims, dims.length ≤ 1 ∧ f.vars.lookup key = some (.series dims rows)

end Spec

theorem timeAt_of {f : NcFile α} {t : ℕ → α} (h : Spec.HasTimes f t) {i : ℕ} (hi : i < f.n) :
    f.timeAt i = some (t i) := by
  obtain ⟨dims, rows, -, h1, h2⟩ := h
  unfold NcFile.timeAt
  rw [h1]
  simp only [h2 i hi, List.getD_cons_zero]

theorem findLaterIndices_spec {old new : NcFile α} {tOld tNew : ℕ → α} (ho : Spec.HasTimes old tOld)
    (hn : Spec.HasTimes new tNew) (h0 : 0 < old.n) :
    (∀ i, i ∈ findLaterIndices old new ↔ i < new.n ∧ tOld (old.n - 1) < tNew i) ∧
    (findLaterIndices old new).Pairwise (· < ·) := by
  refine ⟨fun i => ?_, List.Pairwise.filter _ List.pairwise_lt_range⟩
  unfold findLaterIndices
  rw [List.mem_filter, List.mem_range]
  apply and_congr_right
  intro hi
  rw [timeAt_of hn hi, timeAt_of ho (by omega)]
  simp [later]

theorem getLast_max (l : List ℕ) (hl : l.Pairwise (· < ·)) (hne : l ≠ []) :
    l.getLast?.getD 0 ∈ l ∧ ∀ i ∈ l, i ≤ l.getLast?.getD 0 := by
  rw [List.getLast?_eq_getLast_of_ne_nil hne, Option.getD_some]
  refine ⟨List.getLast_mem hne, fun i hi => ?_⟩
  obtain ⟨a, ha, rfl⟩ := List.getElem_of_mem hi
  rw [List.getLast_eq_getElem]
  rcases Nat.lt_or_ge a (l.length - 1) with h | h
  · exact le_of_lt (List.pairwise_iff_getElem.1 hl a (l.length - 1) _ (by omega) h)
  · have : a = l.length - 1 := by omega
    subst this
    exact le_refl _

theorem lookup_map_snd {β γ : Type} (l : List (String × β)) (f : String → β → γ) (key : String) :
    (l.map fun kv => (kv.1, f kv.1 kv.2)).lookup key = (l.lookup key).map (f key) := by
  induction l with
  | nil => rfl
  | cons kv l ih =>
    rw [List.map_cons, List.lookup_cons, List.lookup_cons]
    cases hb : (key == kv.1) with
    | true => rw [beq_iff_eq] at hb; simp [hb]
    | false => exact ih

/-- What `_update_fields` makes of the variable `key`. -/
theorem updateFields_lookup (old new : NcFile α) (ind : List ℕ) (key : String) :
    (updateFields old new ind).vars.lookup key = (old.vars.lookup key).map fun v =>
      match v, new.vars.lookup key with
      | .series dims rows, some (.series dims' rows') => .series dims fun i =>
          if i < old.n then rows i
          else if dims'.length ≤ 1 ∧ i - old.n ∈ ind then rows' (i - old.n) else fillLike (rows 0)
      | .series dims rows, _ => .series dims fun i =>
          if i < old.n then rows i else fillLike (rows 0)
      | v, _ => v := by
  unfold updateFields
  simp only
  exact lookup_map_snd old.vars (fun key (v : NcVar α) => match v, new.vars.lookup key with
      | .series dims rows, some (.series dims' rows') => NcVar.series dims fun i =>
          if i < old.n then rows i
          else if dims'.length ≤ 1 ∧ i - old.n ∈ ind then rows' (i - old.n) else fillLike (rows 0)
      | .series dims rows, _ => NcVar.series dims fun i =>
          if i < old.n then rows i else fillLike (rows 0)
      | v, _ => v) key

/-- C40. `update_nc` never changes existing data: every variable keeps its kind, its dimensions and all
its old records, and no variable or record disappears. -/
theorem C40_existing_unchanged (old : NcFile α) (new : Option (NcFile α)) (r : ℕ) (old' : NcFile α)
    (h : updateNc old new = .ok (r, old')) :
    old.n ≤ old'.n ∧ old'.vars.map (·.1) = old.vars.map (·.1) ∧
    (∀ key dims value, old.vars.lookup key = some (.static dims value) →
      old'.vars.lookup key = some (.static dims value)) ∧
    (∀ key dims rows, old.vars.lookup key = some (.series dims rows) →
      ∃ rows', old'.vars.lookup key = some (.series dims rows') ∧ ∀ i < old.n, rows' i = rows i) := by
  have triv : ∀ {r'}, (Except.ok (r', old) : Except String (ℕ × NcFile α)) = .ok (r, old') →
      old.n ≤ old'.n ∧ old'.vars.map (·.1) = old.vars.map (·.1) ∧
      (∀ key dims value, old.vars.lookup key = some (.static dims value) →
        old'.vars.lookup key = some (.static dims value)) ∧
      (∀ key dims rows, old.vars.lookup key = some (.series dims rows) →
        ∃ rows', old'.vars.lookup key = some (.series dims rows') ∧
          ∀ i < old.n, rows' i = rows i) := by
    intro r' h
    have h := (Prod.mk.inj (Except.ok.inj h)).2
    subst h
    exact ⟨le_refl _, rfl, fun _ _ _ h => h, fun _ _ rows h => ⟨rows, h, fun _ _ => rfl⟩⟩
  unfold updateNc at h
  cases new with
  | none => exact triv h
  | some new =>
    simp only at h
    split at h
    · cases h
    · split at h
      · have h := (Prod.mk.inj (Except.ok.inj h)).2
        subst h
        refine ⟨?_, ?_, ?_, ?_⟩
        · unfold updateFields; simp only; omega
        · unfold updateFields; simp only [List.map_map]; rfl
        · intro key dims value hl
          rw [updateFields_lookup, hl]; rfl
        · intro key dims rows hl
          rw [updateFields_lookup, hl]
          rcases hl' : new.vars.lookup key with _ | v
          · exact ⟨_, rfl, fun i hi => if_pos hi⟩
          · cases v with
            | static d v => exact ⟨_, rfl, fun i hi => if_pos hi⟩
            | series d v => exact ⟨_, rfl, fun i hi => if_pos hi⟩
      · exact triv h

/-- C40. What `update_nc` adds. If no record of the new file is later than the last record of the old
one, nothing changes and 0 is returned. Otherwise 1 is returned and, with `last` the last of the later
records, record `i ≤ last` of each common time series of at most two dimensions is stored at position
`old.n + i` if it is later, else that position is filled with missing values, which is also what other
time series get. -/
theorem C40_update (old new : NcFile α) (tOld tNew : ℕ → α) (ho : Spec.HasTimes old tOld)
    (hn : Spec.HasTimes new tNew) (h0 : 0 < old.n) :
    ((∀ i < new.n, tNew i ≤ tOld (old.n - 1)) → updateNc old (some new) = .ok (0, old)) ∧
    ((∃ i < new.n, tOld (old.n - 1) < tNew i) → ∃ last < new.n, ∃ old',
      tOld (old.n - 1) < tNew last ∧ (∀ i < new.n, tOld (old.n - 1) < tNew i → i ≤ last) ∧
      updateNc old (some new) = .ok (1, old') ∧ old'.n = old.n + last + 1 ∧
      ∀ key dims rows, old.vars.lookup key = some (.series dims rows) →
        ∃ rows', old'.vars.lookup key = some (.series dims rows') ∧ (∀ i < old.n, rows' i = rows i) ∧
          (∀ rowsNew, Spec.HasSeries new key rowsNew → ∀ i ≤ last, rows' (old.n + i) =
            if tOld (old.n - 1) < tNew i then rowsNew i else (rows 0).map fun _ => none) ∧
          ((¬ ∃ rowsNew, Spec.HasSeries new key rowsNew) → ∀ i ≤ last,
            rows' (old.n + i) = (rows 0).map fun _ => none)) := by
  obtain ⟨f1, f2⟩ := findLaterIndices_spec ho hn h0
  constructor
  · intro hall
    have hnil : findLaterIndices old new = [] := by
      rw [List.eq_nil_iff_forall_not_mem]
      intro i hi
      obtain ⟨h1, h2⟩ := (f1 i).1 hi
      exact absurd h2 (not_lt.2 (hall i h1))
    unfold updateNc
    simp only [hnil]
    rw [if_neg (by omega)]
    rfl
  · rintro ⟨i0, hi0, hlt0⟩
    have hne : findLaterIndices old new ≠ [] := List.ne_nil_of_mem ((f1 i0).2 ⟨hi0, hlt0⟩)
    obtain ⟨m1, m2⟩ := getLast_max _ f2 hne
    obtain ⟨hl1, hl2⟩ := (f1 _).1 m1
    refine ⟨_, hl1, updateFields old new (findLaterIndices old new), hl2,
      fun i hi h => m2 i ((f1 i).2 ⟨hi, h⟩), ?_, rfl, ?_⟩
    · unfold updateNc
      simp only
      rw [if_neg (by omega), if_pos (List.length_pos_iff.2 hne)]
    · intro key dims rows hl
      rw [updateFields_lookup, hl]
      rcases hl' : new.vars.lookup key with _ | v
      · refine ⟨_, rfl, fun i hi => if_pos hi, ?_, fun _ i hi => if_neg (by omega)⟩
        rintro rowsNew ⟨d, _, h⟩
        rw [hl'] at h; cases h
      · cases v with
        | static d v =>
          refine ⟨_, rfl, fun i hi => if_pos hi, ?_, fun _ i hi => if_neg (by omega)⟩
          rintro rowsNew ⟨d, _, h⟩
          rw [hl'] at h; cases h
        | series d v =>
          refine ⟨_, rfl, fun i hi => if_pos hi, ?_, ?_⟩
          · rintro rowsNew ⟨d', hd, h⟩ i hi
            rw [hl'] at h
            cases h
            rw [if_neg (by omega), Nat.add_sub_cancel_left]
            by_cases hlt : tOld (old.n - 1) < tNew i
            · rw [if_pos ⟨hd, (f1 i).2 ⟨by omega, hlt⟩⟩, if_pos hlt]
            · rw [if_neg (fun hc => hlt ((f1 i).1 hc.2).2), if_neg hlt]
              rfl
          · intro hno i hi
            rw [if_neg (by omega), if_neg]
            · rfl
            · rintro ⟨hd, _⟩
              exact hno ⟨v, d, hd, hl'⟩

/-- C40. When all records of the new file are later than the old ones they are appended as they are. (In
general the later records need not be the first ones of the new file; then missing records are inserted
in between, see `C40_update` and `C40_gap_inserted`.) -/
theorem C40_append (old new : NcFile α) (tOld tNew : ℕ → α) (ho : Spec.HasTimes old tOld)
    (hn : Spec.HasTimes new tNew) (h0 : 0 < old.n) (h1 : 0 < new.n)
    (hall : ∀ i < new.n, tOld (old.n - 1) < tNew i) :
    ∃ old', updateNc old (some new) = .ok (1, old') ∧ old'.n = old.n + new.n ∧
      ∀ key rows rowsNew, Spec.HasSeries old key rows → Spec.HasSeries new key rowsNew →
        ∃ rows', Spec.HasSeries old' key rows' ∧ (∀ i < old.n, rows' i = rows i) ∧
          ∀ i < new.n, rows' (old.n + i) = rowsNew i := by
  obtain ⟨last, hlast, old', _, hmax, he, hn', hrows⟩ := (C40_update old new tOld tNew ho hn h0).2
    ⟨0, h1, hall 0 h1⟩
  have hl : last = new.n - 1 := by
    have := hmax (new.n - 1) (by omega) (hall _ (by omega)); omega
  refine ⟨old', he, by omega, ?_⟩
  rintro key rows rowsNew ⟨dims, hd, hk⟩ hnew
  obtain ⟨rows', g1, g2, g3, -⟩ := hrows key dims rows hk
  refine ⟨rows', ⟨dims, hd, g1⟩, g2, ?_⟩
  intro i hi
  rw [g3 rowsNew hnew i (by omega), if_pos (hall i hi)]

/-- C40. Repeating an update with the same file of increasing times changes nothing and returns 0. -/
theorem C40_idempotent (old new : NcFile α) (tOld tNew : ℕ → α) (ho : Spec.HasTimes old tOld)
    (hn : Spec.HasTimes new tNew) (h0 : 0 < old.n) (hinc : ∀ i j, i < j → j < new.n → tNew i < tNew j)
    (r : ℕ) (old' : NcFile α) (h : updateNc old (some new) = .ok (r, old')) :
    updateNc old' (some new) = .ok (0, old') := by
  by_cases hex : ∃ i < new.n, tOld (old.n - 1) < tNew i
  · obtain ⟨last, hlast, old'', hlt, hmax, he, hn', hrows⟩ := (C40_update old new tOld tNew ho hn h0).2 hex
    rw [he] at h
    have h := (Prod.mk.inj (Except.ok.inj h)).2
    subst h
    have hl : last = new.n - 1 := by
      by_contra hc
      have := hinc last (new.n - 1) (by omega) (by omega)
      have := hmax (new.n - 1) (by omega) (lt_trans hlt this)
      omega
    obtain ⟨dims, rows, hd, hk, hval⟩ := ho
    obtain ⟨dims', rowsNew, hd', hk', hval'⟩ := id hn
    obtain ⟨rows', g1, g2, g3, -⟩ := hrows "time" dims rows hk
    have hlastTime : old''.timeAt (old''.n - 1) = some (tNew last) := by
      unfold NcFile.timeAt
      rw [g1]
      simp only
      rw [hn', show old.n + last + 1 - 1 = old.n + last by omega,
        g3 rowsNew ⟨dims', hd', hk'⟩ last (le_refl _), if_pos hlt, hval' last hlast]
      rfl
    have hnil : findLaterIndices old'' new = [] := by
      rw [List.eq_nil_iff_forall_not_mem]
      intro i hi
      unfold findLaterIndices at hi
      rw [List.mem_filter, List.mem_range, hlastTime] at hi
      rw [timeAt_of hn hi.1] at hi
      simp only [later, decide_eq_true_eq] at hi
      rcases Nat.lt_or_ge i last with h | h
      · exact absurd hi.2 (not_lt.2 (le_of_lt (hinc i last h hlast)))
      · have : i = last := by omega
        rw [this] at hi
        exact absurd hi.2 (lt_irrefl _)
    unfold updateNc
    simp only [hnil]
    rw [if_neg (by omega)]
    rfl
  · push Not at hex
    rw [(C40_update old new tOld tNew ho hn h0).1 hex] at h
    have h := (Prod.mk.inj (Except.ok.inj h)).2
    subst h
    exact (C40_update old new tOld tNew ho hn h0).1 hex

/-- C40. The result of an update stays in increasing time order, apart from records without a time. -/
theorem C40_order (old new : NcFile α) (tOld tNew : ℕ → α) (ho : Spec.HasTimes old tOld)
    (hn : Spec.HasTimes new tNew) (h0 : 0 < old.n) (hold : ∀ i j, i < j → j < old.n → tOld i < tOld j)
    (hnew : ∀ i j, i < j → j < new.n → tNew i < tNew j)
    (r : ℕ) (old' : NcFile α) (h : updateNc old (some new) = .ok (r, old')) :
    ∃ dims rows, old'.vars.lookup "time" = some (.series dims rows) ∧
      ∀ i j a b, i < j → j < old'.n → rows i = [some a] → rows j = [some b] → a < b := by
  by_cases hex : ∃ i < new.n, tOld (old.n - 1) < tNew i
  · obtain ⟨last, hlast, old'', hlt, hmax, he, hn', hrows⟩ := (C40_update old new tOld tNew ho hn h0).2 hex
    rw [he] at h
    have h := (Prod.mk.inj (Except.ok.inj h)).2
    subst h
    obtain ⟨dims, rows, hd, hk, hval⟩ := ho
    obtain ⟨dims', rowsNew, hd', hk', hval'⟩ := id hn
    obtain ⟨rows', g1, g2, g3, -⟩ := hrows "time" dims rows hk
    have g3 := g3 rowsNew ⟨dims', hd', hk'⟩
    -- time of a record of the new file
    have key : ∀ i ≤ last, ∀ b, rows' (old.n + i) = [some b] → tOld (old.n - 1) < tNew i ∧ b = tNew i := by
      intro i hi b hb
      rw [g3 i hi] at hb
      by_cases hc : tOld (old.n - 1) < tNew i
      · rw [if_pos hc, hval' i (by omega)] at hb
        simp at hb
        exact ⟨hc, hb.symm⟩
      · rw [if_neg hc, hval 0 h0] at hb
        simp at hb
    refine ⟨dims, rows', g1, ?_⟩
    intro i j a b hij hj ha hb
    by_cases h1 : j < old.n
    · rw [g2 i (by omega), hval i (by omega)] at ha
      rw [g2 j h1, hval j h1] at hb
      simp at ha hb
      rw [← ha, ← hb]
      exact hold i j hij h1
    · rw [show j = old.n + (j - old.n) by omega] at hb
      obtain ⟨k1, k2⟩ := key _ (by omega) b hb
      rw [k2]
      by_cases h2 : i < old.n
      · rw [g2 i h2, hval i h2] at ha
        simp at ha
        rw [← ha]
        refine lt_of_le_of_lt ?_ k1
        rcases Nat.lt_or_ge i (old.n - 1) with h3 | h3
        · exact le_of_lt (hold i _ h3 (by omega))
        · rw [show i = old.n - 1 by omega]
      · rw [show i = old.n + (i - old.n) by omega] at ha
        obtain ⟨_, k4⟩ := key _ (by omega) a ha
        rw [k4]
        exact hnew _ _ (by omega) (by omega)
  · push Not at hex
    rw [(C40_update old new tOld tNew ho hn h0).1 hex] at h
    have h := (Prod.mk.inj (Except.ok.inj h)).2
    subst h
    obtain ⟨dims, rows, hd, hk, hval⟩ := ho
    refine ⟨dims, rows, hk, ?_⟩
    intro i j a b hij hj ha hb
    rw [hval i (by omega)] at ha
    rw [hval j hj] at hb
    simp at ha hb
    rw [← ha, ← hb]
    exact hold i j hij hj

/-- C40. A file that cannot be opened leaves the old file as it is; an empty old file raises. -/
theorem C40_failures (old : NcFile α) :
    updateNc old none = .ok (0, old) ∧
    ∀ new, old.n = 0 → ∃ e, updateNc old (some new) = .error e :=
  ⟨rfl, fun new h => ⟨_, by unfold updateNc; simp only; rw [if_pos h]⟩⟩

/-- A whole history of updates, as produced by repeated calls. -/
def updateAll (old : NcFile α) (news : List (NcFile α)) : Except String (NcFile α) :=
  news.foldlM (fun f new => (updateNc f (some new)).map (·.2)) old

/-- C40. No sequence of updates, with whatever files, changes existing data. -/
theorem C40_sequence_unchanged (news : List (NcFile α)) (old out : NcFile α)
    (h : updateAll old news = .ok out) :
    old.n ≤ out.n ∧ out.vars.map (·.1) = old.vars.map (·.1) ∧
    (∀ key dims value, old.vars.lookup key = some (.static dims value) →
      out.vars.lookup key = some (.static dims value)) ∧
    (∀ key dims rows, old.vars.lookup key = some (.series dims rows) →
      ∃ rows', out.vars.lookup key = some (.series dims rows') ∧ ∀ i < old.n, rows' i = rows i) := by
  induction news generalizing old with
  | nil =>
    have h : old = out := Except.ok.inj h
    subst h
    exact ⟨le_refl _, rfl, fun _ _ _ h => h, fun _ _ rows h => ⟨rows, h, fun _ _ => rfl⟩⟩
  | cons f news ih =>
    unfold updateAll at h
    rw [List.foldlM_cons] at h
    cases hu : updateNc old (some f) with
    | error e => rw [hu] at h; cases h
    | ok q =>
      obtain ⟨r, mid⟩ := q
      rw [hu] at h
      obtain ⟨a1, a2, a3, a4⟩ := C40_existing_unchanged old (some f) r mid hu
      obtain ⟨b1, b2, b3, b4⟩ := ih mid h
      refine ⟨le_trans a1 b1, b2.trans a2, fun k d v hv => b3 k d v (a3 k d v hv), ?_⟩
      intro k d rows hv
      obtain ⟨rows1, c1, c2⟩ := a4 k d rows hv
      obtain ⟨rows2, e1, e2⟩ := b4 k d rows1 c1
      exact ⟨rows2, e1, fun i hi => (e2 i (by omega)).trans (c2 i hi)⟩

/-- C40. A history of any number of updates with files of increasing times, each entirely later than the
previous ones: the result has the old records followed by the records of all files in order, for every
time series of at most two dimensions that all files have. -/
theorem C40_history (news : List (NcFile α × (ℕ → α))) (old : NcFile α) (tOld : ℕ → α)
    (ho : Spec.HasTimes old tOld) (h0 : 0 < old.n)
    (hn : ∀ f ∈ news, Spec.HasTimes f.1 f.2 ∧ 0 < f.1.n ∧ ∀ i j, i ≤ j → j < f.1.n → f.2 i ≤ f.2 j)
    (hfirst : ∀ f ∈ news, tOld (old.n - 1) < f.2 0)
    (hord : news.Pairwise fun f g => f.2 (f.1.n - 1) < g.2 0) :
    ∃ out, updateAll old (news.map (·.1)) = .ok out ∧
      out.n = old.n + (news.map (·.1.n)).sum ∧
      ∀ key rows, Spec.HasSeries old key rows →
        (∀ f ∈ news, ∃ rowsNew, Spec.HasSeries f.1 key rowsNew) →
        ∃ rows', Spec.HasSeries out key rows' ∧ (∀ i < old.n, rows' i = rows i) ∧
          ∀ pre f post, news = pre ++ f :: post → ∀ rowsNew, Spec.HasSeries f.1 key rowsNew →
            ∀ i < f.1.n, rows' (old.n + (pre.map (·.1.n)).sum + i) = rowsNew i := by
  induction news generalizing old tOld with
  | nil =>
    refine ⟨old, rfl, by simp, ?_⟩
    intro key rows hk _
    refine ⟨rows, hk, fun _ _ => rfl, ?_⟩
    intro pre f post h
    have := congrArg List.length h
    simp at this
  | cons g news ih =>
    rw [List.pairwise_cons] at hord
    obtain ⟨hg, gpos, gmono⟩ := hn g (by simp)
    have glater : ∀ i < g.1.n, tOld (old.n - 1) < g.2 i := fun i hi =>
      lt_of_lt_of_le (hfirst g (by simp)) (gmono 0 i (Nat.zero_le _) hi)
    obtain ⟨old', e1, e2, e3⟩ := C40_append old g.1 tOld g.2 ho hg h0 gpos glater
    -- times of the new state
    have ho' : Spec.HasTimes old' (fun i => if i < old.n then tOld i else g.2 (i - old.n)) := by
      obtain ⟨dims, rows, hd, hk, hval⟩ := ho
      obtain ⟨dims', rows', hd', hk', hval'⟩ := hg
      obtain ⟨r, ⟨d, hdd, hr⟩, r1, r2⟩ := e3 "time" rows rows' ⟨dims, hd, hk⟩ ⟨dims', hd', hk'⟩
      refine ⟨d, r, hdd, hr, ?_⟩
      intro i hi
      by_cases hlt : i < old.n
      · simp only [if_pos hlt]; rw [r1 i hlt, hval i hlt]
      · simp only [if_neg hlt]
        have := r2 (i - old.n) (by omega)
        rw [show old.n + (i - old.n) = i by omega] at this
        rw [this, hval' _ (by omega)]
    obtain ⟨out, o1, o2, o3⟩ := ih old' _ ho' (by omega) (fun f hf => hn f (by simp [hf])) (by
        intro f hf
        rw [if_neg (by omega), show old'.n - 1 - old.n = g.1.n - 1 by omega]
        exact hord.1 f hf) hord.2
    refine ⟨out, ?_, ?_, ?_⟩
    · unfold updateAll at o1 ⊢
      rw [List.map_cons, List.foldlM_cons, e1]
      exact o1
    · rw [o2, e2]; simp; omega
    · intro key rows hk hall
      obtain ⟨rg, hrg⟩ := hall g (by simp)
      obtain ⟨r, hr, r1, r2⟩ := e3 key rows rg hk hrg
      obtain ⟨rows', q1, q2, q3⟩ := o3 key r hr (fun f hf => hall f (by simp [hf]))
      refine ⟨rows', q1, fun i hi => by rw [q2 i (by omega), r1 i hi], ?_⟩
      intro pre f post hpp rowsNew hnew i hi
      cases pre with
      | nil =>
        rw [List.nil_append, List.cons.injEq] at hpp
        obtain ⟨rfl, _⟩ := hpp
        have : rowsNew = rg := by
          obtain ⟨d1, _, h1⟩ := hnew
          obtain ⟨d2, _, h2⟩ := hrg
          rw [h1] at h2
          exact (NcVar.series.inj (Option.some.inj h2)).2
        simp only [List.map_nil, List.sum_nil, Nat.add_zero]
        rw [q2 _ (by omega), r2 i hi, this]
      | cons p pre =>
        rw [List.cons_append, List.cons.injEq] at hpp
        obtain ⟨rfl, hpp⟩ := hpp
        have := q3 pre f post hpp rowsNew hnew i hi
        rw [← this, e2]
        congr 1
        simp
        omega

/-- C40. When the new file starts with a record that the old file already has, a record of missing values
is inserted: times 0, 1 updated with times 1, 2 become 0, 1, missing, 2. -/
theorem C40_gap_inserted :
    (match updateNc exampleFileA (some { exampleFileA with
        vars := [("time", .series [] fun i => [some (1 + i : ℚ)])] }) with
      | .ok (1, out) => decide (listVar out "time" = [[some 0], [some 1], [none], [some 2]])
      | _ => false) = true := by
  decide +kernel

example : Spec.HasTimes exampleFileA (fun i => (i : ℚ)) ∧ Spec.HasTimes exampleFileB (fun _ => (7 : ℚ)) ∧
    Spec.HasSeries exampleFileA "Zh" (fun i => [some (10 + i : ℚ), some (20 + i : ℚ)]) ∧
    (match updateNc exampleFileA (some exampleFileB) with
      | .ok (1, out) => decide (listVar out "time" = [[some 0], [some 1], [some 7]])
      | _ => false) = true := by
  refine ⟨⟨_, _, by simp, rfl, fun _ _ => rfl⟩, ⟨_, _, by simp, rfl, fun _ _ => rfl⟩,
    ⟨_, by simp, rfl⟩, by decide +kernel⟩

end Cloudnet
