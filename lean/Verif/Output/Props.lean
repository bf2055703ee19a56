import Verif.Output.Model
import Mathlib.Logic.Relation

namespace Cloudnet

namespace Spec

/-- `l` is one of the lines of the text `h`. -/
def IsLine (h l : Text) : Prop :=
  '\n' ∉ l ∧ ∃ pre post, h = pre ++ l ++ post ∧
    (pre = [] ∨ ∃ p, pre = p ++ ['\n']) ∧ (post = [] ∨ ∃ p, post = '\n' :: p)

/-- `l` is the last line of the text `h`. -/
def IsLastLine (h l : Text) : Prop :=
  '\n' ∉ l ∧ (h = l ∨ ∃ p, h = p ++ ['\n'] ++ l)

/-- The line `l` is to be taken over from the source file `s`: any line of its history, for a model file
only the last one. -/
def TakenOver (s : SourceFile) (l : Text) : Prop :=
  ∃ h, s.history = some h ∧ if s.isModel then IsLastLine h l else IsLine h l

end Spec

/-! ### Lines -/

theorem splitLines_ne_nil (h : Text) : splitLines h ≠ [] := by
  cases h with
  | nil => simp [splitLines]
  | cons c cs =>
    unfold splitLines
    split
    · simp
    · split <;> simp

/-- The first line. -/
theorem splitLines_of_not_mem (l : Text) (hl : '\n' ∉ l) : splitLines l = [l] := by
  induction l with
  | nil => rfl
  | cons c cs ih =>
    rw [List.mem_cons, not_or] at hl
    unfold splitLines
    rw [if_neg (fun h => hl.1 h.symm), ih hl.2]

theorem splitLines_append (l rest : Text) (hl : '\n' ∉ l) :
    splitLines (l ++ '\n' :: rest) = l :: splitLines rest := by
  induction l with
  | nil => simp [splitLines]
  | cons c cs ih =>
    rw [List.mem_cons, not_or] at hl
    rw [List.cons_append, splitLines, if_neg (fun h => hl.1 h.symm), ih hl.2]

/-- A text is one line, or a line followed by a text. -/
theorem line_cases (h : Text) : '\n' ∉ h ∨ ∃ l rest, '\n' ∉ l ∧ h = l ++ '\n' :: rest := by
  induction h with
  | nil => left; simp
  | cons c cs ih =>
    by_cases hc : c = '\n'
    · right
      exact ⟨[], cs, by simp, by simp [hc]⟩
    · rcases ih with h | ⟨l, rest, h1, h2⟩
      · left
        rw [List.mem_cons, not_or]
        exact ⟨fun h => hc h.symm, h⟩
      · right
        refine ⟨c :: l, rest, ?_, by simp [h2]⟩
        rw [List.mem_cons, not_or]
        exact ⟨fun h => hc h.symm, h1⟩

/-- In `pre ++ l ++ post` with `l` a whole line, and `h` one line only. -/
theorem isLine_single {h l : Text} (hh : '\n' ∉ h) : Spec.IsLine h l ↔ l = h := by
  constructor
  · rintro ⟨_, pre, post, rfl, h1, h2⟩
    have e1 : pre = [] := by
      rcases h1 with h | ⟨p, rfl⟩
      · exact h
      · exact absurd (by simp) hh
    have e2 : post = [] := by
      rcases h2 with h | ⟨p, rfl⟩
      · exact h
      · exact absurd (by simp) hh
    simp [e1, e2]
  · rintro rfl
    exact ⟨hh, [], [], by simp, Or.inl rfl, Or.inl rfl⟩

theorem append_eq_first {a b : Text} {x y : Text} (ha : '\n' ∉ a) (hb : '\n' ∉ b)
    (h : a ++ '\n' :: x = b ++ '\n' :: y) : a = b ∧ x = y := by
  induction a generalizing b with
  | nil =>
    cases b with
    | nil => simpa using h
    | cons c cs =>
      simp only [List.nil_append, List.cons_append, List.cons.injEq] at h
      exact absurd (by rw [← h.1]; simp) hb
  | cons c cs ih =>
    cases b with
    | nil =>
      simp only [List.nil_append, List.cons_append, List.cons.injEq] at h
      exact absurd (by simp [h.1]) ha
    | cons d ds =>
      simp only [List.cons_append, List.cons.injEq] at h
      rw [List.mem_cons, not_or] at ha hb
      obtain ⟨h1, h2⟩ := ih ha.2 hb.2 h.2
      exact ⟨by rw [h.1, h1], h2⟩

theorem isLine_cons {l1 rest l : Text} (h1 : '\n' ∉ l1) :
    Spec.IsLine (l1 ++ '\n' :: rest) l ↔ l = l1 ∨ Spec.IsLine rest l := by
  constructor
  · rintro ⟨hl, pre, post, he, hp, hq⟩
    rcases hp with rfl | ⟨p, rfl⟩
    · left
      rcases hq with rfl | ⟨q, rfl⟩
      · have : '\n' ∈ l := by
          rw [List.nil_append, List.append_nil] at he
          rw [← he]; simp
        exact absurd this hl
      · rw [List.nil_append] at he
        exact (append_eq_first h1 hl he).1.symm
    · right
      rcases line_cases p with hp | ⟨a, b, ha, hb⟩
      · rw [List.append_assoc, List.append_assoc, List.singleton_append] at he
        obtain ⟨_, e2⟩ := append_eq_first h1 hp he
        exact ⟨hl, [], post, by simp [e2], Or.inl rfl, hq⟩
      · rw [hb, List.append_assoc, List.append_assoc, List.append_assoc, List.cons_append] at he
        obtain ⟨_, e2⟩ := append_eq_first h1 ha he
        refine ⟨hl, b ++ ['\n'], post, by simp [e2], Or.inr ⟨b, rfl⟩, hq⟩
  · rintro (rfl | ⟨hl, pre, post, rfl, hp, hq⟩)
    · exact ⟨h1, [], '\n' :: rest, by simp, Or.inl rfl, Or.inr ⟨rest, rfl⟩⟩
    · refine ⟨hl, l1 ++ '\n' :: pre, post, by simp, Or.inr ?_, hq⟩
      rcases hp with rfl | ⟨p, rfl⟩
      · exact ⟨l1, by simp⟩
      · exact ⟨l1 ++ '\n' :: p, by simp⟩

theorem mem_splitLines (n : ℕ) : ∀ (h l : Text), h.length ≤ n → (l ∈ splitLines h ↔ Spec.IsLine h l) := by
  induction n with
  | zero =>
    intro h l hn
    have : h = [] := List.eq_nil_of_length_eq_zero (by omega)
    subst this
    rw [isLine_single (by simp)]
    simp [splitLines]
  | succ n ih =>
    intro h l hn
    rcases line_cases h with hh | ⟨l1, rest, h1, rfl⟩
    · rw [isLine_single hh, splitLines_of_not_mem h hh]
      simp
    · rw [splitLines_append l1 rest h1, isLine_cons h1, List.mem_cons, ih rest l]
      simp at hn; omega

theorem mem_splitLines_iff (h l : Text) : l ∈ splitLines h ↔ Spec.IsLine h l :=
  mem_splitLines h.length h l (le_refl _)

theorem getLast_splitLines (n : ℕ) :
    ∀ (h l : Text), h.length ≤ n → ((splitLines h).getLastD [] = l ↔ Spec.IsLastLine h l) := by
  induction n with
  | zero =>
    intro h l hn
    have : h = [] := List.eq_nil_of_length_eq_zero (by omega)
    subst this
    unfold Spec.IsLastLine
    simp only [splitLines, List.getLastD_cons, List.getLastD_nil]
    constructor
    · rintro rfl; simp
    · rintro ⟨_, h | ⟨p, h⟩⟩
      · exact h
      · simp at h
  | succ n ih =>
    intro h l hn
    rcases line_cases h with hh | ⟨l1, rest, h1, rfl⟩
    · rw [splitLines_of_not_mem h hh]
      unfold Spec.IsLastLine
      simp only [List.getLastD_cons, List.getLastD_nil]
      constructor
      · rintro rfl; exact ⟨hh, Or.inl rfl⟩
      · rintro ⟨_, h | ⟨p, h⟩⟩
        · exact h
        · exact absurd (by rw [h]; simp) hh
    · rw [splitLines_append l1 rest h1]
      have e : (l1 :: splitLines rest).getLastD [] = (splitLines rest).getLastD [] := by
        obtain ⟨a, t, hat⟩ := List.exists_cons_of_ne_nil (splitLines_ne_nil rest)
        rw [hat]; simp [List.getLastD_cons]
      rw [e, ih rest l (by simp at hn; omega)]
      unfold Spec.IsLastLine
      apply and_congr_right
      intro hl
      constructor
      · rintro (rfl | ⟨p, rfl⟩)
        · right; exact ⟨l1, by simp⟩
        · right; exact ⟨l1 ++ '\n' :: p, by simp⟩
      · rintro (h | ⟨p, h⟩)
        · exact absurd (by rw [← h]; simp) hl
        · rcases line_cases p with hp | ⟨a, b, ha, rfl⟩
          · rw [List.append_assoc, List.singleton_append] at h
            left; exact (append_eq_first h1 hp h).2
          · right
            rw [List.append_assoc, List.append_assoc, List.cons_append] at h
            exact ⟨b, by rw [(append_eq_first h1 ha h).2]; simp⟩

theorem eraseDups_nodup {β : Type} [BEq β] [LawfulBEq β] (n : ℕ) :
    ∀ l : List β, l.length ≤ n → l.eraseDups.Nodup := by
  induction n with
  | zero =>
    intro l hl
    have : l = [] := List.eq_nil_of_length_eq_zero (by omega)
    subst this; simp
  | succ n ih =>
    intro l hl
    cases l with
    | nil => simp
    | cons a as =>
      rw [List.eraseDups_cons, List.nodup_cons]
      constructor
      · rw [List.mem_eraseDups, List.mem_filter]
        simp
      · apply ih
        have := List.length_filter_le (fun b => !b == a) as
        simp at hl; omega

theorem nodup_eraseDups {β : Type} [BEq β] [LawfulBEq β] (l : List β) : l.eraseDups.Nodup :=
  eraseDups_nodup l.length l (le_refl _)

theorem eraseDups_of_nodup {β : Type} [BEq β] [LawfulBEq β] (l : List β) (h : l.Nodup) :
    l.eraseDups = l := by
  induction l with
  | nil => rfl
  | cons a as ih =>
    rw [List.nodup_cons] at h
    rw [List.eraseDups_cons]
    have : as.filter (fun b => !b == a) = as := by
      rw [List.filter_eq_self]
      intro b hb
      simp only [Bool.not_eq_true', beq_eq_false_iff_ne, ne_eq]
      rintro rfl
      exact h.1 hb
    rw [this, ih h.2]

theorem mem_extractHistory (s : SourceFile) (l : Text) : l ∈ extractHistory s ↔ Spec.TakenOver s l := by
  unfold extractHistory Spec.TakenOver
  cases hs : s.history with
  | none => simp
  | some h =>
    cases hm : s.isModel with
    | true =>
      simp only [if_true, List.mem_singleton, Option.some.injEq, exists_eq_left']
      rw [← getLast_splitLines h.length h l (le_refl _)]
      exact eq_comm
    | false =>
      simp only [Bool.false_eq_true, if_false, Option.some.injEq, exists_eq_left']
      exact mem_splitLines_iff h l

/-! ### C41 -/

/-- C41. The merged history is the new record followed by one line for each distinct line taken over
from a source (all lines, but for a model file only its last line), later time stamps first, malformed
lines last. -/
theorem C41_merge_history (parse : Text → Option ℤ) (dtMin : ℤ) (hmin : ∀ l t, parse l = some t → dtMin < t)
    (newRecord : Text) (sources : List SourceFile) :
    ∃ lines : List Text,
      mergeHistory parse dtMin newRecord sources = newRecord ++ lines.flatMap (fun l => '\n' :: l) ∧
      lines.Nodup ∧
      (∀ l, l ∈ lines ↔ ∃ s ∈ sources, Spec.TakenOver s l) ∧
      lines.Pairwise (fun a b => parse b = none ∨ ∃ ta tb, parse a = some ta ∧ parse b = some tb ∧ tb ≤ ta) := by
  refine ⟨_, rfl, ?_, ?_, ?_⟩
  · exact (List.perm_insertionSort _ _).nodup_iff.2 (nodup_eraseDups _)
  · intro l
    rw [(List.perm_insertionSort _ _).mem_iff, List.mem_eraseDups, List.mem_flatMap]
    simp only [mem_extractHistory]
  · have : Std.Total (fun a b : Text => (parse b).getD dtMin ≤ (parse a).getD dtMin) :=
      ⟨fun a b => le_total _ _⟩
    have : IsTrans Text (fun a b : Text => (parse b).getD dtMin ≤ (parse a).getD dtMin) :=
      ⟨fun a b c h1 h2 => le_trans h2 h1⟩
    refine List.Pairwise.imp ?_ (List.pairwise_insertionSort
      (fun a b : Text => (parse b).getD dtMin ≤ (parse a).getD dtMin) _)
    intro a b h
    rcases hb : parse b with _ | tb
    · exact Or.inl rfl
    · right
      rcases ha : parse a with _ | ta
      · rw [ha, hb] at h
        simp only [Option.getD_none, Option.getD_some] at h
        have := hmin b tb hb
        omega
      · rw [ha, hb] at h
        exact ⟨ta, tb, rfl, rfl, h⟩

/-- C41. Lines with the same time stamp keep the order of the sources: if `a` appears before `b` among the
distinct lines of the sources and is not older, it also does in the result. -/
theorem C41_stable (parse : Text → Option ℤ) (dtMin : ℤ) (newRecord : Text) (sources : List SourceFile)
    (a b : Text) (hab : [a, b].Sublist (sources.flatMap extractHistory).eraseDups)
    (h : (parse b).getD dtMin ≤ (parse a).getD dtMin) :
    ∃ lines : List Text,
      mergeHistory parse dtMin newRecord sources = newRecord ++ lines.flatMap (fun l => '\n' :: l) ∧
      [a, b].Sublist lines := by
  refine ⟨_, rfl, List.sublist_insertionSort ?_ hab⟩
  simpa using h

/-- A text built from lines has exactly these lines. -/
theorem isLine_join (first l : Text) (lines : List Text) (hf : '\n' ∉ first) (hl : ∀ x ∈ lines, '\n' ∉ x) :
    Spec.IsLine (first ++ lines.flatMap (fun l => '\n' :: l)) l ↔ l = first ∨ l ∈ lines := by
  induction lines generalizing first with
  | nil =>
    simp only [List.flatMap_nil, List.append_nil, List.not_mem_nil, or_false]
    exact isLine_single hf
  | cons x xs ih =>
    rw [List.flatMap_cons, List.cons_append, isLine_cons hf,
      ih x (hl x (by simp)) (fun y hy => hl y (by simp [hy])), List.mem_cons]

/-- One processing step: `out` is the history of a product made from a source with the history `h`, which
is not a model file, and any other sources. -/
def Spec.ProductOf (parse : Text → Option ℤ) (dtMin : ℤ) (h out : Text) : Prop :=
  ∃ newRecord sources, '\n' ∉ newRecord ∧ out = mergeHistory parse dtMin newRecord sources ∧
    ∃ s ∈ sources, s.history = some h ∧ s.isModel = false

/-- C41. Through any number of processing steps, every line of the history of an instrument file is still
a line of the final product's history, and each product's own creation record is its first line. -/
theorem C41_lineage (parse : Text → Option ℤ) (dtMin : ℤ) (h out l : Text)
    (hsteps : Relation.ReflTransGen (Spec.ProductOf parse dtMin) h out) (hl : Spec.IsLine h l) :
    Spec.IsLine out l := by
  induction hsteps with
  | refl => exact hl
  | tail _ hstep ih =>
    obtain ⟨newRecord, sources, hn, rfl, s, hs, hh, hm⟩ := hstep
    unfold mergeHistory
    simp only
    rw [isLine_join _ _ _ hn]
    · right
      rw [(List.perm_insertionSort _ _).mem_iff, List.mem_eraseDups, List.mem_flatMap]
      refine ⟨s, hs, ?_⟩
      rw [mem_extractHistory]
      exact ⟨_, hh, by rw [hm]; exact ih⟩
    · intro x hx
      rw [(List.perm_insertionSort _ _).mem_iff, List.mem_eraseDups, List.mem_flatMap] at hx
      obtain ⟨s', _, hx⟩ := hx
      rw [mem_extractHistory] at hx
      obtain ⟨h', _, hx⟩ := hx
      split at hx <;> exact hx.1

/-- Two source files sharing a line, and a model file with two lines. -/
def exampleSources : List SourceFile :=
  [{ history := some "2 b\n1 a".toList, isModel := false, uuid := some "u2".toList, source := none, pid := [] },
   { history := some "9 m\n0 n".toList, isModel := true, uuid := some "u1".toList, source := none, pid := [] },
   { history := some "3 c\n1 a".toList, isModel := false, uuid := some "u2".toList, source := none, pid := [] },
   { history := none, isModel := false, uuid := none, source := none, pid := [] }]

/-- Example time stamps: the digit at the beginning of the line. -/
def exampleParse (l : Text) : Option ℤ :=
  match l with
  | [] => none
  | c :: _ => if c.isDigit then some (c.toNat : ℤ) else none

example : (∀ l t, exampleParse l = some t → -1 < t) ∧
    mergeHistory exampleParse (-1) "9 x".toList exampleSources = "9 x\n3 c\n2 b\n1 a\n0 n".toList := by
  refine ⟨?_, by decide +kernel⟩
  intro l t h
  unfold exampleParse at h
  split at h
  · cases h
  · split at h
    · cases h; omega
    · cases h

example : Relation.ReflTransGen (Spec.ProductOf exampleParse (-1)) "2 b\n1 a".toList
    "9 x\n3 c\n2 b\n1 a\n0 n".toList ∧ Spec.IsLine "2 b\n1 a".toList "1 a".toList :=
  ⟨Relation.ReflTransGen.single ⟨"9 x".toList, exampleSources, by decide +kernel, by decide +kernel,
    _, List.mem_cons_self, rfl, rfl⟩, (mem_splitLines_iff _ _).1 (by decide +kernel)⟩

/-! ### C42 -/

theorem sort_lt {l : List Text} (h : l.Nodup) : (l.insertionSort (· ≤ ·)).Pairwise (· < ·) := by
  have h1 : (l.insertionSort (· ≤ ·)).Pairwise (· ≤ ·) := List.pairwise_insertionSort (· ≤ ·) l
  have h2 : (l.insertionSort (· ≤ ·)).Nodup := (List.perm_insertionSort _ _).nodup_iff.2 h
  exact List.Pairwise.imp₂ (fun _ _ a b => lt_of_le_of_ne a b) h1 h2

/-- C42. `get_source_uuids` lists every uuid of the sources exactly once, in alphabetical order, joined
by ", "; sources without a uuid are ignored. -/
theorem C42_source_uuids (sources : List SourceFile) :
    ∃ uuids : List Text, getSourceUuids sources = joinWith ", ".toList uuids ∧
      uuids.Pairwise (· < ·) ∧ ∀ u, u ∈ uuids ↔ ∃ s ∈ sources, s.uuid = some u := by
  refine ⟨_, rfl, sort_lt (nodup_eraseDups _), ?_⟩
  intro u
  rw [(List.perm_insertionSort _ _).mem_iff, List.mem_eraseDups, List.mem_filterMap]

/-- C42. The result depends only on the set of uuids, not on the order or number of the sources. -/
theorem C42_order_independent (sources sources' : List SourceFile)
    (h : ∀ u, (∃ s ∈ sources, s.uuid = some u) ↔ ∃ s ∈ sources', s.uuid = some u) :
    getSourceUuids sources = getSourceUuids sources' := by
  obtain ⟨l, e, p, m⟩ := C42_source_uuids sources
  obtain ⟨l', e', p', m'⟩ := C42_source_uuids sources'
  have : l = l' := by
    refine List.Perm.eq_of_pairwise (le := (· < ·)) (fun a b _ _ h1 h2 => absurd h1 (lt_asymm h2)) p p' ?_
    rw [List.perm_ext_iff_of_nodup (p.imp ne_of_lt) (p'.imp ne_of_lt)]
    intro a
    rw [m, m', h]
  rw [e, e', this]

example : getSourceUuids exampleSources = "u1, u2".toList := by decide +kernel

/-! ### C76 -/

/-- C76. The sources of a categorize file: every source line of every instrument exactly once, in
alphabetical order, one per line; and every non-empty instrument PID exactly once. -/
theorem C76_source_instruments (obs : List SourceFile) :
    (∃ lines : List Text, lines.Pairwise (· < ·) ∧
      (∀ l, l ∈ lines ↔ ∃ s ∈ obs, ∃ src, s.source = some src ∧ Spec.IsLine src l) ∧
      (addSourceInstruments obs).1 = if lines = [] then none else some (joinWith ['\n'] lines)) ∧
    (∃ pids : List Text, pids.Pairwise (· < ·) ∧ (∀ p, p ∈ pids ↔ p ≠ [] ∧ ∃ s ∈ obs, s.pid = p) ∧
      (addSourceInstruments obs).2 = if pids = [] then none else some (joinWith ['\n'] pids)) := by
  constructor
  · refine ⟨_, sort_lt (nodup_eraseDups ((obs.filterMap (·.source)).flatMap splitLines)), ?_, ?_⟩
    · intro l
      rw [(List.perm_insertionSort _ _).mem_iff, List.mem_eraseDups, List.mem_flatMap]
      simp only [List.mem_filterMap, mem_splitLines_iff]
      constructor
      · rintro ⟨src, ⟨s, hs, e⟩, hl⟩; exact ⟨s, hs, src, e, hl⟩
      · rintro ⟨s, hs, src, e, hl⟩; exact ⟨src, ⟨s, hs, e⟩, hl⟩
    · unfold addSourceInstruments
      simp only [← List.length_eq_zero_iff, List.length_insertionSort]
  · refine ⟨_, sort_lt (nodup_eraseDups ((obs.map (·.pid)).filter (· ≠ []))), ?_, ?_⟩
    · intro p
      rw [(List.perm_insertionSort _ _).mem_iff, List.mem_eraseDups, List.mem_filter, List.mem_map]
      simp only [decide_eq_true_eq]
      exact and_comm
    · unfold addSourceInstruments
      simp only [← List.length_eq_zero_iff, List.length_insertionSort]

theorem isLine_append (n : ℕ) : ∀ (a b l : Text), a.length ≤ n →
    (Spec.IsLine (a ++ '\n' :: b) l ↔ Spec.IsLine a l ∨ Spec.IsLine b l) := by
  induction n with
  | zero =>
    intro a b l ha
    have : a = [] := List.eq_nil_of_length_eq_zero (by omega)
    subst this
    rw [isLine_cons (List.not_mem_nil), isLine_single (h := []) (List.not_mem_nil)]
  | succ n ih =>
    intro a b l ha
    rcases line_cases a with hh | ⟨l1, rest, h1, rfl⟩
    · rw [isLine_cons hh, isLine_single hh]
    · rw [List.append_assoc, List.cons_append, isLine_cons h1, isLine_cons h1,
        ih rest b l (by simp at ha; omega), or_assoc]

theorem isLine_joinWith (lines : List Text) (l : Text) (hne : lines ≠ []) :
    Spec.IsLine (joinWith ['\n'] lines) l ↔ ∃ x ∈ lines, Spec.IsLine x l := by
  induction lines with
  | nil => exact absurd rfl hne
  | cons x xs ih =>
    cases xs with
    | nil => simp [joinWith]
    | cons y ys =>
      rw [joinWith, List.append_assoc, List.singleton_append, isLine_append x.length _ _ _ (le_refl _),
        ih (by simp)]
      · simp
      · simp

theorem merged_ne_nil {existing : Option Text} {extra : List Text}
    (h : existing ≠ none ∨ ∃ e ∈ extra, e ≠ []) :
    (existing.elim [] splitLines ++ extra.filter (· ≠ [])).eraseDups ≠ [] := by
  rcases h with h | ⟨e, h1, h2⟩
  · cases existing with
    | none => exact absurd rfl h
    | some s =>
      obtain ⟨x, xs, hx⟩ := List.exists_cons_of_ne_nil (splitLines_ne_nil s)
      apply List.ne_nil_of_mem (a := x)
      rw [List.mem_eraseDups, List.mem_append]
      left; simp only [Option.elim, hx]; simp
  · apply List.ne_nil_of_mem (a := e)
    rw [List.mem_eraseDups, List.mem_append, List.mem_filter]
    right; exact ⟨h1, by simpa using h2⟩

/-- C76. Adding the sources of extra input files to a product: no source line is lost and none invented. -/
theorem C76_extra_sources (existing : Option Text) (extra : List Text)
    (h : existing ≠ none ∨ ∃ e ∈ extra, e ≠ []) :
    ∃ out, appendExtraSources existing extra = some out ∧
      ∀ l, Spec.IsLine out l ↔ (∃ s, existing = some s ∧ Spec.IsLine s l) ∨
        ∃ e ∈ extra, e ≠ [] ∧ Spec.IsLine e l := by
  unfold appendExtraSources
  by_cases he : extra = []
  · subst he
    rw [if_pos rfl]
    cases existing with
    | none => simp at h
    | some s => exact ⟨s, rfl, by simp⟩
  · rw [if_neg he]
    simp only
    rw [if_neg (merged_ne_nil h)]
    refine ⟨_, rfl, fun l => ?_⟩
    rw [isLine_joinWith _ _ (merged_ne_nil h)]
    simp only [List.mem_eraseDups, List.mem_append, List.mem_filter, decide_eq_true_eq, or_and_right,
      exists_or, and_assoc]
    apply or_congr
    · cases existing with
      | none => simp
      | some s =>
        simp only [Option.elim, mem_splitLines_iff, Option.some.injEq, exists_eq_left']
        constructor
        · rintro ⟨x, hx, hl⟩
          rw [isLine_single hx.1] at hl
          rw [hl]; exact hx
        · intro hx
          exact ⟨l, hx, (isLine_single hx.1).2 rfl⟩
    · exact Iff.rfl

/-- C76. If every extra source is a single line, no line is repeated. -/
theorem C76_extra_sources_distinct (existing : Option Text) (extra : List Text) (hx : extra ≠ [])
    (h1 : ∀ e ∈ extra, '\n' ∉ e) (h : existing ≠ none ∨ ∃ e ∈ extra, e ≠ []) :
    ∃ lines : List Text, appendExtraSources existing extra = some (joinWith ['\n'] lines) ∧ lines.Nodup ∧
      ∀ x ∈ lines, '\n' ∉ x := by
  unfold appendExtraSources
  rw [if_neg hx]
  simp only
  rw [if_neg (merged_ne_nil h)]
  refine ⟨_, rfl, nodup_eraseDups _, ?_⟩
  intro x hm
  rw [List.mem_eraseDups, List.mem_append, List.mem_filter] at hm
  rcases hm with hm | hm
  · cases existing with
    | none => simp at hm
    | some s => exact ((mem_splitLines_iff s x).1 hm).1
  · exact h1 x hm.1

/-- C76. An extra source of several lines can repeat a line that is already there. -/
theorem C76_extra_sources_repeated :
    appendExtraSources (some "A".toList) ["A\nB".toList] = some "A\nA\nB".toList := by decide +kernel

example : appendExtraSources (some "A\nB".toList) ["B".toList, "C".toList] = some "A\nB\nC".toList ∧
    addSourceInstruments [⟨none, false, none, some "B\nA".toList, []⟩,
      ⟨none, false, none, some "A".toList, "p".toList⟩] = (some "A\nB".toList, some "p".toList) := by
  decide +kernel

/-! ### C43 -/

/-- The attribute table has a non-empty value for the attribute. -/
def Spec.Gives (table : String → Option MetaData) (key : String) (f : AttrName) (v : String) : Prop :=
  v ≠ "" ∧ ∃ m, table key = some m ∧ m.value f = some v

theorem gives_or (table : String → Option MetaData) (key : String) (f : AttrName) :
    (∃ v, Spec.Gives table key f v) ∨ ∀ v, ¬ Spec.Gives table key f v := by
  by_cases h : ∃ v, Spec.Gives table key f v
  · exact Or.inl h
  · push Not at h; exact Or.inr h

theorem setAttributes_of_gives {β : Type} {table : String → Option MetaData} {key : String} {f : AttrName}
    {v : String} (h : Spec.Gives table key f v) (a : CloudnetArray β) :
    (match table key with | none => a | some m => a.setAttributes m).attr f = some v := by
  obtain ⟨h1, m, h2, h3⟩ := h
  rw [h2]
  simp only [CloudnetArray.setAttributes, h3, truthy, decide_eq_true h1, if_true]

theorem setAttributes_of_not_gives {β : Type} {table : String → Option MetaData} {key : String} {f : AttrName}
    (h : ∀ v, ¬ Spec.Gives table key f v) (a : CloudnetArray β) :
    (match table key with | none => a | some m => a.setAttributes m).attr f = a.attr f := by
  cases hm : table key with
  | none => rfl
  | some m =>
    simp only [CloudnetArray.setAttributes]
    cases hv : m.value f with
    | none => simp [truthy]
    | some v =>
      have : v = "" := by
        by_contra hc
        exact h v ⟨hc, m, hm, hv⟩
      simp [truthy, this]

/-- C43. `update_attributes` keeps the variables, their order, names, data and types. An attribute of a
variable becomes the non-empty value of the product's table, else the non-empty value of the common table,
else it stays. The dimensions are those of the product's table, else of the common table, else they stay. -/
theorem C43_update_attributes {β : Type} (common attributes : String → Option MetaData)
    (arrays : List (String × CloudnetArray β)) :
    (updateAttributes common attributes arrays).map (fun kv => (kv.1, kv.2.name, kv.2.data, kv.2.dataType))
      = arrays.map (fun kv => (kv.1, kv.2.name, kv.2.data, kv.2.dataType)) ∧
    ∀ (i : ℕ) key a, arrays[i]? = some (key, a) →
      ∃ a', (updateAttributes common attributes arrays)[i]? = some (key, a') ∧
      (∀ f v, Spec.Gives attributes key f v → a'.attr f = some v) ∧
      (∀ f v, (∀ w, ¬ Spec.Gives attributes key f w) → Spec.Gives common key f v → a'.attr f = some v) ∧
      (∀ f, (∀ w, ¬ Spec.Gives attributes key f w) → (∀ w, ¬ Spec.Gives common key f w) →
        a'.attr f = a.attr f) ∧
      (∀ m, attributes key = some m → a'.dimensions = m.dimensions) ∧
      (∀ m, attributes key = none → common key = some m → a'.dimensions = m.dimensions) ∧
      (attributes key = none → common key = none → a'.dimensions = a.dimensions) := by
  constructor
  · unfold updateAttributes
    rw [List.map_map]
    apply List.map_congr_left
    rintro ⟨key, a⟩ _
    simp only [Function.comp]
    cases common key <;> cases attributes key <;> rfl
  · intro i key a hi
    unfold updateAttributes
    rw [List.getElem?_map, hi]
    refine ⟨_, rfl, ?_, ?_, ?_, ?_, ?_, ?_⟩
    · intro f v h
      exact setAttributes_of_gives h _
    · intro f v h1 h2
      exact (setAttributes_of_not_gives h1 _).trans (setAttributes_of_gives h2 _)
    · intro f h1 h2
      exact (setAttributes_of_not_gives h1 _).trans (setAttributes_of_not_gives h2 _)
    · intro m h; simp only [h]; rfl
    · intro m h1 h2; simp only [h1, h2]; rfl
    · intro h1 h2; simp only [h1, h2]

/-- Tables of the example below. -/
def exampleMeta (v : String) : MetaData :=
  { dimensions := some ["time"], value := fun f => if f = .units then some v else none }

example : Spec.Gives (fun _ => some (exampleMeta "m")) "height" .units "m" ∧
    (∀ w, ¬ Spec.Gives (fun _ => some (exampleMeta "")) "height" .units w) ∧
    ((updateAttributes (fun _ => some (exampleMeta "m")) (fun _ => some (exampleMeta ""))
      [("height", { name := "height", data := 0, dataType := "f4", dimensions := none, attr := fun _ => none })]
      ).map fun kv => (kv.2.attr .units, kv.2.attr .axis, kv.2.dimensions))
        = [(some "m", none, some ["time"])] := by
  refine ⟨⟨by decide, _, rfl, rfl⟩, ?_, by decide +kernel⟩
  rintro w ⟨h1, m, h2, h3⟩
  cases h2
  simp only [exampleMeta, if_true] at h3
  exact h1 (Option.some.inj h3).symm

/-! #### Source attributes -/

/-- The metadata with its source and PID replaced. -/
def Spec.withSource (m : MetaData) (source : String) (pid : Option String) : MetaData :=
  { dimensions := m.dimensions
    value := fun f => match f with
      | .source => some source
      | .sourceInstrumentPid => pid
      | f => m.value f }

theorem setSource_ok (common attributes : String → Option MetaData) (source : String) (pid : Option String)
    (key : String) (out : String → Option MetaData)
    (h : setSource common source pid attributes key = .ok out) :
    (∃ m, (attributes key).or (common key) = some m ∧ out key = some (Spec.withSource m source pid)) ∧
    ∀ k, k ≠ key → out k = attributes k := by
  unfold setSource at h
  split at h
  · cases h
  · rename_i m hm
    have h := Except.ok.inj h
    subst h
    refine ⟨⟨m, hm, ?_⟩, fun k hk => if_neg hk⟩
    simp only [if_true]
    unfold Spec.withSource
    congr 2
    funext f
    cases f <;> rfl

/-- One instrument's keys, all different. -/
theorem setSource_fold (common : String → Option MetaData) (source : String) (pid : Option String)
    (keys : List String) (hk : keys.Nodup) (attributes out : String → Option MetaData)
    (h : keys.foldlM (setSource common source pid) attributes = .ok out) :
    (∀ key ∈ keys, ∃ m, (attributes key).or (common key) = some m ∧
      out key = some (Spec.withSource m source pid)) ∧
    ∀ k, k ∉ keys → out k = attributes k := by
  induction keys generalizing attributes with
  | nil =>
    have h : attributes = out := Except.ok.inj h
    subst h
    exact ⟨by simp, fun _ _ => rfl⟩
  | cons key keys ih =>
    rw [List.nodup_cons] at hk
    rw [List.foldlM_cons] at h
    cases hs : setSource common source pid attributes key with
    | error e => rw [hs] at h; cases h
    | ok a =>
      rw [hs] at h
      obtain ⟨s1, s2⟩ := setSource_ok _ _ _ _ _ _ hs
      obtain ⟨i1, i2⟩ := ih hk.2 a h
      constructor
      · intro k hmem
        rw [List.mem_cons] at hmem
        by_cases hkk : k = key
        · subst hkk
          rw [i2 k hk.1]; exact s1
        · obtain ⟨m, m1, m2⟩ := i1 k (hmem.resolve_left hkk)
          exact ⟨m, by rw [← s2 k hkk]; exact m1, m2⟩
      · intro k hmem
        rw [List.mem_cons, not_or] at hmem
        rw [i2 k hmem.2, s2 k hmem.1]

/-- One instrument. -/
theorem addSource_step (common : String → Option MetaData)
    (data : SourceKind → Option (String × Option String)) (i : SourceKind)
    (attributes out : String → Option MetaData)
    (h : (match data i with
      | none => .ok attributes
      | some (source, pid) => i.keys.foldlM (setSource common source pid) attributes) =
        (.ok out : Except String (String → Option MetaData))) :
    (∀ key source pid, key ∈ i.keys → data i = some (source, pid) →
      ∃ m, (attributes key).or (common key) = some m ∧ out key = some (Spec.withSource m source pid)) ∧
    ∀ k, (k ∉ i.keys ∨ data i = none) → out k = attributes k := by
  cases hd : data i with
  | none =>
    rw [hd] at h
    have h : attributes = out := Except.ok.inj h
    subst h
    exact ⟨fun _ _ _ _ h => (by cases h), fun _ _ => rfl⟩
  | some sp =>
    obtain ⟨source, pid⟩ := sp
    rw [hd] at h
    simp only at h
    obtain ⟨h1, h2⟩ := setSource_fold common source pid i.keys (by cases i <;> decide) attributes out h
    refine ⟨fun key s p hk he => ?_, fun k hk => h2 k (hk.resolve_right (by simp))⟩
    cases he
    exact h1 key hk

/-- Which instruments can be the source of a variable. -/
def Spec.measuredBy (key : String) : List SourceKind :=
  if key = "rainfall_rate" then [.radar, .disdrometer]
  else if key ∈ ["Z", "v", "width", "v_sigma", "ldr", "sldr", "zdr", "radar_frequency", "nyquist_velocity"] then
    [.radar]
  else if key ∈ ["beta", "lidar_wavelength"] then [.lidar]
  else if key = "lwp" then [.mwr]
  else if key ∈ ["temperature", "pressure", "q", "Tw", "uwind", "vwind"] then [.model]
  else []

/-- C43. The variables credited to an instrument are exactly those it measures. -/
theorem C43_source_table (i : SourceKind) (key : String) : key ∈ i.keys ↔ i ∈ Spec.measuredBy key := by
  constructor
  · intro h
    revert key
    cases i <;> decide
  · intro h
    unfold Spec.measuredBy at h
    split_ifs at h with h1 h2 h3 h4 h5
    · subst h1
      revert i
      intro i
      cases i <;> decide
    · simp only [List.mem_singleton] at h
      subst h
      clear h1
      revert key
      decide
    · simp only [List.mem_singleton] at h
      subst h
      clear h1 h2
      revert key
      decide
    · simp only [List.mem_singleton] at h
      subst h
      subst h4
      decide
    · simp only [List.mem_singleton] at h
      subst h
      clear h1 h2 h3 h4
      revert key
      decide
    · cases h

/-- C43. `add_source_attribute`: a variable of a present instrument gets that instrument's source and PID
(the disdrometer wins over the radar for `rainfall_rate`) and keeps its other attributes, taken from the
common table if it had none; every other variable is left alone. -/
theorem C43_add_source (common : String → Option MetaData)
    (data : SourceKind → Option (String × Option String)) (attributes out : String → Option MetaData)
    (h : addSourceAttribute common data attributes = .ok out) :
    (∀ i key source pid, key ∈ i.keys → data i = some (source, pid) →
      (key = "rainfall_rate" → i = .disdrometer ∨ data .disdrometer = none) →
      ∃ m, (attributes key).or (common key) = some m ∧ out key = some (Spec.withSource m source pid)) ∧
    (∀ key, (∀ i, key ∈ i.keys → data i = none) → out key = attributes key) := by
  unfold addSourceAttribute at h
  simp only [List.foldlM_cons, List.foldlM_nil, bind, Except.bind, pure, Except.pure] at h
  split at h
  · cases h
  rename_i a1 e1
  split at h
  · cases h
  rename_i a2 e2
  split at h
  · cases h
  rename_i a3 e3
  split at h
  · cases h
  rename_i a4 e4
  split at h
  · cases h
  rename_i a5 e5
  have h := Except.ok.inj h
  subst h
  obtain ⟨p1, q1⟩ := addSource_step common data _ _ _ e1
  obtain ⟨p2, q2⟩ := addSource_step common data _ _ _ e2
  obtain ⟨p3, q3⟩ := addSource_step common data _ _ _ e3
  obtain ⟨p4, q4⟩ := addSource_step common data _ _ _ e4
  obtain ⟨p5, q5⟩ := addSource_step common data _ _ _ e5
  constructor
  · intro i key source pid hk hd hr
    cases i with
    | radar =>
      have n2 : key ∉ SourceKind.lidar.keys := by clear * - hk; revert key; decide
      have n3 : key ∉ SourceKind.mwr.keys := by clear * - hk; revert key; decide
      have n4 : key ∉ SourceKind.model.keys := by clear * - hk; revert key; decide
      have n5 : key ∉ SourceKind.disdrometer.keys ∨ data .disdrometer = none := by
        by_cases hrr : key = "rainfall_rate"
        · right; exact (hr hrr).resolve_left (by decide)
        · left; simpa [SourceKind.keys] using hrr
      rw [q5 key n5, q4 key (.inl n4), q3 key (.inl n3), q2 key (.inl n2)]
      exact p1 key source pid hk hd
    | lidar =>
      have n1 : key ∉ SourceKind.radar.keys := by clear * - hk; revert key; decide
      have n3 : key ∉ SourceKind.mwr.keys := by clear * - hk; revert key; decide
      have n4 : key ∉ SourceKind.model.keys := by clear * - hk; revert key; decide
      have n5 : key ∉ SourceKind.disdrometer.keys := by clear * - hk; revert key; decide
      rw [q5 key (.inl n5), q4 key (.inl n4), q3 key (.inl n3), ← q1 key (.inl n1)]
      exact p2 key source pid hk hd
    | mwr =>
      have n1 : key ∉ SourceKind.radar.keys := by clear * - hk; revert key; decide
      have n2 : key ∉ SourceKind.lidar.keys := by clear * - hk; revert key; decide
      have n4 : key ∉ SourceKind.model.keys := by clear * - hk; revert key; decide
      have n5 : key ∉ SourceKind.disdrometer.keys := by clear * - hk; revert key; decide
      rw [q5 key (.inl n5), q4 key (.inl n4), ← q1 key (.inl n1), ← q2 key (.inl n2)]
      exact p3 key source pid hk hd
    | model =>
      have n1 : key ∉ SourceKind.radar.keys := by clear * - hk; revert key; decide
      have n2 : key ∉ SourceKind.lidar.keys := by clear * - hk; revert key; decide
      have n3 : key ∉ SourceKind.mwr.keys := by clear * - hk; revert key; decide
      have n5 : key ∉ SourceKind.disdrometer.keys := by clear * - hk; revert key; decide
      rw [q5 key (.inl n5), ← q1 key (.inl n1), ← q2 key (.inl n2), ← q3 key (.inl n3)]
      exact p4 key source pid hk hd
    | disdrometer =>
      have n2 : key ∉ SourceKind.lidar.keys := by clear * - hk; revert key; decide
      have n3 : key ∉ SourceKind.mwr.keys := by clear * - hk; revert key; decide
      have n4 : key ∉ SourceKind.model.keys := by clear * - hk; revert key; decide
      obtain ⟨m, m1, m2⟩ := p5 key source pid hk hd
      rw [q4 key (.inl n4), q3 key (.inl n3), q2 key (.inl n2)] at m1
      cases hrad : data .radar with
      | none =>
        rw [q1 key (.inr hrad)] at m1
        exact ⟨m, m1, m2⟩
      | some sp =>
        have hkr : key ∈ SourceKind.radar.keys := by clear * - hk; revert key; decide
        obtain ⟨m', r1, r2⟩ := p1 key sp.1 sp.2 hkr hrad
        rw [r2, Option.some_or, Option.some.injEq] at m1
        refine ⟨m', r1, ?_⟩
        rw [m2, ← m1]
        unfold Spec.withSource
        congr 2
        funext f
        cases f <;> rfl
  · intro key hk
    have hno : ∀ i, key ∉ i.keys ∨ data i = none := by
      intro i
      by_cases h : key ∈ i.keys
      · exact Or.inr (hk i h)
      · exact Or.inl h
    rw [q5 key (hno _), q4 key (hno _), q3 key (hno _), q2 key (hno _), q1 key (hno _)]

/-- C43. It fails only if a variable of a present instrument is in neither table. -/
theorem C43_add_source_ok (common : String → Option MetaData)
    (data : SourceKind → Option (String × Option String)) (attributes : String → Option MetaData)
    (h : ∀ i key, key ∈ i.keys → data i ≠ none → attributes key ≠ none ∨ common key ≠ none) :
    ∃ out, addSourceAttribute common data attributes = .ok out := by
  have step1 : ∀ (source : String) (pid : Option String) (keys : List String)
      (a : String → Option MetaData), (∀ key ∈ keys, a key ≠ none ∨ common key ≠ none) →
      (∀ k, attributes k ≠ none → a k ≠ none) →
      ∃ out, keys.foldlM (setSource common source pid) a = .ok out ∧ ∀ k, attributes k ≠ none → out k ≠ none := by
    intro source pid keys
    induction keys with
    | nil => intro a _ ha; exact ⟨a, rfl, ha⟩
    | cons key keys ih =>
      intro a hkeys ha
      obtain ⟨m, hm⟩ : ∃ m, (a key).or (common key) = some m := by
        rcases hkeys key (by simp) with h | h
        · obtain ⟨m, hm⟩ := Option.ne_none_iff_exists'.1 h
          exact ⟨m, by rw [hm]; rfl⟩
        · obtain ⟨m, hm⟩ := Option.ne_none_iff_exists'.1 h
          cases ha' : a key with
          | none => exact ⟨m, by rw [hm]; rfl⟩
          | some x => exact ⟨x, rfl⟩
      have hs : ∃ b, setSource common source pid a key = .ok b := by
        unfold setSource; rw [hm]; exact ⟨_, rfl⟩
      obtain ⟨b, hb⟩ := hs
      obtain ⟨⟨m', _, b1⟩, b2⟩ := setSource_ok _ _ _ _ _ _ hb
      have hbn : ∀ k, a k ≠ none → b k ≠ none := by
        intro k hk
        by_cases hkk : k = key
        · rw [hkk, b1]; simp
        · rw [b2 k hkk]; exact hk
      obtain ⟨out, o1, o2⟩ := ih b (fun k hk => (hkeys k (by simp [hk])).imp (hbn k) id)
        (fun k hk => hbn k (ha k hk))
      exact ⟨out, by rw [List.foldlM_cons, hb]; exact o1, o2⟩
  have step2 : ∀ (is : List SourceKind) (a : String → Option MetaData),
      (∀ k, attributes k ≠ none → a k ≠ none) →
      ∃ out, is.foldlM (fun attributes i =>
        match data i with
        | none => .ok attributes
        | some (source, pid) => i.keys.foldlM (setSource common source pid) attributes) a
          = (.ok out : Except String (String → Option MetaData)) := by
    intro is
    induction is with
    | nil => intro a _; exact ⟨a, rfl⟩
    | cons i is ih =>
      intro a ha
      rw [List.foldlM_cons]
      cases hd : data i with
      | none => exact ih a ha
      | some sp =>
        obtain ⟨b, b1, b2⟩ := step1 sp.1 sp.2 i.keys a (fun key hk =>
          (h i key hk (by simp [hd])).imp (ha key) id) ha
        simp only [b1]
        exact ih b b2
  exact step2 _ attributes (fun _ h => h)

example : ∃ out, addSourceAttribute (fun _ => some (exampleMeta "m"))
      (fun i => if i = .radar ∨ i = .disdrometer then some (if i = .radar then "R" else "D", none) else none)
      (fun _ => none) = .ok out ∧
    (out "rainfall_rate").map (·.value .source) = some (some "D") ∧
    (out "Z").map (·.value .source) = some (some "R") ∧ (out "beta").isNone := by
  refine ⟨_, rfl, ?_⟩
  decide +kernel

/-! ### C77 -/

theorem lookup_append {β : Type} (l l' : List (String × β)) (k : String) :
    (l ++ l').lookup k = (l.lookup k).or (l'.lookup k) := by
  induction l with
  | nil => rfl
  | cons kv l ih =>
    rw [List.cons_append, List.lookup_cons, List.lookup_cons]
    cases k == kv.1 <;> simp [ih]

/-- C77. Variables copied from the input file: a requested variable that the output does not have yet is
taken over as it is; variables of the output are never changed and nothing else appears. -/
theorem C77_copy_variables {β : Type} (source target : List (String × β)) (keys : List String) (k : String) :
    (copyVariables source target keys).lookup k =
      match target.lookup k with
      | some v => some v
      | none => if k ∈ keys then source.lookup k else none := by
  unfold copyVariables
  induction keys generalizing target with
  | nil => cases h : target.lookup k <;> simp [h]
  | cons key keys ih =>
    rw [List.foldl_cons, ih]
    cases hs : source.lookup key with
    | none =>
      simp only
      cases ht : target.lookup k with
      | some v => rfl
      | none =>
        simp only [List.mem_cons]
        by_cases hk : k = key
        · subst hk; simp [hs]
        · simp [hk]
    | some v =>
      cases ht' : target.lookup key with
      | some w =>
        simp only
        cases ht : target.lookup k with
        | some v => rfl
        | none =>
          simp only [List.mem_cons]
          by_cases hk : k = key
          · subst hk; rw [ht] at ht'; cases ht'
          · simp [hk]
      | none =>
        simp only [lookup_append, List.lookup_cons, List.lookup_nil]
        cases ht : target.lookup k with
        | some v => rfl
        | none =>
          by_cases hk : k = key
          · subst hk; simp [hs]
          · have : (k == key) = false := by simpa using hk
            simp [this, hk]

/-- C77. Global attributes copied from the input file replace those of the output; attributes that the
input does not have, and those not requested, stay. -/
theorem C77_copy_global {β : Type} (source target : String → Option β) (attributes : List String)
    (k : String) :
    copyGlobal source target attributes k =
      if k ∈ attributes then (source k).or (target k) else target k := by
  unfold copyGlobal
  induction attributes generalizing target with
  | nil => rfl
  | cons a as ih =>
    rw [List.foldl_cons, ih]
    cases hs : source a with
    | none =>
      simp only [List.mem_cons]
      by_cases hk : k = a
      · subst hk; simp [hs]
      · simp [hk]
    | some v =>
      simp only [List.mem_cons]
      by_cases hk : k = a
      · subst hk; simp [hs]
      · simp [hk]

example : copyVariables [("time", 1), ("height", 2), ("Z", 3)] [("time", 7)] ["time", "height", "x"] =
    [("time", 7), ("height", 2)] := by decide +kernel

end Cloudnet
