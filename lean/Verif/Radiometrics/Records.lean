import Mathlib.Tactic
import Verif.Radiometrics.Model
import Verif.Disdronator.Props
import Verif.Station.Pipeline
import Verif.Times.Props

/-!
Property C122: the records of files of Radiometrics radiometers.
-/

namespace Cloudnet

variable {α : Type}

/-! ### Specification -/

namespace Spec

/-- A record is the title of record type `k`. -/
def RmTitleOf (p : RmParsers α) (k : ℤ) (q : RmRecord) (title : String) : Prop :=
  q.kind = 100 ∧ (∃ text, q.value "Record Type" = some text ∧ p.int text = some (k + 1)) ∧ q.value "Title" = some title

/-- The record has a title: the last title of its type in the records so far, if that is not empty. -/
def RmHasTitle (p : RmParsers α) (sofar : List RmRecord) (r : RmRecord) (title : String) : Prop :=
  Spec.Last (RmTitleOf p (r.kind + r.idx)) sofar title ∧ title ≠ ""

/-- The processors of zenith measurements. -/
def RmZenith (proc : String) : Prop := proc = "0.00:90.00" ∨ proc = "Zenith" ∨ proc = "Zenith16" ∨ proc = "Zenith18"

/-- The value of a column as a number. -/
def RmNumber (p : RmParsers α) (r : RmRecord) (name : String) (x : α) : Prop := ∃ text, r.value name = some text ∧ p.float text = some x

/-- The values of the columns of the ranges; what is not a number without sign is missing. -/
def RmProfile (p : RmParsers α) (ranges : List String) (r : RmRecord) (xs : List (Option α)) : Prop :=
  List.Forall₂ (fun name x => ∃ text, r.value name = some text ∧
    if rmNumeric text then ∃ y, p.float text = some y ∧ x = some y else x = none) ranges xs

/-- The record at position `i` of a superblock has no title; `earlier` are the records before the superblock. -/
def RmUntitledAt (p : RmParsers α) (earlier block : List RmRecord) (i : ℕ) (r : RmRecord) : Prop :=
  block[i]? = some r ∧ ∀ title, ¬ RmHasTitle p (earlier ++ block.take (i + 1)) r title

/-- The record at position `i` of a superblock has a title. -/
def RmTitledAt (p : RmParsers α) (earlier block : List RmRecord) (i : ℕ) (r : RmRecord) (title : String) : Prop :=
  block[i]? = some r ∧ RmHasTitle p (earlier ++ block.take (i + 1)) r title

/-- The processors of a superblock: of its records of type 402. -/
def RmProcessors (block : List RmRecord) (procs : List String) : Prop :=
  List.Forall₂ (fun r proc => r.value "LV2 Processor" = some proc) (block.filter fun r => decide (r.kind = 400 ∧ r.idx = 1)) procs

open Classical in
/-- The number of records of block 300 before position `i`. -/
noncomputable def rmCount (p : RmParsers α) (earlier block : List RmRecord) (i : ℕ) : ℕ :=
  (List.range i).countP fun j => decide (∃ r, RmUntitledAt p earlier block j r ∧ r.kind = 300)

/-- The record at position `i` of a superblock has a liquid water path and a water vapour path. A record of block 300 has them if its
processor, the one with the same number, is one of zenith measurements or if there are no processors. -/
def RmIntegratedAt (p : RmParsers α) (earlier block : List RmRecord) (procs : List String) (i : ℕ) (v : ℤ × α × α) : Prop :=
  ∃ r, RmUntitledAt p earlier block i r ∧ r.time = v.1 ∧
    ((r.kind = 10 ∧ r.idx = 0 ∧ RmNumber p r "Lqint(mm)" v.2.1 ∧ RmNumber p r "Vint(cm)" v.2.2) ∨
      (r.kind = 300 ∧ RmNumber p r "Int. Liquid(mm)" v.2.1 ∧ RmNumber p r "Int. Vapor(cm)" v.2.2 ∧
        (procs = [] ∨ ∃ proc, procs[rmCount p earlier block i]? = some proc ∧ RmZenith proc)))

/-- The record has an infrared temperature. -/
def RmIrtAt (p : RmParsers α) (earlier block : List RmRecord) (i : ℕ) (v : ℤ × α) : Prop :=
  ∃ r, RmUntitledAt p earlier block i r ∧ r.time = v.1 ∧ ((r.kind = 10 ∧ r.idx = 0) ∨ r.kind = 200) ∧ RmNumber p r "Tir(K)" v.2

/-- The record is a profile: it has the title and is a zenith measurement, or it has the number `no` in block 10. -/
def RmProfileAt (p : RmParsers α) (ranges : List String) (title : String) (no : ℤ) (earlier block : List RmRecord) (i : ℕ)
    (v : ℤ × List (Option α)) : Prop :=
  ∃ r, r.time = v.1 ∧ RmProfile p ranges r v.2 ∧
    ((RmTitledAt p earlier block i r title ∧ ∃ proc, r.value "LV2 Processor" = some proc ∧ RmZenith proc) ∨
      (RmUntitledAt p earlier block i r ∧ r.kind = 10 ∧ r.idx = no))

/-- The values of all superblocks together, `R earlier block` says what the records of a superblock give. -/
def RmAll {V : Type} (R : List RmRecord → List RmRecord → ℕ → V → Prop) : List RmRecord → List (List RmRecord) → List V → Prop
  | _, [], vs => vs = []
  | earlier, block :: blocks, vs => ∃ v1 v2, vs = v1 ++ v2 ∧ Spec.Collected (R earlier block) (List.range block.length) v1 ∧
      RmAll R (earlier ++ block) blocks v2

/-- `x` is the first of the values with the smallest distance in time from `t`. -/
def RmNearest {β : Type} (t : ℤ) (l : List (ℤ × β)) (x : β) : Prop :=
  ∃ pre s post, l = pre ++ (s, x) :: post ∧ (∀ q ∈ pre, |t - s| < |t - q.1|) ∧ ∀ q ∈ post, |t - s| ≤ |t - q.1|

/-- A superblock starts with a record of block 200 and has no other one. -/
def RmIsBlock (block : List RmRecord) : Prop := ∃ r rs, block = r :: rs ∧ r.kind = 200 ∧ ∀ q ∈ rs, q.kind ≠ 200

end Spec

/-! ### Closest value -/

theorem rmClosest_fold {β : Type} (t : ℤ) (l pre post : List (ℤ × β)) (b : ℤ × β)
    (h1 : ∀ q ∈ pre, |t - b.1| < |t - q.1|) (h2 : ∀ q ∈ post, |t - b.1| ≤ |t - q.1|) :
    ∃ x, (l.foldl (fun (best : Option (ℤ × β)) q => match best with
      | none => some q
      | some b => if |t - q.1| < |t - b.1| then some q else some b) (some b)).map Prod.snd = some x ∧
      Spec.RmNearest t (pre ++ b :: post ++ l) x := by
  induction l generalizing pre post b with
  | nil => exact ⟨b.2, rfl, pre, b.1, post, by simp, h1, h2⟩
  | cons q l ih =>
    rw [List.foldl_cons]
    by_cases hq : |t - q.1| < |t - b.1|
    · simp only [hq, if_true]
      obtain ⟨x, e1, e2⟩ := ih (pre ++ b :: post) [] q (by
        intro q' hq'
        rcases List.mem_append.1 hq' with h | h
        · exact hq.trans (h1 q' h)
        · rcases List.mem_cons.1 h with rfl | h
          · exact hq
          · exact lt_of_lt_of_le hq (h2 q' h)) (by simp)
      exact ⟨x, e1, by simpa using e2⟩
    · simp only [hq, if_false]
      obtain ⟨x, e1, e2⟩ := ih pre (post ++ [q]) b h1 (by
        intro q' hq'
        rcases List.mem_append.1 hq' with h | h
        · exact h2 q' h
        · rw [List.mem_singleton] at h; subst h; exact le_of_not_gt hq)
      exact ⟨x, e1, by simpa using e2⟩

theorem nearest_unique {β : Type} {t : ℤ} {l : List (ℤ × β)} {x y : β} (hx : Spec.RmNearest t l x) (hy : Spec.RmNearest t l y) : x = y := by
  obtain ⟨a, s, b, e1, h1, h2⟩ := hx
  obtain ⟨c, u, d, e2, h3, h4⟩ := hy
  rw [e1] at e2
  rcases List.append_eq_append_iff.1 e2 with ⟨m, hm1, hm2⟩ | ⟨m, hm1, hm2⟩
  · cases m with
    | nil => simp only [List.nil_append, List.cons.injEq, Prod.mk.injEq] at hm2; exact hm2.1.2
    | cons q m =>
      simp only [List.cons_append, List.cons.injEq] at hm2
      have := h3 (s, x) (by rw [hm1, ← hm2.1]; simp)
      have := h2 (u, y) (by rw [hm2.2]; simp)
      simp only at *
      omega
  · cases m with
    | nil => simp only [List.nil_append, List.cons.injEq, Prod.mk.injEq] at hm2; exact hm2.1.2.symm
    | cons q m =>
      simp only [List.cons_append, List.cons.injEq] at hm2
      have := h1 (u, y) (by rw [hm1, ← hm2.1]; simp)
      have := h4 (s, x) (by rw [hm2.2]; simp)
      simp only at *
      omega

/-- **C122.** A value at a time is that of the record closest in time, the first one of several; there is none only if there are no
records at all. It is not asked how far the record is from the time. -/
theorem C122_closest {β : Type} (t : ℤ) (l : List (ℤ × β)) :
    (∀ x, rmClosest t l = some x ↔ Spec.RmNearest t l x) ∧ (rmClosest t l = none ↔ l = []) := by
  have key : l ≠ [] → ∃ x, rmClosest t l = some x ∧ Spec.RmNearest t l x := by
    intro hl
    cases l with
    | nil => exact absurd rfl hl
    | cons q l =>
      obtain ⟨x, e1, e2⟩ := rmClosest_fold t l [] [] q (by simp) (by simp)
      exact ⟨x, e1, by simpa using e2⟩
  by_cases hl : l = []
  · subst hl
    refine ⟨fun x => ⟨fun h => by simp [rmClosest] at h, fun h => ?_⟩, by simp [rmClosest]⟩
    obtain ⟨pre, s, post, e, _⟩ := h
    simp at e
  · obtain ⟨x, e1, e2⟩ := key hl
    refine ⟨fun y => ⟨fun h => ?_, fun h => ?_⟩, by simp [e1, hl]⟩
    · rw [e1, Option.some.injEq] at h; subst h; exact e2
    · rw [e1, nearest_unique e2 h]

/-! ### Superblocks -/

theorem rmSplit_spec (current l : List RmRecord) :
    (rmSplit current l).flatten = current ++ l ∧ (∀ b ∈ rmSplit current l, b ≠ []) ∧
      ((∀ q ∈ current.tail, q.kind ≠ 200) → (∀ b ∈ (rmSplit current l).tail, Spec.RmIsBlock b) ∧
        ∀ b, (rmSplit current l).head? = some b → ∀ q ∈ b.tail, q.kind ≠ 200) := by
  induction l generalizing current with
  | nil =>
    unfold rmSplit
    split
    · simp_all
    · simp_all
  | cons r rs ih =>
    unfold rmSplit
    split
    · rename_i h
      obtain ⟨e1, e2, e3⟩ := ih [r]
      refine ⟨by simp [e1], ?_, ?_⟩
      · intro b hb
        rcases List.mem_cons.1 hb with rfl | hb
        · exact h.2
        · exact e2 b hb
      · intro hc
        refine ⟨?_, by simpa using hc⟩
        obtain ⟨g1, g2⟩ := e3 (by simp)
        intro b hb
        simp only [List.tail_cons] at hb
        have hflat := e1
        cases hsp : rmSplit [r] rs with
        | nil => rw [hsp] at hb; cases hb
        | cons b0 bs =>
          rw [hsp] at hb hflat g1 g2 e2
          rcases List.mem_cons.1 hb with rfl | hb
          · cases b with
            | nil => exact absurd rfl (e2 [] (by simp))
            | cons q qs =>
              simp only [List.flatten_cons, List.cons_append, List.cons.injEq] at hflat
              exact ⟨q, qs, rfl, by rw [hflat.1]; exact h.1, by simpa using g2 (q :: qs) (by simp)⟩
          · exact g1 b (by simpa using hb)
    · rename_i h
      obtain ⟨e1, e2, e3⟩ := ih (current ++ [r])
      refine ⟨by simp [e1], e2, fun hc => e3 ?_⟩
      intro q hq
      cases current with
      | nil => simp at hq
      | cons c cs =>
        simp only [List.cons_append, List.tail_cons, List.mem_append, List.mem_singleton] at hq
        rcases hq with hq | rfl
        · exact hc q (by simpa using hq)
        · intro hk; exact h ⟨hk, by simp⟩

/-- **C122.** The superblocks are the records in order, nothing is lost or doubled. Each but the first starts with a record of block 200,
and there is none elsewhere than at the start of a superblock. -/
theorem C122_superblocks (records : List RmRecord) :
    (rmSplit [] records).flatten = records ∧ (∀ b ∈ rmSplit [] records, b ≠ []) ∧
      (∀ b ∈ (rmSplit [] records).tail, Spec.RmIsBlock b) ∧
      ∀ b, (rmSplit [] records).head? = some b → ∀ q ∈ b.tail, q.kind ≠ 200 := by
  obtain ⟨h1, h2, h3⟩ := rmSplit_spec [] records
  exact ⟨by simpa using h1, h2, h3 (by simp)⟩

/-! ### Records -/

theorem last_snoc {P X : Type} (R : P → X → Prop) (l : List P) (q : P) (x : X) :
    Spec.Last R (l ++ [q]) x ↔ R q x ∨ ((∀ y, ¬ R q y) ∧ Spec.Last R l x) := by
  constructor
  · rintro ⟨pre, q', post, e, h1, h2⟩
    rcases List.eq_nil_or_concat post with rfl | ⟨post', z, rfl⟩
    · obtain ⟨_, e2⟩ := List.append_inj' e rfl
      simp only [List.cons.injEq, and_true] at e2
      subst e2; exact .inl h1
    · rw [List.concat_eq_append, ← List.cons_append, ← List.append_assoc] at e
      obtain ⟨e1, e2⟩ := List.append_inj' e rfl
      simp only [List.cons.injEq, and_true] at e2
      subst e2
      exact .inr ⟨fun y hy => h2 q (by simp) y hy, pre, q', post', e1, h1, fun z hz => h2 z (by simp [hz])⟩
  · rintro (h | ⟨h, pre, q', post, rfl, h1, h2⟩)
    · exact ⟨l, q, [], rfl, h, by simp⟩
    · refine ⟨pre, q', post ++ [q], by simp, h1, ?_⟩
      intro z hz
      rcases List.mem_append.1 hz with hz | hz
      · exact h2 z hz
      · rw [List.mem_singleton] at hz; subst hz; exact h

theorem last_functional {P X : Type} (R : P → X → Prop) (hR : ∀ q x y, R q x → R q y → x = y) (l : List P) (x y : X)
    (hx : Spec.Last R l x) (hy : Spec.Last R l y) : x = y := by
  induction l using List.reverseRecOn with
  | nil => obtain ⟨_, _, _, e, _⟩ := hx; simp at e
  | append_singleton l q ih =>
    rw [last_snoc] at hx hy
    rcases hx with hx | hx <;> rcases hy with hy | hy
    · exact hR q x y hx hy
    · exact absurd hx (hy.1 x)
    · exact absurd hy (hx.1 y)
    · exact ih hx.2 hy.2

/-- The titles kept are those of the records so far. -/
def RmTitlesOk (p : RmParsers α) (sofar : List RmRecord) (titles : ℤ → Option String) : Prop :=
  ∀ k x, titles k = some x ↔ Spec.Last (Spec.RmTitleOf p k) sofar x

theorem rmTitles_ok (p : RmParsers α) (sofar : List RmRecord) (titles titles' : ℤ → Option String) (r : RmRecord)
    (h : RmTitlesOk p sofar titles) (e : rmTitles p titles r = .ok titles') : RmTitlesOk p (sofar ++ [r]) titles' := by
  intro k x
  rw [last_snoc, ← h k x]
  unfold rmTitles at e
  split at e
  · rename_i hk
    split at e
    · cases e
    · rename_i text htext
      split at e
      · cases e
      · rename_i n hn
        split at e
        · cases e
        · rename_i title htitle
          simp only [Except.ok.injEq] at e
          subst e
          by_cases hkn : k = n - 1
          · subst hkn
            rw [Function.update_self]
            have hR : ∀ y, Spec.RmTitleOf p (n - 1) r y ↔ y = title := by
              intro y
              unfold Spec.RmTitleOf
              constructor
              · rintro ⟨_, _, hy⟩; rw [htitle, Option.some.injEq] at hy; exact hy.symm
              · rintro rfl; exact ⟨hk, ⟨text, htext, by rw [hn]; congr 1; omega⟩, htitle⟩
            simp only [hR, Option.some.injEq]
            constructor
            · intro h; exact .inl h.symm
            · rintro (h | ⟨h, _⟩)
              · exact h.symm
              · exact absurd rfl (h title)
          · rw [Function.update_of_ne hkn]
            have hR : ∀ y, ¬ Spec.RmTitleOf p k r y := by
              rintro y ⟨_, ⟨t, ht, hi⟩, _⟩
              rw [htext, Option.some.injEq] at ht
              subst ht
              rw [hn, Option.some.injEq] at hi
              omega
            simp [hR]
  · rename_i hk
    simp only [Except.ok.injEq] at e
    subst e
    have hR : ∀ y, ¬ Spec.RmTitleOf p k r y := fun y hy => hk hy.1
    simp [hR]

theorem rmTitle_some (p : RmParsers α) (sofar : List RmRecord) (titles : ℤ → Option String) (r : RmRecord) (h : RmTitlesOk p sofar titles)
    (title : String) : rmTitle titles r = some title ↔ Spec.RmHasTitle p sofar r title := by
  unfold Spec.RmHasTitle
  rw [← h]
  unfold rmTitle
  cases titles (r.kind + r.idx) with
  | none => simp
  | some t =>
    by_cases ht : t = ""
    · subst ht; simp only [reduceCtorEq, Option.some.injEq, false_iff, not_and, not_not]; exact fun h => h.symm
    · split
      · rename_i heq; simp only [Option.some.injEq] at heq; exact absurd heq ht
      · simp only [Option.some.injEq]
        constructor
        · rintro rfl; exact ⟨rfl, ht⟩
        · exact fun h => h.1

theorem rmTitle_none (p : RmParsers α) (sofar : List RmRecord) (titles : ℤ → Option String) (r : RmRecord) (h : RmTitlesOk p sofar titles) :
    rmTitle titles r = none ↔ ∀ title, ¬ Spec.RmHasTitle p sofar r title := by
  constructor
  · intro e title ht
    rw [← rmTitle_some p sofar titles r h, e] at ht
    cases ht
  · intro e
    cases ht : rmTitle titles r with
    | none => rfl
    | some t => exact absurd ((rmTitle_some p sofar titles r h t).1 ht) (e t)

theorem rmZenith_iff (proc : String) : proc ∈ rmGoodProcs ↔ Spec.RmZenith proc := by
  simp [rmGoodProcs, Spec.RmZenith]

theorem rmFloat_ok (p : RmParsers α) (r : RmRecord) (name : String) (x : α) : rmFloat p r name = .ok x ↔ Spec.RmNumber p r name x := by
  unfold rmFloat Spec.RmNumber
  cases r.value name with
  | none => simp
  | some text =>
    cases h : p.float text with
    | none => simp [h]
    | some y => simp [h]

theorem rmNumber_unique {p : RmParsers α} {r : RmRecord} {name : String} {x y : α} (hx : Spec.RmNumber p r name x) (hy : Spec.RmNumber p r name y) :
    x = y := by
  rw [← rmFloat_ok] at hx hy
  rw [hx] at hy
  simpa using hy

theorem rmFloats_ok (p : RmParsers α) (ranges : List String) (r : RmRecord) (xs : List (Option α)) :
    rmFloats p ranges r = .ok xs ↔ Spec.RmProfile p ranges r xs := by
  unfold rmFloats Spec.RmProfile
  rw [mapM_except]
  constructor
  · intro h
    refine h.imp ?_
    intro name x hx
    split at hx
    · cases hx
    · rename_i text ht
      refine ⟨text, ht, ?_⟩
      split at hx
      · rename_i hn
        rw [if_pos hn]
        split at hx
        · cases hx
        · rename_i y hy
          simp only [Except.ok.injEq] at hx
          exact ⟨y, hy, hx.symm⟩
      · rename_i hn
        rw [if_neg hn]
        simp only [Except.ok.injEq] at hx
        exact hx.symm
  · intro h
    refine h.imp ?_
    rintro name x ⟨text, ht, hx⟩
    rw [ht]
    simp only
    split at hx
    · rename_i hn
      obtain ⟨y, hy, rfl⟩ := hx
      simp [hn, hy]
    · rename_i hn
      subst hx
      simp [hn]

/-- What a record can give. -/
inductive RmCase (p : RmParsers α) (ranges procs : List String) (used : ℕ) (r : RmRecord) : Option String → List (RmEvent α) → ℕ → Prop
  | bad (title proc : String) : r.value "LV2 Processor" = some proc → ¬ Spec.RmZenith proc → RmCase p ranges procs used r (some title) [] used
  | temp (proc : String) (xs) : r.value "LV2 Processor" = some proc → Spec.RmZenith proc → Spec.RmProfile p ranges r xs →
      RmCase p ranges procs used r (some "Temperature (K)") [.temperature r.time xs] used
  | rel (proc : String) (xs) : r.value "LV2 Processor" = some proc → Spec.RmZenith proc → Spec.RmProfile p ranges r xs →
      RmCase p ranges procs used r (some "Relative Humidity (%)") [.relative r.time xs] used
  | abs (proc : String) (xs) : r.value "LV2 Processor" = some proc → Spec.RmZenith proc → Spec.RmProfile p ranges r xs →
      RmCase p ranges procs used r (some "Vapor Density (g/m^3)") [.absolute r.time xs] used
  | other (title : String) : title ≠ "Temperature (K)" → title ≠ "Relative Humidity (%)" → title ≠ "Vapor Density (g/m^3)" →
      RmCase p ranges procs used r (some title) [] used
  | b0 (lwp iwv irt) (xs) : r.kind = 10 → r.idx = 0 → Spec.RmNumber p r "Lqint(mm)" lwp → Spec.RmNumber p r "Vint(cm)" iwv →
      Spec.RmNumber p r "Tir(K)" irt → Spec.RmProfile p ranges r xs →
      RmCase p ranges procs used r none [.integrated r.time lwp iwv, .irt r.time irt, .temperature r.time xs] used
  | b1 (xs) : r.kind = 10 → r.idx = 1 → Spec.RmProfile p ranges r xs → RmCase p ranges procs used r none [.absolute r.time xs] used
  | b2 (xs) : r.kind = 10 → r.idx = 2 → Spec.RmProfile p ranges r xs → RmCase p ranges procs used r none [.relative r.time xs] used
  | b10 : r.kind = 10 → r.idx ≠ 0 → r.idx ≠ 1 → r.idx ≠ 2 → RmCase p ranges procs used r none [] used
  | b200 (x) : r.kind = 200 → Spec.RmNumber p r "Tir(K)" x → RmCase p ranges procs used r none [.irt r.time x] used
  | b300 (lwp iwv) : r.kind = 300 → Spec.RmNumber p r "Int. Liquid(mm)" lwp → Spec.RmNumber p r "Int. Vapor(cm)" iwv →
      (procs = [] ∨ ∃ proc, procs[used]? = some proc ∧ Spec.RmZenith proc) →
      RmCase p ranges procs used r none [.integrated r.time lwp iwv] (used + 1)
  | b300bad (proc : String) : r.kind = 300 → procs ≠ [] → procs[used]? = some proc → ¬ Spec.RmZenith proc →
      RmCase p ranges procs used r none [] (used + 1)
  | none : r.kind ≠ 10 → r.kind ≠ 200 → r.kind ≠ 300 → RmCase p ranges procs used r none [] used

theorem except_map_ok {A B : Type} (f : A → B) (e : Except String A) (b : B) : e.map f = .ok b ↔ ∃ a, e = .ok a ∧ f a = b := by
  cases e <;> simp [Except.map]

theorem rmIntegrated_ok (p : RmParsers α) (r : RmRecord) (es : List (RmEvent α)) (h : rmIntegrated p r = .ok es) :
    ∃ lwp iwv, Spec.RmNumber p r "Int. Liquid(mm)" lwp ∧ Spec.RmNumber p r "Int. Vapor(cm)" iwv ∧ es = [.integrated r.time lwp iwv] := by
  unfold rmIntegrated at h
  cases h1 : rmFloat p r "Int. Liquid(mm)" with
  | error e => rw [h1] at h; cases h
  | ok lwp =>
    cases h2 : rmFloat p r "Int. Vapor(cm)" with
    | error e => rw [h1, h2] at h; cases h
    | ok iwv =>
      rw [h1, h2] at h
      simp only [bind, Except.bind, pure, Except.pure, Except.ok.injEq] at h
      exact ⟨lwp, iwv, (rmFloat_ok ..).1 h1, (rmFloat_ok ..).1 h2, h.symm⟩

theorem rmRecord_case (p : RmParsers α) (ranges procs : List String) (titles : ℤ → Option String) (used : ℕ) (r : RmRecord)
    (es : List (RmEvent α)) (used' : ℕ) (h : rmRecord p ranges procs titles used r = .ok (es, used')) :
    RmCase p ranges procs used r (rmTitle titles r) es used' := by
  unfold rmRecord at h
  cases ht : rmTitle titles r with
  | some title =>
    rw [ht] at h
    simp only at h
    obtain ⟨e, he, heq⟩ := (except_map_ok ..).1 h
    simp only [Prod.mk.injEq] at heq
    obtain ⟨rfl, rfl⟩ := heq
    unfold rmTitled at he
    split at he
    · cases he
    · rename_i proc hproc
      split at he
      · rename_i hz
        rw [rmZenith_iff] at hz
        simp only [Except.ok.injEq] at he
        subst he
        exact .bad title proc hproc hz
      · rename_i hz
        rw [not_not, rmZenith_iff] at hz
        split at he
        · rename_i e1
          subst e1
          obtain ⟨xs, hx, rfl⟩ := (except_map_ok ..).1 he
          exact .temp proc xs hproc hz ((rmFloats_ok ..).1 hx)
        · split at he
          · rename_i e1
            subst e1
            obtain ⟨xs, hx, rfl⟩ := (except_map_ok ..).1 he
            exact .rel proc xs hproc hz ((rmFloats_ok ..).1 hx)
          · split at he
            · rename_i e1
              subst e1
              obtain ⟨xs, hx, rfl⟩ := (except_map_ok ..).1 he
              exact .abs proc xs hproc hz ((rmFloats_ok ..).1 hx)
            · rename_i n1 n2 n3
              simp only [Except.ok.injEq] at he
              subst he
              exact .other title n1 n2 n3
  | none =>
    rw [ht] at h
    simp only at h
    split at h
    · rename_i hk
      obtain ⟨e, he, heq⟩ := (except_map_ok ..).1 h
      simp only [Prod.mk.injEq] at heq
      obtain ⟨rfl, rfl⟩ := heq
      unfold rmBlock10 at he
      split at he
      · rename_i h0
        cases h1 : rmFloat p r "Lqint(mm)" with
        | error e => rw [h1] at he; cases he
        | ok lwp =>
          cases h2 : rmFloat p r "Vint(cm)" with
          | error e => rw [h1, h2] at he; cases he
          | ok iwv =>
            cases h3 : rmFloat p r "Tir(K)" with
            | error e => rw [h1, h2, h3] at he; cases he
            | ok irt =>
              cases h4 : rmFloats p ranges r with
              | error e => rw [h1, h2, h3, h4] at he; cases he
              | ok xs =>
                rw [h1, h2, h3, h4] at he
                simp only [bind, Except.bind, pure, Except.pure, Except.ok.injEq] at he
                subst he
                exact .b0 lwp iwv irt xs hk h0 ((rmFloat_ok ..).1 h1) ((rmFloat_ok ..).1 h2) ((rmFloat_ok ..).1 h3) ((rmFloats_ok ..).1 h4)
      · rename_i h0
        split at he
        · rename_i h1
          obtain ⟨xs, hx, rfl⟩ := (except_map_ok ..).1 he
          exact .b1 xs hk h1 ((rmFloats_ok ..).1 hx)
        · rename_i h1
          split at he
          · rename_i h2
            obtain ⟨xs, hx, rfl⟩ := (except_map_ok ..).1 he
            exact .b2 xs hk h2 ((rmFloats_ok ..).1 hx)
          · rename_i h2
            simp only [Except.ok.injEq] at he
            subst he
            exact .b10 hk h0 h1 h2
    · rename_i h10
      split at h
      · rename_i hk
        obtain ⟨x, hx, heq⟩ := (except_map_ok ..).1 h
        simp only [Prod.mk.injEq] at heq
        obtain ⟨rfl, rfl⟩ := heq
        exact .b200 x hk ((rmFloat_ok ..).1 hx)
      · rename_i h200
        split at h
        · rename_i hk
          obtain ⟨e, he, heq⟩ := (except_map_ok ..).1 h
          simp only [Prod.mk.injEq] at heq
          obtain ⟨rfl, rfl⟩ := heq
          unfold rmBlock300 at he
          split at he
          · rename_i hp
            obtain ⟨lwp, iwv, g1, g2, rfl⟩ := rmIntegrated_ok p r e he
            exact .b300 lwp iwv hk g1 g2 (.inl hp)
          · rename_i hp
            split at he
            · cases he
            · rename_i proc hproc
              split at he
              · rename_i hz
                rw [rmZenith_iff] at hz
                obtain ⟨lwp, iwv, g1, g2, rfl⟩ := rmIntegrated_ok p r e he
                exact .b300 lwp iwv hk g1 g2 (.inr ⟨proc, hproc, hz⟩)
              · rename_i hz
                rw [rmZenith_iff] at hz
                simp only [Except.ok.injEq] at he
                subst he
                exact .b300bad proc hk hp hproc hz
        · rename_i h300
          simp only [Except.ok.injEq, Prod.mk.injEq] at h
          obtain ⟨rfl, rfl⟩ := h
          exact .none h10 h200 h300

/-- One record gives at most one value. -/
def RmGives {V : Type} (R : V → Prop) (vs : List V) : Prop := (∃ v, vs = [v] ∧ R v) ∨ (vs = [] ∧ ∀ v, ¬ R v)

theorem hasTitle_functional (p : RmParsers α) (sofar : List RmRecord) (r : RmRecord) (x y : String)
    (hx : Spec.RmHasTitle p sofar r x) (hy : Spec.RmHasTitle p sofar r y) : x = y :=
  last_functional _ (fun q x y hx hy => by
    obtain ⟨_, _, e1⟩ := hx
    obtain ⟨_, _, e2⟩ := hy
    rw [e1, Option.some.injEq] at e2; exact e2) _ x y hx.1 hy.1

theorem untitled_unique {p : RmParsers α} {earlier block : List RmRecord} {i : ℕ} {r q : RmRecord} (hr : block[i]? = some r)
    (hq : Spec.RmUntitledAt p earlier block i q) : q = r := by
  have := hq.1
  rw [hr, Option.some.injEq] at this
  exact this.symm

theorem rmProfile_unique {p : RmParsers α} {ranges : List String} {r : RmRecord} {x y : List (Option α)} (hx : Spec.RmProfile p ranges r x)
    (hy : Spec.RmProfile p ranges r y) : x = y := by
  rw [← rmFloats_ok] at hx hy
  rw [hx] at hy
  simpa using hy

section Streams

variable (p : RmParsers α) (ranges procs : List String) (earlier block : List RmRecord) (i : ℕ) (r : RmRecord) (used used' : ℕ)
  (titles : ℤ → Option String) (es : List (RmEvent α))

theorem gives_integrated (hr : block[i]? = some r) (ht : RmTitlesOk p (earlier ++ block.take (i + 1)) titles)
    (hu : used = Spec.rmCount p earlier block i) (h : rmRecord p ranges procs titles used r = .ok (es, used')) :
    RmGives (Spec.RmIntegratedAt p earlier block procs i) (rmIntegrateds es) := by
  have hc := rmRecord_case p ranges procs titles used r es used' h
  have ht1 := fun x => (rmTitle_some p _ titles r ht x).1
  have ht2 := (rmTitle_none p _ titles r ht).1
  generalize rmTitle titles r = tt at hc ht1 ht2
  subst hu
  have tit : ∀ title, tt = some title → ∀ v, ¬ Spec.RmIntegratedAt p earlier block procs i v := by
    rintro title rfl v ⟨q, hq, _⟩
    have := untitled_unique hr hq
    subst this
    exact hq.2 title (ht1 title rfl)
  have kind : (r.kind = 10 → r.idx ≠ 0) → r.kind ≠ 300 → ∀ v, ¬ Spec.RmIntegratedAt p earlier block procs i v := by
    rintro h1 h2 v ⟨q, hq, _, hv⟩
    have := untitled_unique hr hq
    subst this
    rcases hv with hv | hv
    · exact h1 hv.1 hv.2.1
    · exact h2 hv.1
  cases hc with
  | bad title => exact .inr ⟨rfl, tit _ rfl⟩
  | temp => exact .inr ⟨rfl, tit _ rfl⟩
  | rel => exact .inr ⟨rfl, tit _ rfl⟩
  | abs => exact .inr ⟨rfl, tit _ rfl⟩
  | other title => exact .inr ⟨rfl, tit _ rfl⟩
  | b0 lwp iwv irt xs k1 k2 k3 k4 => exact .inl ⟨_, rfl, r, ⟨hr, ht2 rfl⟩, rfl, .inl ⟨k1, k2, k3, k4⟩⟩
  | b1 xs k1 k2 => exact .inr ⟨rfl, kind (fun _ => by omega) (by omega)⟩
  | b2 xs k1 k2 => exact .inr ⟨rfl, kind (fun _ => by omega) (by omega)⟩
  | b10 k1 k2 => exact .inr ⟨rfl, kind (fun _ => k2) (by omega)⟩
  | b200 x k1 => exact .inr ⟨rfl, kind (fun _ => by omega) (by omega)⟩
  | b300 lwp iwv k1 k2 k3 k4 => exact .inl ⟨_, rfl, r, ⟨hr, ht2 rfl⟩, rfl, .inr ⟨k1, k2, k3, k4⟩⟩
  | b300bad proc k1 k2 k3 k4 =>
    refine .inr ⟨rfl, ?_⟩
    rintro v ⟨q, hq, _, hv⟩
    have := untitled_unique hr hq
    subst this
    rcases hv with hv | ⟨_, _, _, hv⟩
    · omega
    · rcases hv with hv | ⟨proc', hp, hz⟩
      · exact k2 hv
      · rw [k3, Option.some.injEq] at hp
        subst hp; exact k4 hz
  | none k1 k2 k3 => exact .inr ⟨rfl, kind (fun h => absurd h k1) k3⟩

theorem gives_irt (hr : block[i]? = some r) (ht : RmTitlesOk p (earlier ++ block.take (i + 1)) titles)
    (h : rmRecord p ranges procs titles used r = .ok (es, used')) :
    RmGives (Spec.RmIrtAt p earlier block i) (rmIrts es) := by
  have hc := rmRecord_case p ranges procs titles used r es used' h
  have ht1 := fun x => (rmTitle_some p _ titles r ht x).1
  have ht2 := (rmTitle_none p _ titles r ht).1
  generalize rmTitle titles r = tt at hc ht1 ht2
  have tit : ∀ title, tt = some title → ∀ v, ¬ Spec.RmIrtAt p earlier block i v := by
    rintro title rfl v ⟨q, hq, _⟩
    have := untitled_unique hr hq
    subst this
    exact hq.2 title (ht1 title rfl)
  have kind : (r.kind = 10 → r.idx ≠ 0) → r.kind ≠ 200 → ∀ v, ¬ Spec.RmIrtAt p earlier block i v := by
    rintro h1 h2 v ⟨q, hq, _, hv, _⟩
    have := untitled_unique hr hq
    subst this
    rcases hv with hv | hv
    · exact h1 hv.1 hv.2
    · exact h2 hv
  cases hc with
  | bad title => exact .inr ⟨rfl, tit _ rfl⟩
  | temp => exact .inr ⟨rfl, tit _ rfl⟩
  | rel => exact .inr ⟨rfl, tit _ rfl⟩
  | abs => exact .inr ⟨rfl, tit _ rfl⟩
  | other title => exact .inr ⟨rfl, tit _ rfl⟩
  | b0 lwp iwv irt xs k1 k2 k3 k4 k5 => exact .inl ⟨_, rfl, r, ⟨hr, ht2 rfl⟩, rfl, .inl ⟨k1, k2⟩, k5⟩
  | b1 xs k1 k2 => exact .inr ⟨rfl, kind (fun _ => by omega) (by omega)⟩
  | b2 xs k1 k2 => exact .inr ⟨rfl, kind (fun _ => by omega) (by omega)⟩
  | b10 k1 k2 => exact .inr ⟨rfl, kind (fun _ => k2) (by omega)⟩
  | b200 x k1 k2 => exact .inl ⟨_, rfl, r, ⟨hr, ht2 rfl⟩, rfl, .inr k1, k2⟩
  | b300 lwp iwv k1 => exact .inr ⟨rfl, kind (fun _ => by omega) (by omega)⟩
  | b300bad proc k1 => exact .inr ⟨rfl, kind (fun _ => by omega) (by omega)⟩
  | none k1 k2 k3 => exact .inr ⟨rfl, kind (fun h => absurd h k1) k2⟩

/-- A record that is not the profile. -/
theorem not_profile (title : String) (no : ℤ) (tt : Option String) (hr : block[i]? = some r)
    (ht1 : ∀ x, tt = some x → Spec.RmHasTitle p (earlier ++ block.take (i + 1)) r x)
    (ht2 : tt = none → ∀ x, ¬ Spec.RmHasTitle p (earlier ++ block.take (i + 1)) r x)
    (hn : (tt = some title ∧ ∃ proc, r.value "LV2 Processor" = some proc ∧ ¬ Spec.RmZenith proc) ∨
      (∃ t, tt = some t ∧ t ≠ title) ∨ (tt = none ∧ (r.kind = 10 → r.idx ≠ no))) (v : ℤ × List (Option α)) :
    ¬ Spec.RmProfileAt p ranges title no earlier block i v := by
  rintro ⟨q, _, _, ⟨⟨hq, hqt⟩, proc, hp, hz⟩ | ⟨hq, k1, k2⟩⟩
  · rw [hr, Option.some.injEq] at hq
    subst hq
    rcases hn with ⟨_, proc', hp', hz'⟩ | ⟨t, ht, hne⟩ | ⟨ht, _⟩
    · rw [hp, Option.some.injEq] at hp'
      subst hp'; exact hz' hz
    · exact hne (hasTitle_functional p _ r t title (ht1 t ht) hqt)
    · exact ht2 ht title hqt
  · have := untitled_unique hr hq
    subst this
    rcases hn with ⟨ht, _⟩ | ⟨t, ht, _⟩ | ⟨_, hk⟩
    · exact hq.2 _ (ht1 _ ht)
    · exact hq.2 _ (ht1 _ ht)
    · exact hk k1 k2

theorem gives_temperature (hr : block[i]? = some r) (ht : RmTitlesOk p (earlier ++ block.take (i + 1)) titles)
    (h : rmRecord p ranges procs titles used r = .ok (es, used')) :
    RmGives (Spec.RmProfileAt p ranges "Temperature (K)" 0 earlier block i) (rmTemperatures es) := by
  have hc := rmRecord_case p ranges procs titles used r es used' h
  have ht1 := fun x => (rmTitle_some p _ titles r ht x).1
  have ht2 := (rmTitle_none p _ titles r ht).1
  generalize rmTitle titles r = tt at hc ht1 ht2
  have no := not_profile p ranges earlier block i r "Temperature (K)" 0 tt hr ht1 ht2
  cases hc with
  | bad title proc k1 k2 =>
    refine .inr ⟨rfl, no ?_⟩
    by_cases e : title = "Temperature (K)"
    · exact .inl ⟨by rw [e], proc, k1, k2⟩
    · exact .inr (.inl ⟨_, rfl, e⟩)
  | temp proc xs k1 k2 k3 => exact .inl ⟨_, rfl, r, rfl, k3, .inl ⟨⟨hr, ht1 _ rfl⟩, proc, k1, k2⟩⟩
  | rel => exact .inr ⟨rfl, no (.inr (.inl ⟨_, rfl, by decide⟩))⟩
  | abs => exact .inr ⟨rfl, no (.inr (.inl ⟨_, rfl, by decide⟩))⟩
  | other title k1 k2 k3 => exact .inr ⟨rfl, no (.inr (.inl ⟨_, rfl, k1⟩))⟩
  | b0 lwp iwv irt xs k1 k2 k3 k4 k5 k6 => exact .inl ⟨_, rfl, r, rfl, k6, .inr ⟨⟨hr, ht2 rfl⟩, k1, k2⟩⟩
  | b1 xs k1 k2 => exact .inr ⟨rfl, no (.inr (.inr ⟨rfl, fun _ => by omega⟩))⟩
  | b2 xs k1 k2 => exact .inr ⟨rfl, no (.inr (.inr ⟨rfl, fun _ => by omega⟩))⟩
  | b10 k1 k2 => exact .inr ⟨rfl, no (.inr (.inr ⟨rfl, fun _ => k2⟩))⟩
  | b200 x k1 => exact .inr ⟨rfl, no (.inr (.inr ⟨rfl, fun _ => by omega⟩))⟩
  | b300 lwp iwv k1 => exact .inr ⟨rfl, no (.inr (.inr ⟨rfl, fun _ => by omega⟩))⟩
  | b300bad proc k1 => exact .inr ⟨rfl, no (.inr (.inr ⟨rfl, fun _ => by omega⟩))⟩
  | none k1 => exact .inr ⟨rfl, no (.inr (.inr ⟨rfl, fun h => absurd h k1⟩))⟩

theorem gives_relative (hr : block[i]? = some r) (ht : RmTitlesOk p (earlier ++ block.take (i + 1)) titles)
    (h : rmRecord p ranges procs titles used r = .ok (es, used')) :
    RmGives (Spec.RmProfileAt p ranges "Relative Humidity (%)" 2 earlier block i) (rmRelatives es) := by
  have hc := rmRecord_case p ranges procs titles used r es used' h
  have ht1 := fun x => (rmTitle_some p _ titles r ht x).1
  have ht2 := (rmTitle_none p _ titles r ht).1
  generalize rmTitle titles r = tt at hc ht1 ht2
  have no := not_profile p ranges earlier block i r "Relative Humidity (%)" 2 tt hr ht1 ht2
  cases hc with
  | bad title proc k1 k2 =>
    refine .inr ⟨rfl, no ?_⟩
    by_cases e : title = "Relative Humidity (%)"
    · exact .inl ⟨by rw [e], proc, k1, k2⟩
    · exact .inr (.inl ⟨_, rfl, e⟩)
  | rel proc xs k1 k2 k3 => exact .inl ⟨_, rfl, r, rfl, k3, .inl ⟨⟨hr, ht1 _ rfl⟩, proc, k1, k2⟩⟩
  | temp => exact .inr ⟨rfl, no (.inr (.inl ⟨_, rfl, by decide⟩))⟩
  | abs => exact .inr ⟨rfl, no (.inr (.inl ⟨_, rfl, by decide⟩))⟩
  | other title k1 k2 k3 => exact .inr ⟨rfl, no (.inr (.inl ⟨_, rfl, k2⟩))⟩
  | b2 xs k1 k2 k3 => exact .inl ⟨_, rfl, r, rfl, k3, .inr ⟨⟨hr, ht2 rfl⟩, k1, k2⟩⟩
  | b1 xs k1 k2 => exact .inr ⟨rfl, no (.inr (.inr ⟨rfl, fun _ => by omega⟩))⟩
  | b0 lwp iwv irt xs k1 k2 => exact .inr ⟨rfl, no (.inr (.inr ⟨rfl, fun _ => by omega⟩))⟩
  | b10 k1 k2 k3 k4 => exact .inr ⟨rfl, no (.inr (.inr ⟨rfl, fun _ => k4⟩))⟩
  | b200 x k1 => exact .inr ⟨rfl, no (.inr (.inr ⟨rfl, fun _ => by omega⟩))⟩
  | b300 lwp iwv k1 => exact .inr ⟨rfl, no (.inr (.inr ⟨rfl, fun _ => by omega⟩))⟩
  | b300bad proc k1 => exact .inr ⟨rfl, no (.inr (.inr ⟨rfl, fun _ => by omega⟩))⟩
  | none k1 => exact .inr ⟨rfl, no (.inr (.inr ⟨rfl, fun h => absurd h k1⟩))⟩

theorem gives_absolute (hr : block[i]? = some r) (ht : RmTitlesOk p (earlier ++ block.take (i + 1)) titles)
    (h : rmRecord p ranges procs titles used r = .ok (es, used')) :
    RmGives (Spec.RmProfileAt p ranges "Vapor Density (g/m^3)" 1 earlier block i) (rmAbsolutes es) := by
  have hc := rmRecord_case p ranges procs titles used r es used' h
  have ht1 := fun x => (rmTitle_some p _ titles r ht x).1
  have ht2 := (rmTitle_none p _ titles r ht).1
  generalize rmTitle titles r = tt at hc ht1 ht2
  have no := not_profile p ranges earlier block i r "Vapor Density (g/m^3)" 1 tt hr ht1 ht2
  cases hc with
  | bad title proc k1 k2 =>
    refine .inr ⟨rfl, no ?_⟩
    by_cases e : title = "Vapor Density (g/m^3)"
    · exact .inl ⟨by rw [e], proc, k1, k2⟩
    · exact .inr (.inl ⟨_, rfl, e⟩)
  | abs proc xs k1 k2 k3 => exact .inl ⟨_, rfl, r, rfl, k3, .inl ⟨⟨hr, ht1 _ rfl⟩, proc, k1, k2⟩⟩
  | temp => exact .inr ⟨rfl, no (.inr (.inl ⟨_, rfl, by decide⟩))⟩
  | rel => exact .inr ⟨rfl, no (.inr (.inl ⟨_, rfl, by decide⟩))⟩
  | other title k1 k2 k3 => exact .inr ⟨rfl, no (.inr (.inl ⟨_, rfl, k3⟩))⟩
  | b1 xs k1 k2 k3 => exact .inl ⟨_, rfl, r, rfl, k3, .inr ⟨⟨hr, ht2 rfl⟩, k1, k2⟩⟩
  | b2 xs k1 k2 => exact .inr ⟨rfl, no (.inr (.inr ⟨rfl, fun _ => by omega⟩))⟩
  | b0 lwp iwv irt xs k1 k2 => exact .inr ⟨rfl, no (.inr (.inr ⟨rfl, fun _ => by omega⟩))⟩
  | b10 k1 k2 k3 k4 => exact .inr ⟨rfl, no (.inr (.inr ⟨rfl, fun _ => k3⟩))⟩
  | b200 x k1 => exact .inr ⟨rfl, no (.inr (.inr ⟨rfl, fun _ => by omega⟩))⟩
  | b300 lwp iwv k1 => exact .inr ⟨rfl, no (.inr (.inr ⟨rfl, fun _ => by omega⟩))⟩
  | b300bad proc k1 => exact .inr ⟨rfl, no (.inr (.inr ⟨rfl, fun _ => by omega⟩))⟩
  | none k1 => exact .inr ⟨rfl, no (.inr (.inr ⟨rfl, fun h => absurd h k1⟩))⟩

theorem count_next (hr : block[i]? = some r) (ht : RmTitlesOk p (earlier ++ block.take (i + 1)) titles)
    (hu : used = Spec.rmCount p earlier block i) (h : rmRecord p ranges procs titles used r = .ok (es, used')) :
    used' = Spec.rmCount p earlier block (i + 1) := by
  have hc := rmRecord_case p ranges procs titles used r es used' h
  have ht1 := fun x => (rmTitle_some p _ titles r ht x).1
  have ht2 := (rmTitle_none p _ titles r ht).1
  generalize rmTitle titles r = tt at hc ht1 ht2
  have e : Spec.rmCount p earlier block (i + 1) = used + if tt = none ∧ r.kind = 300 then 1 else 0 := by
    rw [hu]
    unfold Spec.rmCount
    rw [List.range_succ, List.countP_append]
    congr 1
    rw [List.countP_singleton]
    have : (∃ q, Spec.RmUntitledAt p earlier block i q ∧ q.kind = 300) ↔ tt = none ∧ r.kind = 300 := by
      constructor
      · rintro ⟨q, hq, hk⟩
        have := untitled_unique hr hq
        subst this
        refine ⟨?_, hk⟩
        cases tt with
        | none => rfl
        | some t => exact absurd (ht1 t rfl) (hq.2 t)
      · rintro ⟨h1, h2⟩
        exact ⟨r, ⟨hr, ht2 h1⟩, h2⟩
    simp only [this, decide_eq_true_eq]
  rw [e]
  cases hc <;> simp_all <;> omega

end Streams

/-- The records of a superblock one after the other. -/
theorem rmRecords_collected {V : Type} (stream : List (RmEvent α) → List V) (R : ℕ → V → Prop) (p : RmParsers α) (ranges procs : List String)
    (earlier block : List RmRecord) (hnil : stream [] = []) (happ : ∀ a b, stream (a ++ b) = stream a ++ stream b)
    (hstep : ∀ i r titles used es used', block[i]? = some r → RmTitlesOk p (earlier ++ block.take (i + 1)) titles →
      used = Spec.rmCount p earlier block i → rmRecord p ranges procs titles used r = .ok (es, used') → RmGives (R i) (stream es))
    (pre rs : List RmRecord) (hb : block = pre ++ rs) (titles titles' : ℤ → Option String) (used : ℕ) (es : List (RmEvent α))
    (ht : RmTitlesOk p (earlier ++ pre) titles) (hu : used = Spec.rmCount p earlier block pre.length)
    (h : rmRecords p ranges procs titles used rs = .ok (titles', es)) :
    Spec.Collected R (List.range' pre.length rs.length) (stream es) ∧ RmTitlesOk p (earlier ++ block) titles' := by
  induction rs generalizing pre titles used es with
  | nil =>
    simp only [rmRecords, Except.ok.injEq, Prod.mk.injEq] at h
    obtain ⟨rfl, rfl⟩ := h
    rw [hnil, hb, List.append_nil]
    exact ⟨.nil, ht⟩
  | cons r rs ih =>
    rw [rmRecords] at h
    split at h
    · cases h
    · rename_i titles1 h1
      split at h
      · cases h
      · rename_i ev used1 h2
        obtain ⟨⟨t2, es2⟩, h3, heq⟩ := (except_map_ok ..).1 h
        simp only [Prod.mk.injEq] at heq
        obtain ⟨rfl, rfl⟩ := heq
        have hget : block[pre.length]? = some r := by rw [hb]; simp
        have htake : block.take (pre.length + 1) = pre ++ [r] := by rw [hb]; simp [List.take_append]
        have ht1 : RmTitlesOk p (earlier ++ block.take (pre.length + 1)) titles1 := by
          rw [htake, ← List.append_assoc]; exact rmTitles_ok p _ titles titles1 r ht h1
        have hc := count_next p ranges procs earlier block pre.length r used used1 titles1 ev hget ht1 hu h2
        have hlen : (pre ++ [r]).length = pre.length + 1 := by simp
        obtain ⟨g1, g2⟩ := ih (pre ++ [r]) (by rw [hb]; simp) titles1 used1 es2
          (by rw [htake] at ht1; exact ht1) (by rw [hlen]; exact hc) h3
        refine ⟨?_, g2⟩
        rw [happ, List.length_cons, List.range'_succ]
        rw [hlen] at g1
        rcases hstep pre.length r titles1 used ev used1 hget ht1 hu h2 with ⟨v, e, hv⟩ | ⟨e, hv⟩
        · rw [e]; exact .take hv g1
        · rw [e]; exact .skip hv g1

theorem rmProcs_ok (block : List RmRecord) (procs : List String) : rmProcs block = some procs ↔ Spec.RmProcessors block procs := by
  unfold rmProcs Spec.RmProcessors
  rw [mapM_option_iff]

theorem rmBlocks_all {V : Type} (stream : List (RmEvent α) → List V) (R : List RmRecord → List RmRecord → ℕ → V → Prop) (p : RmParsers α)
    (ranges : List String) (hnil : stream [] = []) (happ : ∀ a b, stream (a ++ b) = stream a ++ stream b)
    (hstep : ∀ earlier block procs i r titles used es used', Spec.RmProcessors block procs → block[i]? = some r →
      RmTitlesOk p (earlier ++ block.take (i + 1)) titles → used = Spec.rmCount p earlier block i →
      rmRecord p ranges procs titles used r = .ok (es, used') → RmGives (R earlier block i) (stream es))
    (earlier : List RmRecord) (blocks : List (List RmRecord)) (titles : ℤ → Option String) (es : List (RmEvent α))
    (ht : RmTitlesOk p earlier titles) (h : rmBlocks p ranges titles blocks = .ok es) :
    Spec.RmAll R earlier blocks (stream es) := by
  induction blocks generalizing earlier titles es with
  | nil =>
    simp only [rmBlocks, Except.ok.injEq] at h
    subst h
    exact hnil
  | cons block blocks ih =>
    rw [rmBlocks] at h
    split at h
    · cases h
    · rename_i titles1 ev h1
      obtain ⟨rest, h2, rfl⟩ := (except_map_ok ..).1 h
      unfold rmSuperblock at h1
      split at h1
      · cases h1
      · rename_i procs hp
        rw [rmProcs_ok] at hp
        obtain ⟨g1, g2⟩ := rmRecords_collected stream (R earlier block) p ranges procs earlier block hnil happ
          (fun i r titles used es used' => hstep earlier block procs i r titles used es used' hp) [] block rfl titles titles1 0 ev
          (by simpa using ht) (by simp [Spec.rmCount]) h1
        refine ⟨stream ev, stream rest, happ ev rest, ?_, ih (earlier ++ block) titles1 rest g2 h2⟩
        rw [List.range_eq_range']
        exact g1

theorem titlesOk_nil (p : RmParsers α) : RmTitlesOk p [] fun _ => none := by
  intro k x
  constructor
  · intro h; cases h
  · rintro ⟨pre, q, post, e, _⟩; simp at e

theorem rmProcessors_unique {block : List RmRecord} {a b : List String} (ha : Spec.RmProcessors block a) (hb : Spec.RmProcessors block b) : a = b := by
  rw [← rmProcs_ok] at ha hb
  rw [ha, Option.some.injEq] at hb
  exact hb

/-- **C122.** The values read from the records of a file, in order: the liquid water and water vapour paths, the infrared temperatures and
the profiles, each once for every record that has one. Records of block 300 are used if the processor with the same number in the superblock
is one of zenith measurements; profiles if they have the title and are zenith measurements, or by their number in block 10. -/
theorem C122_records (p : RmParsers α) (ranges : List String) (records : List RmRecord) (es : List (RmEvent α))
    (h : rmBlocks p ranges (fun _ => none) (rmSplit [] records) = .ok es) :
    Spec.RmAll (fun earlier block i v => ∃ procs, Spec.RmProcessors block procs ∧ Spec.RmIntegratedAt p earlier block procs i v)
        [] (rmSplit [] records) (rmIntegrateds es) ∧
      Spec.RmAll (Spec.RmIrtAt p) [] (rmSplit [] records) (rmIrts es) ∧
      Spec.RmAll (Spec.RmProfileAt p ranges "Temperature (K)" 0) [] (rmSplit [] records) (rmTemperatures es) ∧
      Spec.RmAll (Spec.RmProfileAt p ranges "Vapor Density (g/m^3)" 1) [] (rmSplit [] records) (rmAbsolutes es) ∧
      Spec.RmAll (Spec.RmProfileAt p ranges "Relative Humidity (%)" 2) [] (rmSplit [] records) (rmRelatives es) := by
  refine ⟨?_, ?_, ?_, ?_, ?_⟩
  · refine rmBlocks_all rmIntegrateds _ p ranges rfl (fun a b => List.filterMap_append) ?_ [] _ _ es (titlesOk_nil p) h
    intro earlier block procs i r titles used es used' hp hr ht hu he
    rcases gives_integrated p ranges procs earlier block i r used used' titles es hr ht hu he with ⟨v, e, hv⟩ | ⟨e, hv⟩
    · exact .inl ⟨v, e, procs, hp, hv⟩
    · refine .inr ⟨e, ?_⟩
      rintro v ⟨procs', hp', hv'⟩
      rw [rmProcessors_unique hp' hp] at hv'
      exact hv v hv'
  · exact rmBlocks_all rmIrts _ p ranges rfl (fun a b => List.filterMap_append)
      (fun earlier block procs i r titles used es used' _ hr ht _ he => gives_irt p ranges procs earlier block i r used used' titles es hr ht he)
      [] _ _ es (titlesOk_nil p) h
  · exact rmBlocks_all rmTemperatures _ p ranges rfl (fun a b => List.filterMap_append)
      (fun earlier block procs i r titles used es used' _ hr ht _ he => gives_temperature p ranges procs earlier block i r used used' titles es hr ht he)
      [] _ _ es (titlesOk_nil p) h
  · exact rmBlocks_all rmAbsolutes _ p ranges rfl (fun a b => List.filterMap_append)
      (fun earlier block procs i r titles used es used' _ hr ht _ he => gives_absolute p ranges procs earlier block i r used used' titles es hr ht he)
      [] _ _ es (titlesOk_nil p) h
  · exact rmBlocks_all rmRelatives _ p ranges rfl (fun a b => List.filterMap_append)
      (fun earlier block procs i r titles used es used' _ hr ht _ he => gives_relative p ranges procs earlier block i r used used' titles es hr ht he)
      [] _ _ es (titlesOk_nil p) h

end Cloudnet
