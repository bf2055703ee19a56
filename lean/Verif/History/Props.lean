import Mathlib.Tactic
import Verif.History.Model
import Verif.Output.Props

namespace Cloudnet

/-! ## C160: earlier calls do not change the attributes of a file -/

/-- Two entries of a table agree except for some fields. -/
def Spec.AgreeBut (free : AttrName → Prop) (a b : MetaData) : Prop :=
  a.dimensions = b.dimensions ∧ ∀ f, ¬ free f → a.value f = b.value f

/-- The edit may touch the table: it changes only free fields, and takes a missing key from the common table exactly if the key is not in `strict`. -/
def TableEdit.Within (free : String → AttrName → Prop) (strict : String → Prop) (e : TableEdit) : Prop :=
  (∀ f v, (f, v) ∈ e.fields → free e.key f) ∧ e.fields ≠ [] ∧ (e.fallback = true ↔ ¬ strict e.key)

/-- Tables `t` and `u` with common entries agree on everything but the free fields that are not in `done`. -/
structure InStep (common : AttrTable) (free : String → AttrName → Prop) (strict : String → Prop) (done : String → AttrName → Prop)
    (t u : AttrTable) : Prop where
  fixed : ∀ k, (∀ f, ¬ free k f) → t k = u k
  absent : ∀ k, (t k).or (common k) = none ↔ (u k).or (common k) = none
  strictAbsent : ∀ k, strict k → (t k = none ↔ u k = none)
  agree : ∀ k m m', (t k).or (common k) = some m → (u k).or (common k) = some m' →
    Spec.AgreeBut (fun f => free k f ∧ ¬ done k f) m m'
  strictAgree : ∀ k m m', strict k → t k = some m → u k = some m' → Spec.AgreeBut (fun f => free k f ∧ ¬ done k f) m m'
  present : ∀ k f, done k f → t k ≠ none ∧ u k ≠ none

theorem InStep.refl (common : AttrTable) (free : String → AttrName → Prop) (strict : String → Prop) (t : AttrTable) :
    InStep common free strict (fun _ _ => False) t t :=
  ⟨fun _ _ => rfl, fun _ => Iff.rfl, fun _ _ => Iff.rfl, fun k m m' h h' => by rw [h] at h'; cases h'; exact ⟨rfl, fun _ _ => rfl⟩,
    fun k m m' _ h h' => by rw [h] at h'; cases h'; exact ⟨rfl, fun _ _ => rfl⟩, fun _ _ h => h.elim⟩

theorem replace_agree (m : MetaData) (fields : List (AttrName × Option String)) (free : AttrName → Prop) (h : ∀ f v, (f, v) ∈ fields → free f) :
    Spec.AgreeBut free (m.replace fields) m := by
  refine ⟨rfl, fun f hf => ?_⟩
  have : fields.lookup f = none := by
    rw [List.lookup_eq_none_iff]
    intro p hp
    rw [bne_iff_ne]
    rintro rfl
    exact hf (h _ p.2 hp)
  simp [MetaData.replace, this]

theorem Spec.AgreeBut.trans {free : AttrName → Prop} {a b c : MetaData} (h : Spec.AgreeBut free a b) (h' : Spec.AgreeBut free b c) : Spec.AgreeBut free a c :=
  ⟨h.1.trans h'.1, fun f hf => (h.2 f hf).trans (h'.2 f hf)⟩

/-- An edit of one of two tables. -/
theorem InStep.left (common : AttrTable) (free : String → AttrName → Prop) (strict : String → Prop) (t u : AttrTable) (e : TableEdit)
    (he : e.Within free strict) (h : InStep common free strict (fun _ _ => False) t u) :
    InStep common free strict (fun _ _ => False) (e.run common t).1 u := by
  unfold TableEdit.run
  cases hm : (if e.fallback then (t e.key).or (common e.key) else t e.key) with
  | none => exact h
  | some m =>
    have hfree : ∃ f, free e.key f := by
      obtain ⟨p, hp⟩ := List.exists_mem_of_ne_nil _ he.2.1
      exact ⟨p.1, he.1 p.1 p.2 hp⟩
    have hor : (t e.key).or (common e.key) = some m := by
      cases hf : e.fallback with
      | true => rw [hf, if_pos rfl] at hm; exact hm
      | false => rw [hf] at hm; simp only [Bool.false_eq_true, if_false] at hm; rw [hm]; rfl
    have hst : strict e.key → t e.key = some m := by
      intro hs
      have : e.fallback = false := by
        rw [← Bool.not_eq_true, he.2.2]; exact not_not.2 hs
      rw [this] at hm
      simpa using hm
    have hrep : ∀ m', Spec.AgreeBut (fun f => free e.key f ∧ ¬ False) m m' → Spec.AgreeBut (fun f => free e.key f ∧ ¬ False) (m.replace e.fields) m' :=
      fun m' h' => Spec.AgreeBut.trans (replace_agree m e.fields _ fun f v hv => ⟨he.1 f v hv, not_false⟩) h'
    refine ⟨?_, ?_, ?_, ?_, ?_, fun _ _ h => h.elim⟩
    · intro k hk
      by_cases hke : k = e.key
      · subst hke; exact absurd hfree (by push Not; exact hk)
      · simp only [hke, if_false]; exact h.fixed k hk
    · intro k
      by_cases hke : k = e.key
      · subst hke
        simp only [if_true, Option.some_or, reduceCtorEq, false_iff]
        rw [← h.absent, hor]; simp
      · simp only [hke, if_false]; exact h.absent k
    · intro k hk
      by_cases hke : k = e.key
      · subst hke
        simp only [if_true, reduceCtorEq, false_iff]
        rw [← h.strictAbsent _ hk, hst hk]; simp
      · simp only [hke, if_false]; exact h.strictAbsent k hk
    · intro k m1 m2 h1 h2
      by_cases hke : k = e.key
      · subst hke
        simp only [if_true, Option.some_or, Option.some.injEq] at h1
        rw [← h1]
        exact hrep m2 (h.agree _ _ _ hor h2)
      · simp only [hke, if_false] at h1; exact h.agree k m1 m2 h1 h2
    · intro k m1 m2 hk h1 h2
      by_cases hke : k = e.key
      · subst hke
        simp only [if_true, Option.some.injEq] at h1
        rw [← h1]
        exact hrep m2 (h.strictAgree _ _ _ hk (hst hk) h2)
      · simp only [hke, if_false] at h1; exact h.strictAgree k m1 m2 hk h1 h2

theorem InStep.left_edits (common : AttrTable) (free : String → AttrName → Prop) (strict : String → Prop) (u : AttrTable) (es : List TableEdit)
    (hes : ∀ e ∈ es, e.Within free strict) (t : AttrTable) (h : InStep common free strict (fun _ _ => False) t u) :
    InStep common free strict (fun _ _ => False) (runEdits common t es).1 u := by
  induction es generalizing t with
  | nil => exact h
  | cons e es ih =>
    have h1 := InStep.left common free strict t u e (hes e (by simp)) h
    unfold runEdits
    rcases hr : e.run common t with ⟨t', err⟩
    rw [hr] at h1
    cases err with
    | none => exact ih (fun e he => hes e (by simp [he])) t' h1
    | some err => exact h1

theorem InStep.history (common : AttrTable) (free : String → AttrName → Prop) (strict : String → Prop) (t : AttrTable) (history : List TableCall)
    (hh : ∀ c ∈ history, ∀ e ∈ c.edits, e.Within free strict) :
    InStep common free strict (fun _ _ => False) (tableAfter common t history) t := by
  suffices ∀ t', InStep common free strict (fun _ _ => False) t' t → InStep common free strict (fun _ _ => False) (tableAfter common t' history) t from
    this t (InStep.refl common free strict t)
  induction history with
  | nil => exact fun t' h => h
  | cons c cs ih =>
    intro t' h
    exact ih (fun c hc => hh c (by simp [hc])) _ (InStep.left_edits common free strict t c.edits (hh c (by simp)) t' h)

/-- The same edit of both tables. -/
theorem InStep.both (common : AttrTable) (free : String → AttrName → Prop) (strict : String → Prop) (done : String → AttrName → Prop)
    (t u : AttrTable) (e : TableEdit) (he : e.Within free strict) (h : InStep common free strict done t u) :
    (e.run common t).2 = (e.run common u).2 ∧
      ((e.run common t).2 = none → InStep common free strict
        (fun k f => done k f ∨ k = e.key ∧ ∃ v, (f, v) ∈ e.fields) (e.run common t).1 (e.run common u).1) := by
  have hfree : ∃ f, free e.key f := by
    obtain ⟨p, hp⟩ := List.exists_mem_of_ne_nil _ he.2.1
    exact ⟨p.1, he.1 p.1 p.2 hp⟩
  have hrep : ∀ m m', Spec.AgreeBut (fun f => free e.key f ∧ ¬ done e.key f) m m' →
      Spec.AgreeBut (fun f => free e.key f ∧ ¬ (done e.key f ∨ e.key = e.key ∧ ∃ v, (f, v) ∈ e.fields)) (m.replace e.fields) (m'.replace e.fields) := by
    intro m m' hmm
    refine ⟨hmm.1, fun f hf => ?_⟩
    change (e.fields.lookup f).getD (m.value f) = (e.fields.lookup f).getD (m'.value f)
    cases hl : e.fields.lookup f with
    | some v => rfl
    | none =>
      refine hmm.2 f fun hc => hf ⟨hc.1, ?_⟩
      rintro (hd | ⟨-, v, hv⟩)
      · exact hc.2 hd
      · rw [List.lookup_eq_none_iff] at hl
        have := hl _ hv
        simp at this
  have key : (∃ m m', (if e.fallback then (t e.key).or (common e.key) else t e.key) = some m ∧
      (if e.fallback then (u e.key).or (common e.key) else u e.key) = some m' ∧ Spec.AgreeBut (fun f => free e.key f ∧ ¬ done e.key f) m m') ∨
      (if e.fallback then (t e.key).or (common e.key) else t e.key) = none ∧ (if e.fallback then (u e.key).or (common e.key) else u e.key) = none := by
    cases hf : e.fallback with
    | true =>
      simp only [if_true]
      cases ht : (t e.key).or (common e.key) with
      | none => exact Or.inr ⟨rfl, (h.absent _).1 ht⟩
      | some m =>
        cases hu : (u e.key).or (common e.key) with
        | none => rw [(h.absent _).2 hu] at ht; cases ht
        | some m' => exact Or.inl ⟨m, m', rfl, rfl, h.agree _ _ _ ht hu⟩
    | false =>
      have hs : strict e.key := by
        by_contra hc
        rw [he.2.2.2 hc] at hf; cases hf
      simp only [Bool.false_eq_true, if_false]
      cases ht : t e.key with
      | none => exact Or.inr ⟨rfl, (h.strictAbsent _ hs).1 ht⟩
      | some m =>
        cases hu : u e.key with
        | none => rw [(h.strictAbsent _ hs).2 hu] at ht; cases ht
        | some m' => exact Or.inl ⟨m, m', rfl, rfl, h.strictAgree _ _ _ hs ht hu⟩
  unfold TableEdit.run
  rcases key with ⟨m, m', hm, hm', hag⟩ | ⟨hm, hm'⟩
  · rw [hm, hm']
    refine ⟨rfl, fun _ => ⟨?_, ?_, ?_, ?_, ?_, ?_⟩⟩
    · intro k hk
      by_cases hke : k = e.key
      · subst hke; exact absurd hfree (by push Not; exact hk)
      · simp only [hke, if_false]; exact h.fixed k hk
    · intro k
      by_cases hke : k = e.key
      · subst hke; simp
      · simp only [hke, if_false]; exact h.absent k
    · intro k hk
      by_cases hke : k = e.key
      · subst hke; simp
      · simp only [hke, if_false]; exact h.strictAbsent k hk
    · intro k m1 m2 h1 h2
      by_cases hke : k = e.key
      · subst hke
        simp only [if_true, Option.some_or, Option.some.injEq] at h1 h2
        rw [← h1, ← h2]
        exact hrep m m' hag
      · simp only [hke, if_false, false_and, or_false] at h1 h2 ⊢; exact h.agree k m1 m2 h1 h2
    · intro k m1 m2 hk h1 h2
      by_cases hke : k = e.key
      · subst hke
        simp only [if_true, Option.some.injEq] at h1 h2
        rw [← h1, ← h2]
        exact hrep m m' hag
      · simp only [hke, if_false, false_and, or_false] at h1 h2 ⊢; exact h.strictAgree k m1 m2 hk h1 h2
    · intro k f hd
      by_cases hke : k = e.key
      · subst hke; simp
      · simp only [hke, if_false, false_and, or_false] at hd ⊢; exact h.present k f hd
  · rw [hm, hm']
    exact ⟨rfl, fun hc => by cases hc⟩

theorem InStep.both_edits (common : AttrTable) (free : String → AttrName → Prop) (strict : String → Prop) (es : List TableEdit)
    (hes : ∀ e ∈ es, e.Within free strict) (done : String → AttrName → Prop) (t u : AttrTable) (h : InStep common free strict done t u) :
    (runEdits common t es).2 = (runEdits common u es).2 ∧
      ((runEdits common t es).2 = none → InStep common free strict
        (fun k f => done k f ∨ ∃ e ∈ es, k = e.key ∧ ∃ v, (f, v) ∈ e.fields) (runEdits common t es).1 (runEdits common u es).1) := by
  induction es generalizing done t u with
  | nil => exact ⟨rfl, fun _ => by simpa [runEdits] using h⟩
  | cons e es ih =>
    obtain ⟨h1, h2⟩ := InStep.both common free strict done t u e (hes e (by simp)) h
    unfold runEdits
    rcases hr : e.run common t with ⟨t', err⟩
    rcases hr' : e.run common u with ⟨u', err'⟩
    rw [hr, hr'] at h1 h2
    simp only at h1 h2
    subst h1
    cases err with
    | some err => exact ⟨rfl, fun hc => by cases hc⟩
    | none =>
      obtain ⟨i1, i2⟩ := ih (fun e he => hes e (by simp [he])) _ t' u' (h2 rfl)
      refine ⟨i1, fun hn => ?_⟩
      have := i2 hn
      have heq : (fun k f => (done k f ∨ k = e.key ∧ ∃ v, (f, v) ∈ e.fields) ∨ ∃ e ∈ es, k = e.key ∧ ∃ v, (f, v) ∈ e.fields) =
          (fun k f => done k f ∨ ∃ e' ∈ e :: es, k = e'.key ∧ ∃ v, (f, v) ∈ e'.fields) := by
        funext k f
        simp [or_assoc]
      rw [heq] at this
      exact this

/-- What the theorems below have in common: if the calls before a call change only fields that the call itself sets, for the variables of its file, the
call gives the same attributes, or the same error, as the first call of a process. -/
theorem same_after_history {β : Type} (common : AttrTable) (free : String → AttrName → Prop) (strict : String → Prop) (table : AttrTable)
    (history : List TableCall) (call : TableCall) (arrays : List (String × CloudnetArray β))
    (hh : ∀ c ∈ call :: history, ∀ e ∈ c.edits, e.Within free strict)
    (hset : call.error = none → ∀ kv ∈ arrays, ∀ f, free kv.1 f → ∃ e ∈ call.edits, kv.1 = e.key ∧ ∃ v, (f, v) ∈ e.fields) :
    call.result common (tableAfter common table history) arrays = call.result common table arrays := by
  have h0 := InStep.history common free strict table history fun c hc => hh c (by simp [hc])
  obtain ⟨h1, h2⟩ := InStep.both_edits common free strict call.edits (hh call (by simp)) _ _ _ h0
  unfold TableCall.result
  rw [← h1]
  cases he : (runEdits common (tableAfter common table history) call.edits).2 with
  | some e => rfl
  | none =>
    cases hc : call.error with
    | some e => rfl
    | none =>
      have h3 := h2 he
      simp only [false_or] at h3
      simp only [Except.ok.injEq]
      unfold updateAttributes
      refine List.map_congr_left fun kv hkv => ?_
      have hkey : (runEdits common (tableAfter common table history) call.edits).1 kv.1 = (runEdits common table call.edits).1 kv.1 := by
        by_cases hf : ∃ f, free kv.1 f
        · obtain ⟨f, hf⟩ := hf
          obtain ⟨p1, p2⟩ := h3.present kv.1 f (hset hc kv hkv f hf)
          obtain ⟨m, hm⟩ := Option.ne_none_iff_exists'.1 p1
          obtain ⟨m', hm'⟩ := Option.ne_none_iff_exists'.1 p2
          have := h3.agree kv.1 m m' (by rw [hm]; rfl) (by rw [hm']; rfl)
          rw [hm, hm']
          obtain ⟨d, v⟩ := m
          obtain ⟨d', v'⟩ := m'
          obtain ⟨rfl, hv⟩ := this
          have : v = v' := funext fun f => hv f fun hc' => hc'.2 (hset hc kv hkv f hc'.1)
          rw [this]
        · exact h3.fixed kv.1 (by push Not at hf; exact hf)
      rw [hkey]

/-- **C160.** Files of an instrument, or of a product without comments of its own: whatever calls of the module there were before, with any dates and
whether or not they failed later, the attributes are those that the first call of a process would give. -/
theorem C160_instrument {β : Type} (common table : AttrTable) (before : List String) (date : String) (arrays : List (String × CloudnetArray β)) :
    (instrumentCall date).result common (tableAfter common table (before.map instrumentCall)) arrays = (instrumentCall date).result common table arrays := by
  refine same_after_history common (fun k f => k = "time" ∧ f = .units) (fun _ => False) table _ _ arrays ?_ ?_
  · intro c hc e he
    have : ∃ d, c = instrumentCall d := by
      rcases List.mem_cons.1 hc with rfl | hc
      · exact ⟨date, rfl⟩
      · obtain ⟨d, -, rfl⟩ := List.mem_map.1 hc; exact ⟨d, rfl⟩
    obtain ⟨d, rfl⟩ := this
    simp only [instrumentCall, List.mem_singleton] at he
    subst he
    refine ⟨?_, by simp [timeEdit], by simp [timeEdit]⟩
    intro f v hv
    simp only [timeEdit, List.mem_singleton, Prod.mk.injEq] at hv
    exact ⟨rfl, hv.1⟩
  · rintro - kv - f ⟨hk, rfl⟩
    exact ⟨timeEdit date "time", by simp [instrumentCall], hk, _, by simp [timeEdit]; rfl⟩

/-- **C160.** The time of such a file has the units of the date of the call. -/
theorem C160_instrument_units {β : Type} (common table : AttrTable) (before : List String) (date : String) (arrays out : List (String × CloudnetArray β))
    (h : (instrumentCall date).result common (tableAfter common table (before.map instrumentCall)) arrays = .ok out) :
    out.map Prod.fst = arrays.map Prod.fst ∧
      ∀ a, ("time", a) ∈ out → a.attr .units = some ("hours since " ++ date ++ " 00:00:00 +00:00") := by
  have hne : "hours since " ++ date ++ " 00:00:00 +00:00" ≠ "" := by
    intro h
    have := congrArg String.length h
    simp [String.length_append] at this
  rw [C160_instrument] at h
  unfold TableCall.result instrumentCall runEdits TableEdit.run timeEdit at h
  simp only [if_true] at h
  cases hm : (table "time").or (common "time") with
  | none => rw [hm] at h; cases h
  | some m =>
    rw [hm] at h
    simp only [runEdits, Except.ok.injEq] at h
    subst h
    refine ⟨by simp [updateAttributes, Function.comp_def], fun a ha => ?_⟩
    unfold updateAttributes at ha
    obtain ⟨kv, -, hkv⟩ := List.mem_map.1 ha
    simp only [Prod.mk.injEq] at hkv
    obtain ⟨hk, rfl⟩ := hkv
    rw [hk]
    have hlook : (MetaData.replace m [(.units, some ("hours since " ++ date ++ " 00:00:00 +00:00"))]).value .units =
        some ("hours since " ++ date ++ " 00:00:00 +00:00") := rfl
    simp [CloudnetArray.setAttributes, hlook, truthy]

/-- **C160.** Products that put numbers of the run into comments (`iwc`, `ier`, `der`): the variables with such comments are the same in all calls. -/
theorem C160_comments {β : Type} (common table : AttrTable) (keys : List String) (hkeys : "time" ∉ keys)
    (before : List (String × List (String × String))) (hbefore : ∀ c ∈ before, c.2.map Prod.fst = keys) (date : String)
    (comments : List (String × String)) (hcomments : comments.map Prod.fst = keys) (arrays : List (String × CloudnetArray β)) :
    (commentCall date comments).result common (tableAfter common table (before.map fun c => commentCall c.1 c.2)) arrays =
      (commentCall date comments).result common table arrays := by
  refine same_after_history common (fun k f => k = "time" ∧ f = .units ∨ k ∈ keys ∧ f = .comment) (fun k => k ∈ keys) table _ _ arrays ?_ ?_
  · intro c hc e he
    have : ∃ d cs, c = commentCall d cs ∧ cs.map Prod.fst = keys := by
      rcases List.mem_cons.1 hc with rfl | hc
      · exact ⟨date, comments, rfl, hcomments⟩
      · obtain ⟨d, hd, rfl⟩ := List.mem_map.1 hc; exact ⟨d.1, d.2, rfl, hbefore d hd⟩
    obtain ⟨d, cs, rfl, hcs⟩ := this
    simp only [commentCall, List.mem_cons, List.mem_map] at he
    rcases he with rfl | ⟨cm, hcm, rfl⟩
    · refine ⟨?_, by simp [timeEdit], by simpa [timeEdit] using hkeys⟩
      intro f v hv
      simp only [timeEdit, List.mem_singleton, Prod.mk.injEq] at hv
      exact Or.inl ⟨rfl, hv.1⟩
    · have hk : cm.1 ∈ keys := by rw [← hcs]; exact List.mem_map.2 ⟨cm, hcm, rfl⟩
      refine ⟨?_, by simp, by simpa using hk⟩
      intro f v hv
      simp only [List.mem_singleton, Prod.mk.injEq] at hv
      exact Or.inr ⟨hk, hv.1⟩
  · rintro - kv - f (⟨hk, rfl⟩ | ⟨hk, rfl⟩)
    · exact ⟨timeEdit date "time", by simp [commentCall], hk, _, by simp [timeEdit]; rfl⟩
    · rw [← hcomments] at hk
      obtain ⟨cm, hcm, he⟩ := List.mem_map.1 hk
      exact ⟨⟨cm.1, false, [(.comment, some cm.2)]⟩, by simp only [commentCall, List.mem_cons, List.mem_map]; exact Or.inr ⟨cm, hcm, rfl⟩, he.symm, _,
        by simp; rfl⟩

theorem sourceEdit_mem (data : SourceKind → Option (Option String × Option String)) (is : List SourceKind) (e : TableEdit)
    (h : e ∈ (allSourceEdits data is).edits) : ∃ (i : SourceKind) (source pid : Option String), e.key ∈ i.keys ∧ e = ⟨e.key, true, [(.source, source), (.sourceInstrumentPid, pid)]⟩ := by
  induction is with
  | nil => cases h
  | cons i is ih =>
    unfold allSourceEdits at h
    rcases hd : data i with _ | ⟨_ | source, pid⟩ <;> rw [hd] at h
    · exact ih h
    · cases h
    · rcases List.mem_append.1 h with h | h
      · obtain ⟨key, hk, rfl⟩ := List.mem_map.1 h
        exact ⟨i, _, _, hk, rfl⟩
      · exact ih h

theorem sourceEdits_set (data : SourceKind → Option (Option String × Option String)) (is : List SourceKind) (h : (allSourceEdits data is).error = none)
    (i : SourceKind) (hi : i ∈ is) (hd : data i ≠ none) (key : String) (hk : key ∈ i.keys) :
    ∃ e ∈ (allSourceEdits data is).edits, key = e.key ∧ (∃ v, (AttrName.source, v) ∈ e.fields) ∧ ∃ v, (AttrName.sourceInstrumentPid, v) ∈ e.fields := by
  induction is with
  | nil => cases hi
  | cons j is ih =>
    unfold allSourceEdits at h ⊢
    rcases hdj : data j with _ | ⟨_ | source, pid⟩ <;> rw [hdj] at h
    · rcases List.mem_cons.1 hi with rfl | hi
      · exact absurd hdj hd
      · exact ih h hi
    · cases h
    · simp only at h ⊢
      rcases List.mem_cons.1 hi with rfl | hi
      · exact ⟨_, List.mem_append_left _ (List.mem_map.2 ⟨key, hk, rfl⟩), rfl, ⟨_, List.mem_cons_self ..⟩, _, by simp; rfl⟩
      · obtain ⟨e, he, hr⟩ := ih h hi
        exact ⟨e, List.mem_append_right _ he, hr⟩

/-- **C160.** Categorize files: whatever categorize files were made before in the process, from whatever instruments, with errors or not, the attributes are
those that the first call of a process would give, or the same error is raised. Variables of an instrument are in the file only if such an
instrument is there. -/
theorem C160_categorize {β : Type} (common table : AttrTable) (before : List (String × (SourceKind → Option (Option String × Option String))))
    (date : String) (data : SourceKind → Option (Option String × Option String)) (arrays : List (String × CloudnetArray β))
    (harrays : ∀ kv ∈ arrays, (∃ i, kv.1 ∈ SourceKind.keys i) → ∃ i, kv.1 ∈ SourceKind.keys i ∧ data i ≠ none) :
    (categorizeCall date data).result common (tableAfter common table (before.map fun c => categorizeCall c.1 c.2)) arrays =
      (categorizeCall date data).result common table arrays := by
  refine same_after_history common (fun k f => (k = "time" ∨ k = "model_time") ∧ f = .units ∨
    (∃ i, k ∈ SourceKind.keys i) ∧ (f = .source ∨ f = .sourceInstrumentPid)) (fun _ => False) table _ _ arrays ?_ ?_
  · intro c hc e he
    have : ∃ d x, c = categorizeCall d x := by
      rcases List.mem_cons.1 hc with rfl | hc
      · exact ⟨date, data, rfl⟩
      · obtain ⟨d, -, rfl⟩ := List.mem_map.1 hc; exact ⟨d.1, d.2, rfl⟩
    obtain ⟨d, x, rfl⟩ := this
    simp only [categorizeCall, List.mem_cons] at he
    rcases he with rfl | rfl | he
    · refine ⟨?_, by simp [timeEdit], by simp [timeEdit]⟩
      intro f v hv
      simp only [timeEdit, List.mem_singleton, Prod.mk.injEq] at hv
      exact Or.inl ⟨Or.inl rfl, hv.1⟩
    · refine ⟨?_, by simp [timeEdit], by simp [timeEdit]⟩
      intro f v hv
      simp only [timeEdit, List.mem_singleton, Prod.mk.injEq] at hv
      exact Or.inl ⟨Or.inr rfl, hv.1⟩
    · obtain ⟨i, source, pid, hk, hee⟩ := sourceEdit_mem _ _ e he
      rw [hee]
      refine ⟨?_, by simp, by simp⟩
      intro f v hv
      simp only [List.mem_cons, Prod.mk.injEq, List.not_mem_nil, or_false] at hv
      exact Or.inr ⟨⟨i, hk⟩, hv.imp And.left And.left⟩
  · intro herr kv hkv f hf
    have herr' : (allSourceEdits data [.radar, .lidar, .mwr, .model, .disdrometer]).error = none := herr
    rcases hf with ⟨hk | hk, rfl⟩ | ⟨hi, hf⟩
    · exact ⟨timeEdit date "time", by simp [categorizeCall], hk, _, by simp [timeEdit]; rfl⟩
    · exact ⟨timeEdit date "model_time", by simp [categorizeCall], hk, _, by simp [timeEdit]; rfl⟩
    · obtain ⟨i, hk, hd⟩ := harrays kv hkv hi
      obtain ⟨e, he, hke, h1, h2⟩ := sourceEdits_set data _ herr' i (by cases i <;> simp) hd kv.1 hk
      exact ⟨e, by simp [categorizeCall, he], hke, by rcases hf with rfl | rfl; exacts [h1, h2]⟩

/-- The edits of the sources are those of C43: on the same table they give the same table. -/
theorem C160_sources (common table : AttrTable) (data : SourceKind → Option (String × Option String)) (out : AttrTable)
    (h : addSourceAttribute common data table = .ok out) :
    let s := allSourceEdits (fun i => (data i).map fun d => (some d.1, d.2)) [.radar, .lidar, .mwr, .model, .disdrometer]
    s.error = none ∧ runEdits common table s.edits = (out, none) := by
  have append : ∀ (a b : List TableEdit) (t : AttrTable), (runEdits common t a).2 = none →
      runEdits common t (a ++ b) = runEdits common (runEdits common t a).1 b := by
    intro a b
    induction a with
    | nil => intro t _; rfl
    | cons e a ih =>
      intro t ht
      have hc : ∀ l, runEdits common t (e :: l) = match e.run common t with | (t, none) => runEdits common t l | (t, some err) => (t, some err) := fun _ => rfl
      rw [List.cons_append, hc, hc]
      rw [hc] at ht
      rcases hr : e.run common t with ⟨t', _ | err⟩
      · rw [hr] at ht; exact ih t' ht
      · rw [hr] at ht; cases ht
  have keys : ∀ (source : String) (pid : Option String) (ks : List String) (t t' : AttrTable), ks.foldlM (setSource common source pid) t = .ok t' →
      runEdits common t (ks.map fun key => ⟨key, true, [(.source, some source), (.sourceInstrumentPid, pid)]⟩) = (t', none) := by
    intro source pid ks
    induction ks with
    | nil => intro t t' h; cases h; rfl
    | cons key ks ih =>
      intro t t' h
      rw [List.foldlM_cons] at h
      simp only [bind, Except.bind] at h
      rw [List.map_cons]
      unfold runEdits TableEdit.run
      unfold setSource at h
      simp only [if_true]
      cases hm : (t key).or (common key) with
      | none => rw [hm] at h; cases h
      | some m =>
        rw [hm] at h
        simp only at h ⊢
        rw [← ih _ t' h]
        congr 1
        funext k
        split
        · congr 1
          unfold MetaData.replace
          congr 1
          funext f
          by_cases h1 : f = .source
          · subst h1; rfl
          · by_cases h2 : f = .sourceInstrumentPid
            · subst h2; rfl
            · have : ([(AttrName.source, some source), (AttrName.sourceInstrumentPid, pid)] : List _).lookup f = none := by
                rw [List.lookup_eq_none_iff]
                simp [h1, h2]
              rw [this]; simp [h1, h2]
        · rfl
  have main : ∀ (is : List SourceKind) (t t' : AttrTable), is.foldlM (fun attributes i =>
      match data i with
      | none => (.ok attributes : Except String AttrTable)
      | some (source, pid) => i.keys.foldlM (setSource common source pid) attributes) t = .ok t' →
      (allSourceEdits (fun i => (data i).map fun d => (some d.1, d.2)) is).error = none ∧
      runEdits common t (allSourceEdits (fun i => (data i).map fun d => (some d.1, d.2)) is).edits = (t', none) := by
    intro is
    induction is with
    | nil => intro t t' h; cases h; exact ⟨rfl, rfl⟩
    | cons i is ih =>
      intro t t' h
      rw [List.foldlM_cons] at h
      simp only [bind, Except.bind] at h
      unfold allSourceEdits
      rcases hd : data i with _ | ⟨source, pid⟩
      · rw [hd] at h; exact ih t t' h
      · rw [hd] at h
        simp only [Option.map_some] at h ⊢
        cases hk : i.keys.foldlM (setSource common source pid) t with
        | error e => rw [hk] at h; cases h
        | ok t1 =>
          rw [hk] at h
          obtain ⟨i1, i2⟩ := ih t1 t' h
          have h1 := keys source pid _ t t1 hk
          refine ⟨i1, ?_⟩
          unfold sourceEdits
          rw [append _ _ _ (by rw [h1]), h1]
          exact i2
  exact main _ table out h

/-- The units of the time of a file of the date. -/
def Spec.timeUnits (date : String) : String := "hours since " ++ date ++ " 00:00:00 +00:00"

/-- The date that was set last, at an event. -/
def Spec.LastDate (events : List TableEvent) (i : ℕ) (date : String) : Prop :=
  ∃ j < i, (∃ thread, events[j]? = some (.setDate thread date)) ∧ ∀ k, j < k → k < i → ∀ thread d, events[k]? ≠ some (.setDate thread d)

theorem threadTables_spec (common table : AttrTable) (htime : (table "time").or (common "time") ≠ none) (events : List TableEvent)
    (date : Option String) (hdate : ∀ d, date = some d → ∃ m, table "time" = some m ∧ m.value .units = some (Spec.timeUnits d)) :
    ∃ reads : List (ℕ × ℕ), reads.map Prod.snd = (List.range events.length).filter (fun i => match events[i]? with | some (.read _) => true | _ => false) ∧
      List.Forall₂ (fun r o => events[r.2]? = some (.read r.1) ∧ o.1 = r.1 ∧
        ∀ d, Spec.LastDate events r.2 d ∨ (date = some d ∧ ∀ k < r.2, ∀ thread d', events[k]? ≠ some (.setDate thread d')) →
          ∃ m, o.2 "time" = some m ∧ m.value .units = some (Spec.timeUnits d)) reads (threadTables common table events) := by
  induction events generalizing table date with
  | nil => exact ⟨[], rfl, .nil⟩
  | cons e es ih =>
    cases e with
    | setDate thread dd =>
      obtain ⟨m, hm⟩ := Option.ne_none_iff_exists'.1 htime
      have hrun : ((timeEdit dd "time").run common table).1 =
          fun k => if k = "time" then some (m.replace [(.units, some (Spec.timeUnits dd))]) else table k := by
        unfold TableEdit.run timeEdit
        simp only [if_true, hm]
        rfl
      obtain ⟨reads, h1, h2⟩ := ih ((timeEdit dd "time").run common table).1 (by rw [hrun]; simp) (some dd) (by
        intro d hd
        cases hd
        exact ⟨m.replace [(.units, some (Spec.timeUnits dd))], by rw [hrun]; simp, rfl⟩)
      refine ⟨reads.map fun r => (r.1, r.2 + 1), ?_, ?_⟩
      · rw [List.map_map, List.length_cons, List.range_succ_eq_map, List.filter_cons]
        simp only [List.getElem?_cons_zero, Bool.false_eq_true, if_false]
        rw [List.filter_map, show (Prod.snd ∘ fun r : ℕ × ℕ => (r.1, r.2 + 1)) = Nat.succ ∘ Prod.snd from rfl, ← List.map_map, h1]
        rfl
      · rw [List.forall₂_map_left_iff]
        refine h2.imp fun r o ⟨a, b, c⟩ => ⟨by simpa using a, b, ?_⟩
        intro d hd
        refine c d ?_
        rcases hd with ⟨j, hj, ⟨th, hth⟩, hno⟩ | ⟨-, hno⟩
        · cases j with
          | zero =>
            simp only [List.getElem?_cons_zero, Option.some.injEq, TableEvent.setDate.injEq] at hth
            refine Or.inr ⟨by rw [hth.2], fun k hk th' d' => ?_⟩
            have := hno (k + 1) (by omega) (by simp only; omega) th' d'
            simpa using this
          | succ j =>
            refine Or.inl ⟨j, by simp only at hj; omega, ⟨th, by simpa using hth⟩, fun k hk1 hk2 th' d' => ?_⟩
            have := hno (k + 1) (by omega) (by simp only; omega) th' d'
            simpa using this
        · exact absurd (by simp) (hno 0 (by simp) thread dd)
    | read thread =>
      obtain ⟨reads, h1, h2⟩ := ih table htime date hdate
      refine ⟨(thread, 0) :: reads.map fun r => (r.1, r.2 + 1), ?_, ?_⟩
      · rw [List.map_cons, List.map_map, List.length_cons, List.range_succ_eq_map, List.filter_cons]
        simp only [List.getElem?_cons_zero, if_true]
        rw [List.filter_map, show (Prod.snd ∘ fun r : ℕ × ℕ => (r.1, r.2 + 1)) = Nat.succ ∘ Prod.snd from rfl, ← List.map_map, h1]
        rfl
      · refine .cons ⟨rfl, rfl, ?_⟩ ?_
        · rintro d (⟨j, hj, -⟩ | ⟨hd, -⟩)
          · simp at hj
          · exact hdate d hd
        · rw [List.forall₂_map_left_iff]
          refine h2.imp fun r o ⟨a, b, c⟩ => ⟨by simpa using a, b, ?_⟩
          intro d hd
          refine c d ?_
          rcases hd with ⟨j, hj, ⟨th, hth⟩, hno⟩ | ⟨hd, hno⟩
          · cases j with
            | zero => simp at hth
            | succ j =>
              refine Or.inl ⟨j, by simp only at hj; omega, ⟨th, by simpa using hth⟩, fun k hk1 hk2 th' d' => ?_⟩
              have := hno (k + 1) (by omega) (by simp only; omega) th' d'
              simpa using this
          · refine Or.inr ⟨hd, fun k hk th' d' => ?_⟩
            have := hno (k + 1) (by simp only; omega) th' d'
            simpa using this

/-- **C160, finding.** Threads that make files of one instrument share the table: for every schedule, the units of time of a file are those of the date that any thread
set last before the table was read, one read for each file, in order. -/
theorem C160_threads (common table : AttrTable) (htime : (table "time").or (common "time") ≠ none) (events : List TableEvent) :
    ∃ reads : List (ℕ × ℕ), reads.map Prod.snd = (List.range events.length).filter (fun i => match events[i]? with | some (.read _) => true | _ => false) ∧
      List.Forall₂ (fun r o => events[r.2]? = some (.read r.1) ∧ o.1 = r.1 ∧
        ∀ d, Spec.LastDate events r.2 d → ∃ m, o.2 "time" = some m ∧ m.value .units = some (Spec.timeUnits d)) reads (threadTables common table events) := by
  obtain ⟨reads, h1, h2⟩ := threadTables_spec common table htime events none (by simp)
  exact ⟨reads, h1, h2.imp fun r o ⟨a, b, c⟩ => ⟨a, b, fun d hd => c d (Or.inl hd)⟩⟩

/-- Two threads: the first file gets the date of the second. -/
theorem C160_threads_mixed (common table : AttrTable) (m : MetaData) (htime : common "time" = some m) (hnone : table "time" = none) :
    (threadTables common table [.setDate 1 "2024-03-12", .setDate 2 "2024-03-13", .read 1, .read 2]).map
      (fun o => (o.1, (o.2 "time").bind fun m => m.value .units)) =
      [(1, some "hours since 2024-03-13 00:00:00 +00:00"), (2, some "hours since 2024-03-13 00:00:00 +00:00")] := by
  simp [threadTables, TableEdit.run, timeEdit, htime, hnone, MetaData.replace]

/-! ### Level 3 files -/

/-- **C160.** The time of a Level 3 file has the units of its date, because the table of the model has empty units. -/
theorem C160_l3_time {β : Type} (t : L3Tables) (date : String) (m : MetaData) (hm : t.model "time" = some m) (hu : m.value .units = some "")
    (a : CloudnetArray β) : (l3Attributes t (l3TimeTable t date) "time" a).attr .units = some (Spec.timeUnits date) := by
  have hne : "hours since " ++ date ++ " 00:00:00 +00:00" ≠ "" := by
    intro h
    have := congrArg String.length h
    simp [String.length_append] at this
  have hlen : truthy (some ("hours since " ++ date ++ " 00:00:00 +00:00")) = true := by
    simp only [truthy, decide_eq_true_eq]
    exact hne
  have hlook : (MetaData.replace m [(.units, some ("hours since " ++ date ++ " 00:00:00 +00:00"))]).value .units =
      some ("hours since " ++ date ++ " 00:00:00 +00:00") := rfl
  unfold l3Attributes l3TimeTable setFrom
  simp only [hm, Option.isSome_some, if_true, Option.map_some, CloudnetArray.setAttributes, hu, hlook, hlen]
  simp [truthy, Spec.timeUnits]

/-- **C160.** Which table gives the attributes of a variable of a Level 3 file besides the time: that of the model, for names with the prefix `model_` that of the simulated fields and
then that of the model cycle, else that of the observations. -/
theorem C160_l3 {β : Type} (t : L3Tables) (date key : String) (hk : key ≠ "time") (a : CloudnetArray β) :
    (∀ m, t.model key = some m → l3Attributes t (l3TimeTable t date) key a = a.setAttributes m) ∧
    (t.model key = none →
      (∀ base, key = "model_" ++ base →
        (∀ m, t.l3 base = some m → l3Attributes t (l3TimeTable t date) key a = a.setAttributes m) ∧
        (∀ m, t.l3 base = none → t.cycle base = some m → l3Attributes t (l3TimeTable t date) key a = a.setAttributes m) ∧
        (t.l3 base = none → t.cycle base = none → l3Attributes t (l3TimeTable t date) key a = a)) ∧
      ((∀ base, key ≠ "model_" ++ base) →
        (∀ m, t.regrid key = some m → l3Attributes t (l3TimeTable t date) key a = a.setAttributes m) ∧
        (t.regrid key = none → l3Attributes t (l3TimeTable t date) key a = a))) := by
  have h0 : l3TimeTable t date key = none := by simp [l3TimeTable, hk]
  refine ⟨fun m hm => by simp [l3Attributes, h0, hm, setFrom], fun hm => ⟨?_, ?_⟩⟩
  · rintro base rfl
    have hp : "model_".toList.isPrefixOf ("model_" ++ base).toList = true := by
      rw [String.toList_append, List.isPrefixOf_iff_prefix]
      exact List.prefix_append _ _
    have hb : String.ofList (("model_" ++ base).toList.drop 6) = base := by
      rw [String.toList_append, List.drop_left' (by decide +kernel)]
      exact String.ofList_toList
    refine ⟨fun m h => ?_, fun m h1 h2 => ?_, fun h1 h2 => ?_⟩
    · simp only [l3Attributes, h0, hm, hp, hb, h]; rfl
    · simp only [l3Attributes, h0, hm, hp, hb, h1, h2]; rfl
    · simp only [l3Attributes, h0, hm, hp, hb, h1, h2]; rfl
  · intro hno
    have hp : "model_".toList.isPrefixOf key.toList = false := by
      rw [← Bool.not_eq_true, List.isPrefixOf_iff_prefix]
      rintro ⟨base, hb⟩
      refine hno (String.ofList base) ?_
      apply String.toList_injective
      exact hb.symm.trans (by simp)
    refine ⟨fun m h => ?_, fun h => ?_⟩
    · simp only [l3Attributes, h0, hm, hp, h]; rfl
    · simp only [l3Attributes, h0, hm, hp, h]; rfl

/-! ### Examples -/

/-- A table with long names only. -/
def exampleTable (names : List String) : AttrTable :=
  fun k => if k ∈ names then some ⟨none, fun f => if f = .longName then some k else none⟩ else none

/-- A first run with a radiometer and a disdrometer, a second without: the rain of the second file is from the radar. The liquid water path would still carry the source of the
first run, but is not in the file. -/
example : ((categorizeCall "2024-03-13" fun i => if i = .mwr ∨ i = .disdrometer then none else some (some "radar", none)).result
      (exampleTable ["time", "lwp", "v", "width", "v_sigma", "ldr", "Z", "zdr", "sldr", "radar_frequency", "nyquist_velocity", "rainfall_rate", "beta",
        "lidar_wavelength", "uwind", "vwind", "Tw", "q", "pressure", "temperature"])
      (tableAfter (exampleTable ["time", "lwp", "v", "width", "v_sigma", "ldr", "Z", "zdr", "sldr", "radar_frequency", "nyquist_velocity", "rainfall_rate",
        "beta", "lidar_wavelength", "uwind", "vwind", "Tw", "q", "pressure", "temperature"]) (exampleTable ["model_time"])
        [categorizeCall "2024-03-12" fun _ => some (some "first", some "pid")])
      [("rainfall_rate", (⟨"rainfall_rate", 7, "f4", none, fun _ => none⟩ : CloudnetArray ℕ)), ("lwp", ⟨"lwp", 8, "f4", none, fun _ => none⟩)]).map
        (fun l => l.map fun kv => (kv.2.attr .source, kv.2.attr .sourceInstrumentPid)) =
    .ok [(some "radar", none), (some "first", some "pid")] := by
  decide +kernel

end Cloudnet
