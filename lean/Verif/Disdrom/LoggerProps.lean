import Verif.Disdrom.Logger
import Verif.Disdro.Props
import Verif.Station.Readers
import Verif.Station.ToaStation
import Verif.Station.Pipeline
import Mathlib.Tactic

namespace Cloudnet

namespace Spec

/-- How a field of a named column is read: times, counts and numbers must be readable, other fields are taken as they are. -/
inductive ReadsAs {T α : Type} (p : LoggerParsers T α) : String → String → FieldValue T α → Prop
  | time {text t} : p.time text = some t → ReadsAs p "_datetime" text (.time t)
  | int {name text n} : name = "spectrum" ∨ name ∈ parsivelInts → p.int text = some n → ReadsAs p name text (.int n)
  | num {name text x} : name = "number_concentration" ∨ name = "fall_velocity" ∨ name ∈ parsivelFloats →
      p.float text = some x → ReadsAs p name text (.num x)
  | text {name text} : name ≠ "_datetime" → name ∉ arrayNames → name ∉ parsivelInts → name ∉ parsivelFloats →
      ReadsAs p name text (.text text)

/-- A valid row has as many fields as there are columns, and each field of a known column is readable. -/
def ValidLoggerRow {T α : Type} (p : LoggerParsers T α) (headers : List (Option String)) (line : List String) : Prop :=
  line.length = headers.length ∧
    ∀ (i : ℕ) (name text : String), headers[i]? = some (some name) → (line : List String)[i]? = some text → ∃ v, ReadsAs p name text v

/-- The fields of a row in the columns of a name, from left to right. -/
def fieldsOf (headers : List (Option String)) (name : String) (line : List String) : List String :=
  ((headers.zip line).filter fun hv => decide (hv.1 = some name)).map Prod.snd

/-- The cell of a row: all fields of the name for the arrays, the last field of the name for the others. -/
def IsLoggerCell {T α : Type} (p : LoggerParsers T α) (headers : List (Option String)) (name : String) (line : List String)
    (cell : LoggerCell T α) : Prop :=
  (name ∈ arrayNames → ∃ vs, cell = .many vs ∧ List.Forall₂ (ReadsAs p name) (fieldsOf headers name line) vs) ∧
  (name ∉ arrayNames → ∃ v text, cell = .one v ∧ (fieldsOf headers name line).getLast? = some text ∧ ReadsAs p name text v)

open Classical in
/-- The valid rows, in order. -/
noncomputable def validLoggerRows {T α : Type} (p : LoggerParsers T α) (headers : List (Option String))
    (lines : List (List String)) : List (List String) :=
  lines.filter fun l => decide (ValidLoggerRow p headers l)

end Spec

section
variable {T α : Type}

theorem loggerParse_iff (p : LoggerParsers T α) (name text : String) (v : FieldValue T α) :
    loggerParse p name text = some v ↔ Spec.ReadsAs p name text v := by
  constructor
  · intro h
    unfold loggerParse at h
    split_ifs at h with h1 h2 h3 h4 h5
    · obtain ⟨t, ht, rfl⟩ := Option.map_eq_some_iff.1 h
      subst h1
      exact .time ht
    · obtain ⟨t, ht, rfl⟩ := Option.map_eq_some_iff.1 h
      exact .num (by simp only [List.mem_cons, List.not_mem_nil, or_false] at h2; tauto) ht
    · obtain ⟨t, ht, rfl⟩ := Option.map_eq_some_iff.1 h
      exact .int (Or.inl h3) ht
    · obtain ⟨t, ht, rfl⟩ := Option.map_eq_some_iff.1 h
      exact .int (Or.inr h4) ht
    · obtain ⟨t, ht, rfl⟩ := Option.map_eq_some_iff.1 h
      exact .num (Or.inr (Or.inr h5)) ht
    · obtain rfl := Option.some.inj h
      refine .text h1 ?_ h4 h5
      simp only [List.mem_cons, List.not_mem_nil, or_false] at h2
      simp only [arrayNames, List.mem_cons, List.not_mem_nil, or_false]
      tauto
  · intro h
    have d1 : "_datetime" ∉ parsivelInts := by decide
    have d2 : "_datetime" ∉ parsivelFloats := by decide
    have d3 : "number_concentration" ∉ parsivelInts := by decide
    have d4 : "fall_velocity" ∉ parsivelInts := by decide
    have d5 : "spectrum" ∉ parsivelFloats := by decide
    have d6 : ∀ n ∈ parsivelInts, n ∉ parsivelFloats := by decide
    cases h with
    | time ht => simp [loggerParse, ht]
    | int hn hi =>
      rename_i n
      unfold loggerParse
      rcases hn with rfl | hn
      · simp [hi]
      · have e1 : name ≠ "_datetime" := fun e => d1 (e ▸ hn)
        have e2 : name ∉ ["number_concentration", "fall_velocity"] := by
          simp only [List.mem_cons, List.not_mem_nil, or_false, not_or]
          exact ⟨fun e => d3 (e ▸ hn), fun e => d4 (e ▸ hn)⟩
        rw [if_neg e1, if_neg e2]
        split_ifs <;> simp [hi]
    | num hn hi =>
      unfold loggerParse
      rcases hn with rfl | rfl | hn
      · simp [hi]
      · simp [hi]
      · have e1 : name ≠ "_datetime" := fun e => d2 (e ▸ hn)
        have e3 : name ≠ "spectrum" := fun e => d5 (e ▸ hn)
        have e4 : name ∉ parsivelInts := fun e => d6 _ e hn
        rw [if_neg e1, if_neg e3, if_neg e4, if_pos hn]
        split_ifs <;> simp [hi]
    | text h1 h2 h3 h4 =>
      unfold loggerParse
      simp only [arrayNames, List.mem_cons, List.not_mem_nil, or_false, not_or] at h2
      rw [if_neg h1, if_neg (by simp [h2.1, h2.2.1]), if_neg h2.2.2, if_neg h3, if_neg h4]

/-- What the fields of a row leave in the dictionaries. -/
theorem loggerFold (p : LoggerParsers T α) (l : List (Option String × String)) (st : LoggerRow T α)
    (hnd : (st.scalars.map Prod.fst).Nodup) :
    ((l.foldlM (loggerField p) st).isSome ↔ ∀ hv ∈ l, ∀ name, hv.1 = some name → ∃ v, Spec.ReadsAs p name hv.2 v) ∧
    ∀ st', l.foldlM (loggerField p) st = some st' → (st'.scalars.map Prod.fst).Nodup ∧
      (∀ name ∈ arrayNames, ∃ vs, List.Forall₂ (Spec.ReadsAs p name)
          ((l.filter fun hv => decide (hv.1 = some name)).map Prod.snd) vs ∧
        st'.arrays.lookup name = (st.arrays.lookup name).map (· ++ vs)) ∧
      (∀ name ∈ arrayNames, st'.scalars.lookup name = st.scalars.lookup name) ∧
      ∀ name ∉ arrayNames,
        match ((l.filter fun hv => decide (hv.1 = some name)).map Prod.snd).getLast? with
        | none => st'.scalars.lookup name = st.scalars.lookup name
        | some text => ∃ v, Spec.ReadsAs p name text v ∧ st'.scalars.lookup name = some v := by
  induction l generalizing st with
  | nil =>
    refine ⟨by simp, ?_⟩
    intro st' h
    obtain rfl := Option.some.inj h
    refine ⟨hnd, fun name _ => ⟨[], .nil, ?_⟩, fun _ _ => rfl, fun name _ => rfl⟩
    cases st.arrays.lookup name <;> simp
  | cons hv l ih =>
    obtain ⟨h, text⟩ := hv
    rw [List.foldlM_cons]
    rcases h with _ | key
    · have : loggerField p st (none, text) = some st := rfl
      rw [this]
      obtain ⟨i1, i2⟩ := ih st hnd
      refine ⟨?_, ?_⟩
      · rw [show (some st >>= fun s => List.foldlM (loggerField p) s l) = List.foldlM (loggerField p) st l from rfl, i1]
        simp
      · simpa using i2
    · rcases hp : loggerParse p key text with _ | v
      · have : loggerField p st (some key, text) = none := by simp [loggerField, hp]
        rw [this]
        refine ⟨?_, by simp⟩
        simp only [Option.bind_eq_bind, Option.bind_none, Option.isSome_none, Bool.false_eq_true, false_iff]
        intro hall
        obtain ⟨v, hv⟩ := hall (some key, text) (by simp) key rfl
        rw [(loggerParse_iff _ _ _ _).2 hv] at hp
        exact absurd hp (by simp)
      · have hr := (loggerParse_iff _ _ _ _).1 hp
        by_cases hk : key ∈ arrayNames
        · have : loggerField p st (some key, text) = some { st with arrays := appendTo st.arrays key v } := by
            simp [loggerField, hp, hk]
          rw [this]
          obtain ⟨i1, i2⟩ := ih { st with arrays := appendTo st.arrays key v } hnd
          refine ⟨?_, ?_⟩
          · rw [show (some { st with arrays := appendTo st.arrays key v } >>= fun s => List.foldlM (loggerField p) s l)
                = List.foldlM (loggerField p) { st with arrays := appendTo st.arrays key v } l from rfl, i1]
            simp only [List.mem_cons, forall_eq_or_imp, Option.some.injEq, forall_eq']
            exact ⟨fun h => ⟨⟨v, hr⟩, h⟩, fun h => h.2⟩
          · intro st' hst
            obtain ⟨j1, j2, j4, j3⟩ := i2 st' hst
            refine ⟨j1, ?_, j4, ?_⟩
            · intro name hname
              obtain ⟨vs, a, b⟩ := j2 name hname
              rw [lookup_appendTo] at b
              by_cases e : name = key
              · subst e
                refine ⟨v :: vs, by rw [List.filter_cons_of_pos (by simp), List.map_cons]; exact .cons hr a, ?_⟩
                rw [b, if_pos rfl]
                cases st.arrays.lookup name <;> simp
              · refine ⟨vs, ?_, by rw [b, if_neg e]⟩
                have : ¬ key = name := fun h => e h.symm
                simpa [this] using a
            · intro name hname
              have e : ¬ key = name := fun h => hname (h ▸ hk)
              simpa [e] using j3 name hname
        · have : loggerField p st (some key, text) = some { st with scalars := dictSet st.scalars key v } := by
            simp [loggerField, hp, hk]
          rw [this]
          obtain ⟨i1, i2⟩ := ih { st with scalars := dictSet st.scalars key v } (keys_dictSet _ _ _ hnd)
          refine ⟨?_, ?_⟩
          · rw [show (some { st with scalars := dictSet st.scalars key v } >>= fun s => List.foldlM (loggerField p) s l)
                = List.foldlM (loggerField p) { st with scalars := dictSet st.scalars key v } l from rfl, i1]
            simp only [List.mem_cons, forall_eq_or_imp, Option.some.injEq, forall_eq']
            exact ⟨fun h => ⟨⟨v, hr⟩, h⟩, fun h => h.2⟩
          · intro st' hst
            obtain ⟨j1, j2, j4, j3⟩ := i2 st' hst
            refine ⟨j1, ?_, ?_, ?_⟩
            · intro name hname
              have e : ¬ key = name := fun h => hk (h ▸ hname)
              simpa [e] using j2 name hname
            · intro name hname
              have e : ¬ name = key := fun h => hk (h ▸ hname)
              rw [j4 name hname]
              dsimp only
              rw [lookup_dictSet, if_neg e]
            · intro name hname
              have j := j3 name hname
              by_cases e : name = key
              · subst e
                rw [List.filter_cons_of_pos (by simp), List.map_cons, List.getLast?_cons]
                cases hl : ((l.filter fun hv => decide (hv.1 = some name)).map Prod.snd).getLast? with
                | none =>
                  rw [hl] at j
                  dsimp only at j ⊢
                  exact ⟨v, hr, by rw [j, lookup_dictSet, if_pos rfl]⟩
                | some t =>
                  rw [hl] at j
                  exact j
              · rw [List.filter_cons_of_neg (by simpa using fun h => e h.symm)]
                cases hl : ((l.filter fun hv => decide (hv.1 = some name)).map Prod.snd).getLast? with
                | none =>
                  rw [hl] at j
                  dsimp only at j ⊢
                  rw [j, lookup_dictSet, if_neg e]
                | some t =>
                  rw [hl] at j
                  exact j

theorem foldl_appendTo {β γ : Type} (l : List (String × γ)) (f : γ → β) (d : List (String × List β))
    (hnd : (l.map Prod.fst).Nodup) (name : String) :
    (l.foldl (fun d kv => appendTo d kv.1 (f kv.2)) d).lookup name
      = match l.lookup name with
        | none => d.lookup name
        | some x => (d.lookup name).map (· ++ [f x]) := by
  induction l generalizing d with
  | nil => rfl
  | cons kv l ih =>
    rw [List.map_cons, List.nodup_cons] at hnd
    rw [List.foldl_cons, ih _ hnd.2, List.lookup_cons, lookup_appendTo]
    by_cases e : name = kv.1
    · have : l.lookup name = none := by
        rw [List.lookup_eq_none_iff]
        intro q hq
        rw [bne_iff_ne]
        rintro rfl
        exact hnd.1 (e ▸ List.mem_map.2 ⟨_, hq, rfl⟩)
      rw [this]
      simp [e]
    · have : (name == kv.1) = false := by simpa using e
      rw [this]
      simp [e]

theorem fieldsOf_eq (headers : List (Option String)) (name : String) (l : List String) :
    ((headers.zip l).filter fun hv => decide (hv.1 = some name)).map Prod.snd = Spec.fieldsOf headers name l := rfl

theorem fieldsOf_length (headers : List (Option String)) (name : String) (l : List String) (h : l.length = headers.length) :
    (Spec.fieldsOf headers name l).length = headers.count (some name) := by
  unfold Spec.fieldsOf
  rw [List.length_map]
  induction headers generalizing l with
  | nil => simp
  | cons a hs ih =>
    cases l with
    | nil => simp at h
    | cons x l =>
      rw [List.zip_cons_cons, List.filter_cons, List.count_cons]
      have := ih l (by simpa using h)
      by_cases e : a = some name
      · simp [e, this]
      · simp [e, this]

theorem fieldsOf_last (headers : List (Option String)) (name : String) (l : List String) (h : l.length = headers.length)
    (hn : some name ∈ headers) : ∃ text, (Spec.fieldsOf headers name l).getLast? = some text := by
  have : (Spec.fieldsOf headers name l) ≠ [] := by
    intro e
    have := fieldsOf_length headers name l h
    rw [e] at this
    have h2 := List.count_pos_iff.2 hn
    simp at this
    omega
  exact ⟨_, List.getLast?_eq_some_getLast this⟩

theorem loggerRow_spec (p : LoggerParsers T α) (headers : List (Option String)) (l : List String) :
    ((loggerRow p headers l).isSome ↔ Spec.ValidLoggerRow p headers l) ∧
    ∀ row, loggerRow p headers l = some row → l.length = headers.length ∧ (row.scalars.map Prod.fst).Nodup ∧
      (∀ name ∈ arrayNames, ∃ vs, List.Forall₂ (Spec.ReadsAs p name) (Spec.fieldsOf headers name l) vs ∧
        row.arrays.lookup name = some vs ∧ row.scalars.lookup name = none) ∧
      ∀ name ∉ arrayNames,
        match (Spec.fieldsOf headers name l).getLast? with
        | none => row.scalars.lookup name = none
        | some text => ∃ v, Spec.ReadsAs p name text v ∧ row.scalars.lookup name = some v := by
  unfold loggerRow
  by_cases hlen : headers.length = l.length
  · rw [if_neg (by simpa using hlen)]
    obtain ⟨a, b⟩ := loggerFold p (headers.zip l) ⟨[], arrayNames.map fun n => (n, [])⟩ (by simp)
    refine ⟨?_, ?_⟩
    · rw [a]
      unfold Spec.ValidLoggerRow
      constructor
      · intro h
        refine ⟨hlen.symm, ?_⟩
        intro i name text h1 h2
        exact h (some name, text) (List.mem_of_getElem? (i := i) (by rw [List.getElem?_zip_eq_some]; exact ⟨h1, h2⟩)) name rfl
      · rintro ⟨-, h⟩ hv hmem name hname
        obtain ⟨i, hi⟩ := List.mem_iff_getElem?.1 hmem
        rw [List.getElem?_zip_eq_some] at hi
        exact h i name hv.2 (by rw [hi.1, hname]) hi.2
    · intro row hrow
      obtain ⟨b1, b2, b4, b3⟩ := b row hrow
      refine ⟨hlen.symm, b1, ?_, b3⟩
      intro name hname
      obtain ⟨vs, c, d⟩ := b2 name hname
      refine ⟨vs, c, ?_, b4 name hname⟩
      rw [d]
      revert hname
      simp only [arrayNames, List.mem_cons, List.not_mem_nil, or_false]
      rintro (rfl | rfl | rfl) <;> rfl
  · rw [if_pos (by simpa using hlen)]
    refine ⟨?_, by simp⟩
    simp only [Option.isSome_none, Bool.false_eq_true, false_iff]
    exact fun h => hlen h.1.symm

theorem loggerArrays_lookup (headers : List (Option String)) (row : LoggerRow T α) (names : List String)
    (hnd : names.Nodup) (d : List (String × List (LoggerCell T α))) (name : String) :
    (names.foldl (loggerArray headers row) d).lookup name
      = if name ∈ names ∧ some name ∈ headers
        then (d.lookup name).map (· ++ [.many ((row.arrays.lookup name).getD [])]) else d.lookup name := by
  induction names generalizing d with
  | nil => simp
  | cons n names ih =>
    rw [List.nodup_cons] at hnd
    rw [List.foldl_cons, ih hnd.2]
    unfold loggerArray
    by_cases e : name = n
    · subst e
      by_cases hh : some name ∈ headers
      · simp [hnd.1, hh, lookup_appendTo]
      · simp [hnd.1, hh]
    · by_cases hh : some n ∈ headers
      · simp [e, hh, lookup_appendTo]
      · simp [e, hh]

/-- A valid row adds one cell to the column of each header. -/
theorem loggerStore_spec (p : LoggerParsers T α) (headers : List (Option String)) (l : List String) (row : LoggerRow T α)
    (hrow : loggerRow p headers l = some row) (d : List (String × List (LoggerCell T α))) :
    (loggerStore headers d row).isOk = decide (some "spectrum" ∈ headers → headers.count (some "spectrum") = 1024) ∧
    ∀ d', loggerStore headers d row = .ok d' → ∀ name, some name ∈ headers →
      ∃ cell, Spec.IsLoggerCell p headers name l cell ∧ d'.lookup name = (d.lookup name).map (· ++ [cell]) := by
  obtain ⟨h1, h2, h3, h4⟩ := (loggerRow_spec p headers l).2 row hrow
  have hspec : ((row.arrays.lookup "spectrum").getD []).length = headers.count (some "spectrum") := by
    obtain ⟨vs, a, b, -⟩ := h3 "spectrum" (by decide)
    rw [b, Option.getD_some, ← a.length_eq, fieldsOf_length _ _ _ h1]
  unfold loggerStore
  dsimp only
  rw [hspec]
  refine ⟨?_, ?_⟩
  · by_cases c : some "spectrum" ∈ headers ∧ headers.count (some "spectrum") ≠ 1024
    · rw [if_pos c]
      simp only [Except.isOk, Except.toBool]
      rw [eq_comm, decide_eq_false_iff_not]
      exact fun h => c.2 (h c.1)
    · rw [if_neg c]
      simp only [Except.isOk, Except.toBool]
      rw [eq_comm, decide_eq_true_iff]
      intro h
      by_contra h'
      exact c ⟨h, h'⟩
  · intro d' hd name hname
    split_ifs at hd with c
    obtain rfl := Except.ok.inj hd
    rw [loggerArrays_lookup _ _ _ (by decide), foldl_appendTo _ _ _ h2]
    by_cases hn : name ∈ arrayNames
    · obtain ⟨vs, a, b, e⟩ := h3 name hn
      refine ⟨.many vs, ⟨fun _ => ⟨vs, rfl, a⟩, fun h => absurd hn h⟩, ?_⟩
      have : name ∈ ["spectrum", "number_concentration", "fall_velocity"] := by
        simp only [arrayNames, List.mem_cons, List.not_mem_nil, or_false] at hn ⊢
        tauto
      rw [if_pos ⟨this, hname⟩, e, b]
      rfl
    · obtain ⟨text, ht⟩ := fieldsOf_last headers name l h1 hname
      have h := h4 name hn
      rw [ht] at h
      obtain ⟨v, hv, hl⟩ := h
      refine ⟨.one v, ⟨fun h => absurd h hn, fun _ => ⟨v, text, rfl, ht, hv⟩⟩, ?_⟩
      have : ¬ name ∈ ["spectrum", "number_concentration", "fall_velocity"] := by
        simp only [arrayNames, List.mem_cons, List.not_mem_nil, or_false] at hn ⊢
        tauto
      rw [if_neg (fun h => this h.1), hl]

open Classical in
theorem validLoggerRows_cons (p : LoggerParsers T α) (headers : List (Option String)) (l : List String)
    (ls : List (List String)) : Spec.validLoggerRows p headers (l :: ls)
      = if Spec.ValidLoggerRow p headers l then l :: Spec.validLoggerRows p headers ls
        else Spec.validLoggerRows p headers ls := by
  unfold Spec.validLoggerRows
  rw [List.filter_cons]
  simp

theorem loggerSteps (p : LoggerParsers T α) (headers : List (Option String)) (lines : List (List String))
    (st : List (String × List (LoggerCell T α)) × ℕ) :
    ((lines.foldlM (loggerStep p headers) st).isOk ↔
      (Spec.validLoggerRows p headers lines = [] ∨ (some "spectrum" ∈ headers → headers.count (some "spectrum") = 1024))) ∧
    (∀ e, lines.foldlM (loggerStep p headers) st = .error e → e = "ValueError: cannot reshape array") ∧
    ∀ st', lines.foldlM (loggerStep p headers) st = .ok st' →
      st'.2 + (Spec.validLoggerRows p headers lines).length = st.2 + lines.length ∧
      ∀ name, some name ∈ headers → ∃ cells,
        List.Forall₂ (Spec.IsLoggerCell p headers name) (Spec.validLoggerRows p headers lines) cells ∧
        st'.1.lookup name = (st.1.lookup name).map (· ++ cells) := by
  induction lines generalizing st with
  | nil =>
    refine ⟨?_, ?_, ?_⟩
    · simp [Spec.validLoggerRows, Except.isOk, Except.toBool, pure, Except.pure]
    · intro e h
      simp [pure, Except.pure] at h
    · intro st' h
      obtain rfl := Except.ok.inj h
      refine ⟨by simp [Spec.validLoggerRows], fun name _ => ⟨[], by simp [Spec.validLoggerRows], ?_⟩⟩
      cases st.1.lookup name <;> simp
  | cons l ls ih =>
    rw [List.foldlM_cons]
    rcases hr : loggerRow p headers l with _ | row
    · have hv : ¬ Spec.ValidLoggerRow p headers l := by
        rw [← (loggerRow_spec p headers l).1, hr]
        simp
      have : loggerStep p headers st l = .ok (st.1, st.2 + 1) := by simp [loggerStep, hr]
      rw [this, validLoggerRows_cons, if_neg hv]
      obtain ⟨i1, i2, i3⟩ := ih (st.1, st.2 + 1)
      refine ⟨i1, i2, ?_⟩
      intro st' h
      obtain ⟨j1, j2⟩ := i3 st' h
      refine ⟨?_, j2⟩
      rw [List.length_cons]
      dsimp only at j1
      omega
    · have hv : Spec.ValidLoggerRow p headers l := by
        rw [← (loggerRow_spec p headers l).1, hr]
        simp
      obtain ⟨s1, s2⟩ := loggerStore_spec p headers l row hr st.1
      rw [validLoggerRows_cons, if_pos hv]
      rcases hs : loggerStore headers st.1 row with e | d
      · have : loggerStep p headers st l = .error e := by simp [loggerStep, hr, hs, Except.map]
        rw [this]
        rw [hs] at s1
        refine ⟨?_, ?_, ?_⟩
        · have s1' : ¬ (some "spectrum" ∈ headers → headers.count (some "spectrum") = 1024) := by
            simpa [Except.isOk, Except.toBool] using s1
          simp only [bind, Except.bind, Except.isOk, Except.toBool, Bool.false_eq_true, false_iff, not_or]
          exact ⟨by simp, s1'⟩
        · intro e' h
          obtain rfl := Except.error.inj h
          unfold loggerStore at hs
          dsimp only at hs
          split_ifs at hs
          exact (Except.error.inj hs).symm
        · intro st' h
          exact absurd h (by simp [bind, Except.bind])
      · have : loggerStep p headers st l = .ok (d, st.2) := by simp [loggerStep, hr, hs, Except.map]
        rw [this]
        rw [hs] at s1
        have s1' : some "spectrum" ∈ headers → headers.count (some "spectrum") = 1024 := of_decide_eq_true s1.symm
        obtain ⟨i1, i2, i3⟩ := ih (d, st.2)
        refine ⟨?_, i2, ?_⟩
        · rw [show ((Except.ok (d, st.2) : Except String _) >>= fun s => ls.foldlM (loggerStep p headers) s)
              = ls.foldlM (loggerStep p headers) (d, st.2) from rfl, i1]
          exact ⟨fun _ => Or.inr s1', fun _ => Or.inr s1'⟩
        · intro st' h
          obtain ⟨j1, j2⟩ := i3 st' h
          refine ⟨?_, ?_⟩
          · rw [List.length_cons, List.length_cons]
            dsimp only at j1
            omega
          · intro name hname
            obtain ⟨cell, c1, c2⟩ := s2 d hs name hname
            obtain ⟨cells, e1, e2⟩ := j2 name hname
            refine ⟨cell :: cells, .cons c1 e1, ?_⟩
            dsimp only at e2
            rw [e2, c2]
            cases st.1.lookup name <;> simp

theorem loggerEmpty_lookup (headers : List (Option String)) (name : String) (hn : some name ∈ headers) :
    (loggerEmpty headers : List (String × List (LoggerCell T α))).lookup name = some [] := by
  have key : ∀ (l : List String) (d : List (String × List (LoggerCell T α))), name ∈ l ∨ d.lookup name = some [] →
      (l.foldl (fun d name => dictSet d name []) d).lookup name = some [] := by
    intro l
    induction l with
    | nil =>
      intro d h
      simpa using h
    | cons a l ih =>
      intro d h
      rw [List.foldl_cons]
      apply ih
      rw [lookup_dictSet]
      by_cases e : name = a
      · simp [e]
      · simpa [e] using h
  exact key _ _ (Or.inl (List.mem_filterMap.2 ⟨some name, hn, rfl⟩))

/-- **C116** A logger file is read exactly if it has a valid row and, if it has spectra, 32 × 32 columns for them. -/
theorem C116_accepted (p : LoggerParsers T α) (headers : List (Option String)) (lines : List (List String)) :
    (loggerRead p headers lines).isOk ↔
      (∃ l ∈ lines, Spec.ValidLoggerRow p headers l) ∧
      (some "spectrum" ∈ headers → headers.count (some "spectrum") = 1024) := by
  classical
  obtain ⟨a, -, c⟩ := loggerSteps p headers lines (loggerEmpty headers, 0)
  have hne : Spec.validLoggerRows p headers lines = [] ↔ ¬ ∃ l ∈ lines, Spec.ValidLoggerRow p headers l := by
    unfold Spec.validLoggerRows
    rw [List.filter_eq_nil_iff]
    simp
  unfold loggerRead
  rcases hf : lines.foldlM (loggerStep p headers) (loggerEmpty headers, 0) with e | st
  · rw [hf] at a
    simp only [Except.isOk, Except.toBool, Bool.false_eq_true, false_iff, not_or, Except.bind] at a ⊢
    exact fun h => a.2 h.2
  · rw [hf] at a
    obtain ⟨j, -⟩ := c st hf
    have a' := a.1 rfl
    simp only [Except.bind]
    by_cases e : st.2 = lines.length
    · rw [if_pos e]
      simp only [Except.isOk, Except.toBool, Bool.false_eq_true, false_iff]
      intro h
      have : (Spec.validLoggerRows p headers lines).length = 0 := by
        dsimp only at j
        omega
      exact hne.1 (List.length_eq_zero_iff.1 this) h.1
    · rw [if_neg e]
      simp only [Except.isOk, Except.toBool, true_iff]
      have hv : ¬ Spec.validLoggerRows p headers lines = [] := by
        intro h
        rw [h] at j
        simp at j
        exact e j
      refine ⟨?_, a'.resolve_left hv⟩
      by_contra h
      exact hv (hne.2 h)

/-- **C116** Without a valid row the file is rejected with a message saying so. -/
theorem C116_no_data (p : LoggerParsers T α) (headers : List (Option String)) (lines : List (List String))
    (h : ∀ l ∈ lines, ¬ Spec.ValidLoggerRow p headers l) :
    loggerRead p headers lines = .error "DisdrometerDataError: No valid data in file" := by
  classical
  have hn : Spec.validLoggerRows p headers lines = [] := by
    unfold Spec.validLoggerRows
    rw [List.filter_eq_nil_iff]
    simpa using h
  obtain ⟨a, -, c⟩ := loggerSteps p headers lines (loggerEmpty headers, 0)
  unfold loggerRead
  rcases hf : lines.foldlM (loggerStep p headers) (loggerEmpty headers, 0) with e | st
  · rw [hf, hn] at a
    exact absurd (a.2 (Or.inl rfl)) (by simp [Except.isOk, Except.toBool])
  · obtain ⟨j, -⟩ := c st hf
    rw [hn] at j
    simp only [Except.bind]
    rw [if_pos (by simpa using j)]

/-- **C116** The column of a name has one cell for each valid row, in the order of the file. -/
theorem C116_columns (p : LoggerParsers T α) (headers : List (Option String)) (lines : List (List String))
    (data : List (String × List (LoggerCell T α))) (h : loggerRead p headers lines = .ok data) (name : String)
    (hname : some name ∈ headers) :
    ∃ cells, data.lookup name = some cells ∧
      List.Forall₂ (Spec.IsLoggerCell p headers name) (Spec.validLoggerRows p headers lines) cells := by
  obtain ⟨-, -, c⟩ := loggerSteps p headers lines (loggerEmpty headers, 0)
  unfold loggerRead at h
  rcases hf : lines.foldlM (loggerStep p headers) (loggerEmpty headers, 0) with e | st
  · rw [hf] at h
    exact absurd h (by simp [Except.bind])
  · rw [hf] at h
    simp only [Except.bind] at h
    split_ifs at h
    obtain rfl := Except.ok.inj h
    obtain ⟨-, j⟩ := c st hf
    obtain ⟨cells, j1, j2⟩ := j name hname
    refine ⟨cells, ?_, j1⟩
    rw [j2, loggerEmpty_lookup _ _ hname]
    simp

/-! ## Titles -/

/-- **C116** The title of a TOA5 column may have an index in parentheses. -/
theorem C116_toa_title (base index : String) (h : '(' ∉ base.toList) :
    toaName base = loggerHeaders.lookup base ∧ toaName (base ++ "(" ++ index) = loggerHeaders.lookup base := by
  have key : ∀ (l r : List Char), '(' ∉ l → (l ++ '(' :: r).takeWhile (fun c => decide (c ≠ '(')) = l := by
    intro l r hl
    induction l with
    | nil => simp
    | cons a l ih =>
      rw [List.mem_cons, not_or] at hl
      rw [List.cons_append, List.takeWhile_cons_of_pos (by simpa using fun e => hl.1 e.symm), ih hl.2]
  have key2 : ∀ (l : List Char), '(' ∉ l → l.takeWhile (fun c => decide (c ≠ '(')) = l := by
    intro l hl
    rw [List.takeWhile_eq_self_iff]
    intro x hx
    have : x ≠ '(' := fun e => hl (e ▸ hx)
    simpa using this
  refine ⟨?_, ?_⟩
  · unfold toaName
    rw [key2 _ h, String.ofList_toList]
  · unfold toaName
    have : (base ++ "(" ++ index).toList = base.toList ++ '(' :: index.toList := by
      simp
    rw [this, key _ _ h, String.ofList_toList]

/-- **C116** The numbered titles of pyAtmosLogger. -/
theorem C116_numbered_titles (d e : Char) (rest : String) (hd : d.isDigit = true) (he : e.isDigit = true) :
    pyAtmosName (String.ofList ['N', d, e]) = some "number_concentration" ∧
    pyAtmosName (String.ofList ['v', d, e]) = some "fall_velocity" ∧
    pyAtmosName ("M_" ++ rest) = some "spectrum" := by
  have hM : ∀ c : Char, c.isDigit = true → c ≠ 'M' ∧ c ≠ 'v' ∧ c ≠ 'N' := by
    intro c hc
    refine ⟨?_, ?_, ?_⟩ <;> (rintro rfl; exact absurd hc (by decide))
  obtain ⟨a1, a2, a3⟩ := hM d hd
  obtain ⟨b1, b2, b3⟩ := hM e he
  refine ⟨?_, ?_, ?_⟩
  · have h : subNumbered 'N' 'N' (subNumbered 'v' 'V' (subMatrix (String.ofList ['N', d, e]).toList)) = ['N'] := by
      rw [String.toList_ofList]
      simp [subMatrix, subNumbered, a1, b1, hd, he]
    unfold pyAtmosName
    rw [h]
    decide
  · have h : subNumbered 'N' 'N' (subNumbered 'v' 'V' (subMatrix (String.ofList ['v', d, e]).toList)) = ['V'] := by
      rw [String.toList_ofList]
      simp [subMatrix, subNumbered, a1, b1, hd, he]
    unfold pyAtmosName
    rw [h]
    decide
  · have : ("M_" ++ rest).toList = 'M' :: '_' :: rest.toList := by simp
    unfold pyAtmosName
    rw [this, subMatrix, if_pos (by simp)]
    decide

/-! ## Examples -/

/-- Parsers for examples: times are texts, `-` is not a number. -/
def loggerTest : LoggerParsers String ℚ :=
  ⟨fun s => if s.length = 4 then some s else none,
    fun s => ["0", "1", "2"].findIdx? (· == s) |>.map fun n : ℕ => (n : ℤ),
    fun s => ["0", "1", "2"].findIdx? (· == s) |>.map fun n : ℕ => (n : ℚ)⟩

example : (parsivelToa5 loggerTest [["TOA5"], ["TIMESTAMP", "unknown", "rainIntensity", "N(1)", "N(2)"], [], [],
    ["t001", "x", "1", "1", "2"], ["t2", "x", "1", "1", "2"], ["t003", "y", "2", "-", "2"], ["t004", "-", "2", "0", "1"],
    ["t005", "x", "2", "1"]]).toOption
    = some [("_datetime", [.one (.time "t001"), .one (.time "t004")]), ("rainfall_rate", [.one (.num 1), .one (.num 2)]),
        ("number_concentration", [.many [.num 1, .num 2], .many [.num 0, .num 1]])] := by
  decide +kernel

example : (parsivelPyAtmos loggerTest ["datetime_utc;Z [dBz];N00;v00;v01;\n", "t001;1;1;0;2;\n", "t002;1;1;0\n"]).toOption
    = some [("_datetime", [.one (.time "t001")]), ("radar_reflectivity", [.one (.num 1)]),
        ("number_concentration", [.many [.num 1]]), ("fall_velocity", [.many [.num 0, .num 2]])] := by
  decide +kernel

/-- **C116, finding** The fields of pyAtmosLogger lines lose empty fields at their ends before they are counted: a row whose last
field is an empty text is rejected, although the column takes any text. -/
theorem C116_empty_last :
    ∃ (header line : String), splitChar ';' line = ["t001", ""] ∧ splitChar ';' header = ["datetime_utc", "Station name"] ∧
      Spec.ValidLoggerRow loggerTest (["datetime_utc", "Station name"].map pyAtmosName) ["t001", ""] ∧
      parsivelPyAtmos loggerTest [header, line] = .error "DisdrometerDataError: No valid data in file" := by
  refine ⟨"datetime_utc;Station name", "t001;", by decide, by decide, ?_, ?_⟩
  · rw [← (loggerRow_spec _ _ _).1]
    decide +kernel
  · have : (parsivelPyAtmos loggerTest ["datetime_utc;Station name", "t001;"]).toOption = none := by decide +kernel
    have hp : parsivelPyAtmos loggerTest ["datetime_utc;Station name", "t001;"]
        = loggerRead loggerTest [some "_datetime", some "_station_name"] [["t001"]] := by
      have e1 : (pyAtmosFields "datetime_utc;Station name").map pyAtmosName = [some "_datetime", some "_station_name"] := by
        decide +kernel
      have e2 : pyAtmosFields "t001;" = ["t001"] := by decide +kernel
      simp only [parsivelPyAtmos, e1, List.map_cons, List.map_nil, e2]
    rw [hp]
    apply C116_no_data
    intro l hl
    rw [List.mem_singleton] at hl
    subst hl
    rintro ⟨h, -⟩
    simp at h

end

namespace Spec

/-- The headings that stand for each variable, in the different kinds of files. -/
def loggerHeadings : List (String × List String) :=
  [("_record", ["RECORD"]),
    ("_datetime", ["TIMESTAMP", "datetime_utc"]),
    ("rainfall_rate", ["rainIntensity", "rain_intensity", "rain rate [mm/h]"]),
    ("snowfall_rate", ["snowIntensity", "snow_intensity", "Snow depth intensity (vol equiv.) [mm/h]"]),
    ("_rain_accum", ["accPrec", "precipitation", "rain accum [mm]"]),
    ("synop_WaWa", ["weatherCodeWaWa", "wawa", "weather_code_wawa"]),
    ("radar_reflectivity", ["radarReflectivity", "radar_reflectivity", "Z [dBz]"]),
    ("visibility", ["morVisibility", "mor_visibility", "MOR visibility [m]"]),
    ("kinetic_energy", ["kineticEnergy", "kinetic_energy", "Kinetic energy [J m-2 h-1)]"]),
    ("sig_laser", ["signalAmplitude", "signal_amplitude", "Signal amplitude"]),
    ("T_sensor", ["sensorTemperature", "sensor_temperature", "Temperature sensor [°C]"]),
    ("_T_pcb", ["pbcTemperature", "pbc_temperature", "Temperature PCB [°C]"]),
    ("_T_right", ["rightTemperature", "right_temperature", "Temperature right sensor head [°C]"]),
    ("_T_left", ["leftTemperature", "left_temperature", "Temperature left sensor head [°C]"]),
    ("I_heating", ["heatingCurrent", "heating_current", "Current heating system [A]"]),
    ("V_power_supply", ["sensorVoltage", "sensor_voltage", "Power supply voltage in the sensor [V]"]),
    ("state_sensor", ["sensorStatus", "sensor_status", "Sensor status"]),
    ("error_code", ["errorCode", "error_code", "Error code"]),
    ("n_particles", ["numberParticles", "number_particles", "Number of detected particles", "Number of particles"]),
    ("number_concentration", ["N"]),
    ("fall_velocity", ["V"]),
    ("spectrum", ["spectrum"]),
    ("interval", ["sample interval [s]"]),
    ("_sensor_id", ["Serial number"]),
    ("_iop_firmware_version", ["IOP firmware version"]),
    ("_station_name", ["Station name"]),
    ("_rain_amount_absolute", ["Rain amount absolute [mm]"]),
    ("synop_WW", ["wawa [ww]"]),
    ("_metar_speci", ["wawa [METAR]"]),
    ("_nws", ["wawa [NWS]"]),
    ("_dsp_firmware_version", ["DSP firmware version"]),
    ("_datetime_skip", ["Start of measurement [DD.MM.YY_HH:MM:SS]"]),
    ("_time_skip", ["Sensor time [HH:MM:SS]"]),
    ("_date_skip", ["Sensor date [DD.MM.YY]"]),
    ("_station_number", ["Station number"]),
    ("_rainfall_rate_16_bit_low", ["Rain intensity 16 bit low [mm/h]"]),
    ("_rainfall_rate_16_bit_high", ["Rain intensity 16 bit high [mm/h]"]),
    ("_rain_accum_16_bit", ["Rain accumulated 16 bit [mm]"]),
    ("_radar_reflectivity_16_bit", ["Reflectivity 16 bit [dBZ]"]),
    ("_particles", ["Particle list (empty, see particle file)"])]

end Spec

/-- **C116.** Which headings stand for which variable. -/
theorem C116_headings (heading name : String) :
    loggerHeaders.lookup heading = some name ↔ ∃ hs, (name, hs) ∈ Spec.loggerHeadings ∧ heading ∈ hs := by
  have h1 : ∀ q ∈ loggerHeaders, ∃ g ∈ Spec.loggerHeadings, g.1 = q.2 ∧ q.1 ∈ g.2 := by decide +kernel
  have h2 : ∀ g ∈ Spec.loggerHeadings, ∀ h ∈ g.2, loggerHeaders.lookup h = some g.1 := by decide +kernel
  constructor
  · intro h
    obtain ⟨g, hg, e1, e2⟩ := h1 (heading, name) (mem_of_lookup h)
    obtain ⟨n, hs⟩ := g
    simp only at e1 e2
    exact ⟨hs, by rw [← e1]; exact hg, e2⟩
  · rintro ⟨hs, hg, hh⟩
    exact h2 (name, hs) hg heading hh

/-- **C116.** The names of the columns with integers and with numbers. -/
theorem C116_kinds (name : String) :
    (name ∈ parsivelInts ↔ name = "T_sensor" ∨ name = "_T_pcb" ∨ name = "_T_right" ∨ name = "_T_left" ∨ name = "error_code" ∨ name = "interval" ∨ name = "n_particles" ∨
      name = "sig_laser" ∨ name = "state_sensor" ∨ name = "synop_WaWa" ∨ name = "synop_WW" ∨ name = "visibility") ∧
    (name ∈ parsivelFloats ↔ name = "I_heating" ∨ name = "V_power_supply" ∨ name = "_rain_accum" ∨ name = "_rain_amount_absolute" ∨ name = "kinetic_energy" ∨
      name = "radar_reflectivity" ∨ name = "rainfall_rate" ∨ name = "snowfall_rate") := by
  simp [parsivelInts, parsivelFloats]

end Cloudnet
