import Mathlib.Tactic
import Verif.Station.Model
import Verif.Station.ToaProps
import Verif.Lwc.Props

set_option linter.unusedSimpArgs false

namespace Cloudnet

/-! ## C112: columns of weather station files -/

section general
variable {ι β : Type}

/-- The value that a field adds to column `name`. -/
def cellFor (act : ι → Except String (FieldAction β)) (name : String) (i : ι) : Option β :=
  match act i with
  | .ok (.append n x) => if n = name then some x else none
  | _ => none

/-- Does the field end the row? -/
def isStop (act : ι → Except String (FieldAction β)) (i : ι) : Bool :=
  match act i with
  | .ok .stop => true
  | _ => false

theorem storeRow_spec (act : ι → Except String (FieldAction β)) (items : List ι) (c : Columns β) :
    (∀ c', storeRow act items c = .ok c' → ∀ name,
      c'.lookup name = (c.lookup name).map (· ++ (items.takeWhile fun i => !isStop act i).filterMap (cellFor act name))) ∧
    ((∃ c', storeRow act items c = .ok c') ↔ ∀ i ∈ items.takeWhile (fun i => !isStop act i), ∃ a, act i = .ok a ∧
      ∀ n x, a = .append n x → (c.lookup n).isSome) := by
  induction items generalizing c with
  | nil =>
    constructor
    · intro c' h name; cases h; cases c.lookup name <;> simp
    · simp [storeRow]
  | cons i items ih =>
    rw [storeRow]
    cases ha : act i with
    | error e =>
      have : isStop act i = false := by simp [isStop, ha]
      constructor
      · intro c' h; cases h
      · constructor
        · rintro ⟨c', h⟩; cases h
        · intro h
          obtain ⟨a, h1, -⟩ := h i (by rw [List.takeWhile_cons]; simp [this])
          rw [ha] at h1; cases h1
    | ok a =>
      cases a with
      | skip =>
        have hs : isStop act i = false := by simp [isStop, ha]
        have hc : ∀ name, cellFor act name i = none := fun name => by simp [cellFor, ha]
        obtain ⟨h1, h2⟩ := ih c
        rw [List.takeWhile_cons]
        simp only [hs, Bool.not_false, if_true]
        refine ⟨fun c' h name => ?_, ?_⟩
        · rw [h1 c' h name, List.filterMap_cons, hc]
        · rw [h2]
          simp [ha]
      | stop =>
        have hs : isStop act i = true := by simp [isStop, ha]
        rw [List.takeWhile_cons]
        simp only [hs, Bool.not_true, Bool.false_eq_true, if_false]
        refine ⟨fun c' h name => ?_, by simp⟩
        cases h
        cases c.lookup name <;> simp
      | append n x =>
        have hs : isStop act i = false := by simp [isStop, ha]
        rw [List.takeWhile_cons]
        simp only [hs, Bool.not_false, if_true]
        cases hl : c.lookup n with
        | none =>
          have : appendCol c n x = .error "KeyError" := by simp [appendCol, hl]
          rw [this]
          constructor
          · intro c' h; cases h
          · constructor
            · rintro ⟨c', h⟩; cases h
            · intro h
              obtain ⟨a, h1, h2⟩ := h i (by simp)
              rw [ha] at h1
              cases h1
              have := h2 n x rfl
              rw [hl] at this; cases this
        | some l =>
          have : appendCol c n x = .ok (appendTo c n x) := by simp [appendCol, hl]
          rw [this]
          obtain ⟨h1, h2⟩ := ih (appendTo c n x)
          have hsome : ∀ m, ((appendTo c n x).lookup m).isSome = (c.lookup m).isSome := by
            intro m
            rw [lookup_appendTo]
            split <;> simp
          refine ⟨fun c' h name => ?_, ?_⟩
          · rw [h1 c' h name, lookup_appendTo, List.filterMap_cons]
            by_cases hn : name = n
            · subst hn
              have : cellFor act name i = some x := by simp [cellFor, ha]
              rw [this, if_pos rfl, hl]
              simp
            · have : cellFor act name i = none := by simp [cellFor, ha, Ne.symm hn]
              rw [this, if_neg hn]
          · show (∃ c', storeRow act items (appendTo c n x) = .ok c') ↔ _
            rw [h2]
            simp only [List.mem_cons, forall_eq_or_imp, hsome]
            constructor
            · intro h
              exact ⟨⟨_, ha, fun m y hm => by cases hm; rw [hl]; rfl⟩, h⟩
            · intro h; exact h.2

theorem storeRows_spec (act : ι → Except String (FieldAction β)) (rows : List (List ι)) (c : Columns β) :
    (∀ c', storeRows act rows c = .ok c' → ∀ name,
      c'.lookup name = (c.lookup name).map
        (· ++ rows.flatMap fun r => (r.takeWhile fun i => !isStop act i).filterMap (cellFor act name))) ∧
    ((∃ c', storeRows act rows c = .ok c') ↔ ∀ r ∈ rows, ∀ i ∈ r.takeWhile (fun i => !isStop act i), ∃ a, act i = .ok a ∧
      ∀ n x, a = .append n x → (c.lookup n).isSome) := by
  unfold storeRows
  induction rows generalizing c with
  | nil =>
    constructor
    · intro c' h name; cases h; cases c.lookup name <;> simp
    · simp [pure, Except.pure]
  | cons r rows ih =>
    rw [List.foldlM_cons]
    obtain ⟨g1, g2⟩ := storeRow_spec act r c
    cases hr : storeRow act r c with
    | error e =>
      constructor
      · intro c' h; cases h
      · constructor
        · rintro ⟨c', h⟩; cases h
        · intro h
          obtain ⟨c', hc⟩ := g2.2 (h r (by simp))
          rw [hr] at hc; cases hc
    | ok c1 =>
      obtain ⟨h1, h2⟩ := ih c1
      have hl := g1 c1 hr
      have hsome : ∀ m, (c1.lookup m).isSome = (c.lookup m).isSome := by
        intro m; rw [hl m]; simp
      refine ⟨fun c' h name => ?_, ?_⟩
      · rw [h1 c' h name, hl name, List.flatMap_cons]
        cases c.lookup name <;> simp
      · show (∃ c', List.foldlM (fun c row => storeRow act row c) c1 rows = .ok c') ↔ _
        rw [h2]
        simp only [List.mem_cons, forall_eq_or_imp, hsome]
        constructor
        · intro h; exact ⟨g2.1 ⟨_, hr⟩, h⟩
        · intro h; exact h.2

theorem lookup_emptyColumns (keys : List String) (name : String) :
    (emptyColumns keys : Columns β).lookup name = if name ∈ keys then some [] else none := by
  rw [emptyColumns, lookup_foldl_const]; rfl

theorem takeWhile_all {γ : Type} (p : γ → Bool) (l : List γ) (h : ∀ x ∈ l, p x = true) : l.takeWhile p = l := by
  induction l with
  | nil => rfl
  | cons a l ih => rw [List.takeWhile_cons, h a (by simp), if_pos rfl, ih fun x hx => h x (by simp [hx])]

/-- Assigning new keys of a dictionary appends them. -/
theorem foldl_dictSet_new {γ δ : Type} (l : List δ) (k : δ → String) (v : δ → γ) (d : List (String × γ))
    (hnd : (d.map Prod.fst ++ l.map k).Nodup) :
    l.foldl (fun d x => dictSet d (k x) (v x)) d = d ++ l.map fun x => (k x, v x) := by
  induction l generalizing d with
  | nil => simp
  | cons x l ih =>
    have hk : k x ∉ d.map Prod.fst := by
      rw [List.map_cons, List.nodup_append] at hnd
      intro hc
      exact hnd.2.2 _ hc _ (by simp) rfl
    have hset : dictSet d (k x) (v x) = d ++ [(k x, v x)] := by
      unfold dictSet
      rw [if_neg]
      rw [Bool.not_eq_true, List.any_eq_false]
      intro p hp
      rw [beq_iff_eq]
      rintro he
      exact hk (List.mem_map.2 ⟨p, hp, he⟩)
    rw [List.foldl_cons, hset, ih]
    · simp
    · simpa using hnd

/-- In a row with different titles, one field belongs to a title. -/
theorem filterMap_title {γ : Type} (l : List (String × γ)) (hnd : (l.map Prod.fst).Nodup) (key : String) (v : γ)
    (hmem : (key, v) ∈ l) (f : γ → β) :
    l.filterMap (fun kv => if kv.1 = key then some (f kv.2) else none) = [f v] := by
  induction l with
  | nil => cases hmem
  | cons kv l ih =>
    obtain ⟨a, w⟩ := kv
    rw [List.map_cons, List.nodup_cons] at hnd
    rw [List.filterMap_cons]
    by_cases he : a = key
    · subst he
      have hw : w = v := by
        rcases List.mem_cons.1 hmem with h | h
        · cases h; rfl
        · exact absurd (List.mem_map.2 ⟨_, h, rfl⟩) hnd.1
      subst hw
      rw [if_pos rfl]
      have : l.filterMap (fun kv => if kv.1 = a then some (f kv.2) else none) = [] := by
        rw [List.filterMap_eq_nil_iff]
        intro kv hkv
        rw [if_neg]
        intro h
        exact hnd.1 (List.mem_map.2 ⟨kv, hkv, h⟩)
      rw [this]
    · rw [if_neg he]
      exact ih hnd.2 (by
        rcases List.mem_cons.1 hmem with h | h
        · cases h; exact absurd rfl he
        · exact h)

theorem filterMap_no_title {γ : Type} (l : List (String × γ)) (key : String) (h : key ∉ l.map Prod.fst) (f : γ → β) :
    l.filterMap (fun kv => if kv.1 = key then some (f kv.2) else none) = [] := by
  rw [List.filterMap_eq_nil_iff]
  intro kv hkv
  rw [if_neg]
  intro he
  exact h (List.mem_map.2 ⟨kv, hkv, he⟩)

theorem zip_fst {γ : Type} (a : List String) (b : List γ) (h : b.length = a.length) : (a.zip b).map Prod.fst = a := by
  rw [List.map_fst_zip (by omega)]

theorem exists_zip {γ : Type} (a : List String) (b : List γ) (h : b.length = a.length) (key : String) (hk : key ∈ a) :
    ∃ v, (key, v) ∈ a.zip b := by
  rw [← zip_fst a b h] at hk
  obtain ⟨⟨k, v⟩, h1, rfl⟩ := List.mem_map.1 hk
  exact ⟨v, h1⟩

/-- Concatenation of one value for each row. -/
theorem forall₂_flatMap_single {γ δ : Type} (R : γ → δ → Prop) (rows : List γ) (p : γ → Bool) (f : γ → List δ)
    (h1 : ∀ r ∈ rows, p r = true → ∃ x, f r = [x] ∧ R r x) (h2 : ∀ r ∈ rows, p r = false → f r = []) :
    List.Forall₂ R (rows.filter p) (rows.flatMap f) := by
  induction rows with
  | nil => exact .nil
  | cons r rows ih =>
    have ih' := ih (fun r hr => h1 r (by simp [hr])) (fun r hr => h2 r (by simp [hr]))
    rw [List.flatMap_cons, List.filter_cons]
    cases hp : p r with
    | true =>
      obtain ⟨x, hx, hR⟩ := h1 r (by simp) hp
      rw [hx, if_pos rfl]
      exact .cons hR ih'
    | false =>
      rw [h2 r (by simp) hp, if_neg (by simp)]
      exact ih'

end general

namespace Spec
variable {T α : Type}

/-- The value of a field of a CSV file: a time in the time column, otherwise a number, or none if it is not a number. -/
inductive CsvCell (s : CsvStation T α) : String → String → StationCell T α → Prop
  | time (v : String) (t : T) : s.time v = some t → CsvCell s s.timeKey v (.time t)
  | num (key v : String) (x : Option α) : key ≠ s.timeKey → s.number v = some x → CsvCell s key v (.num x)
  | bad (key v : String) : key ≠ s.timeKey → s.number v = none → CsvCell s key v (.num none)

/-- The first field of a row is a time. -/
def HasTime (s : CsvStation T α) (row : List String) : Prop := ∃ v t, row.head? = some v ∧ s.time v = some t

open Classical in
/-- The rows of a file with a time. -/
noncomputable def timedRows (s : CsvStation T α) (rows : List (List String)) : List (List String) :=
  rows.filter fun r => decide (HasTime s r)

end Spec

section csv
variable {T α : Type}

theorem csvDictRow_nodup (fields row : List String) (hnd : fields.Nodup) :
    csvDictRow fields row = ((fields.zip row).map fun kv => (some kv.1, CsvValue.text kv.2)) ++
      ((fields.drop row.length).map fun k => (some k, CsvValue.missing)) ++
      if fields.length < row.length then [(none, .rest (row.drop fields.length))] else [] := by
  unfold csvDictRow
  dsimp only
  have hzip : (fields.zip row).map Prod.fst = fields.take row.length := by
    clear hnd
    induction fields generalizing row with
    | nil => simp
    | cons a fields ih =>
      cases row with
      | nil => simp
      | cons b row => simpa using ih row
  rw [foldl_dictSet_new (fields.zip row) Prod.fst (fun kv => CsvValue.text kv.2) [] (by
    rw [List.map_nil, List.nil_append, hzip]; exact hnd.sublist (List.take_sublist _ _))]
  rw [foldl_dictSet_new (fields.drop row.length) (fun k => k) (fun _ => CsvValue.missing) _ (by
    simp only [List.nil_append, List.map_map, Function.comp_def, List.map_id']
    have : (fields.zip row).map (fun x => x.1) = fields.take row.length := hzip
    rw [this, List.take_append_drop]; exact hnd)]
  simp [Function.comp_def]

/-- What a field of a row of the right length does. -/
theorem csv_row (s : CsvStation T α) (fields row : List String) (hnd : fields.Nodup) (hlen : row.length = fields.length) :
    csvDictRow fields row = (fields.zip row).map fun kv => (some kv.1, CsvValue.text kv.2) := by
  rw [csvDictRow_nodup fields row hnd, hlen]
  simp

theorem csv_head (fields row : List String) (key v : String) (hf : fields.head? = some key) (hr : row.head? = some v)
    (hnd : fields.Nodup) : ∃ rest, csvDictRow fields row = (some key, .text v) :: rest := by
  rw [csvDictRow_nodup fields row hnd]
  cases fields with
  | nil => cases hf
  | cons a fields =>
    cases row with
    | nil => cases hr
    | cons b row =>
      cases hf; cases hr
      exact ⟨_, rfl⟩

theorem csv_isStop (s : CsvStation T α) (kv : Option String × CsvValue) (h : isStop (csvAction s) kv = true) :
    ∃ v, kv = (some s.timeKey, .text v) ∧ s.time v = none ∧ s.skipBadTime = true := by
  unfold isStop csvAction at h
  rcases kv with ⟨_ | key, _ | _ | _⟩ <;> simp only [Bool.false_eq_true] at h
  rename_i v
  by_cases hk : key = s.timeKey
  · subst hk
    simp only [if_true] at h
    cases ht : s.time v with
    | some t => rw [ht] at h; cases h
    | none =>
      rw [ht] at h
      by_cases hs : s.skipBadTime = true
      · exact ⟨v, rfl, ht, hs⟩
      · simp [hs] at h
  · simp [hk] at h

/-- C112. A file is read if every row but blank ones begins with a time and has a field for each column; for stations that
skip rows without time, these rows may look like anything. -/
theorem C112_csv_accepted (s : CsvStation T α) (fields : List String) (rows : List (List String)) (hnd : fields.Nodup)
    (htime : fields.head? = some s.timeKey) :
    (∃ cols, csvColumns s fields rows = .ok cols) ↔
      ∀ r ∈ rows, r ≠ [] → (Spec.HasTime s r ∧ r.length = fields.length) ∨ (¬ Spec.HasTime s r ∧ s.skipBadTime = true) := by
  unfold csvColumns
  rw [(storeRows_spec _ _ _).2]
  rw [List.forall_mem_map]
  simp only [List.mem_filter, decide_eq_true_eq, and_imp]
  refine forall_congr' fun r => forall_congr' fun _ => ?_
  constructor
  · intro h hne
    cases hh : r.head? with
    | none => rw [List.head?_eq_none_iff] at hh; exact absurd hh hne
    | some v =>
      obtain ⟨rest, hrow⟩ := csv_head fields r s.timeKey v htime hh hnd
      have := h hne
      cases ht : s.time v with
      | none =>
        by_cases hs : s.skipBadTime = true
        · right
          refine ⟨?_, hs⟩
          rintro ⟨v', t, h1, h2⟩
          rw [hh] at h1; cases h1
          rw [ht] at h2; cases h2
        · exfalso
          have hact : csvAction s (some s.timeKey, .text v) = .error "ValueError: time data does not match format" := by
            simp [csvAction, ht, hs]
          obtain ⟨a, h1, -⟩ := this (some s.timeKey, .text v) (by
            rw [hrow, List.takeWhile_cons]
            simp [isStop, hact])
          rw [hact] at h1; cases h1
      | some t =>
        left
        refine ⟨⟨v, t, hh, ht⟩, ?_⟩
        have hns : ∀ kv ∈ csvDictRow fields r, isStop (csvAction s) kv = false := by
          intro kv hkv
          by_contra hc
          obtain ⟨v', rfl, h2, -⟩ := csv_isStop s kv (by simpa using hc)
          rw [csvDictRow_nodup fields r hnd] at hkv
          simp only [List.mem_append, List.mem_map, Prod.mk.injEq, Option.some.injEq, CsvValue.text.injEq, reduceCtorEq,
            and_false, exists_false, or_false] at hkv
          rcases hkv with ⟨⟨k, w⟩, hm, hk, hw⟩ | hkv
          · dsimp only at hk hw
            subst hw
            rw [hk] at hm
            have hz : (s.timeKey, v) ∈ fields.zip r := by
              cases fields with
              | nil => cases htime
              | cons a fields =>
                cases r with
                | nil => cases hh
                | cons b r => cases htime; cases hh; simp
            have e1 := (lookup_nodup _ (hnd.sublist (zip_keys fields r).sublist) _ _).2 hm
            have e2 := (lookup_nodup _ (hnd.sublist (zip_keys fields r).sublist) _ _).2 hz
            rw [e1] at e2
            cases e2
            rw [ht] at h2; cases h2
          · split at hkv <;> simp at hkv
        rw [takeWhile_all _ _ (fun kv hkv => by rw [hns kv hkv]; rfl), csvDictRow_nodup fields r hnd] at this
        by_contra hlen
        rcases Nat.lt_or_gt_of_ne hlen with hlt | hgt
        · obtain ⟨k, hk⟩ : ∃ k, k ∈ fields.drop r.length :=
            List.exists_mem_of_ne_nil _ (by simp; omega)
          obtain ⟨a, h1, -⟩ := this (some k, .missing) (by
            simp only [List.mem_append, List.mem_map]
            exact Or.inl (Or.inr ⟨k, hk, rfl⟩))
          simp [csvAction] at h1
        · obtain ⟨a, h1, -⟩ := this (none, .rest (r.drop fields.length)) (by
            rw [if_pos hgt]; simp)
          simp [csvAction] at h1
  · intro h hne
    rcases h hne with ⟨⟨v, t, hh, ht⟩, hlen⟩ | ⟨hno, hs⟩
    · intro kv hkv
      have hkv := (List.takeWhile_prefix _).subset hkv
      rw [csv_row s fields r hnd hlen] at hkv
      obtain ⟨⟨k, w⟩, hm, rfl⟩ := List.mem_map.1 hkv
      have hkf : k ∈ fields := (List.of_mem_zip hm).1
      dsimp only
      by_cases hk : k = s.timeKey
      · subst hk
        have hz : (s.timeKey, v) ∈ fields.zip r := by
          cases fields with
          | nil => cases htime
          | cons a fields =>
            cases r with
            | nil => cases hh
            | cons b r => cases htime; cases hh; simp
        have e1 := (lookup_nodup _ (hnd.sublist (zip_keys fields r).sublist) _ _).2 hm
        have e2 := (lookup_nodup _ (hnd.sublist (zip_keys fields r).sublist) _ _).2 hz
        rw [e1] at e2
        cases e2
        refine ⟨.append s.timeKey (.time t), by simp [csvAction, ht], ?_⟩
        intro n x hx
        cases hx
        rw [lookup_emptyColumns, if_pos hkf]; rfl
      · refine ⟨.append k (.num ((s.number w).getD none)), by simp [csvAction, hk], ?_⟩
        intro n x hx
        cases hx
        rw [lookup_emptyColumns, if_pos hkf]; rfl
    · cases hh : r.head? with
      | none => rw [List.head?_eq_none_iff] at hh; exact absurd hh hne
      | some v =>
        obtain ⟨rest, hrow⟩ := csv_head fields r s.timeKey v htime hh hnd
        have ht : s.time v = none := by
          cases ht : s.time v with
          | none => rfl
          | some t => exact absurd ⟨v, t, hh, ht⟩ hno
        rw [hrow, List.takeWhile_cons]
        simp [isStop, csvAction, ht, hs]

/-- C112. Each column has one value for each row with a time, in order: the value of the field below its title. So all
columns have the same length, and values of one row stay together. -/
theorem C112_csv_columns (s : CsvStation T α) (fields : List String) (rows : List (List String)) (hnd : fields.Nodup)
    (htime : fields.head? = some s.timeKey) (cols : Columns (StationCell T α))
    (h : csvColumns s fields rows = .ok cols) (key : String) (hkey : key ∈ fields) :
    ∃ col, cols.lookup key = some col ∧
      List.Forall₂ (fun r x => ∃ v, (key, v) ∈ fields.zip r ∧ Spec.CsvCell s key v x) (Spec.timedRows s rows) col := by
  have hacc := (C112_csv_accepted s fields rows hnd htime).1 ⟨cols, h⟩
  unfold csvColumns at h
  refine ⟨_, by rw [(storeRows_spec _ _ _).1 cols h key, lookup_emptyColumns, if_pos hkey]; rfl, ?_⟩
  dsimp only
  rw [List.nil_append, List.flatMap_map]
  have hfil : Spec.timedRows s rows = Spec.timedRows s (rows.filter (· ≠ [])) := by
    unfold Spec.timedRows
    rw [List.filter_filter]
    refine List.filter_congr fun r _ => ?_
    by_cases hr : r = []
    · subst hr
      simp [Spec.HasTime]
    · simp [hr]
  rw [hfil]
  unfold Spec.timedRows
  apply forall₂_flatMap_single
  · intro r hr hp
    have hp : Spec.HasTime s r := by simpa using hp
    obtain ⟨v, t, hh, ht⟩ := hp
    have hr' := List.mem_filter.1 hr
    have hne : r ≠ [] := by simpa using hr'.2
    rcases hacc r hr'.1 hne with ⟨-, hlen⟩ | ⟨hno, -⟩
    swap
    · exact absurd ⟨v, t, hh, ht⟩ hno
    obtain ⟨w, hw⟩ := exists_zip fields r hlen key hkey
    have hz : (s.timeKey, v) ∈ fields.zip r := by
      cases fields with
      | nil => cases htime
      | cons a fields =>
        cases r with
        | nil => cases hh
        | cons b r => cases htime; cases hh; simp
    have huniq : ∀ u, (s.timeKey, u) ∈ fields.zip r → u = v := by
      intro u hu
      have e1 := (lookup_nodup _ (hnd.sublist (zip_keys fields r).sublist) _ _).2 hu
      have e2 := (lookup_nodup _ (hnd.sublist (zip_keys fields r).sublist) _ _).2 hz
      rw [e1] at e2
      cases e2; rfl
    let cell : String → StationCell T α := fun u =>
      if key = s.timeKey then .time ((s.time u).getD t) else .num ((s.number u).getD none)
    refine ⟨cell w, ?_, w, hw, ?_⟩
    · rw [csv_row s fields r hnd hlen, takeWhile_all, List.filterMap_map]
      · rw [← filterMap_title (fields.zip r) (by rw [zip_fst _ _ hlen]; exact hnd) key w hw cell]
        refine List.filterMap_congr fun kv hkv => ?_
        obtain ⟨k, u⟩ := kv
        simp only [Function.comp, cellFor, csvAction]
        by_cases hk : k = s.timeKey
        · subst hk
          rw [huniq u hkv]
          simp only [if_true, ht]
          by_cases hkk : s.timeKey = key
          · subst hkk; simp [cell, ht]
          · simp [hkk]
        · simp only [hk, if_false]
          by_cases hkk : k = key
          · subst hkk; simp [cell, hk]
          · simp [hkk]
      · intro kv hkv
        by_contra hc
        obtain ⟨u, hu, hnone, -⟩ := csv_isStop s kv (by simpa using hc)
        obtain ⟨⟨k', u'⟩, hm, he⟩ := List.mem_map.1 hkv
        subst hu
        cases he
        rw [huniq _ hm, ht] at hnone
        cases hnone
    · by_cases hk : key = s.timeKey
      · subst hk
        rw [huniq w hw]
        simp only [cell, if_true, ht]
        exact .time v t ht
      · simp only [cell, if_neg hk]
        cases hn : s.number w with
        | some x => exact .num key w x hk hn
        | none => exact .bad key w hk hn
  · intro r hr hp
    have hp : ¬ Spec.HasTime s r := by simpa using hp
    have hr' := List.mem_filter.1 hr
    have hne : r ≠ [] := by simpa using hr'.2
    cases hh : r.head? with
    | none => rw [List.head?_eq_none_iff] at hh; exact absurd hh hne
    | some v =>
      rcases hacc r hr'.1 hne with ⟨hyes, -⟩ | ⟨-, hs⟩
      · exact absurd hyes hp
      · obtain ⟨rest, hrow⟩ := csv_head fields r s.timeKey v htime hh hnd
        have ht : s.time v = none := by
          cases ht : s.time v with
          | none => rfl
          | some t => exact absurd ⟨v, t, hh, ht⟩ hp
        rw [hrow, List.takeWhile_cons]
        simp [isStop, csvAction, ht, hs]

end csv

end Cloudnet
