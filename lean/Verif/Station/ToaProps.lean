import Mathlib.Tactic
import Verif.Station.Toa5
import Verif.Categorize.Props

namespace Cloudnet

/-! ## C111: files of data loggers -/

namespace Spec
variable {T : Type}

/-- The value of a field of a column: a time, a number or text. -/
inductive ToaField (p : ToaParsers T) : String → String → ToaScalar T → Prop
  | time (v : String) (t : T) : p.time v = some t → ToaField p "TIMESTAMP" v (.time t)
  | record (v : String) (n : ℤ) : p.int v = some n → ToaField p "RECORD" v (.record n)
  | text (key v : String) : key ≠ "TIMESTAMP" → key ≠ "RECORD" → ToaField p key v (.text v)

/-- Column `key` is an element of the array `name`: `spectrum(3)` of `spectrum`. -/
def IsElement (name key : String) : Prop := '(' ∉ name.toList ∧ ∃ rest, key.toList = name.toList ++ '(' :: rest

open Classical in
/-- The fields of a line that are elements of an array. -/
noncomputable def elements (name : String) (header line : List String) : List String :=
  ((header.zip line).filter fun kv => decide (IsElement name kv.1)).map Prod.snd

end Spec

section
variable {T : Type}

theorem toaParse_iff (p : ToaParsers T) (key v : String) (x : ToaScalar T) :
    toaParse p key v = .ok x ↔ Spec.ToaField p key v x := by
  unfold toaParse
  constructor
  · intro h
    by_cases h1 : key = "TIMESTAMP"
    · subst h1
      rw [if_pos rfl] at h
      cases ht : p.time v with
      | none => rw [ht] at h; cases h
      | some t => rw [ht] at h; cases h; exact .time v t ht
    · rw [if_neg h1] at h
      by_cases h2 : key = "RECORD"
      · subst h2
        rw [if_pos rfl] at h
        cases ht : p.int v with
        | none => rw [ht] at h; cases h
        | some t => rw [ht] at h; cases h; exact .record v t ht
      · rw [if_neg h2] at h
        cases h
        exact .text key v h1 h2
  · intro h
    cases h with
    | time _ t h => rw [if_pos rfl, h]
    | record _ n h => rw [if_neg (by decide), if_pos rfl, h]
    | text _ _ h1 h2 => rw [if_neg h1, if_neg h2]

theorem toaBase_iff (name key : String) : toaBase key = some name ↔ Spec.IsElement name key := by
  unfold toaBase Spec.IsElement
  constructor
  · intro h
    split at h
    · rename_i hm
      rw [Option.some.injEq] at h
      subst h
      rw [String.toList_ofList]
      constructor
      · intro hc
        have := List.all_eq_true.1 List.all_takeWhile _ hc
        simp at this
      · generalize key.toList = l at hm
        induction l with
        | nil => cases hm
        | cons c l ih =>
          by_cases hc : c = '('
          · subst hc; exact ⟨l, by simp⟩
          · obtain ⟨rest, hr⟩ := ih (by simpa [Ne.symm hc] using hm)
            exact ⟨rest, by simp [hc]; simpa using hr⟩
    · cases h
  · rintro ⟨hn, rest, hk⟩
    rw [hk, if_pos (by simp), List.takeWhile_append_of_pos (by
      intro c hc
      rw [decide_eq_true_eq]
      rintro rfl
      exact hn hc)]
    simp

theorem toaBase_none (key : String) : toaBase key = none ↔ '(' ∉ key.toList := by
  unfold toaBase
  split <;> simp_all

theorem lookup_appendTo {β : Type} (d : List (String × List β)) (key k : String) (x : β) :
    (appendTo d key x).lookup k = if k = key then (d.lookup k).map (· ++ [x]) else d.lookup k := by
  unfold appendTo
  induction d with
  | nil => simp
  | cons kv d ih =>
    obtain ⟨a, l⟩ := kv
    rw [List.map_cons]
    by_cases h1 : a = key
    · subst h1
      rw [if_pos (beq_self_eq_true a), List.lookup_cons, List.lookup_cons, ih]
      by_cases h2 : k = a
      · subst h2; simp
      · rw [if_neg h2, if_neg h2, beq_false_of_ne h2]
    · rw [if_neg (by simpa using h1), List.lookup_cons, List.lookup_cons, ih]
      by_cases h2 : k = a
      · subst h2
        rw [beq_self_eq_true]
        simp only [if_neg h1]
      · rw [beq_false_of_ne h2]

theorem lookup_foldl_const {β : Type} (names : List String) (x : β) (d : List (String × β)) (key : String) :
    (names.foldl (fun d b => dictSet d b x) d).lookup key = if key ∈ names then some x else d.lookup key := by
  induction names generalizing d with
  | nil => simp
  | cons n names ih =>
    rw [List.foldl_cons, ih, lookup_dictSet]
    by_cases h : key ∈ names
    · simp [h]
    · by_cases h2 : key = n
      · simp [h2]
      · simp [h, h2]

theorem lookup_dictZip {β : Type} (l : List (String × β)) (d : List (String × β)) (key : String)
    (hnd : (l.map Prod.fst).Nodup) :
    (l.foldl (fun d kv => dictSet d kv.1 kv.2) d).lookup key = (l.lookup key).or (d.lookup key) := by
  induction l generalizing d with
  | nil => simp
  | cons kv l ih =>
    obtain ⟨a, v⟩ := kv
    rw [List.map_cons, List.nodup_cons] at hnd
    rw [List.foldl_cons, ih _ hnd.2, lookup_dictSet, List.lookup_cons]
    by_cases h : key = a
    · subst h
      rw [if_pos rfl, beq_self_eq_true]
      have : l.lookup key = none := by
        rw [List.lookup_eq_none_iff]
        intro p hp
        rw [bne_iff_ne]
        rintro rfl
        exact hnd.1 (List.mem_map.2 ⟨_, hp, rfl⟩)
      rw [this]
      rfl
    · rw [if_neg h, beq_false_of_ne h]

/-- The fields of one line. -/
theorem toaFold (p : ToaParsers T) (kvs : List (String × String)) (arrays : List (String × List (ToaScalar T)))
    (row : List (String × ToaEntry T)) (hnd : (kvs.map Prod.fst).Nodup)
    (hb : ∀ kv ∈ kvs, ∀ b, toaBase kv.1 = some b → row.lookup b = some .shared ∧ b ∉ kvs.map Prod.fst) :
    (∀ st, kvs.foldlM (toaField p) (arrays, row) = .ok st →
      (∀ kv ∈ kvs, ∃ x, toaParse p kv.1 kv.2 = .ok x) ∧
      (∀ key, toaBase key = none → st.2.lookup key =
        ((kvs.lookup key).bind fun v => (toaParse p key v).toOption.map .scalar).or (row.lookup key)) ∧
      (∀ key b, toaBase key = some b → st.2.lookup key = row.lookup key) ∧
      (∀ b, st.1.lookup b = (arrays.lookup b).map
        (· ++ kvs.filterMap fun kv => if toaBase kv.1 = some b then (toaParse p kv.1 kv.2).toOption else none))) ∧
    ((∀ kv ∈ kvs, ∃ x, toaParse p kv.1 kv.2 = .ok x) → ∃ st, kvs.foldlM (toaField p) (arrays, row) = .ok st) := by
  induction kvs generalizing arrays row with
  | nil =>
    constructor
    · intro st h
      cases h
      refine ⟨by simp, by simp, by simp, ?_⟩
      intro b
      cases arrays.lookup b <;> simp
    · intro _; exact ⟨_, rfl⟩
  | cons kv kvs ih =>
    obtain ⟨k, v⟩ := kv
    rw [List.map_cons, List.nodup_cons] at hnd
    rw [List.foldlM_cons]
    have hlk : kvs.lookup k = none := by
      rw [List.lookup_eq_none_iff]
      intro p hp
      rw [bne_iff_ne]
      rintro rfl
      exact hnd.1 (List.mem_map.2 ⟨_, hp, rfl⟩)
    cases hp : toaParse p k v with
    | error e =>
      have hf : toaField p (arrays, row) (k, v) = .error e := by simp [toaField, hp, Except.bind]
      rw [hf]
      constructor
      · intro st h; cases h
      · intro h
        obtain ⟨x, hx⟩ := h (k, v) (by simp)
        rw [hp] at hx; cases hx
    | ok x =>
      cases hbk : toaBase k with
      | none =>
        have hf : toaField p (arrays, row) (k, v) = .ok (arrays, dictSet row k (.scalar x)) := by
          simp [toaField, hp, Except.bind, toaStore, hbk]
        rw [hf]
        have hih := ih arrays (dictSet row k (.scalar x)) hnd.2 (by
          intro kv hkv b hkb
          have := hb kv (by simp [hkv]) b hkb
          rw [List.map_cons, List.mem_cons, not_or] at this
          refine ⟨?_, this.2.2⟩
          rw [lookup_dictSet, if_neg this.2.1]
          exact this.1)
        constructor
        · intro st h
          obtain ⟨h1, h2, h3, h4⟩ := hih.1 st h
          refine ⟨?_, ?_, ?_, ?_⟩
          · intro kv hkv
            rcases List.mem_cons.1 hkv with rfl | hkv
            · exact ⟨x, hp⟩
            · exact h1 kv hkv
          · intro key hkey
            rw [h2 key hkey, lookup_dictSet, List.lookup_cons]
            by_cases he : key = k
            · subst he
              simp [hlk, hp, Except.toOption]
            · rw [if_neg he, beq_false_of_ne he]
          · intro key b hkb
            rw [h3 key b hkb, lookup_dictSet, if_neg]
            rintro rfl
            rw [hbk] at hkb; cases hkb
          · intro b
            rw [h4 b, List.filterMap_cons]
            simp [hbk]
        · intro h
          exact hih.2 fun kv hkv => h kv (by simp [hkv])
      | some b0 =>
        have hb0 := hb (k, v) (by simp) b0 hbk
        have hf : toaField p (arrays, row) (k, v) = .ok (appendTo arrays b0 x, row) := by
          simp [toaField, hp, Except.bind, toaStore, hbk, hb0.1]
        rw [hf]
        have hih := ih (appendTo arrays b0 x) row hnd.2 (by
          intro kv hkv b hkb
          have := hb kv (by simp [hkv]) b hkb
          rw [List.map_cons, List.mem_cons, not_or] at this
          exact ⟨this.1, this.2.2⟩)
        constructor
        · intro st h
          obtain ⟨h1, h2, h3, h4⟩ := hih.1 st h
          refine ⟨?_, ?_, h3, ?_⟩
          · intro kv hkv
            rcases List.mem_cons.1 hkv with rfl | hkv
            · exact ⟨x, hp⟩
            · exact h1 kv hkv
          · intro key hkey
            rw [h2 key hkey, List.lookup_cons]
            have he : key ≠ k := by
              rintro rfl
              rw [hbk] at hkey; cases hkey
            rw [beq_false_of_ne he]
          · intro b
            rw [h4 b, List.filterMap_cons, lookup_appendTo]
            by_cases he : b = b0
            · subst he
              rw [if_pos rfl, if_pos hbk, hp]
              cases arrays.lookup b <;> simp [Except.toOption]
            · have : toaBase k ≠ some b := by rw [hbk]; simp [Ne.symm he]
              rw [if_neg he, if_neg this]
        · intro h
          exact hih.2 fun kv hkv => h kv (by simp [hkv])

/-- A header is regular if its columns have different names and arrays are not named like columns. -/
def Spec.RegularHeader (header : List String) : Prop :=
  header.Nodup ∧ ∀ key ∈ header, ∀ name, Spec.IsElement name key → name ∉ header

theorem zip_keys {β : Type} (header : List String) (line : List β) : (header.zip line).map Prod.fst <+: header := by
  induction header generalizing line with
  | nil => simp
  | cons a header ih =>
    cases line with
    | nil => simp
    | cons b line => simpa using ih line

theorem toaRow_spec (p : ToaParsers T) (header line : List String) (arrays : List (String × List (ToaScalar T)))
    (hreg : Spec.RegularHeader header) :
    (∀ st, toaRow p header line arrays = .ok st →
      (∀ kv ∈ header.zip line, ∃ x, toaParse p kv.1 kv.2 = .ok x) ∧
      (∀ key, toaBase key = none → key ∈ header → st.2.lookup key =
        ((header.zip line).lookup key).bind fun v => (toaParse p key v).toOption.map .scalar) ∧
      (∀ name, (∃ key ∈ header, Spec.IsElement name key) → st.2.lookup name = some .shared) ∧
      (∀ key, key ∉ header → (¬ ∃ k ∈ header, Spec.IsElement key k) → st.2.lookup key = none) ∧
      (∀ key b, key ∈ header → toaBase key = some b → st.2.lookup key = none) ∧
      (∀ b, st.1.lookup b = (arrays.lookup b).map
        (· ++ (header.zip line).filterMap fun kv =>
          if toaBase kv.1 = some b then (toaParse p kv.1 kv.2).toOption else none))) ∧
    ((∀ kv ∈ header.zip line, ∃ x, toaParse p kv.1 kv.2 = .ok x) → ∃ st, toaRow p header line arrays = .ok st) := by
  have hk : ∀ kv ∈ header.zip line, kv.1 ∈ header := fun kv hkv =>
    (zip_keys header line).subset (List.mem_map_of_mem hkv)
  have htemp : ∀ key, (toaTemplate header : List (String × ToaEntry T)).lookup key =
      if key ∈ header.filterMap toaBase then some .shared else none := fun key => by
    rw [toaTemplate, lookup_foldl_const]; rfl
  have hnt : ∀ key ∈ header, key ∉ header.filterMap toaBase := by
    intro key hkey hc
    obtain ⟨k', hk', hb⟩ := List.mem_filterMap.1 hc
    exact hreg.2 k' hk' key ((toaBase_iff _ _).1 hb) hkey
  obtain ⟨h1, h2⟩ := toaFold p (header.zip line) arrays (toaTemplate header) (hreg.1.sublist (zip_keys header line).sublist) (by
    intro kv hkv b hb
    constructor
    · rw [htemp, if_pos (List.mem_filterMap.2 ⟨kv.1, hk kv hkv, hb⟩)]
    · intro hc
      exact hreg.2 kv.1 (hk kv hkv) b ((toaBase_iff _ _).1 hb) ((zip_keys header line).subset hc))
  refine ⟨?_, h2⟩
  intro st hst
  obtain ⟨g1, g2, g3, g4⟩ := h1 st hst
  refine ⟨g1, ?_, ?_, ?_, ?_, g4⟩
  · intro key hb hkey
    rw [g2 key hb, htemp, if_neg (hnt key hkey), Option.or_none]
  · rintro name ⟨key, hkey, he⟩
    have hnone : toaBase name = none := (toaBase_none name).2 he.1
    have hnot : (header.zip line).lookup name = none := by
      rw [List.lookup_eq_none_iff]
      intro p hp
      rw [bne_iff_ne]
      rintro rfl
      exact hreg.2 key hkey p.1 he (hk p hp)
    rw [g2 name hnone, hnot, htemp, if_pos (List.mem_filterMap.2 ⟨key, hkey, (toaBase_iff _ _).2 he⟩)]
    rfl
  · intro key hkey hne
    have hnot : (header.zip line).lookup key = none := by
      rw [List.lookup_eq_none_iff]
      intro p hp
      rw [bne_iff_ne]
      rintro rfl
      exact hkey (hk p hp)
    have ht : (toaTemplate header : List (String × ToaEntry T)).lookup key = none := by
      rw [htemp, if_neg]
      intro hc
      obtain ⟨k', hk', hb⟩ := List.mem_filterMap.1 hc
      exact hne ⟨k', hk', (toaBase_iff _ _).1 hb⟩
    cases hb : toaBase key with
    | none => rw [g2 key hb, hnot, ht]; rfl
    | some b => rw [g3 key b hb, ht]
  · intro key b hkey hb
    rw [g3 key b hb, htemp, if_neg (hnt key hkey)]

theorem toaRows_spec (p : ToaParsers T) (header : List String) (hreg : Spec.RegularHeader header)
    (lines : List (List String)) (arrays : List (String × List (ToaScalar T))) :
    (∀ r, toaRows p header lines arrays = .ok r →
      (∀ line ∈ lines, ∀ kv ∈ header.zip line, ∃ x, toaParse p kv.1 kv.2 = .ok x) ∧
      List.Forall₂ (fun line row =>
        (∀ key, toaBase key = none → key ∈ header → row.lookup key =
          ((header.zip line).lookup key).bind fun v => (toaParse p key v).toOption.map .scalar) ∧
        (∀ name, (∃ key ∈ header, Spec.IsElement name key) → row.lookup name = some .shared) ∧
        (∀ key, key ∉ header → (¬ ∃ k ∈ header, Spec.IsElement key k) → row.lookup key = none) ∧
        (∀ key b, key ∈ header → toaBase key = some b → row.lookup key = none)) lines r.2 ∧
      (∀ b, r.1.lookup b = (arrays.lookup b).map
        (· ++ lines.flatMap fun line => (header.zip line).filterMap fun kv =>
          if toaBase kv.1 = some b then (toaParse p kv.1 kv.2).toOption else none))) ∧
    ((∀ line ∈ lines, ∀ kv ∈ header.zip line, ∃ x, toaParse p kv.1 kv.2 = .ok x) →
      ∃ r, toaRows p header lines arrays = .ok r) := by
  induction lines generalizing arrays with
  | nil =>
    refine ⟨?_, fun _ => ⟨_, rfl⟩⟩
    intro r h
    cases h
    refine ⟨by simp, .nil, ?_⟩
    intro b
    cases arrays.lookup b <;> simp
  | cons line lines ih =>
    obtain ⟨r1, r2⟩ := toaRow_spec p header line arrays hreg
    rw [toaRows]
    constructor
    · intro r h
      cases hrow : toaRow p header line arrays with
      | error e => rw [hrow] at h; cases h
      | ok st =>
        rw [hrow] at h
        dsimp only [Except.bind] at h
        cases hrest : toaRows p header lines st.1 with
        | error e => rw [hrest] at h; cases h
        | ok r' =>
          rw [hrest] at h
          cases h
          obtain ⟨a1, a2, a3, a4, a6, a5⟩ := r1 st hrow
          obtain ⟨b1, b2, b3⟩ := (ih st.1).1 r' hrest
          refine ⟨?_, .cons ⟨a2, a3, a4, a6⟩ b2, ?_⟩
          · intro l hl
            rcases List.mem_cons.1 hl with rfl | hl
            · exact a1
            · exact b1 l hl
          · intro b
            rw [b3 b, a5 b, List.flatMap_cons]
            cases arrays.lookup b <;> simp
    · intro h
      obtain ⟨st, hst⟩ := r2 (h line (by simp))
      obtain ⟨r', hr'⟩ := (ih st.1).2 fun l hl => h l (by simp [hl])
      exact ⟨_, by rw [hst]; dsimp only [Except.bind]; rw [hr']; rfl⟩

theorem lookup_toaResolve (arrays : List (String × List (ToaScalar T))) (row : List (String × ToaEntry T)) (key : String) :
    (toaResolve arrays row).lookup key = (row.lookup key).map fun e => match e with
      | .scalar x => .scalar x
      | .shared => .array ((arrays.lookup key).getD []) := by
  unfold toaResolve
  induction row with
  | nil => rfl
  | cons kv row ih =>
    obtain ⟨k, e⟩ := kv
    rw [List.map_cons, List.lookup_cons, List.lookup_cons, ih]
    by_cases h : key = k
    · subst h; rw [beq_self_eq_true]; rfl
    · rw [beq_false_of_ne h]

theorem lookup_nodup {β : Type} (l : List (String × β)) (hnd : (l.map Prod.fst).Nodup) (key : String) (v : β) :
    l.lookup key = some v ↔ (key, v) ∈ l := by
  induction l with
  | nil => simp
  | cons kv l ih =>
    obtain ⟨a, w⟩ := kv
    rw [List.map_cons, List.nodup_cons] at hnd
    rw [List.lookup_cons, List.mem_cons]
    by_cases he : key = a
    · subst he
      rw [beq_self_eq_true]
      constructor
      · intro h; cases h; exact Or.inl rfl
      · rintro (h | h)
        · cases h; rfl
        · exact absurd (List.mem_map_of_mem (f := Prod.fst) h) hnd.1
    · rw [beq_false_of_ne he]
      simp only [ih hnd.2, Prod.mk.injEq, he, false_and, false_or]

/-- **C111.** A file is accepted exactly if its first line begins with `TOA5`, three more header lines follow, and all time
stamps and record numbers can be read. (For a regular header.) -/
theorem C111_accepted (p : ToaParsers T) (lines : List (List String)) (hreg : ∀ header, lines[1]? = some header → Spec.RegularHeader header) :
    (∃ out, readToa5 p lines = .ok out) ↔
      ∃ origin header units process data, lines = origin :: header :: units :: process :: data ∧
        origin.head? = some "TOA5" ∧
        ∀ line ∈ data, ∀ kv ∈ header.zip line, ∃ x, Spec.ToaField p kv.1 kv.2 x := by
  constructor
  · rintro ⟨out, h⟩
    unfold readToa5 at h
    split at h
    · cases h
    · rename_i origin rest
      split at h
      · cases h
      · rename_i ho
        split at h
        · rename_i header units process data
          cases hr : toaRows p header data (toaArrays header) with
          | error e => rw [hr] at h; cases h
          | ok r =>
            refine ⟨origin, header, units, process, data, rfl, not_not.1 ho, ?_⟩
            intro line hl kv hkv
            obtain ⟨x, hx⟩ := ((toaRows_spec p header (hreg header rfl) data _).1 r hr).1 line hl kv hkv
            exact ⟨x, (toaParse_iff p _ _ _).1 hx⟩
        · cases h
  · rintro ⟨origin, header, units, process, data, rfl, ho, hall⟩
    obtain ⟨r, hr⟩ := (toaRows_spec p header (hreg header rfl) data (toaArrays header)).2 (fun line hl kv hkv => by
      obtain ⟨x, hx⟩ := hall line hl kv hkv
      exact ⟨x, (toaParse_iff p _ _ _).2 hx⟩)
    unfold readToa5
    simp only [ho, ne_eq, not_true_eq_false, if_false]
    rw [hr]
    exact ⟨_, rfl⟩

/-- **C111.** There is one row for each line, in order. The row has each simple column of the line (a short line lacks the
last columns) with its value, and nothing else but arrays. Units are those above the columns. -/
theorem C111_rows (p : ToaParsers T) (origin header units process : List String) (data : List (List String))
    (hreg : Spec.RegularHeader header) (out : Toa5 T)
    (h : readToa5 p (origin :: header :: units :: process :: data) = .ok out) :
    List.Forall₂ (fun line row => ∀ key, ¬ (∃ k ∈ header, Spec.IsElement key k) →
      ∀ value, List.lookup key row = some value ↔
        '(' ∉ key.toList ∧ ∃ (v : String) (x : ToaScalar T), (key, v) ∈ header.zip line ∧
          Spec.ToaField p key v x ∧ value = .scalar x) data out.rows ∧
    (∀ key unit, out.units.lookup key = some unit ↔ (key, unit) ∈ header.zip units) := by
  have lookup_zip : ∀ (line : List String) (key v : String), (header.zip line).lookup key = some v ↔
      (key, v) ∈ header.zip line := fun line key v =>
    lookup_nodup _ (hreg.1.sublist (zip_keys header line).sublist) key v
  unfold readToa5 at h
  dsimp only at h
  split at h
  · cases h
  cases hr : toaRows p header data (toaArrays header) with
  | error e => rw [hr] at h; cases h
  | ok r =>
    rw [hr] at h
    cases h
    constructor
    · rw [List.forall₂_map_right_iff]
      refine ((toaRows_spec p header hreg data _).1 r hr).2.1.imp ?_
      rintro line row ⟨a1, a2, a3, a4⟩ key hne value
      rw [lookup_toaResolve]
      cases hb : toaBase key with
      | some b =>
        have hk : '(' ∈ key.toList := by
          by_contra hc
          rw [(toaBase_none key).2 hc] at hb; cases hb
        have : row.lookup key = none := by
          by_cases hkey : key ∈ header
          · exact a4 key b hkey hb
          · exact a3 key hkey hne
        rw [this]
        simp [hk]
      | none =>
        have hk := (toaBase_none key).1 hb
        by_cases hkey : key ∈ header
        · rw [a1 key hb hkey]
          constructor
          · intro h
            cases hl : (header.zip line).lookup key with
            | none => rw [hl] at h; cases h
            | some v =>
              rw [hl] at h
              cases hx : toaParse p key v with
              | error e => simp [hx, Except.toOption] at h
              | ok x =>
                simp [hx, Except.toOption] at h
                exact ⟨hk, v, x, (lookup_zip line key v).1 hl, (toaParse_iff p _ _ _).1 hx, h.symm⟩
          · rintro ⟨-, v, x, h1, h3, rfl⟩
            rw [(lookup_zip line key v).2 h1, Option.bind_some, (toaParse_iff p _ _ _).2 h3]
            rfl
        · rw [a3 key hkey hne]
          constructor
          · intro h; cases h
          · rintro ⟨-, v, x, h1, -⟩
            exact absurd (List.of_mem_zip h1).1 hkey
    · intro key unit
      show (dictZip header units).lookup key = some unit ↔ _
      rw [dictZip, lookup_dictZip _ _ _ (hreg.1.sublist (zip_keys header units).sublist)]
      simp only [List.lookup_nil, Option.or_none]
      exact lookup_zip units key unit

open Classical in
/-- C111, a finding. An array is the same list in all rows: every row contains the elements of all lines of the file. -/
theorem C111_arrays_shared (p : ToaParsers T) (origin header units process : List String) (data : List (List String))
    (hreg : Spec.RegularHeader header) (out : Toa5 T)
    (h : readToa5 p (origin :: header :: units :: process :: data) = .ok out) (name key : String) (hkey : key ∈ header)
    (hel : Spec.IsElement name key) :
    ∀ row ∈ out.rows, row.lookup name = some (.array ((data.flatMap (Spec.elements name header)).map .text)) := by
  unfold readToa5 at h
  dsimp only at h
  split at h
  · cases h
  cases hr : toaRows p header data (toaArrays header) with
  | error e => rw [hr] at h; cases h
  | ok r =>
    rw [hr] at h
    cases h
    obtain ⟨-, h2, h3⟩ := (toaRows_spec p header hreg data _).1 r hr
    intro row hrow
    obtain ⟨row', hrow', rfl⟩ := List.mem_map.1 hrow
    have hsh : row'.lookup name = some .shared := by
      obtain ⟨k, hk⟩ := List.mem_iff_getElem?.1 hrow'
      have hlt : k < r.2.length := (List.getElem?_eq_some_iff.1 hk).1
      have hlt' : k < data.length := by rw [h2.length_eq]; exact hlt
      have := (List.forall₂_iff_get.1 h2).2 k hlt' hlt
      simp only [List.get_eq_getElem] at this
      rw [(List.getElem?_eq_some_iff.1 hk).2] at this
      exact this.2.1 name ⟨key, hkey, hel⟩
    rw [lookup_toaResolve, hsh, h3 name]
    have ha : (toaArrays header : List (String × List (ToaScalar T))).lookup name = some [] := by
      rw [toaArrays, lookup_foldl_const, if_pos (List.mem_filterMap.2 ⟨key, hkey, (toaBase_iff _ _).2 hel⟩)]
    rw [ha]
    simp only [Option.map_some, Option.getD_some, List.nil_append, List.map_flatMap]
    congr 3
    funext line
    unfold Spec.elements
    rw [List.map_map]
    generalize header.zip line = l
    induction l with
    | nil => rfl
    | cons kv l ih =>
      rw [List.filterMap_cons, List.filter_cons, ih]
      by_cases hb : toaBase kv.1 = some name
      · have he := (toaBase_iff _ _).1 hb
        have hx : toaParse p kv.1 kv.2 = .ok (.text kv.2) := by
          rw [toaParse_iff]
          refine .text _ _ ?_ ?_ <;> (intro hc; rw [hc] at he; exact absurd he.2 (by rintro ⟨rest, hr⟩; exact absurd (hr ▸ (by simp : '(' ∈ name.toList ++ '(' :: rest)) (by decide)))
        rw [if_pos hb, hx, if_pos (decide_eq_true he)]
        rfl
      · rw [if_neg hb, if_neg (fun hc => hb ((toaBase_iff _ _).2 (of_decide_eq_true hc)))]

end

/-- Times are kept as text; only two record numbers are known. -/
def exampleToaParsers : ToaParsers String := 
  ⟨fun s => if s = "" then none else some s, fun s => if s = "7" then some 7 else if s = "8" then some 8 else none⟩

/-- A file with two lines; the second one is short. -/
def exampleToa : List (List String) :=
  [["TOA5", "CR1000"], ["TIMESTAMP", "RECORD", "RH", "N(1)", "N(2)"], ["TS", "RN", "%", "", ""], ["", "", "Avg", "Smp", "Smp"],
    ["00:00", "7", "81", "1", "2"], ["00:01", "8", "82", "3"]]

theorem exampleToa_regular : Spec.RegularHeader ["TIMESTAMP", "RECORD", "RH", "N(1)", "N(2)"] := by
  refine ⟨by decide, ?_⟩
  intro key hkey name he
  have hb := (toaBase_iff name key).2 he
  have hn : name = "N" := by
    simp only [List.mem_cons, List.not_mem_nil, or_false] at hkey
    rcases hkey with rfl | rfl | rfl | rfl | rfl
    · exact absurd (hb.symm.trans (by decide +kernel : _ = none)) (by simp)
    · exact absurd (hb.symm.trans (by decide +kernel : _ = none)) (by simp)
    · exact absurd (hb.symm.trans (by decide +kernel : _ = none)) (by simp)
    · exact Option.some.inj (hb.symm.trans (by decide +kernel))
    · exact Option.some.inj (hb.symm.trans (by decide +kernel))
  subst hn
  decide

/-- Both rows hold the three elements of the whole file. -/
example : ((readToa5 exampleToaParsers exampleToa).toOption.map fun o => o.rows.map (List.lookup "N")) =
    some [some (.array [.text "1", .text "2", .text "3"]), some (.array [.text "1", .text "2", .text "3"])] := by
  decide +kernel

example : ((readToa5 exampleToaParsers exampleToa).toOption.map fun o => o.rows.map (List.lookup "RECORD")) =
    some [some (.scalar (.record 7)), some (.scalar (.record 8))] := by decide +kernel

end Cloudnet
