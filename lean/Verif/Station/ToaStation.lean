import Mathlib.Tactic
import Verif.Station.Csv

set_option linter.unusedSimpArgs false

namespace Cloudnet

/-! ## C112, continued: Granada, Jülich and Falkenberg -/

namespace Spec
variable {T α : Type}

/-- The value of a field of a TOA5 file: a time, a number, or none if it is not a number and the station tolerates this. -/
inductive ToaCell (s : ToaStation) (p : ToaParsers T) (number : String → Option (Option α)) : String → String → StationCell T α → Prop
  | time (v : String) (t : T) : p.time v = some t → ToaCell s p number "TIMESTAMP" v (.time t)
  | num (key v : String) (x : Option α) : key ≠ "TIMESTAMP" → number v = some x → ToaCell s p number key v (.num x)
  | bad (key v : String) : key ≠ "TIMESTAMP" → number v = none → s.strict = false → ToaCell s p number key v (.num none)

end Spec

section
variable {T α : Type}

theorem foldl_dictSet_keys {β γ : Type} (l : List γ) (k : γ → String) (v : γ → β) (d : List (String × β))
    (h : (d.map Prod.fst).Nodup) : ((l.foldl (fun d x => dictSet d (k x) (v x)) d).map Prod.fst).Nodup := by
  induction l generalizing d with
  | nil => exact h
  | cons x l ih => exact ih _ (keys_dictSet _ _ _ h)

theorem toaFold_keys (p : ToaParsers T) (kvs : List (String × String)) (st st' : ToaState T)
    (hnd : (st.2.map Prod.fst).Nodup) (h : kvs.foldlM (toaField p) st = .ok st') : (st'.2.map Prod.fst).Nodup := by
  induction kvs generalizing st with
  | nil => cases h; exact hnd
  | cons kv kvs ih =>
    rw [List.foldlM_cons] at h
    cases hf : toaField p st kv with
    | error e => rw [hf] at h; cases h
    | ok st1 =>
      rw [hf] at h
      refine ih st1 ?_ h
      unfold toaField at hf
      cases hp : toaParse p kv.1 kv.2 with
      | error e => rw [hp] at hf; cases hf
      | ok x =>
        rw [hp] at hf
        dsimp only [Except.bind] at hf
        unfold toaStore at hf
        split at hf
        · cases hf; exact keys_dictSet _ _ _ hnd
        · split at hf
          · cases hf; exact hnd
          · cases hf
          · cases hf

theorem toaRows_keys (p : ToaParsers T) (header : List String) (lines : List (List String))
    (arrays : List (String × List (ToaScalar T)))
    (r : List (String × List (ToaScalar T)) × List (List (String × ToaEntry T)))
    (h : toaRows p header lines arrays = .ok r) : ∀ row ∈ r.2, (row.map Prod.fst).Nodup := by
  induction lines generalizing arrays r with
  | nil => cases h; simp
  | cons line lines ih =>
    rw [toaRows] at h
    cases hrow : toaRow p header line arrays with
    | error e => rw [hrow] at h; cases h
    | ok st =>
      rw [hrow] at h
      dsimp only [Except.bind] at h
      cases hrest : toaRows p header lines st.1 with
      | error e => rw [hrest] at h; cases h
      | ok r' =>
        rw [hrest] at h
        cases h
        intro row hmem
        rcases List.mem_cons.1 hmem with rfl | hmem
        · refine toaFold_keys p _ _ st ?_ hrow
          exact foldl_dictSet_keys (β := ToaEntry T) (header.filterMap toaBase) id (fun _ => .shared) [] (by simp)
        · exact ih st.1 r' hrest row hmem

theorem readToa5_keys (p : ToaParsers T) (lines : List (List String)) (out : Toa5 T) (h : readToa5 p lines = .ok out) :
    (∀ row ∈ out.rows, (row.map Prod.fst).Nodup) ∧ (out.units.map Prod.fst).Nodup := by
  unfold readToa5 at h
  split at h
  · cases h
  · split at h
    · cases h
    · split at h
      · rename_i header units process data
        cases hr : toaRows p header data (toaArrays header) with
        | error e => rw [hr] at h; cases h
        | ok r =>
          rw [hr] at h
          cases h
          constructor
          · intro row hrow
            obtain ⟨row', h1, rfl⟩ := List.mem_map.1 hrow
            have : (toaResolve r.1 row').map Prod.fst = row'.map Prod.fst := by
              unfold toaResolve
              rw [List.map_map]
              rfl
            rw [this]
            exact toaRows_keys p header data _ r hr row' h1
          · exact foldl_dictSet_keys (β := String) (header.zip units) Prod.fst Prod.snd [] (by simp)
      · cases h

theorem forall₂_flatMap_mem {γ δ ε : Type} (R : γ → δ → Prop) (Q : γ → ε → Prop) (f : ε → List δ) (l : List γ) (m : List ε)
    (h : List.Forall₂ Q l m) (hone : ∀ a ∈ l, ∀ b ∈ m, Q a b → ∃ x, f b = [x] ∧ R a x) : List.Forall₂ R l (m.flatMap f) := by
  induction h with
  | nil => exact .nil
  | @cons a b l m h1 h2 ih =>
    obtain ⟨x, hx, hR⟩ := hone a (by simp) b (by simp) h1
    rw [List.flatMap_cons, hx]
    exact .cons hR (ih fun a ha b hb => hone a (by simp [ha]) b (by simp [hb]))

theorem keymap_inj (s : ToaStation) (hs : s ∈ [granada, juelich, falkenberg]) (key key' name : String)
    (h1 : s.keymap.lookup key = some name) (h2 : s.keymap.lookup key' = some name) : key = key' := by
  have hnd : (s.keymap.map Prod.fst).Nodup ∧ (s.keymap.map Prod.snd).Nodup := by
    simp only [List.mem_cons, List.not_mem_nil, or_false] at hs
    rcases hs with rfl | rfl | rfl <;> decide
  have m1 := (lookup_nodup _ hnd.1 _ _).1 h1
  have m2 := (lookup_nodup _ hnd.1 _ _).1 h2
  exact congrArg Prod.fst (List.inj_on_of_nodup_map hnd.2 m1 m2 rfl)

theorem keymap_time (s : ToaStation) (hs : s ∈ [granada, juelich, falkenberg]) (key name : String)
    (h : s.keymap.lookup key = some name) : key ≠ "RECORD" ∧ '(' ∉ key.toList ∧ (key = "TIMESTAMP" ↔ name = "time") := by
  have hnd : (s.keymap.map Prod.fst).Nodup ∧
      ∀ kv ∈ s.keymap, kv.1 ≠ "RECORD" ∧ '(' ∉ kv.1.toList ∧ (kv.1 = "TIMESTAMP" ↔ kv.2 = "time") := by
    simp only [List.mem_cons, List.not_mem_nil, or_false] at hs
    rcases hs with rfl | rfl | rfl <;> decide
  exact hnd.2 _ ((lookup_nodup _ hnd.1 _ _).1 h)

/-- C112. For the three stations with data loggers: the units are those expected, and each known column of a file whose lines
are complete becomes a variable with one value for each line. -/
theorem C112_toa (s : ToaStation) (hs : s ∈ [granada, juelich, falkenberg]) (p : ToaParsers T)
    (number : String → Option (Option α)) (origin header units process : List String) (data : List (List String))
    (hreg : Spec.RegularHeader header) (harr : ∀ k ∈ header, ∀ name, Spec.IsElement name k → s.keymap.lookup name = none)
    (hunits : units.length = header.length) (hdata : ∀ line ∈ data, line.length = header.length)
    (cols : Columns (StationCell T α)) (h : toaStation s p number (origin :: header :: units :: process :: data) = .ok cols) :
    (∀ key unit expected, (key, unit) ∈ header.zip units → s.units.lookup key = some expected → unit = expected) ∧
    ∀ key ∈ header, ∀ name, s.keymap.lookup key = some name → ∃ col, cols.lookup name = some col ∧
      List.Forall₂ (fun line x => ∃ v, (key, v) ∈ header.zip line ∧ Spec.ToaCell s p number key v x) data col := by
  unfold toaStation at h
  cases hr : readToa5 p (origin :: header :: units :: process :: data) with
  | error e => rw [hr] at h; cases h
  | ok t =>
    rw [hr] at h
    dsimp only [Except.bind] at h
    obtain ⟨hrows, hun⟩ := C111_rows p origin header units process data hreg t hr
    obtain ⟨hknd, hund⟩ := readToa5_keys p _ t hr
    split at h
    · cases h
    rename_i hw
    constructor
    · intro key unit expected hmem hexp
      have h1 := (lookup_nodup _ hund _ _).1 ((hun key unit).2 hmem)
      unfold wrongUnits at hw
      rw [List.any_eq_true] at hw
      by_contra hne
      refine hw ⟨(key, unit), h1, ?_⟩
      dsimp only
      rw [hexp]
      simpa using Ne.symm hne
    · intro key hkey name hname
      have hok := (storeRows_spec _ _ _).2.1 ⟨cols, h⟩
      have hkt := keymap_time s hs key name hname
      obtain ⟨u, hu⟩ := exists_zip header units hunits key hkey
      have hin : name ∈ t.units.filterMap fun ku => s.keymap.lookup ku.1 :=
        List.mem_filterMap.2 ⟨(key, u), (lookup_nodup _ hund _ _).1 ((hun key u).2 hu), hname⟩
      refine ⟨_, by rw [(storeRows_spec _ _ _).1 cols h name, lookup_emptyColumns, if_pos hin]; rfl, ?_⟩
      dsimp only
      rw [List.nil_append]
      have hne : ¬ ∃ k ∈ header, Spec.IsElement key k := by
        rintro ⟨k, hk, he⟩
        have := harr k hk key he
        rw [hname] at this; cases this
      have hnostop : ∀ kv, isStop (toaAction s number) (kv : String × ToaValue T) = false := by
        intro kv
        unfold isStop toaAction
        cases s.keymap.lookup kv.1 with
        | none => rfl
        | some n =>
          rcases kv with ⟨k, ⟨x⟩ | xs⟩
          · rcases x with v | t | n'
            · dsimp only
              cases number v with
              | some x => rfl
              | none => by_cases hst : s.strict = true <;> simp [hst]
            · rfl
            · rfl
          · rfl
      -- one row
      have hone : ∀ line row, line ∈ data → row ∈ t.rows → (∀ k, ¬ (∃ k' ∈ header, Spec.IsElement k k') →
          ∀ value, List.lookup k row = some value ↔
          '(' ∉ k.toList ∧ ∃ (v : String) (x : ToaScalar T), (k, v) ∈ header.zip line ∧
            Spec.ToaField p k v x ∧ value = .scalar x) →
          ∃ x, (row.takeWhile fun i => !isStop (toaAction s number) i).filterMap (cellFor (toaAction s number) name) = [x] ∧
            ∃ v, (key, v) ∈ header.zip line ∧ Spec.ToaCell s p number key v x := by
        intro line row hline hrow hspec
        obtain ⟨v, hv⟩ := exists_zip header line (hdata line hline) key hkey
        have hlook : ∃ x, List.lookup key row = some (.scalar x) ∧ Spec.ToaField p key v x := by
          -- the field can be read, because the file was accepted
          obtain ⟨origin', header', units', process', data', he, -, hall⟩ :=
            (C111_accepted p (origin :: header :: units :: process :: data) (fun hd hh => by cases hh; exact hreg)).1 ⟨t, hr⟩
          cases he
          obtain ⟨x, hx⟩ := hall line hline (key, v) hv
          exact ⟨x, (hspec key hne _).2 ⟨hkt.2.1, v, x, hv, hx, rfl⟩, hx⟩
        obtain ⟨x, hx1, hx2⟩ := hlook
        have hmem := (lookup_nodup _ (hknd row hrow) _ _).1 hx1
        rw [takeWhile_all _ _ (fun kv _ => by rw [hnostop kv]; rfl)]
        obtain ⟨a, ha, -⟩ := hok row hrow (key, .scalar x) (by
          rw [takeWhile_all _ _ (fun kv _ => by rw [hnostop kv]; rfl)]; exact hmem)
        -- the value of the field
        have hcell : ∃ c, cellFor (toaAction s number) name (key, ToaValue.scalar x) = some c ∧ Spec.ToaCell s p number key v c := by
          unfold toaAction at ha
          rw [hname] at ha
          cases hx2 with
          | time _ tt htt =>
            exact ⟨.time tt, by simp [cellFor, toaAction, hname], .time v tt htt⟩
          | record => exact absurd rfl hkt.1
          | text _ _ h1 h2 =>
            dsimp only at ha
            cases hn : number v with
            | some y => exact ⟨.num y, by simp [cellFor, toaAction, hname, hn], .num key v y h1 hn⟩
            | none =>
              rw [hn] at ha
              dsimp only at ha
              by_cases hst : s.strict = true
              · rw [if_pos hst] at ha; cases ha
              · exact ⟨.num none, by simp [cellFor, toaAction, hname, hn, hst], .bad key v h1 hn (by simpa using hst)⟩
        obtain ⟨c, hc1, hc2⟩ := hcell
        refine ⟨c, ?_, v, hv, hc2⟩
        have hother : ∀ kv ∈ row, kv.1 ≠ key → cellFor (toaAction s number) name kv = none := by
          intro kv _ hk
          unfold cellFor
          have hkm : s.keymap.lookup kv.1 ≠ some name := fun hc => hk (keymap_inj s hs _ _ _ hc hname)
          unfold toaAction
          cases hl : s.keymap.lookup kv.1 with
          | none => rfl
          | some n =>
            have hn : n ≠ name := fun he => hkm (by rw [hl, he])
            rcases kv with ⟨k, ⟨y⟩ | ys⟩
            · rcases y with w | tt | m
              · dsimp only
                cases number w with
                | some z => simp [hn]
                | none => by_cases hst : s.strict = true <;> simp [hst, hn]
              · simp [hn]
              · rfl
            · rfl
        have : row.filterMap (cellFor (toaAction s number) name) =
            row.filterMap (fun kv => if kv.1 = key then some ((cellFor (toaAction s number) name (key, kv.2)).getD c) else none) := by
          refine List.filterMap_congr fun kv hkv => ?_
          by_cases hk : kv.1 = key
          · rw [if_pos hk]
            have : kv = (key, ToaValue.scalar x) := by
              have e1 := (lookup_nodup _ (hknd row hrow) kv.1 kv.2).2 hkv
              rw [hk, hx1] at e1
              rw [← hk, Option.some.inj e1]
            rw [this, hc1]; rfl
          · rw [if_neg hk, hother kv hkv hk]
        rw [this, filterMap_title row (hknd row hrow) key (.scalar x) hmem
          (fun w => (cellFor (toaAction s number) name (key, w)).getD c), hc1]
        rfl
      exact forall₂_flatMap_mem _ _ _ _ _ hrows fun line hl row hrw hQ => hone line row hl hrw hQ

/-- C112, Jülich: a value that is not a number is an error. -/
theorem C112_toa_strict (p : ToaParsers T) (number : String → Option (Option α)) (origin header units process : List String)
    (data : List (List String)) (hreg : Spec.RegularHeader header)
    (harr : ∀ k ∈ header, ∀ name, Spec.IsElement name k → juelich.keymap.lookup name = none)
    (hunits : units.length = header.length) (hdata : ∀ line ∈ data, line.length = header.length)
    (cols : Columns (StationCell T α)) (h : toaStation juelich p number (origin :: header :: units :: process :: data) = .ok cols)
    (line : List String) (hl : line ∈ data) (key v name : String) (hv : (key, v) ∈ header.zip line)
    (hk : juelich.keymap.lookup key = some name) (hkey : key ≠ "TIMESTAMP") : ∃ x, number v = some x := by
  obtain ⟨col, -, h2⟩ := (C112_toa juelich (by simp) p number origin header units process data hreg harr hunits hdata cols h).2
    key (List.of_mem_zip hv).1 name hk
  obtain ⟨i, hi⟩ := List.mem_iff_getElem?.1 hl
  have hlt := (List.getElem?_eq_some_iff.1 hi).1
  have hlt' : i < col.length := by rw [← h2.length_eq]; exact hlt
  obtain ⟨w, hw, hc⟩ := (List.forall₂_iff_get.1 h2).2 i hlt hlt'
  simp only [List.get_eq_getElem] at hw hc
  rw [(List.getElem?_eq_some_iff.1 hi).2] at hw
  have hnd : ((header.zip line).map Prod.fst).Nodup := hreg.1.sublist (zip_keys header line).sublist
  have e1 := (lookup_nodup _ hnd _ _).2 hw
  have e2 := (lookup_nodup _ hnd _ _).2 hv
  rw [e1] at e2
  cases e2
  generalize hx : col[i] = x at hc
  cases hc with
  | time => exact absurd rfl hkey
  | num _ _ y _ hy => exact ⟨y, hy⟩
  | bad _ _ _ _ hst => exact absurd hst (by decide)

end

/-! ### Examples -/

/-- Times and numbers written with one digit. -/
def digitToa : ToaParsers ℕ :=
  { time := fun v => if v = "1" then some 1 else if v = "2" then some 2 else if v = "3" then some 3 else none
    int := fun v => if v = "0" then some 0 else none }

/-- Numbers of examples. -/
def digitNumber : String → Option (Option ℚ) := fun v =>
  if v = "5" then some (some 5) else if v = "7" then some (some 7) else if v = "NAN" then some none else none

/-- A small file. -/
def toaFile (unit : String) (data : List (List String)) : List (List String) :=
  ["TOA5", "logger"] :: ["TIMESTAMP", "RECORD", "RH", "AirTC_Avg", "other"] :: ["TS", "RN", "%", unit, ""] ::
    ["", "", "Smp", "Avg", "Smp"] :: data

example : Spec.RegularHeader ["TIMESTAMP", "RECORD", "RH", "AirTC_Avg", "other"] := by
  refine ⟨by decide, fun key hkey name he => ?_⟩
  obtain ⟨-, rest, hr⟩ := he
  simp only [List.mem_cons, List.not_mem_nil, or_false] at hkey
  have hp : '(' ∈ key.toList := by rw [hr]; simp
  rcases hkey with rfl | rfl | rfl | rfl | rfl <;> exact absurd hp (by decide)

example : (toaStation juelich digitToa digitNumber (toaFile "Deg C" [["1", "0", "5", "7", "x"], ["2", "0", "NAN", "5", "x"]])).toOption.map
    (fun c => (c.lookup "relative_humidity", c.lookup "air_temperature")) =
    some (some [.num (some 5), .num none], some [.num (some 7), .num (some 5)]) := by decide +kernel

example : (toaStation juelich digitToa digitNumber (toaFile "Deg F" [["1", "0", "5", "7", "x"]])).isOk = false := by decide +kernel

/-- C112, a finding. After a short line the values of a column belong to other times: here the second temperature is that of
the third line. -/
theorem C112_short_line : ∃ cols, toaStation juelich digitToa digitNumber
    (toaFile "Deg C" [["1", "0", "5", "7", "x"], ["2", "0", "5"], ["3", "0", "5", "5", "x"]]) = .ok cols ∧
    cols.lookup "time" = some [.time 1, .time 2, .time 3] ∧
    cols.lookup "air_temperature" = some [.num (some 7), .num (some 5)] := by
  cases h : toaStation juelich digitToa digitNumber
    (toaFile "Deg C" [["1", "0", "5", "7", "x"], ["2", "0", "5"], ["3", "0", "5", "5", "x"]]) with
  | error e =>
    exfalso
    have : (toaStation juelich digitToa digitNumber
      (toaFile "Deg C" [["1", "0", "5", "7", "x"], ["2", "0", "5"], ["3", "0", "5", "5", "x"]])).isOk = true := by decide +kernel
    rw [h] at this
    cases this
  | ok cols =>
    refine ⟨cols, rfl, ?_⟩
    have : (toaStation juelich digitToa digitNumber
      (toaFile "Deg C" [["1", "0", "5", "7", "x"], ["2", "0", "5"], ["3", "0", "5", "5", "x"]])).toOption.map
        (fun c => (c.lookup "time", c.lookup "air_temperature")) =
        some (some [.time 1, .time 2, .time 3], some [.num (some 7), .num (some 5)]) := by decide +kernel
    rw [h] at this
    simpa [Except.toOption] using this

end Cloudnet
