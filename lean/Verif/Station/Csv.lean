import Mathlib.Tactic
import Verif.Station.Readers

set_option linter.unusedSimpArgs false

namespace Cloudnet

/-! ## C112, continued: the variables of stations with CSV and TOA5 files -/

theorem mapM_except {A B : Type} (f : A → Except String B) (l : List A) (r : List B) :
    l.mapM f = .ok r ↔ List.Forall₂ (fun a b => f a = .ok b) l r := by
  induction l generalizing r with
  | nil =>
    constructor
    · intro h; cases h; exact .nil
    · intro h; cases h; rfl
  | cons a l ih =>
    rw [List.mapM_cons]
    cases ha : f a with
    | error e =>
      constructor
      · intro h; cases h
      · intro h
        cases h with
        | cons h1 h2 => rw [ha] at h1; cases h1
    | ok b =>
      cases hl : l.mapM f with
      | error e =>
        constructor
        · intro h; cases h
        · intro h
          cases h with
          | cons h1 h2 => rw [(ih _).2 h2] at hl; cases hl
      | ok bs =>
        constructor
        · intro h; cases h; exact .cons ha ((ih _).1 hl)
        · intro h
          cases h with
          | cons h1 h2 =>
            rw [ha] at h1; cases h1
            rw [(ih _).2 h2] at hl; cases hl
            rfl

/-- The key that is taken: the first one that exists. -/
def Spec.FirstOf (present : String → Prop) (keys : List String) (key : String) : Prop :=
  ∃ before after, keys = before ++ key :: after ∧ present key ∧ ∀ k ∈ before, ¬ present k

theorem findSome_first {β : Type} (raw : Columns β) (keys : List String) (col : List β)
    (h : keys.findSome? (fun k => raw.lookup k) = some col) :
    ∃ key, Spec.FirstOf (fun k => (raw.lookup k).isSome) keys key ∧ raw.lookup key = some col := by
  obtain ⟨before, key, after, h1, h2, h3⟩ := List.findSome?_eq_some_iff.1 h
  refine ⟨key, ⟨before, after, h1, by simp [h2], ?_⟩, h2⟩
  intro k hk
  simp [h3 k hk]

theorem forall₂_lookup {β γ : Type} (R : List String → List γ → Prop) (names : List (String × List String))
    (cols : List (String × List γ)) (h : List.Forall₂ (fun nk nc => nc.1 = nk.1 ∧ R nk.2 nc.2) names cols)
    (hnd : (names.map Prod.fst).Nodup) (nk : String × List String) (hmem : nk ∈ names) :
    ∃ col, cols.lookup nk.1 = some col ∧ R nk.2 col := by
  induction h with
  | nil => cases hmem
  | @cons a c names cols h1 h2 ih =>
    obtain ⟨c1, c2⟩ := c
    rw [List.map_cons, List.nodup_cons] at hnd
    obtain ⟨h3, h4⟩ := h1
    dsimp only at h3 h4
    subst h3
    rw [List.lookup_cons]
    rcases List.mem_cons.1 hmem with rfl | hmem
    · rw [beq_self_eq_true]
      exact ⟨c2, rfl, h4⟩
    · have : nk.1 ≠ a.1 := by
        intro he
        exact hnd.1 (List.mem_map.2 ⟨nk, hmem, he⟩)
      rw [beq_false_of_ne this]
      exact ih hnd.2 hmem

theorem pickColumns_spec {β : Type} (names : List (String × List String)) (raw cols : Columns β)
    (hnd : (names.map Prod.fst).Nodup) (h : pickColumns names raw = .ok cols) (nk : String × List String) (hmem : nk ∈ names) :
    ∃ key col, Spec.FirstOf (fun k => (raw.lookup k).isSome) nk.2 key ∧ raw.lookup key = some col ∧
      cols.lookup nk.1 = some col := by
  have h2 := (mapM_except _ _ _).1 h
  obtain ⟨col, h3, key, h4, h5⟩ := forall₂_lookup (β := β)
    (fun keys col => ∃ key, Spec.FirstOf (fun k => (raw.lookup k).isSome) keys key ∧ raw.lookup key = some col) names cols
    (h2.imp (by
      rintro ⟨n, keys⟩ nc hnc
      dsimp only at hnc
      cases hf : keys.findSome? (fun k => raw.lookup k) with
      | none => rw [hf] at hnc; cases hnc
      | some col =>
        rw [hf] at hnc
        cases hnc
        exact ⟨rfl, findSome_first raw keys col hf⟩)) hnd nk hmem
  exact ⟨key, col, h4, h5, h3⟩

section csv
variable {T α : Type}

theorem csvColumns_keys (s : CsvStation T α) (fields : List String) (rows : List (List String))
    (cols : Columns (StationCell T α)) (h : csvColumns s fields rows = .ok cols) (key : String) :
    (cols.lookup key).isSome = true ↔ key ∈ fields := by
  unfold csvColumns at h
  rw [(storeRows_spec _ _ _).1 cols h key, lookup_emptyColumns]
  by_cases hk : key ∈ fields <;> simp [hk]

/-- What a station's file has to say about a variable: the values of the first known column. -/
theorem C112_csv_variables (s : CsvStation T α) (names : List (String × List String)) (hnames : (names.map Prod.fst).Nodup)
    (fields : List String) (rows : List (List String)) (hnd : fields.Nodup) (htime : fields.head? = some s.timeKey)
    (cols : Columns (StationCell T α)) (h : (csvColumns s fields rows).bind (pickColumns names) = .ok cols)
    (name : String) (keys : List String) (hmem : (name, keys) ∈ names) :
    ∃ key col, Spec.FirstOf (· ∈ fields) keys key ∧ cols.lookup name = some col ∧
      List.Forall₂ (fun r x => ∃ v, (key, v) ∈ fields.zip r ∧ Spec.CsvCell s key v x) (Spec.timedRows s rows) col := by
  cases hc : csvColumns s fields rows with
  | error e => rw [hc] at h; cases h
  | ok raw =>
    rw [hc] at h
    obtain ⟨key, col, ⟨before, after, h1, h2, h3⟩, h4, h5⟩ := pickColumns_spec names raw cols hnames h (name, keys) hmem
    simp only [csvColumns_keys s fields rows raw hc] at h2 h3
    obtain ⟨col', h6, h7⟩ := C112_csv_columns s fields rows hnd htime raw hc key h2
    rw [h4] at h6
    cases h6
    exact ⟨key, col, ⟨before, after, h1, h2, h3⟩, h5, h7⟩

/-- C112 for Galați: all variables have one value for each row, from the column with the English or Romanian title. -/
theorem C112_galati (s : CsvStation T α) (fields : List String) (rows : List (List String)) (hnd : fields.Nodup)
    (htime : fields.head? = some s.timeKey) (cols : Columns (StationCell T α))
    (h : csvFile s galatiNames (fields :: rows) = .ok cols) (name : String) (keys : List String)
    (hmem : (name, keys) ∈ galatiNames) :
    ∃ key col, Spec.FirstOf (· ∈ fields) keys key ∧ cols.lookup name = some col ∧
      List.Forall₂ (fun r x => ∃ v, (key, v) ∈ fields.zip r ∧ Spec.CsvCell s key v x) (Spec.timedRows s rows) col :=
  C112_csv_variables s galatiNames (by decide) fields rows hnd htime cols h name keys hmem

/-- The positions (from 0) of the variables of Lampedusa. -/
def Spec.lampedusaPosition : List (String × ℕ) :=
  [("time", 0), ("air_temperature", 3), ("relative_humidity", 4), ("air_pressure", 6), ("wind_speed", 7), ("wind_direction", 8),
   ("rainfall_rate", 11)]

/-- C112 for Lampedusa: the variables are the fields at these positions. -/
theorem C112_lampedusa (s : CsvStation T α) (hs : s.timeKey = "time") (rows : List (List String))
    (cols : Columns (StationCell T α)) (h : lampedusa s rows = .ok cols) (name : String) (j : ℕ)
    (hmem : (name, j) ∈ Spec.lampedusaPosition) :
    ∃ col, cols.lookup name = some col ∧
      List.Forall₂ (fun r x => ∃ (v : String) (key : String), r[j]? = some v ∧ (key = "time" ↔ j = 0) ∧ Spec.CsvCell s key v x)
        (Spec.timedRows s rows) col := by
  have key : ∀ (k : String), (name, [k]) ∈ lampedusaNames → lampedusaFields[j]? = some k → (k = "time" ↔ j = 0) →
      ∃ col, cols.lookup name = some col ∧
      List.Forall₂ (fun r x => ∃ (v : String) (key : String), r[j]? = some v ∧ (key = "time" ↔ j = 0) ∧ Spec.CsvCell s key v x)
        (Spec.timedRows s rows) col := by
    intro k hk hj hk0
    obtain ⟨key, col, ⟨before, after, h1, -, -⟩, h2, h3⟩ := C112_csv_variables s lampedusaNames (by decide) lampedusaFields rows
      (by decide) (by rw [hs]; rfl) cols h name [k] hk
    have hkk : key = k := by
      cases before with
      | nil => cases h1; rfl
      | cons b bs =>
        have := congrArg List.length h1
        simp at this
    subst hkk
    refine ⟨col, h2, h3.imp ?_⟩
    rintro r x ⟨v, hv, hx⟩
    refine ⟨v, key, ?_, hk0, hx⟩
    obtain ⟨i, hi⟩ := List.mem_iff_getElem?.1 hv
    rw [List.getElem?_zip_eq_some] at hi
    have hij : i = j := by
      have hlt : i < lampedusaFields.length := (List.getElem?_eq_some_iff.1 hi.1).1
      exact (List.getElem?_inj hlt (by decide : lampedusaFields.Nodup)).1 (hi.1.trans hj.symm)
    rw [← hij]
    exact hi.2
  simp only [Spec.lampedusaPosition, List.mem_cons, List.not_mem_nil, or_false, Prod.mk.injEq] at hmem
  rcases hmem with ⟨rfl, rfl⟩ | ⟨rfl, rfl⟩ | ⟨rfl, rfl⟩ | ⟨rfl, rfl⟩ | ⟨rfl, rfl⟩ | ⟨rfl, rfl⟩ | ⟨rfl, rfl⟩
  · exact key "time" (by decide) rfl (by decide)
  · exact key "T" (by decide) rfl (by decide)
  · exact key "RH" (by decide) rfl (by decide)
  · exact key "P" (by decide) rfl (by decide)
  · exact key "WSi" (by decide) rfl (by decide)
  · exact key "WDi" (by decide) rfl (by decide)
  · exact key "rain1m" (by decide) rfl (by decide)

/-- The data rows of all files with a time, each with the titles of its file. -/
noncomputable def Spec.allRows (s : CsvStation T α) (files : List (List (List String))) : List (List String × List String) :=
  files.flatMap fun f => (Spec.timedRows s f.tail).map fun r => (f.headD [], r)

theorem pickColumns_names {β : Type} (names : List (String × List String)) (raw cols : Columns β)
    (h : pickColumns names raw = .ok cols) : cols.map Prod.fst = names.map Prod.fst := by
  have h2 := (mapM_except _ _ _).1 h
  clear h
  induction h2 with
  | nil => rfl
  | @cons a c names cols h1 h2 ih =>
    rw [List.map_cons, List.map_cons, ih]
    congr 1
    cases hf : a.2.findSome? (fun k => raw.lookup k) with
    | none => rw [hf] at h1; cases h1
    | some col => rw [hf] at h1; cases h1; rfl

theorem kenttarova_fold (s : CsvStation T α) (files : List (List (List String)))
    (hfile : ∀ f ∈ files, ∀ fields rows, f = fields :: rows → fields.Nodup ∧ fields.head? = some s.timeKey)
    (done : List (List String × List String)) (acc cols : Columns (StationCell T α)) (name key : String)
    (hmem : (name, [key]) ∈ kenttarovaNames)
    (hacc : (acc = [] ∧ done = []) ∨ (acc ≠ [] ∧ ∃ col, acc.lookup name = some col ∧
      List.Forall₂ (fun fr x => ∃ v, (key, v) ∈ fr.1.zip fr.2 ∧ Spec.CsvCell s key v x) done col))
    (h : files.foldlM (fun merged rows => (csvFile s kenttarovaNames rows).map (mergeColumns merged)) acc = .ok cols) :
    (cols = [] ∧ files = [] ∧ done = []) ∨ (∃ col, cols.lookup name = some col ∧
      List.Forall₂ (fun fr x => ∃ v, (key, v) ∈ fr.1.zip fr.2 ∧ Spec.CsvCell s key v x) (done ++ Spec.allRows s files) col) := by
  induction files generalizing done acc with
  | nil =>
    cases h
    rcases hacc with ⟨h1, h2⟩ | ⟨-, col, h1, h2⟩
    · exact Or.inl ⟨h1, rfl, h2⟩
    · right
      refine ⟨col, h1, ?_⟩
      simpa [Spec.allRows] using h2
  | cons f files ih =>
    right
    rw [List.foldlM_cons] at h
    cases hf : csvFile s kenttarovaNames f with
    | error e => rw [hf] at h; cases h
    | ok data =>
      rw [hf] at h
      change files.foldlM (fun merged rows => (csvFile s kenttarovaNames rows).map (mergeColumns merged)) (mergeColumns acc data) =
        .ok cols at h
      cases f with
      | nil => cases hf
      | cons fields rows =>
        obtain ⟨hnd, ht⟩ := hfile _ (by simp) fields rows rfl
        obtain ⟨k, col, ⟨before, after, e1, -, -⟩, e2, e3⟩ := C112_csv_variables s kenttarovaNames (by decide) fields rows hnd ht
          data hf name [key] hmem
        have hkk : k = key := by
          cases before with
          | nil => cases e1; rfl
          | cons b bs =>
            have := congrArg List.length e1
            simp at this
        subst hkk
        have hdata : data ≠ [] := by
          rintro rfl
          cases e2
        have hrows : List.Forall₂ (fun (fr : List String × List String) x => ∃ v, (k, v) ∈ fr.1.zip fr.2 ∧ Spec.CsvCell s k v x)
            ((Spec.timedRows s rows).map fun r => (fields, r)) col := by
          rw [List.forall₂_map_left_iff]; exact e3
        have hne : mergeColumns acc data ≠ [] := by
          unfold mergeColumns
          split
          · exact hdata
          · rename_i hne
            intro hc
            rw [List.map_eq_nil_iff] at hc
            rw [hc] at hne
            exact hne rfl
        rcases ih (fun f hf => hfile f (by simp [hf])) (done ++ (Spec.timedRows s rows).map fun r => (fields, r))
            (mergeColumns acc data) (by
          right
          refine ⟨hne, ?_⟩
          rcases hacc with ⟨rfl, rfl⟩ | ⟨hacc1, col0, hacc2, hacc3⟩
          · exact ⟨col, by simpa [mergeColumns] using e2, by simpa using hrows⟩
          · refine ⟨col0 ++ col, ?_, List.rel_append hacc3 hrows⟩
            unfold mergeColumns
            rw [if_neg (by simpa using hacc1)]
            have : ∀ (l : Columns (StationCell T α)), (l.map fun kv => (kv.1, kv.2 ++ (data.lookup kv.1).getD [])).lookup name =
                (l.lookup name).map fun c => c ++ (data.lookup name).getD [] := by
              intro l
              induction l with
              | nil => rfl
              | cons kv l ih =>
                rw [List.map_cons, List.lookup_cons, List.lookup_cons, ih]
                by_cases he : name = kv.1
                · rw [he, beq_self_eq_true]; rfl
                · rw [beq_false_of_ne he]
            rw [this acc, hacc2, e2]
            rfl) h with ⟨h1, h2, h3⟩ | ⟨c, h1, h2⟩
        · -- nothing left: the accumulator is not empty
          subst h2
          cases h
          exact absurd h1 hne
        · refine ⟨c, h1, ?_⟩
          have : Spec.allRows s ((fields :: rows) :: files) =
              ((Spec.timedRows s rows).map fun r => (fields, r)) ++ Spec.allRows s files := by
            simp [Spec.allRows]
          rw [this, ← List.append_assoc]
          exact h2

/-- C112 for Kenttärova: the variables have one value for each row with a time of all files, file by file. -/
theorem C112_kenttarova (s : CsvStation T α) (files : List (List (List String))) (hne : files ≠ [])
    (hfile : ∀ f ∈ files, ∀ fields rows, f = fields :: rows → fields.Nodup ∧ fields.head? = some s.timeKey)
    (cols : Columns (StationCell T α)) (h : kenttarova s files = .ok cols) (name key : String)
    (hmem : (name, [key]) ∈ kenttarovaNames) :
    ∃ col, cols.lookup name = some col ∧
      List.Forall₂ (fun fr x => ∃ v, (key, v) ∈ fr.1.zip fr.2 ∧ Spec.CsvCell s key v x) (Spec.allRows s files) col := by
  rcases kenttarova_fold s files hfile [] [] cols name key hmem (Or.inl ⟨rfl, rfl⟩) h with ⟨-, h1, -⟩ | h1
  · exact absurd h1 hne
  · simpa using h1

end csv

/-! ### Examples -/

/-- Times and numbers written with one digit; `2` stands for a value that is not a number. -/
def digitStation (skip : Bool) (timeKey : String) : CsvStation ℕ ℚ :=
  { timeKey := timeKey, skipBadTime := skip
    time := fun v => if v = "1" then some 1 else if v = "2" then some 2 else none
    number := fun v => if v = "5" then some (some 5) else if v = "7" then some (some 7) else if v = "nan" then some none else none }

example : (csvColumns (digitStation true "t") ["t", "a"] [["1", "5"], [], ["x"], ["2", "oops"]]).toOption.map
    (fun c => (c.lookup "t", c.lookup "a")) =
    some (some [.time 1, .time 2], some [.num (some 5), .num none]) := by decide +kernel

example : (csvColumns (digitStation false "t") ["t", "a"] [["1", "5"], ["x", "7"]]).isOk = false := by decide +kernel

example : ((kenttarova (digitStation true "Read time (UTC+2)")
    [[["Read time (UTC+2)", "Temp 2m (C)", "Humidity 2m (%)", "Pressure (hPa)", "Wind speed (m/s)", "Wind dir (deg)",
        "Precipitation (?)"], ["1", "5", "7", "5", "5", "5", "5"]],
     [["Read time (UTC+2)", "Humidity 2m (%)", "Temp 2m (C)", "Pressure (hPa)", "Wind speed (m/s)", "Wind dir (deg)",
        "Precipitation (?)"], ["-"], ["2", "7", "5", "5", "5", "5", "5"]]]).toOption.bind
    fun c => c.lookup "air_temperature") = some [.num (some 5), .num (some 5)] := by decide +kernel

end Cloudnet
