import Mathlib.Tactic
import Verif.Station.Csv
import Verif.Times.Props
import Verif.Disdro.Props

set_option linter.unusedSimpArgs false

namespace Cloudnet

/-! ## C113, continued: Palaiseau and similar stations, L'Aquila, Cluj-Napoca, Hyytiälä -/

namespace Spec

/-- The text begins with a time stamp like `2023-07-01T00:10:00Z`. -/
def BeginsWithStamp (s : String) : Prop :=
  ∃ stamp rest, s.toList = stamp ++ rest ∧
    List.Forall₂ (fun p c => if p = 'd' then c.isDigit = true else c = p) "dddd-dd-ddTdd:dd:ddZ".toList stamp

/-- A row of data of a station with fixed columns: a time stamp and as many values as variables. -/
def IsFixedRow (s : FixedStation) (row : List String) : Prop :=
  ∃ first values, row = first :: values ∧ BeginsWithStamp first ∧ values.length = s.keys.length

/-- A row of the header. -/
def IsHeaderRow (row : List String) : Prop := ∃ first values, row = first :: values ∧ ¬ BeginsWithStamp first

end Spec

theorem startsWithStamp_iff (s : String) : startsWithStamp s = true ↔ Spec.BeginsWithStamp s := by
  unfold startsWithStamp Spec.BeginsWithStamp
  simp only [Bool.and_eq_true, decide_eq_true_eq]
  generalize "dddd-dd-ddTdd:dd:ddZ".toList = pat
  generalize s.toList = l
  induction pat generalizing l with
  | nil => simp
  | cons c pat ih =>
    cases l with
    | nil =>
      constructor
      · rintro ⟨h, -⟩; simp at h
      · rintro ⟨stamp, rest, h1, h2⟩
        have := congrArg List.length h1
        have := h2.length_eq
        simp at *
        omega
    | cons d l =>
      rw [List.zip_cons_cons, List.all_cons, Bool.and_eq_true, List.length_cons, List.length_cons, Nat.succ_le_succ_iff]
      have : (pat.length ≤ l.length ∧ (if c == 'd' then d.isDigit else d == c) = true ∧
          ((pat.zip l).all fun pc => if pc.1 == 'd' then pc.2.isDigit else pc.2 == pc.1) = true) ↔
          (if c = 'd' then d.isDigit = true else d = c) ∧ ∃ stamp rest, l = stamp ++ rest ∧
            List.Forall₂ (fun p c => if p = 'd' then c.isDigit = true else c = p) pat stamp := by
        rw [← ih l]
        by_cases hc : c = 'd'
        · subst hc; simp; tauto
        · simp [hc]; tauto
      rw [this]
      constructor
      · rintro ⟨h1, stamp, rest, rfl, h2⟩
        exact ⟨d :: stamp, rest, rfl, .cons h1 h2⟩
      · rintro ⟨stamp, rest, h1, h2⟩
        cases h2 with
        | cons h3 h4 =>
          rw [List.cons_append, List.cons.injEq] at h1
          obtain ⟨rfl, rfl⟩ := h1
          exact ⟨h3, _, _, rfl, h4⟩

section
variable {T α : Type}

/-- What a row of data says. -/
def Spec.IsFixedRecord (time : String → Option T) (number : String → Option (Option α)) (row : List String)
    (r : T × List (Option α)) : Prop :=
  ∃ first values, row = first :: values ∧ time first = some r.1 ∧ List.Forall₂ (fun v x => number v = some x) values r.2

open Classical in
theorem fixedFold (s : FixedStation) (time : String → Option T) (number : String → Option (Option α)) (rows : List (List String))
    (st st' : FixedState T α) (h : rows.foldlM (fixedRow s time number) st = .ok st') :
    (∃ new, st'.2 = st.2 ++ new ∧
      List.Forall₂ (Spec.IsFixedRecord time number) (rows.filter fun r => decide (Spec.IsFixedRow s r)) new) ∧
    (∃ hd, st'.1 = st.1 ++ hd ∧ (st.1.Nodup → st'.1.Nodup) ∧
      hd.Sublist ((rows.filter fun r => decide (Spec.IsHeaderRow r)).map String.join) ∧
      ∀ r ∈ rows, Spec.IsHeaderRow r → String.join r ∈ st'.1) := by
  induction rows generalizing st with
  | nil =>
    cases h
    exact ⟨⟨[], by simp, .nil⟩, ⟨[], by simp, id, by simp, by simp⟩⟩
  | cons row rows ih =>
    rw [List.foldlM_cons] at h
    cases hf : fixedRow s time number st row with
    | error e => rw [hf] at h; cases h
    | ok st1 =>
      rw [hf] at h
      obtain ⟨⟨new, h1, h2⟩, ⟨hd, h3, h4, h5, h6⟩⟩ := ih st1 h
      unfold fixedRow at hf
      cases row with
      | nil =>
        cases hf
        have g1 : ¬ Spec.IsFixedRow s [] := by rintro ⟨_, _, h, -⟩; cases h
        have g2 : ¬ Spec.IsHeaderRow [] := by rintro ⟨_, _, h, -⟩; cases h
        rw [List.filter_cons, List.filter_cons]
        simp only [g1, g2, decide_false, Bool.false_eq_true, if_false]
        refine ⟨⟨new, h1, h2⟩, ⟨hd, h3, h4, h5, ?_⟩⟩
        intro r hr hh
        rcases List.mem_cons.1 hr with rfl | hr
        · exact absurd hh g2
        · exact h6 r hr hh
      | cons first values =>
        dsimp only at hf
        by_cases hs : startsWithStamp first = true
        · rw [if_pos hs] at hf
          have hsp := (startsWithStamp_iff first).1 hs
          have g2 : ¬ Spec.IsHeaderRow (first :: values) := by
            rintro ⟨_, _, he, hn⟩
            cases he
            exact hn hsp
          by_cases hl : values.length = s.keys.length
          · rw [if_neg (not_not.2 hl)] at hf
            have g1 : Spec.IsFixedRow s (first :: values) := ⟨first, values, rfl, hsp, hl⟩
            cases ht : time first with
            | none => rw [ht] at hf; cases hf
            | some t =>
              cases hm : values.mapM number with
              | none => rw [ht, hm] at hf; cases hf
              | some xs =>
                rw [ht, hm] at hf
                cases hf
                rw [List.filter_cons, List.filter_cons]
                simp only [g1, g2, decide_true, decide_false, Bool.false_eq_true, if_false, if_true]
                refine ⟨⟨(t, xs) :: new, by rw [h1]; simp, .cons ⟨first, values, rfl, ht, (mapM_forall₂ _ _ _).1 hm⟩ h2⟩,
                  ⟨hd, h3, h4, h5, ?_⟩⟩
                intro r hr hh
                rcases List.mem_cons.1 hr with rfl | hr
                · exact absurd hh g2
                · exact h6 r hr hh
          · rw [if_pos hl] at hf
            cases hf
            have g1 : ¬ Spec.IsFixedRow s (first :: values) := by
              rintro ⟨_, _, he, -, hn⟩
              cases he
              exact hl hn
            rw [List.filter_cons, List.filter_cons]
            simp only [g1, g2, decide_false, Bool.false_eq_true, if_false]
            refine ⟨⟨new, h1, h2⟩, ⟨hd, h3, h4, h5, ?_⟩⟩
            intro r hr hh
            rcases List.mem_cons.1 hr with rfl | hr
            · exact absurd hh g2
            · exact h6 r hr hh
        · rw [if_neg hs] at hf
          have hsp : ¬ Spec.BeginsWithStamp first := fun hc => hs ((startsWithStamp_iff first).2 hc)
          have g1 : ¬ Spec.IsFixedRow s (first :: values) := by
            rintro ⟨_, _, he, hn, -⟩
            cases he
            exact hsp hn
          have g2 : Spec.IsHeaderRow (first :: values) := ⟨first, values, rfl, hsp⟩
          rw [List.filter_cons, List.filter_cons]
          simp only [g1, g2, decide_true, decide_false, Bool.false_eq_true, if_false, if_true, List.map_cons]
          by_cases hin : String.join (first :: values) ∈ st.1
          · rw [if_pos hin] at hf
            cases hf
            refine ⟨⟨new, h1, h2⟩, ⟨hd, h3, h4, h5.cons _, ?_⟩⟩
            intro r hr hh
            rcases List.mem_cons.1 hr with rfl | hr
            · rw [h3]; exact List.mem_append_left _ hin
            · exact h6 r hr hh
          · rw [if_neg hin] at hf
            cases hf
            refine ⟨⟨new, h1, h2⟩, ⟨String.join (first :: values) :: hd, by rw [h3]; simp, ?_, h5.cons_cons _, ?_⟩⟩
            · intro hnd
              refine h4 ?_
              rw [List.nodup_append]
              refine ⟨hnd, by simp, ?_⟩
              intro a ha b hb
              rw [List.mem_singleton] at hb
              rintro rfl
              rw [hb] at ha
              exact hin ha
            · intro r hr hh
              rcases List.mem_cons.1 hr with rfl | hr
              · rw [h3]; simp
              · exact h6 r hr hh

open Classical in
/-- **C113** for Palaiseau and similar stations. There is one record for each row of data, in order, and all of its values are
numbers. The different titles of the columns are the expected ones, in order. -/
theorem C113_fixed (s : FixedStation) (time : String → Option T) (number : String → Option (Option α))
    (rows : List (List String)) (out : List (T × List (Option α))) (h : fixedRead s time number rows = .ok out) :
    List.Forall₂ (Spec.IsFixedRecord time number) (rows.filter fun r => decide (Spec.IsFixedRow s r)) out ∧
    ∃ titles : List String, titles.Nodup ∧
      titles.Sublist ((rows.filter fun r => decide (Spec.IsHeaderRow r)).map String.join) ∧
      (∀ r ∈ rows, Spec.IsHeaderRow r → "Col.".toList <:+: (String.join r).toList → String.join r ∈ titles) ∧
      (∀ t ∈ titles, "Col.".toList <:+: t.toList) ∧
      List.Forall₂ (fun t identifier => identifier.toList <:+: t.toList) titles s.identifiers := by
  unfold fixedRead at h
  cases hf : rows.foldlM (fixedRow s time number) ([], []) with
  | error e => rw [hf] at h; cases h
  | ok st =>
    rw [hf] at h
    dsimp only [Except.bind] at h
    split at h
    · rename_i hv
      cases h
      obtain ⟨⟨new, h1, h2⟩, ⟨hd, h3, h4, h5, h6⟩⟩ := fixedFold s time number rows _ st hf
      rw [List.nil_append] at h1 h3
      rw [h1]
      refine ⟨h2, st.1.filter (hasPart "Col."), (h4 List.nodup_nil).filter _, ?_, ?_, ?_, ?_⟩
      · rw [h3]
        exact List.filter_sublist.trans h5
      · intro r hr hh hp
        rw [List.mem_filter]
        exact ⟨h6 r hr hh, by simpa [hasPart] using hp⟩
      · intro t ht
        simpa [hasPart] using (List.mem_filter.1 ht).2
      · unfold validHeader at hv
        simp only [Bool.and_eq_true, beq_iff_eq] at hv
        obtain ⟨hlen, hall⟩ := hv
        generalize st.1.filter (hasPart "Col.") = ts at hlen hall
        generalize s.identifiers = ids at hlen hall
        clear h6 h5 h4 h3 h2 h1 hf
        induction ts generalizing ids with
        | nil =>
          cases ids with
          | nil => exact .nil
          | cons => simp at hlen
        | cons t ts ih =>
          cases ids with
          | nil => simp at hlen
          | cons i ids =>
            rw [List.zip_cons_cons, List.all_cons, Bool.and_eq_true] at hall
            exact .cons (by simpa [hasPart] using hall.1) (ih ids (by simpa using hlen) hall.2)
    · cases h

theorem fixedRow_error (s : FixedStation) (time : String → Option T) (number : String → Option (Option α)) (st : FixedState T α)
    (row : List String) (e : String) :
    fixedRow s time number st row = .error e ↔
      e = "ValueError" ∧ Spec.IsFixedRow s row ∧ ∀ r, ¬ Spec.IsFixedRecord time number row r := by
  unfold fixedRow
  cases row with
  | nil =>
    constructor
    · intro h; cases h
    · rintro ⟨-, ⟨_, _, h, -⟩, -⟩; cases h
  | cons first values =>
    dsimp only
    by_cases hs : startsWithStamp first = true
    · rw [if_pos hs]
      by_cases hl : values.length = s.keys.length
      · rw [if_neg (not_not.2 hl)]
        have g1 : Spec.IsFixedRow s (first :: values) := ⟨first, values, rfl, (startsWithStamp_iff first).1 hs, hl⟩
        cases ht : time first with
        | none =>
          constructor
          · intro h
            cases h
            refine ⟨rfl, g1, ?_⟩
            rintro r ⟨_, _, he, h1, -⟩
            cases he
            rw [ht] at h1; cases h1
          · rintro ⟨rfl, -⟩; rfl
        | some t =>
          cases hm : values.mapM number with
          | none =>
            constructor
            · intro h
              cases h
              refine ⟨rfl, g1, ?_⟩
              rintro r ⟨_, _, he, -, h1⟩
              cases he
              rw [(mapM_forall₂ _ _ _).2 h1] at hm; cases hm
            · rintro ⟨rfl, -⟩; rfl
          | some xs =>
            constructor
            · intro h; cases h
            · rintro ⟨-, -, h⟩
              exact absurd ⟨first, values, rfl, ht, (mapM_forall₂ _ _ _).1 hm⟩ (h (t, xs))
      · rw [if_pos hl]
        constructor
        · intro h; cases h
        · rintro ⟨-, ⟨_, _, he, -, hn⟩, -⟩
          cases he
          exact absurd hn hl
    · rw [if_neg hs]
      constructor
      · intro h; split at h <;> cases h
      · rintro ⟨-, ⟨_, _, he, hn, -⟩, -⟩
        cases he
        exact absurd ((startsWithStamp_iff first).2 hn) hs

/-- **C113** for Palaiseau and similar stations. A row of data with a value that cannot be read makes the whole reading fail, and
apart from that only the titles can. -/
theorem C113_fixed_fails (s : FixedStation) (time : String → Option T) (number : String → Option (Option α))
    (rows : List (List String)) :
    fixedRead s time number rows = .error "ValueError" ↔
      ∃ row ∈ rows, Spec.IsFixedRow s row ∧ ∀ r, ¬ Spec.IsFixedRecord time number row r := by
  unfold fixedRead
  have key : ∀ st, (rows.foldlM (fixedRow s time number) st = .error "ValueError" ↔
      ∃ row ∈ rows, Spec.IsFixedRow s row ∧ ∀ r, ¬ Spec.IsFixedRecord time number row r) ∧
      ((∃ st', rows.foldlM (fixedRow s time number) st = .ok st') ∨
        rows.foldlM (fixedRow s time number) st = .error "ValueError") := by
    induction rows with
    | nil => intro st; exact ⟨by simp [pure, Except.pure], .inl ⟨st, rfl⟩⟩
    | cons row rows ih =>
      intro st
      rw [List.foldlM_cons]
      cases hf : fixedRow s time number st row with
      | error e =>
        obtain ⟨rfl, h1, h2⟩ := (fixedRow_error s time number st row e).1 hf
        refine ⟨⟨fun _ => ⟨row, by simp, h1, h2⟩, fun _ => rfl⟩, .inr rfl⟩
      | ok st1 =>
        obtain ⟨i1, i2⟩ := ih st1
        refine ⟨?_, i2⟩
        refine Iff.trans i1 ⟨?_, ?_⟩
        · rintro ⟨r, hr, h⟩; exact ⟨r, by simp [hr], h⟩
        · rintro ⟨r, hr, h1, h2⟩
          rcases List.mem_cons.1 hr with rfl | hr
          · have := (fixedRow_error s time number st r "ValueError").2 ⟨rfl, h1, h2⟩
            rw [hf] at this; cases this
          · exact ⟨r, hr, h1, h2⟩
  obtain ⟨k1, k2⟩ := key ([], [])
  rw [← k1]
  rcases k2 with ⟨st, h⟩ | h
  · rw [h]
    dsimp only [Except.bind]
    constructor
    · intro h
      split at h
      · cases h
      · have := Except.error.inj h
        exact absurd this (by decide)
    · intro h; cases h
  · rw [h]; exact ⟨fun _ => rfl, fun _ => rfl⟩

/-- **C113.** The variables of these stations: the time, and each column but those marked by an underscore. -/
theorem C113_fixed_columns (s : FixedStation) (hs : s ∈ [palaiseau, maido, potenza]) (rows : List (T × List (Option α))) :
    (fixedColumns s rows).lookup "time" = some (rows.map fun r => .time r.1) ∧
    ∀ (j : ℕ) (key : String), s.keys[j]? = some key →
      (fixedColumns s rows).lookup key =
        if key.toList.head? = some '_' then none else some (rows.map fun r => .num ((r.2[j]?).getD none)) := by
  have hk : s.keys.Nodup ∧ "time" ∉ s.keys := by
    simp only [List.mem_cons, List.not_mem_nil, or_false] at hs
    rcases hs with rfl | rfl | rfl <;> decide
  refine ⟨by simp [fixedColumns], ?_⟩
  intro j key hj
  have hkey : key ∈ s.keys := List.mem_of_getElem? hj
  have hne : key ≠ "time" := fun hc => hk.2 (hc ▸ hkey)
  unfold fixedColumns
  rw [List.lookup_cons, beq_false_of_ne hne]
  dsimp only
  have hnd : (((s.keys.zipIdx.filter fun ki => decide (ki.1.toList.head? ≠ some '_')).map
      (fun ki => (ki.1, rows.map fun r => (StationCell.num ((r.2[ki.2]?).getD none) : StationCell T α)))).map Prod.fst).Nodup := by
    rw [List.map_map]
    refine List.Nodup.sublist (List.Sublist.map _ List.filter_sublist) ?_
    have : s.keys.zipIdx.map (Prod.fst ∘ fun ki => (ki.1, rows.map fun r => (StationCell.num ((r.2[ki.2]?).getD none) : StationCell T α)))
        = s.keys := by
      show s.keys.zipIdx.map Prod.fst = s.keys
      rw [List.zipIdx_map_fst]
    rw [this]
    exact hk.1
  by_cases hu : key.toList.head? = some '_'
  · rw [if_pos hu, List.lookup_eq_none_iff]
    intro p hp
    obtain ⟨ki, h1, rfl⟩ := List.mem_map.1 hp
    rw [bne_iff_ne]
    dsimp only
    rintro rfl
    have := (List.mem_filter.1 h1).2
    rw [decide_eq_true_eq] at this
    exact this hu
  · rw [if_neg hu, lookup_nodup _ hnd]
    refine List.mem_map.2 ⟨(key, j), List.mem_filter.2 ⟨?_, by simpa using hu⟩, rfl⟩
    rw [List.mem_zipIdx_iff_getElem?]
    exact hj

/-! ### L'Aquila -/

/-- A row of data of L'Aquila: seven columns, no comment. -/
def Spec.IsLaquilaRow (row : List String) : Prop :=
  row.length = 7 ∧ ∀ first, row.head? = some first → first.toList.head? ≠ some '#'

/-- A value of L'Aquila: blank fields are missing values. -/
def Spec.IsLaquilaValue (number : String → Option (Option α)) (v : String) (x : Option α) : Prop :=
  (pyStrip v = "" ∧ x = none) ∨ (pyStrip v ≠ "" ∧ number (pyStrip v) = some x)

/-- What a row of L'Aquila says. -/
def Spec.IsLaquilaRecord (time : String → Option T) (number : String → Option (Option α)) (row : List String)
    (r : T × List (Option α)) : Prop :=
  ∃ first values, row = first :: values ∧ time first = some r.1 ∧ List.Forall₂ (Spec.IsLaquilaValue number) values r.2

theorem laquilaValue_iff (number : String → Option (Option α)) (v : String) (x : Option α) :
    laquilaValue number v = some x ↔ Spec.IsLaquilaValue number v x := by
  unfold laquilaValue Spec.IsLaquilaValue
  by_cases h : pyStrip v = ""
  · simp [h, eq_comm]
  · simp [h]

open Classical in
/-- **C113** for L'Aquila: the rows are read if all of them can be read, in order. -/
theorem C113_laquila_rows (time : String → Option T) (number : String → Option (Option α)) (rows : List (List String))
    (out : List (T × List (Option α))) :
    laquilaRows time number rows = .ok out ↔
      List.Forall₂ (Spec.IsLaquilaRecord time number) (rows.filter fun r => decide (Spec.IsLaquilaRow r)) out := by
  unfold laquilaRows
  rw [mapM_except]
  have hfil : (rows.filter fun r => !((r.headD "").toList.head? == some '#') && r.length == 7) =
      rows.filter fun r => decide (Spec.IsLaquilaRow r) := by
    refine List.filter_congr fun r _ => ?_
    rw [Bool.eq_iff_iff]
    simp only [Bool.and_eq_true, Bool.not_eq_true', beq_eq_false_iff_ne, beq_iff_eq, decide_eq_true_eq]
    unfold Spec.IsLaquilaRow
    cases r with
    | nil => simp
    | cons a r => simp [and_comm]
  rw [hfil]
  have hmem : ∀ r ∈ rows.filter (fun r => decide (Spec.IsLaquilaRow r)), Spec.IsLaquilaRow r := by
    intro r hr
    simpa using (List.mem_filter.1 hr).2
  generalize rows.filter (fun r => decide (Spec.IsLaquilaRow r)) = l at hmem
  have : ∀ r ∈ l, ∀ (o : T × List (Option α)), (match time (r.headD ""), (r.drop 1).mapM (laquilaValue number) with
    | some t, some xs => (.ok (t, xs) : Except String (T × List (Option α)))
    | _, _ => .error "ValueError") = .ok o ↔ Spec.IsLaquilaRecord time number r o := by
    intro r hr o
    have hlen := (hmem r hr).1
    cases r with
    | nil => cases hlen
    | cons first values =>
      simp only [List.headD_cons, List.drop_one, List.tail_cons]
      unfold Spec.IsLaquilaRecord
      cases ht : time first with
      | none =>
        constructor
        · intro h; cases h
        · rintro ⟨f, vs, he, h1, -⟩
          cases he
          rw [ht] at h1; cases h1
      | some t =>
        cases hm : values.mapM (laquilaValue number) with
        | none =>
          constructor
          · intro h; cases h
          · rintro ⟨f, vs, he, -, h2⟩
            cases he
            rw [(mapM_forall₂ (laquilaValue number) values o.2).2 (h2.imp fun v x hx => (laquilaValue_iff number v x).2 hx)] at hm
            cases hm
        | some xs =>
          constructor
          · intro h
            cases h
            exact ⟨first, values, rfl, ht, ((mapM_forall₂ _ _ _).1 hm).imp fun v x hx => (laquilaValue_iff number v x).1 hx⟩
          · rintro ⟨f, vs, he, h1, h2⟩
            cases he
            rw [ht] at h1
            rw [(mapM_forall₂ (laquilaValue number) values o.2).2 (h2.imp fun v x hx => (laquilaValue_iff number v x).2 hx)] at hm
            cases h1; cases hm
            rfl
  clear hmem hfil
  induction l generalizing out with
  | nil => constructor <;> (intro h; cases h; exact .nil)
  | cons r l ih =>
    cases out with
    | nil => constructor <;> (intro h; cases h)
    | cons o out =>
      rw [List.forall₂_cons, List.forall₂_cons]
      exact and_congr (this r (by simp) o) (ih out fun r hr => this r (List.mem_cons_of_mem _ hr))

/-- **C113** for L'Aquila: of rows with the same time the first one is kept, and the rows are in order of time. -/
theorem C113_laquila [Field α] [LinearOrder α] [IsStrictOrderedRing α] (stamp : T → α) (time : String → Option T)
    (number : String → Option (Option α)) (rows : List (List String)) (out : List (T × List (Option α)))
    (h : laquilaRead stamp time number rows = .ok out) :
    ∃ (rs : List (T × List (Option α))) (kept : List ℕ), laquilaRows time number rows = .ok rs ∧
      List.Forall₂ (fun k r => rs[k]? = some r) kept out ∧
      (∀ k, k ∈ kept ↔ k < rs.length ∧ ∀ i < k, ∀ r r', rs[i]? = some r → rs[k]? = some r' → stamp r.1 ≠ stamp r'.1) ∧
      out.Pairwise fun r r' => stamp r.1 < stamp r'.1 := by
  unfold laquilaRead at h
  cases hr : laquilaRows time number rows with
  | error e => rw [hr] at h; cases h
  | ok rs =>
    rw [hr] at h
    cases h
    obtain ⟨h1, h2⟩ := uniqueIndex_spec rs.length (vec (rs.map fun r => stamp r.1))
    have hlt : ∀ k ∈ uniqueIndex rs.length (vec (rs.map fun r => stamp r.1)), k < rs.length := fun k hk => ((h1 k).1 hk).1
    have hv : ∀ k r, rs[k]? = some r → vec (rs.map fun r => stamp r.1) k = stamp r.1 := by
      intro k r hk
      simp [vec, hk]
    have hF : List.Forall₂ (fun k r => rs[k]? = some r) (uniqueIndex rs.length (vec (rs.map fun r => stamp r.1)))
        ((uniqueIndex rs.length (vec (rs.map fun r => stamp r.1))).filterMap fun i => rs[i]?) := by
      generalize uniqueIndex rs.length (vec (rs.map fun r => stamp r.1)) = l at hlt
      induction l with
      | nil => exact .nil
      | cons k l ih =>
        have hk := hlt k (by simp)
        rw [List.filterMap_cons, List.getElem?_eq_getElem hk]
        exact .cons (List.getElem?_eq_getElem hk) (ih fun k hk => hlt k (by simp [hk]))
    refine ⟨rs, _, rfl, hF, ?_, ?_⟩
    · intro k
      rw [h1]
      refine and_congr_right fun hk => forall_congr' fun i => forall_congr' fun hi => ?_
      rw [hv k rs[k] (List.getElem?_eq_getElem hk), hv i rs[i] (List.getElem?_eq_getElem (by omega))]
      constructor
      · intro h r r' e1 e2
        rw [List.getElem?_eq_getElem (by omega)] at e1
        rw [List.getElem?_eq_getElem hk] at e2
        cases e1; cases e2
        exact h
      · intro h
        exact h _ _ (List.getElem?_eq_getElem (by omega)) (List.getElem?_eq_getElem hk)
    · show List.Pairwise _ ((uniqueIndex rs.length (vec (rs.map fun r => stamp r.1))).filterMap fun i => rs[i]?)
      generalize uniqueIndex rs.length (vec (rs.map fun r => stamp r.1)) = l at hF h2
      generalize (l.filterMap fun i => rs[i]?) = o at hF
      induction hF with
      | nil => exact .nil
      | @cons k r l o g1 g2 ih =>
        rw [List.pairwise_cons] at h2 ⊢
        refine ⟨?_, ih h2.2⟩
        intro r' hr'
        obtain ⟨i, hi⟩ := List.mem_iff_getElem?.1 hr'
        have hlt := (List.getElem?_eq_some_iff.1 hi).1
        have hlt' : i < l.length := by rw [g2.length_eq]; exact hlt
        have := (List.forall₂_iff_get.1 g2).2 i hlt' hlt
        simp only [List.get_eq_getElem] at this
        rw [(List.getElem?_eq_some_iff.1 hi).2] at this
        have h3 := h2.1 _ (List.getElem_mem hlt')
        rw [hv _ _ g1, hv _ _ this] at h3
        exact h3

/-! ### Cluj-Napoca -/

theorem clujFold (headers : List String) (hnd : headers.Nodup) (lines : List String) (d d' : Columns String)
    (h : lines.foldlM (fun d line =>
      if (clujFields line).length ≠ headers.length then
        (.error "ValueError: zip() arguments have different lengths" : Except String (Columns String))
      else storeRow (fun kv => .ok (.append kv.1 kv.2)) (headers.zip (clujFields line)) d) d = .ok d') :
    (∀ line ∈ lines, (clujFields line).length = headers.length) ∧
    ∀ key ∈ headers, ∃ new, d'.lookup key = (d.lookup key).map (· ++ new) ∧
      List.Forall₂ (fun line v => (key, v) ∈ headers.zip (clujFields line)) lines new := by
  induction lines generalizing d with
  | nil =>
    cases h
    exact ⟨by simp, fun key _ => ⟨[], by cases d'.lookup key <;> simp, .nil⟩⟩
  | cons line lines ih =>
    rw [List.foldlM_cons] at h
    by_cases hl : (clujFields line).length = headers.length
    · rw [if_neg (not_not.2 hl)] at h
      cases hr : storeRow (fun kv : String × String => (.ok (.append kv.1 kv.2) : Except String (FieldAction String)))
          (headers.zip (clujFields line)) d with
      | error e => rw [hr] at h; cases h
      | ok d1 =>
        rw [hr] at h
        obtain ⟨h1, h2⟩ := ih d1 h
        refine ⟨by simpa [hl] using h1, ?_⟩
        intro key hkey
        obtain ⟨new, g1, g2⟩ := h2 key hkey
        obtain ⟨v, hv⟩ := exists_zip headers (clujFields line) hl key hkey
        refine ⟨v :: new, ?_, .cons hv g2⟩
        rw [g1, (storeRow_spec _ _ _).1 d1 hr key, takeWhile_all _ _ (by intro x _; rfl)]
        have : (headers.zip (clujFields line)).filterMap
            (cellFor (fun kv : String × String => (.ok (.append kv.1 kv.2) : Except String (FieldAction String))) key) = [v] :=
          filterMap_title (headers.zip (clujFields line)) (by rw [zip_fst _ _ hl]; exact hnd) key v hv (fun v => v)
        rw [this]
        cases d.lookup key <;> simp
    · rw [if_pos hl] at h; cases h

/-- A value of Cluj-Napoca. -/
inductive Spec.ClujCell (time : String → Option T) (number : String → Option (Option α)) : String → String → StationCell T α → Prop
  | time (v : String) (t : T) : time v = some t → ClujCell time number "time" v (.time t)
  | num (name v : String) (x : Option α) : name ≠ "time" → Spec.IsLaquilaValue number v x → ClujCell time number name v (.num x)

theorem clujCell_iff (time : String → Option T) (number : String → Option (Option α)) (name v : String) (x : StationCell T α) :
    clujCell time number name v = .ok x ↔ Spec.ClujCell time number name v x := by
  unfold clujCell
  constructor
  · intro h
    split at h
    · rename_i hn
      subst hn
      cases ht : time v with
      | none => rw [ht] at h; cases h
      | some t => rw [ht] at h; cases h; exact .time v t ht
    · rename_i hn
      cases hv : laquilaValue number v with
      | none => rw [hv] at h; cases h
      | some y => rw [hv] at h; cases h; exact .num name v y hn ((laquilaValue_iff _ _ _).1 hv)
  · intro h
    cases h with
    | time _ t ht => rw [if_pos rfl, ht]
    | num _ _ y hn hv => rw [if_neg hn, (laquilaValue_iff _ _ _).2 hv]

/-- **C113** for Cluj-Napoca: every line has a field for each title, and each variable has one value for each line, the field
below its title. -/
theorem C113_cluj (time : String → Option T) (number : String → Option (Option α)) (first : String) (lines : List String)
    (hnd : (clujFields first).Nodup) (cols : Columns (StationCell T α)) (h : clujRead time number (first :: lines) = .ok cols) :
    (∀ line ∈ lines, (clujFields line).length = (clujFields first).length) ∧
    ∀ name key, (name, [key]) ∈ clujNames → ∃ col, cols.lookup name = some col ∧
      List.Forall₂ (fun line x => ∃ v, (key, v) ∈ (clujFields first).zip (clujFields line) ∧ Spec.ClujCell time number name v x)
        lines col := by
  unfold clujRead at h
  cases ht : clujText (first :: lines) with
  | error e => rw [ht] at h; cases h
  | ok d =>
    rw [ht] at h
    dsimp only [Except.bind] at h
    cases hp : pickColumns clujNames d with
    | error e => rw [hp] at h; cases h
    | ok txt =>
      rw [hp] at h
      dsimp only at h
      obtain ⟨h1, h2⟩ := clujFold (clujFields first) hnd lines _ d ht
      refine ⟨h1, ?_⟩
      intro name key hmem
      obtain ⟨k, col, ⟨before, after, e1, e2, -⟩, e3, e4⟩ := pickColumns_spec clujNames d txt (by decide) hp (name, [key]) hmem
      have hkk : k = key := by
        cases before with
        | nil => cases e1; rfl
        | cons b bs =>
          have := congrArg List.length e1
          simp at this
      subst hkk
      have hkey : k ∈ clujFields first := by
        have hkeys : d.map Prod.fst = (emptyColumns (clujFields first) : Columns String).map Prod.fst := by
          have : ∀ (ls : List String) (d d' : Columns String), ls.foldlM (fun d line =>
              if (clujFields line).length ≠ (clujFields first).length then
                (.error "ValueError: zip() arguments have different lengths" : Except String (Columns String))
              else storeRow (fun kv => .ok (.append kv.1 kv.2)) ((clujFields first).zip (clujFields line)) d) d = .ok d' →
              d'.map Prod.fst = d.map Prod.fst := by
            intro ls
            induction ls with
            | nil => intro d d' h; cases h; rfl
            | cons l ls ih =>
              intro d d' h
              rw [List.foldlM_cons] at h
              split at h
              · cases h
              · cases hs : storeRow (fun kv : String × String => (.ok (.append kv.1 kv.2) : Except String (FieldAction String)))
                    ((clujFields first).zip (clujFields l)) d with
                | error e => rw [hs] at h; cases h
                | ok d1 =>
                  rw [hs] at h
                  rw [ih d1 d' h]
                  obtain ⟨g, -⟩ := storeRow_spec (fun kv : String × String =>
                    (.ok (.append kv.1 kv.2) : Except String (FieldAction String))) ((clujFields first).zip (clujFields l)) d
                  clear g h ih
                  generalize (clujFields first).zip (clujFields l) = items at hs
                  induction items generalizing d with
                  | nil => cases hs; rfl
                  | cons i items ih =>
                    rw [storeRow] at hs
                    dsimp only at hs
                    unfold appendCol at hs
                    split at hs
                    · rw [ih _ hs]
                      unfold appendTo
                      rw [List.map_map]
                      refine List.map_congr_left fun kv _ => ?_
                      simp only [Function.comp]
                      split <;> rfl
                    · cases hs
          exact this lines _ d ht
        have hmemd : k ∈ d.map Prod.fst := by
          by_contra hc
          have : d.lookup k = none := by
            rw [List.lookup_eq_none_iff]
            intro q hq
            rw [bne_iff_ne]
            rintro rfl
            exact hc (List.mem_map.2 ⟨q, hq, rfl⟩)
          rw [this] at e3; cases e3
        rw [hkeys] at hmemd
        obtain ⟨⟨q1, q2⟩, hq, rfl⟩ := List.mem_map.1 hmemd
        by_contra hc
        have hl := lookup_emptyColumns (β := String) (clujFields first) q1
        rw [if_neg hc, List.lookup_eq_none_iff] at hl
        have := hl _ hq
        simp at this
      obtain ⟨new, g1, g2⟩ := h2 k hkey
      rw [lookup_emptyColumns, if_pos hkey, e3] at g1
      simp only [Option.map_some, List.nil_append, Option.some.injEq] at g1
      subst g1
      -- parsing
      have hF := (mapM_except _ _ _).1 h
      have hlook : ∃ xs, cols.lookup name = some xs ∧ col.mapM (clujCell time number name) = .ok xs := by
        clear h hp g2 h2 h1
        induction hF with
        | nil => cases e4
        | @cons kv kx txt cols q1 q2 ih =>
          rw [List.lookup_cons] at e4
          cases hm : kv.2.mapM (clujCell time number kv.1) with
          | error e => rw [hm] at q1; cases q1
          | ok xs =>
            rw [hm] at q1
            cases q1
            rw [List.lookup_cons]
            by_cases hn : name = kv.1
            · subst hn
              rw [beq_self_eq_true] at e4 ⊢
              cases e4
              exact ⟨xs, rfl, hm⟩
            · rw [beq_false_of_ne hn] at e4 ⊢
              exact ih e4
      obtain ⟨xs, hx1, hx2⟩ := hlook
      refine ⟨xs, hx1, ?_⟩
      have hG := (mapM_except _ _ _).1 hx2
      clear hx1 hx2 e4 e3 hF h h2 h1 ht hp
      clear hkey
      induction g2 generalizing xs with
      | nil => cases hG; exact .nil
      | @cons line v lines new q1 q2 ih =>
        cases hG with
        | cons r1 r2 => exact .cons ⟨v, q1, (clujCell_iff _ _ _ _ _).1 r1⟩ (ih _ r2)

/-! ### Hyytiälä -/

/-- What a row of Hyytiälä has below a title: fields may be missing at the end, cannot be read, or are fill values. -/
def Spec.IsHyytialaValue (p : HyytialaParsers T α) (fields : List String) (key : String) (row : List String)
    (x : StationCell T α) : Prop :=
  (∃ (v : String) (y : α), (key, v) ∈ fields.zip row ∧ p.number v = some (some y) ∧ p.isFill y = false ∧ x = .num (some y)) ∨
  ((∀ (v : String) (y : α), (key, v) ∈ fields.zip row → p.number v = some (some y) → p.isFill y = true) ∧ x = .num none)

/-- The time of a row of Hyytiälä. -/
def Spec.IsHyytialaTime (p : HyytialaParsers T α) (fields : List String) (row : List String) (x : StationCell T α) : Prop :=
  ∃ y m d minute t, ("y", y) ∈ fields.zip row ∧ ("m", m) ∈ fields.zip row ∧ ("d", d) ∈ fields.zip row ∧
    ("minute", minute) ∈ fields.zip row ∧ p.time y m d minute = some t ∧ x = .time t

theorem filterMap_only {γ δ : Type} (l : List γ) (f : γ → Option δ) (a : γ) (ha : a ∈ l) (hnd : l.Nodup)
    (h : ∀ b ∈ l, b ≠ a → f b = none) : l.filterMap f = (f a).toList := by
  induction l with
  | nil => cases ha
  | cons b l ih =>
    rw [List.nodup_cons] at hnd
    rw [List.filterMap_cons]
    by_cases hb : b = a
    · subst hb
      have : l.filterMap f = [] := by
        rw [List.filterMap_eq_nil_iff]
        intro c hc
        exact h c (by simp [hc]) fun he => hnd.1 (he ▸ hc)
      rw [this]
      cases f b <;> rfl
    · rw [h b (by simp) hb]
      exact ih ((List.mem_cons.1 ha).resolve_left (Ne.symm hb)) hnd.2 fun c hc hne => h c (by simp [hc]) hne

theorem lookup_option (l : List (Option String × CsvValue)) (hnd : (l.map Prod.fst).Nodup) (key : Option String) (v : CsvValue) :
    l.lookup key = some v ↔ (key, v) ∈ l := by
  induction l with
  | nil => simp
  | cons kv l ih =>
    obtain ⟨a, w⟩ := kv
    rw [List.map_cons, List.nodup_cons] at hnd
    rw [List.lookup_cons, List.mem_cons]
    by_cases he : key = a
    · subst he
      rw [beq_self_eq_true]
      constructor
      · intro h; cases h; exact .inl rfl
      · rintro (h | h)
        · cases h; rfl
        · exact absurd (List.mem_map.2 ⟨_, h, rfl⟩) hnd.1
    · rw [beq_false_of_ne he]
      dsimp only
      rw [ih hnd.2]
      constructor
      · exact .inr
      · rintro (h | h)
        · cases h; exact absurd rfl he
        · exact h

theorem csvDictRow_keys (fields row : List String) (hnd : fields.Nodup) :
    ∃ extra : List (Option String), (csvDictRow fields row).map Prod.fst = fields.map some ++ extra ∧ (extra = [] ∨ extra = [none]) := by
  have hz : (fields.zip row).map Prod.fst = fields.take row.length := by
    clear hnd
    induction fields generalizing row with
    | nil => simp
    | cons a fields ih =>
      cases row with
      | nil => simp
      | cons b row => simpa using ih row
  rw [csvDictRow_nodup fields row hnd]
  refine ⟨if fields.length < row.length then [none] else [], ?_, by split <;> simp⟩
  rw [List.map_append, List.map_append, List.map_map, List.map_map]
  have e1 : (fields.zip row).map (Prod.fst ∘ fun kv => (some kv.1, CsvValue.text kv.2)) = (fields.take row.length).map some := by
    rw [← hz, List.map_map]; rfl
  have e2 : (fields.drop row.length).map (Prod.fst ∘ fun k => (some k, CsvValue.missing)) = (fields.drop row.length).map some := rfl
  rw [e1, e2, ← List.map_append, List.take_append_drop]
  congr 1
  split <;> rfl

theorem csvDictRow_keys_nodup (fields row : List String) (hnd : fields.Nodup) : ((csvDictRow fields row).map Prod.fst).Nodup := by
  obtain ⟨extra, h1, h2⟩ := csvDictRow_keys fields row hnd
  rw [h1, List.nodup_append]
  refine ⟨hnd.map (Option.some_injective _), by rcases h2 with rfl | rfl <;> simp, ?_⟩
  intro a ha b hb
  obtain ⟨k, -, rfl⟩ := List.mem_map.1 ha
  rcases h2 with rfl | rfl
  · cases hb
  · rw [List.mem_singleton] at hb; subst hb; simp

theorem csvDictRow_mem (fields row : List String) (hnd : fields.Nodup) (key : String) (hkey : key ∈ fields) :
    ∃ v, (some key, v) ∈ csvDictRow fields row ∧
      ((∃ w, v = .text w ∧ (key, w) ∈ fields.zip row ∧ ∀ w', (key, w') ∈ fields.zip row → w' = w) ∨
        (v = .missing ∧ ∀ w, (key, w) ∉ fields.zip row)) := by
  have hk := csvDictRow_keys_nodup fields row hnd
  obtain ⟨extra, h1, -⟩ := csvDictRow_keys fields row hnd
  have : some key ∈ (csvDictRow fields row).map Prod.fst := by
    rw [h1]; exact List.mem_append_left _ (List.mem_map.2 ⟨key, hkey, rfl⟩)
  obtain ⟨⟨k, v⟩, hm, hkk⟩ := List.mem_map.1 this
  dsimp only at hkk
  subst hkk
  have hzip : ∀ w, (key, w) ∈ fields.zip row → v = .text w := by
    intro w hw
    have hmem : (some key, CsvValue.text w) ∈ csvDictRow fields row := by
      rw [csvDictRow_nodup fields row hnd]
      exact List.mem_append_left _ (List.mem_append_left _ (List.mem_map.2 ⟨_, hw, rfl⟩))
    have g1 := (lookup_option _ hk _ _).2 hmem
    have g2 := (lookup_option _ hk _ _).2 hm
    rw [g1] at g2; cases g2; rfl
  refine ⟨v, hm, ?_⟩
  rw [csvDictRow_nodup fields row hnd, List.mem_append, List.mem_append] at hm
  rcases hm with (hm | hm) | hm
  · obtain ⟨⟨k, w⟩, hw, he⟩ := List.mem_map.1 hm
    cases he
    refine .inl ⟨w, rfl, hw, fun w' hw' => ?_⟩
    have := hzip w' hw'; cases this; rfl
  · obtain ⟨k, hw, he⟩ := List.mem_map.1 hm
    cases he
    refine .inr ⟨rfl, fun w hw' => ?_⟩
    have := hzip w hw'; cases this
  · split at hm <;> simp at hm

theorem csvText_iff (fields row : List String) (hnd : fields.Nodup) (key v : String) :
    csvText (csvDictRow fields row) key = some v ↔ (key, v) ∈ fields.zip row := by
  have hk := csvDictRow_keys_nodup fields row hnd
  unfold csvText
  constructor
  · intro h
    cases hl : (csvDictRow fields row).lookup (some key) with
    | none => rw [hl] at h; cases h
    | some w =>
      rw [hl] at h
      have hm := (lookup_option _ hk _ _).1 hl
      cases w with
      | missing => cases h
      | rest => cases h
      | text s =>
        cases h
        rw [csvDictRow_nodup fields row hnd, List.mem_append, List.mem_append] at hm
        rcases hm with (hm | hm) | hm
        · obtain ⟨⟨k, w⟩, hw, he⟩ := List.mem_map.1 hm
          cases he
          exact hw
        · obtain ⟨k, hw, he⟩ := List.mem_map.1 hm
          cases he
        · split at hm <;> simp at hm
  · intro h
    have hmem : (some key, CsvValue.text v) ∈ csvDictRow fields row := by
      rw [csvDictRow_nodup fields row hnd]
      exact List.mem_append_left _ (List.mem_append_left _ (List.mem_map.2 ⟨_, h, rfl⟩))
    rw [(lookup_option _ hk _ _).2 hmem]

/-- The cells that a row of Hyytiälä stores. -/
theorem hyytiala_row (p : HyytialaParsers T α) (fields row : List String) (hnd : fields.Nodup) (ht : "time" ∉ fields)
    (key : String) (hkey : key ∈ fields) (name : String) (hname : name = if key = "y" then "time" else key) (hne : key ≠ "")
    (v : CsvValue) (hv : (some key, v) ∈ csvDictRow fields row) :
    ((csvDictRow fields row).map fun kv => (csvDictRow fields row, kv)).filterMap (cellFor (hyytialaAction p) name) =
      (cellFor (hyytialaAction p) name (csvDictRow fields row, (some key, v))).toList := by
  have hk := csvDictRow_keys_nodup fields row hnd
  generalize hrow : csvDictRow fields row = d at *
  refine filterMap_only _ _ _ (List.mem_map.2 ⟨_, hv, rfl⟩) ?_ ?_
  · exact (List.Nodup.of_map _ hk).map fun a b h => (Prod.mk.inj h).2
  · intro b hb hne'
    obtain ⟨⟨k, w⟩, hkw, rfl⟩ := List.mem_map.1 hb
    unfold cellFor hyytialaAction
    cases k with
    | none => rfl
    | some k =>
      dsimp only
      have hkk : k ≠ key := by
        rintro rfl
        have g1 := (lookup_option _ hk _ _).2 hkw
        have g2 := (lookup_option _ hk _ _).2 hv
        rw [g1] at g2
        cases g2
        exact hne' rfl
      have hkf : k ∈ fields := by
        obtain ⟨extra, h1, h2⟩ := csvDictRow_keys fields row hnd
        rw [hrow] at h1
        have : some k ∈ d.map Prod.fst := List.mem_map.2 ⟨_, hkw, rfl⟩
        rw [h1, List.mem_append] at this
        rcases this with h | h
        · obtain ⟨k', h, he⟩ := List.mem_map.1 h
          cases he; exact h
        · rcases h2 with rfl | rfl <;> simp at h
      by_cases h0 : k = ""
      · rw [if_pos h0]
      · rw [if_neg h0]
        by_cases hy : k = "y"
        · rw [if_pos hy]
          cases hyytialaTime p d with
          | none => rfl
          | some t =>
            dsimp only
            rw [if_neg]
            rw [hname]
            subst hy
            rw [if_neg (Ne.symm hkk)]
            rintro rfl
            exact ht hkey
        · rw [if_neg hy]
          dsimp only
          rw [if_neg]
          rw [hname]
          split
          · rintro rfl
            exact ht hkf
          · exact hkk

/-- **C113** for Hyytiälä: each variable has one value for each line that is not blank. The time is made of the year, the month,
the day and the minute; numbers which are missing, cannot be read or are fill values are masked. -/
theorem C113_hyytiala (p : HyytialaParsers T α) (fields : List String) (rows : List (List String)) (hnd : fields.Nodup)
    (ht : "time" ∉ fields) (hy : "y" ∈ fields) (cols : Columns (StationCell T α)) (h : hyytiala p fields rows = .ok cols) :
    (∃ col, cols.lookup "time" = some col ∧
      List.Forall₂ (Spec.IsHyytialaTime p fields) (rows.filter (· ≠ [])) col) ∧
    ∀ name key, (name, [key]) ∈ hyytialaNames → name ≠ "time" → key ∈ fields ∧ ∃ col, cols.lookup name = some col ∧
      List.Forall₂ (Spec.IsHyytialaValue p fields key) (rows.filter (· ≠ [])) col := by
  unfold hyytiala at h
  cases hs : storeRows (hyytialaAction p)
    ((rows.filter (· ≠ [])).map fun r => (csvDictRow fields r).map fun kv => (csvDictRow fields r, kv))
    (emptyColumns (fields ++ ["time"])) with
  | error e => rw [hs] at h; cases h
  | ok raw =>
    rw [hs] at h
    replace h : pickColumns hyytialaNames raw = .ok cols := h
    obtain ⟨g1, g2⟩ := storeRows_spec (hyytialaAction p)
      ((rows.filter (· ≠ [])).map fun r => (csvDictRow fields r).map fun kv => (csvDictRow fields r, kv))
      (emptyColumns (fields ++ ["time"]))
    have hcol := g1 raw hs
    have hacc := g2.1 ⟨raw, hs⟩
    have hstop : ∀ i, isStop (hyytialaAction p) i = false := by
      rintro ⟨d, k, v⟩
      unfold isStop hyytialaAction
      cases k with
      | none => rfl
      | some k =>
        dsimp only
        by_cases h0 : k = ""
        · rw [if_pos h0]
        · rw [if_neg h0]
          by_cases hy : k = "y"
          · rw [if_pos hy]; cases hyytialaTime p d <;> rfl
          · rw [if_neg hy]
    simp only [takeWhile_all _ _ (fun i _ => by rw [hstop i]; rfl : ∀ i ∈ (_ : List _), (!isStop (hyytialaAction p) i) = true)]
      at hcol hacc
    have hpick : ∀ name key, (name, [key]) ∈ hyytialaNames → ∃ col, raw.lookup key = some col ∧ cols.lookup name = some col := by
      intro name key hmem
      obtain ⟨k, col, ⟨before, after, e1, -, -⟩, e3, e4⟩ := pickColumns_spec hyytialaNames raw cols (by decide) h _ hmem
      have : k = key := by
        cases before with
        | nil => cases e1; rfl
        | cons b bs => have := congrArg List.length e1; simp at this
      subst this
      exact ⟨col, e3, e4⟩
    have hrowcol : ∀ (key name : String) (R : List String → StationCell T α → Prop), key ∈ fields → key ≠ "" →
        (name = if key = "y" then "time" else key) →
        (∀ r ∈ rows.filter (· ≠ []), ∀ v, (some key, v) ∈ csvDictRow fields r →
          ∃ x, cellFor (hyytialaAction p) name (csvDictRow fields r, (some key, v)) = some x ∧ R r x) →
        ∀ col, raw.lookup name = some col → List.Forall₂ R (rows.filter (· ≠ [])) col := by
      intro key name R hkey hne hname hR col hc
      rw [hcol name, lookup_emptyColumns] at hc
      have : name ∈ fields ++ ["time"] := by
        rw [hname]; split
        · simp
        · simp [hkey]
      rw [if_pos this] at hc
      simp only [Option.map_some, List.nil_append, Option.some.injEq, List.flatMap_map] at hc
      subst hc
      generalize rows.filter (· ≠ []) = l at hR
      clear hacc hcol g1 g2 hs h
      induction l with
      | nil => exact .nil
      | cons r l ih =>
        rw [List.flatMap_cons]
        obtain ⟨v, hv, -⟩ := csvDictRow_mem fields r hnd key hkey
        obtain ⟨x, hx1, hx2⟩ := hR r (by simp) v hv
        rw [hyytiala_row p fields r hnd ht key hkey name hname hne v hv, hx1]
        exact .cons hx2 (ih fun r hr => hR r (by simp [hr]))
    constructor
    · obtain ⟨col, c1, c2⟩ := hpick "time" "time" (by simp [hyytialaNames])
      refine ⟨col, c2, hrowcol "y" "time" _ hy (by decide) (by simp) ?_ col c1⟩
      intro r hr v hv
      obtain ⟨a, ha, -⟩ := hacc _ (List.mem_map.2 ⟨r, hr, rfl⟩) _ (List.mem_map.2 ⟨_, hv, rfl⟩)
      unfold cellFor
      unfold hyytialaAction at ha ⊢
      simp only [show ("y" = "") = False by simp, if_false, if_true] at ha ⊢
      cases htime : hyytialaTime p (csvDictRow fields r) with
      | none => rw [htime] at ha; cases ha
      | some t =>
        refine ⟨.time t, by simp, ?_⟩
        unfold hyytialaTime at htime
        simp only [Option.bind_eq_some_iff, csvText_iff fields r hnd] at htime
        obtain ⟨y, h1, m, h2, d, h3, mi, h4, h5⟩ := htime
        exact ⟨y, m, d, mi, t, h1, h2, h3, h4, h5, rfl⟩
    · intro name key hmem hn
      obtain ⟨col, c1, c2⟩ := hpick name key hmem
      have hkk : key ≠ "time" ∧ key ≠ "y" ∧ key ≠ "" := by
        simp only [hyytialaNames, List.mem_cons, Prod.mk.injEq, List.cons.injEq, and_true, List.not_mem_nil, or_false] at hmem
        rcases hmem with ⟨rfl, rfl⟩ | ⟨rfl, rfl⟩ | ⟨rfl, rfl⟩ | ⟨rfl, rfl⟩ | ⟨rfl, rfl⟩ | ⟨rfl, rfl⟩ | ⟨rfl, rfl⟩
        · exact absurd rfl hn
        all_goals decide
      have hkf : key ∈ fields := by
        have := hcol key
        rw [c1, lookup_emptyColumns] at this
        by_contra hc
        rw [if_neg (by simp [hc, hkk.1])] at this
        cases this
      refine ⟨hkf, col, c2, hrowcol key key _ hkf hkk.2.2 (by rw [if_neg hkk.2.1]) ?_ col c1⟩
      intro r hr v hv
      refine ⟨.num (hyytialaNumber p v), ?_, ?_⟩
      · unfold cellFor hyytialaAction
        simp only [if_neg hkk.2.2, if_neg hkk.2.1, if_true]
      · obtain ⟨v', hv', hcase⟩ := csvDictRow_mem fields r hnd key hkf
        have hk := csvDictRow_keys_nodup fields r hnd
        have g1 := (lookup_option _ hk _ _).2 hv
        have g2 := (lookup_option _ hk _ _).2 hv'
        rw [g1] at g2
        cases g2
        rcases hcase with ⟨w, rfl, h1, h2⟩ | ⟨rfl, h1⟩
        · unfold hyytialaNumber
          dsimp only
          cases hnum : p.number w with
          | none =>
            refine .inr ⟨?_, by simp⟩
            intro v y hv hy
            rw [h2 v hv, hnum] at hy; cases hy
          | some o =>
            cases o with
            | none =>
              refine .inr ⟨?_, by simp⟩
              intro v y hv hy
              rw [h2 v hv, hnum] at hy; cases hy
            | some y =>
              cases hf : p.isFill y with
              | false => exact .inl ⟨w, y, h1, hnum, hf, by simp [Option.filter, hf]⟩
              | true =>
                refine .inr ⟨?_, by simp [Option.filter, hf]⟩
                intro v y' hv hy
                rw [h2 v hv, hnum] at hy; cases hy; exact hf
        · exact .inr ⟨fun v y hv => absurd hv (h1 v), rfl⟩

end

/-! ### Concrete files -/

/-- A few texts as numbers. -/
def sampleNumber (v : String) : Option (Option ℚ) :=
  if v = "5" then some (some 5) else if v = "7" then some (some 7) else if v = "nan" then some none else none

/-- A few texts as times. -/
def sampleTime (v : String) : Option ℕ := if v.toList.getLast? = some 'Z' then some v.length else if v = "t1" then some 1 else none

example : startsWithStamp "2023-07-01T00:10:00Z" = true ∧ startsWithStamp "2023-07-01T00:10:00" = false := by decide +kernel

example : (fixedRead ⟨["DateTime", "Windspeed(m/s)"], ["wind_speed"]⟩ sampleTime sampleNumber
    [["#", "Col.", "1", ":", "Date", "Time"], ["#", "Col.", "2", ":", "Wind", "speed", "(m/s)"], [],
     ["2023-07-01T00:10:00Z", "5"], ["2023-07-01T00:20:00Z"], ["2023-07-01T00:30:00Z", "7"]]).toOption =
    some [(20, [some 5]), (20, [some 7])] := by decide +kernel

example : (fixedRead ⟨["DateTime", "Windspeed(m/s)"], ["wind_speed"]⟩ sampleTime sampleNumber
    [["#", "Col.", "1", ":", "Wind", "speed", "(m/s)"], ["#", "Col.", "2", ":", "Date", "Time"],
     ["2023-07-01T00:10:00Z", "5"]]).isOk = false := by decide +kernel

example : (fixedColumns potenza [((1 : ℕ), [some (1 : ℚ), some 2, some 3, some 4, some 5, some 6, some 7, some 8])]).lookup
    "wind_direction" = some [.num (some 3)] := by decide +kernel

example : (laquilaRead (fun t : ℕ => (t : ℚ)) (fun v => if v = "t1" then some 1 else if v = "t0" then some 0 else none) sampleNumber
    [["#time", "", "", "", "", "", ""], ["t1", "5", "5", "7", "", "5", "5"], ["t0", "7", "5", "7", "", "5", "5"], ["t1", "7"],
     ["t1", "7", "7", "7", "7", "7", "7"]]).toOption.map (List.map fun r => (r.1, r.2.head?)) =
    some [(0, some (some 7)), (1, some (some 5))] := by decide +kernel

/-- The titles of Cluj-Napoca. -/
def clujTitles : String :=
  "DateTime\tAir_temperature_C\tair_pressure_hPA\trel_humidity_pct\tPrecipitation_mm\tWS_azimuth_ms\tWD_azimuth_deg"

example : (clujFields clujTitles).Nodup := by decide +kernel

example : ((clujRead sampleTime sampleNumber [clujTitles, "t1\t5\t7\t5\t\t5\t5\n"]).toOption.bind fun c => c.lookup "rainfall_rate") =
    some [.num none] := by decide +kernel

/-- **C113 finding.** The last value of a line of Cluj-Napoca, unlike the others, cannot be left out: stripping the line removes
the last tabulator, too, and the whole file is rejected. A blank line has the same effect. -/
theorem C113_cluj_last_value :
    (clujRead sampleTime sampleNumber [clujTitles, "t1\t5\t7\t5\t5\t5\t\n"]).isOk = false ∧
    (clujRead sampleTime sampleNumber [clujTitles, "t1\t5\t7\t5\t5\t\t5\n"]).isOk = true ∧
    (clujRead sampleTime sampleNumber [clujTitles, "t1\t5\t7\t5\t5\t5\t5\n", "\n"]).isOk = false := by decide +kernel

example : ((hyytiala ⟨fun _ _ d mi => if d = "5" then some mi.length else none, sampleNumber, fun x => x = 7⟩
    ["", "y", "m", "d", "minute", "WS/(m/s)", "WD/ds", "Ta/dsC", "RH/pcnt", "Pa/kPa", "AaNRT/mm"]
    [["", "a", "b", "5", "100", "5", "7", "5"], [], ["", "a", "b", "5", "5", "5", "5", "x", "5", "5", "5", "5"]]).toOption.map
    fun c => (c.lookup "time", c.lookup "wind_direction")) =
    some (some [.time 3, .time 1], some [.num none, .num (some 5)]) := by decide +kernel

end Cloudnet
