import Mathlib.Tactic
import Verif.Radiometrics.Records

/-!
Properties C122 (reading files of Radiometrics radiometers) and C123 (combining them).
-/

namespace Cloudnet

variable {α : Type}

namespace Spec

/-- A row is the header of record type `k`, with these columns. -/
def RmHeaderOf (p : RmParsers α) (k : ℤ) (row columns : List String) : Prop :=
  ∃ no, row = "Record" :: "Date/Time" :: no :: columns ∧ p.int no = some k

/-- A row is a header that gives the ranges. -/
def RmRangeHeader (p : RmParsers α) (row ranges : List String) : Prop :=
  ∃ columns, (RmHeaderOf p 10 row columns ∨ RmHeaderOf p 400 row columns) ∧ ranges = columns.filter rmIsRange

/-- The row at position `i` is a record: its type is in a block whose header came before, the values belong to the columns of the last
such header one by one, empty fields do not count. -/
def RmRecordAt (p : RmParsers α) (rows : List (List String)) (i : ℕ) (r : RmRecord) : Prop :=
  ∃ first stamp no rest k names, rows[i]? = some (first :: stamp :: no :: rest) ∧ first ≠ "Record" ∧ p.int no = some k ∧
    r.kind = k / 10 * 10 ∧ k = r.kind + r.idx + 1 ∧ Spec.Last (RmHeaderOf p r.kind) (rows.take i) names ∧
    p.int first = some r.row ∧ rmDatetime p stamp = some r.time ∧
    r.values = names.zip (((first :: stamp :: no :: rest).filter fun v => decide (v ≠ "")).drop 3) ∧
    names.length = (((first :: stamp :: no :: rest).filter fun v => decide (v ≠ "")).drop 3).length

end Spec

/-- C122. The columns of a header that are ranges: digits, a point and digits. -/
theorem C122_range_columns (column : String) :
    rmIsRange column = true ↔ ∃ whole part, column.toList = whole ++ '.' :: part ∧ whole ≠ [] ∧ part ≠ [] ∧
      (∀ c ∈ whole, c.isDigit = true) ∧ ∀ c ∈ part, c.isDigit = true := by
  unfold rmIsRange
  generalize column.toList = l
  constructor
  · intro h
    have hl := List.takeWhile_append_dropWhile (p := Char.isDigit) (l := l)
    dsimp only at h
    split at h
    next part hd =>
      simp only [Bool.and_eq_true, Bool.not_eq_true', List.isEmpty_eq_false_iff, List.all_eq_true] at h
      refine ⟨l.takeWhile Char.isDigit, part, by rw [← hd, hl], h.1.1, h.1.2, ?_, h.2⟩
      intro c hc
      exact List.all_eq_true.1 List.all_takeWhile c hc
    next => cases h
  · rintro ⟨whole, part, rfl, hw, hp, h1, h2⟩
    have ht : (whole ++ '.' :: part).takeWhile Char.isDigit = whole := by
      rw [List.takeWhile_append_of_pos h1, List.takeWhile_cons_of_neg (by decide)]
      simp
    have hd : (whole ++ '.' :: part).dropWhile Char.isDigit = '.' :: part := by
      rw [List.dropWhile_append_of_pos h1, List.dropWhile_cons_of_neg (by decide)]
    simp only [ht, hd]
    simp only [Bool.and_eq_true, Bool.not_eq_true', List.isEmpty_eq_false_iff, List.all_eq_true]
    exact ⟨⟨hw, hp⟩, h2⟩

example : rmIsRange "0.05" = true ∧ rmIsRange "10.00" = true ∧ rmIsRange "Rain" = false ∧ rmIsRange "10." = false ∧ rmIsRange ".5" = false ∧
    rmIsRange "1.0.0" = false := by decide

/-- What has been read after some rows. -/
structure RmRawOk (p : RmParsers α) (rows : List (List String)) (n : ℕ) (st : RmRaw) : Prop where
  columns : ∀ k names, st.columns k = some names ↔ Spec.Last (Spec.RmHeaderOf p k) (rows.take n) names
  ranges : (∀ l, Spec.Last (Spec.RmRangeHeader p) (rows.take n) l → st.ranges = l) ∧
    ((∀ l, ¬ Spec.Last (Spec.RmRangeHeader p) (rows.take n) l) → st.ranges = [])
  rows : Spec.Collected (Spec.RmRecordAt p rows) (List.range n) st.rows

theorem collected_add {L V : Type} {R : L → V → Prop} {ls : List L} {vs : List V} (h : Spec.Collected R ls vs) (l : L) :
    (∀ v, R l v → Spec.Collected R (ls ++ [l]) (vs ++ [v])) ∧ ((∀ v, ¬ R l v) → Spec.Collected R (ls ++ [l]) vs) := by
  induction h with
  | nil => exact ⟨fun v hv => .take hv .nil, fun hv => .skip hv .nil⟩
  | take h _ ih => exact ⟨fun v hv => .take h (ih.1 v hv), fun hv => .take h (ih.2 hv)⟩
  | skip h _ ih => exact ⟨fun v hv => .skip h (ih.1 v hv), fun hv => .skip h (ih.2 hv)⟩

theorem last_none {P X : Type} {R : P → X → Prop} {l : List P} {q : P} (h : ∀ y, ¬ R q y) (x : X) :
    Spec.Last R (l ++ [q]) x ↔ Spec.Last R l x := by
  rw [last_snoc]
  simp [h]

theorem headerOf_data {p : RmParsers α} {k : ℤ} {first : String} {rest : List String} (hf : first ≠ "Record") (y : List String) :
    ¬ Spec.RmHeaderOf p k (first :: rest) y := by
  rintro ⟨no, e, _⟩
  simp only [List.cons.injEq] at e
  exact hf e.1

theorem rmRow_ok (p : RmParsers α) (rows : List (List String)) (n : ℕ) (st st' : RmRaw) (row : List String) (hrow : rows[n]? = some row)
    (h : RmRawOk p rows n st) (e : rmRow p st row = .ok st') : RmRawOk p rows (n + 1) st' := by
  have htake : rows.take (n + 1) = rows.take n ++ [row] := by rw [List.take_add_one, hrow]; rfl
  have hrange : List.range (n + 1) = List.range n ++ [n] := List.range_succ
  unfold rmRow at e
  split at e
  · cases e
  · rename_i first rest
    split at e
    · -- a header
      rename_i hf
      subst hf
      unfold rmHeader at e
      split at e
      · cases e
      · rename_i title rest'
        split at e
        · cases e
        · rename_i htitle
          rw [not_not] at htitle
          subst htitle
          split at e
          · cases e
          · rename_i no columns
            split at e
            · cases e
            · rename_i k hk
              simp only [Except.ok.injEq] at e
              subst e
              have hH : ∀ j names, Spec.RmHeaderOf p j ("Record" :: "Date/Time" :: no :: columns) names ↔ j = k ∧ names = columns := by
                intro j names
                constructor
                · rintro ⟨no', e, hj⟩
                  simp only [List.cons.injEq, true_and] at e
                  obtain ⟨rfl, rfl⟩ := e
                  rw [hk, Option.some.injEq] at hj
                  exact ⟨hj.symm, rfl⟩
                · rintro ⟨rfl, rfl⟩; exact ⟨no, rfl, hk⟩
              refine ⟨?_, ?_, ?_⟩
              · intro j names
                rw [htake, last_snoc]
                by_cases hj : j = k
                · subst hj
                  simp only [Function.update_self, Option.some.injEq, hH, true_and]
                  constructor
                  · intro h; exact .inl h.symm
                  · rintro (h | ⟨h, _⟩)
                    · exact h.symm
                    · exact absurd rfl (h columns)
                · simp only [Function.update_of_ne hj, hH, hj, false_and, not_false_eq_true, implies_true, true_and, false_or]
                  exact h.columns j names
              · rw [htake]
                have hR : ∀ l, Spec.RmRangeHeader p ("Record" :: "Date/Time" :: no :: columns) l ↔
                    (k = 10 ∨ k = 400) ∧ l = columns.filter rmIsRange := by
                  intro l
                  unfold Spec.RmRangeHeader
                  simp only [hH]
                  constructor
                  · rintro ⟨c, (⟨h1, rfl⟩ | ⟨h1, rfl⟩), rfl⟩
                    · exact ⟨.inl h1.symm, rfl⟩
                    · exact ⟨.inr h1.symm, rfl⟩
                  · rintro ⟨h1 | h1, rfl⟩
                    · exact ⟨columns, .inl ⟨h1.symm, rfl⟩, rfl⟩
                    · exact ⟨columns, .inr ⟨h1.symm, rfl⟩, rfl⟩
                by_cases hk2 : k = 10 ∨ k = 400
                · simp only [hk2, if_true]
                  constructor
                  · intro l hl
                    rw [last_snoc] at hl
                    rcases hl with hl | hl
                    · exact ((hR l).1 hl).2.symm
                    · exact absurd ((hR _).2 ⟨hk2, rfl⟩) (hl.1 _)
                  · intro hl
                    exact absurd ((last_snoc ..).2 (.inl ((hR _).2 ⟨hk2, rfl⟩))) (hl _)
                · simp only [hk2, if_false]
                  have hno : ∀ y, ¬ Spec.RmRangeHeader p ("Record" :: "Date/Time" :: no :: columns) y := fun y hy => hk2 ((hR y).1 hy).1
                  simp only [last_none hno]
                  exact h.ranges
              · rw [hrange]
                refine (collected_add h.rows n).2 ?_
                rintro r ⟨first, stamp, no', rest, k', names, e1, e2, _⟩
                rw [hrow, Option.some.injEq] at e1
                simp only [List.cons.injEq] at e1
                exact e2 e1.1.symm
    · -- a record
      rename_i hf
      have hcol : ∀ j names, Spec.Last (Spec.RmHeaderOf p j) (rows.take (n + 1)) names ↔ Spec.Last (Spec.RmHeaderOf p j) (rows.take n) names := by
        intro j names; rw [htake]; exact last_none (headerOf_data hf) names
      have hno : ∀ y, ¬ Spec.RmRangeHeader p (first :: rest) y := by
        rintro y ⟨c, h | h, _⟩
        · exact headerOf_data hf c h
        · exact headerOf_data hf c h
      have hrg : (∀ l, Spec.Last (Spec.RmRangeHeader p) (rows.take (n + 1)) l → st.ranges = l) ∧
          ((∀ l, ¬ Spec.Last (Spec.RmRangeHeader p) (rows.take (n + 1)) l) → st.ranges = []) := by
        rw [htake]
        simp only [last_none hno]
        exact h.ranges
      unfold rmDataRow at e
      split at e
      · rename_i stamp no rest'
        split at e
        · cases e
        · rename_i k hk
          split at e
          · rename_i hnone
            simp only [Except.ok.injEq] at e
            subst e
            refine ⟨fun j names => by rw [hcol]; exact h.columns j names, hrg, ?_⟩
            rw [hrange]
            refine (collected_add h.rows n).2 ?_
            rintro r ⟨f', s', no', r', k', names, e1, e2, e3, e4, e5, e6, _⟩
            rw [hrow, Option.some.injEq] at e1
            simp only [List.cons.injEq] at e1
            obtain ⟨rfl, rfl, rfl, rfl⟩ := e1
            rw [hk, Option.some.injEq] at e3
            subst e3
            rw [e4, ← h.columns, hnone] at e6
            cases e6
          · rename_i names hnames
            split at e
            · rename_i row t hr1 ht1
              simp only at e
              split at e
              · rename_i hlen
                simp only [Except.ok.injEq] at e
                subst e
                refine ⟨fun j names => by rw [hcol]; exact h.columns j names, hrg, ?_⟩
                rw [hrange]
                refine (collected_add h.rows n).1 _ ?_
                refine ⟨first, stamp, no, rest', k, names, hrow, hf, hk, rfl, ?_, ?_, hr1, ht1, rfl, hlen⟩
                · simp only; ring
                · rw [← h.columns]; exact hnames
              · cases e
            · cases e
      · cases e

theorem rmRows_ok (p : RmParsers α) (rows : List (List String)) (n : ℕ) (st st' : RmRaw) (rest : List (List String)) (hrest : rows.drop n = rest)
    (hn : n ≤ rows.length) (h : RmRawOk p rows n st) (e : rest.foldlM (rmRow p) st = .ok st') : RmRawOk p rows rows.length st' := by
  induction rest generalizing n st with
  | nil =>
    simp only [List.foldlM_nil, pure, Except.pure, Except.ok.injEq] at e
    subst e
    rw [List.drop_eq_nil_iff] at hrest
    have : n = rows.length := by omega
    rw [this] at h
    exact h
  | cons row rest ih =>
    rw [List.foldlM_cons] at e
    cases h1 : rmRow p st row with
    | error e' => rw [h1] at e; cases e
    | ok st1 =>
      rw [h1] at e
      have hget : rows[n]? = some row := by
        rw [← List.head?_drop, hrest]; rfl
      have hlt : n < rows.length := (List.getElem?_eq_some_iff.1 hget).1
      refine ih (n + 1) st1 ?_ (by omega) (rmRow_ok p rows n st st1 row hget h h1) e
      rw [← List.drop_drop, hrest]
      rfl

theorem rowSort_stable (l : List RmRecord) (n : ℤ) :
    (l.insertionSort fun a b => a.row ≤ b.row).filter (fun r => decide (r.row = n)) = l.filter fun r => decide (r.row = n) := by
  have htr : IsTrans RmRecord fun a b => a.row ≤ b.row := ⟨fun a b c => le_trans⟩
  have hto : Std.Total fun a b : RmRecord => a.row ≤ b.row := ⟨fun a b => le_total _ _⟩
  have hsub : (l.filter fun r => decide (r.row = n)).Sublist (l.insertionSort fun a b => a.row ≤ b.row) := by
    refine List.sublist_insertionSort ?_ List.filter_sublist
    refine List.pairwise_of_forall_mem_list ?_
    intro a ha b hb
    simp only [List.mem_filter, decide_eq_true_eq] at ha hb ⊢
    omega
  have hsub2 := hsub.filter fun r => decide (r.row = n)
  rw [List.filter_filter] at hsub2
  simp only [Bool.and_self] at hsub2
  refine (hsub2.eq_of_length ?_).symm
  exact ((List.perm_insertionSort _ l).filter _).length_eq.symm

theorem splitChar_three (c : Char) (text x y z : String) :
    splitChar c text = [x, y, z] ↔ text = x ++ String.singleton c ++ y ++ String.singleton c ++ z ∧
      c ∉ x.toList ∧ c ∉ y.toList ∧ c ∉ z.toList := by
  unfold splitChar
  constructor
  · intro h
    obtain ⟨l, hl, h3⟩ : ∃ l, text.toList.splitOn c = l ∧ l.map String.ofList = [x, y, z] := ⟨_, rfl, h⟩
    have hnm := splitOn_not_mem c text.toList
    have hi := List.intercalate_splitOn (xs := text.toList) c
    rw [hl] at hnm hi
    match l, h3 with
    | [a, b, d], h3 =>
      simp only [List.map_cons, List.map_nil, List.cons.injEq, and_true] at h3
      obtain ⟨rfl, rfl, rfl⟩ := h3
      refine ⟨?_, by simpa using hnm a (by simp), by simpa using hnm b (by simp), by simpa using hnm d (by simp)⟩
      apply String.toList_injective
      rw [← hi]
      simp [List.intercalate]
  · rintro ⟨rfl, h1, h2, h3⟩
    have : (x ++ String.singleton c ++ y ++ String.singleton c ++ z).toList = [c].intercalate [x.toList, y.toList, z.toList] := by
      simp [List.intercalate]
    rw [this, List.splitOn_intercalate _ (by simp [h1, h2, h3]) (by simp)]
    simp

/-- **C122.** A stamp has a date given as month, day and year with `/` between them, and a clock given as hour, minute and second with
`:` between them. Years below 100 are of this century. -/
theorem C122_stamp (p : RmParsers α) (date clock : String) (t : ℤ) : rmStamp p date clock = some t ↔
    ∃ mo d y h mi s : String, ∃ month day year hour minute second : ℤ,
      date = mo ++ "/" ++ d ++ "/" ++ y ∧ '/' ∉ mo.toList ∧ '/' ∉ d.toList ∧ '/' ∉ y.toList ∧
      clock = h ++ ":" ++ mi ++ ":" ++ s ∧ ':' ∉ h.toList ∧ ':' ∉ mi.toList ∧ ':' ∉ s.toList ∧
      p.int mo = some month ∧ p.int d = some day ∧ p.int y = some year ∧
      p.int h = some hour ∧ p.int mi = some minute ∧ p.int s = some second ∧
      (year < 100 → p.datetime (2000 + year) month day hour minute second = some t) ∧
      (100 ≤ year → p.datetime year month day hour minute second = some t) := by
  have three : ∀ (c : Char) (text : String) (a b d : ℤ), (splitChar c text).mapM p.int = some [a, b, d] ↔
      ∃ x y z, (text = x ++ String.singleton c ++ y ++ String.singleton c ++ z ∧
        c ∉ x.toList ∧ c ∉ y.toList ∧ c ∉ z.toList) ∧ p.int x = some a ∧ p.int y = some b ∧ p.int z = some d := by
    intro c text a b d
    rw [mapM_option_iff]
    constructor
    · intro h
      obtain ⟨l, hl⟩ : ∃ l, splitChar c text = l := ⟨_, rfl⟩
      rw [hl] at h
      cases h with
      | cons h1 h =>
        cases h with
        | cons h2 h =>
          cases h with
          | cons h3 h =>
            cases h
            exact ⟨_, _, _, (splitChar_three c text _ _ _).1 hl, h1, h2, h3⟩
    · rintro ⟨x, y, z, h, h1, h2, h3⟩
      rw [(splitChar_three c text x y z).2 h]
      exact .cons h1 (.cons h2 (.cons h3 .nil))
  have key : rmStamp p date clock = some t ↔ ∃ month day year hour minute second : ℤ,
      (splitChar '/' date).mapM p.int = some [month, day, year] ∧ (splitChar ':' clock).mapM p.int = some [hour, minute, second] ∧
      p.datetime (if year < 100 then year + 2000 else year) month day hour minute second = some t := by
    unfold rmStamp
    constructor
    · intro h
      split at h
      · next h1 h2 => exact ⟨_, _, _, _, _, _, h1, h2, h⟩
      · cases h
    · rintro ⟨_, _, _, _, _, _, h1, h2, h⟩
      rw [h1, h2]
      exact h
  rw [key]
  constructor
  · rintro ⟨month, day, year, hour, minute, second, h1, h2, h⟩
    obtain ⟨mo, d, y, ⟨e1, n1, n2, n3⟩, i1, i2, i3⟩ := (three _ _ _ _ _).1 h1
    obtain ⟨ho, mi, s, ⟨e2, n4, n5, n6⟩, i4, i5, i6⟩ := (three _ _ _ _ _).1 h2
    refine ⟨mo, d, y, ho, mi, s, month, day, year, hour, minute, second, e1, n1, n2, n3, e2, n4, n5, n6, i1, i2, i3, i4, i5, i6, ?_, ?_⟩
    · intro hy
      rw [if_pos hy, add_comm] at h
      exact h
    · intro hy
      rw [if_neg (by omega)] at h
      exact h
  · rintro ⟨mo, d, y, ho, mi, s, month, day, year, hour, minute, second, e1, n1, n2, n3, e2, n4, n5, n6, i1, i2, i3, i4, i5, i6, c1, c2⟩
    refine ⟨month, day, year, hour, minute, second, (three _ _ _ _ _).2 ⟨mo, d, y, ⟨e1, n1, n2, n3⟩, i1, i2, i3⟩,
      (three _ _ _ _ _).2 ⟨ho, mi, s, ⟨e2, n4, n5, n6⟩, i4, i5, i6⟩, ?_⟩
    by_cases hy : year < 100
    · rw [if_pos hy, add_comm]
      exact c1 hy
    · rw [if_neg hy]
      exact c2 (by omega)

/-- **C122.** A file whose first line mentions retrieval coefficients is of a WVR-1100, any other one is of an MP-3000. -/
theorem C122_reader [Field α] [LinearOrder α] (p : RmParsers α) (firstLine : String) (rows words : List (List String)) :
    ((∃ before after, firstLine = before ++ "RETRIEVAL COEFFICIENTS" ++ after) → rmReadFile p firstLine rows words = rmWvr p words) ∧
    ((¬ ∃ before after, firstLine = before ++ "RETRIEVAL COEFFICIENTS" ++ after) → rmReadFile p firstLine rows words = rmMp p rows) := by
  have key : "RETRIEVAL COEFFICIENTS".toList <:+: firstLine.toList ↔
      ∃ before after, firstLine = before ++ "RETRIEVAL COEFFICIENTS" ++ after := by
    constructor
    · rintro ⟨a, b, h⟩
      refine ⟨String.ofList a, String.ofList b, ?_⟩
      apply String.toList_injective
      rw [← h]
      simp
    · rintro ⟨a, b, rfl⟩
      exact ⟨a.toList, b.toList, by simp⟩
  unfold rmReadFile
  constructor
  · intro h; rw [if_pos (key.2 h)]
  · intro h; rw [if_neg (fun h' => h (key.1 h'))]

/-- **C122.** The records of a file are its rows whose block has had a header, each with the values of its columns, in order of the row
number and otherwise as in the file. The ranges are the columns with a number of the last header of block 10 or 400. -/
theorem C122_raw (p : RmParsers α) (rows : List (List String)) (ranges : List String) (records : List RmRecord)
    (h : rmRawData p rows = .ok (ranges, records)) :
    (∃ raw, Spec.Collected (Spec.RmRecordAt p rows) (List.range rows.length) raw ∧ records.Perm raw ∧
      records.Pairwise (fun a b => a.row ≤ b.row) ∧
      ∀ n : ℤ, records.filter (fun r => decide (r.row = n)) = raw.filter fun r => decide (r.row = n)) ∧
    (∀ l, Spec.Last (Spec.RmRangeHeader p) rows l → ranges = l) ∧
    ((∀ l, ¬ Spec.Last (Spec.RmRangeHeader p) rows l) → ranges = []) := by
  unfold rmRawData at h
  obtain ⟨st, h1, heq⟩ := (except_map_ok ..).1 h
  simp only [Prod.mk.injEq] at heq
  obtain ⟨rfl, rfl⟩ := heq
  have h0 : RmRawOk p rows 0 { columns := fun _ => none, ranges := [], rows := [] } := by
    refine ⟨fun k names => ?_, ⟨fun l hl => ?_, fun _ => rfl⟩, .nil⟩
    · constructor
      · intro h; cases h
      · rintro ⟨pre, q, post, e, _⟩; simp at e
    · obtain ⟨pre, q, post, e, _⟩ := hl; simp at e
  have hok := rmRows_ok p rows 0 _ st rows rfl (by omega) h0 h1
  obtain ⟨g1, g2, g3⟩ := hok
  rw [List.take_length] at g2
  have htr : IsTrans RmRecord fun a b => a.row ≤ b.row := ⟨fun a b c => le_trans⟩
  have hto : Std.Total fun a b : RmRecord => a.row ≤ b.row := ⟨fun a b => le_total _ _⟩
  exact ⟨⟨st.rows, g3, List.perm_insertionSort _ _, List.pairwise_insertionSort _ _, rowSort_stable st.rows⟩, g2⟩

/-- **C122.** A row of a known record type with one empty field too many makes the whole file unreadable. -/
theorem C122_empty_field (p : RmParsers α) (before after : List (List String)) (first stamp no : String) (rest names : List String) (k : ℤ)
    (ranges : List String) (records : List RmRecord) (_ : rmRawData p before = .ok (ranges, records))
    (hf : first ≠ "Record") (hk : p.int no = some k) (hnames : Spec.Last (Spec.RmHeaderOf p (k / 10 * 10)) before names)
    (hlen : (((first :: stamp :: no :: rest).filter fun v => decide (v ≠ "")).drop 3).length ≠ names.length) :
    ∃ e, rmRawData p (before ++ (first :: stamp :: no :: rest) :: after) = .error e := by
  cases hres : rmRawData p (before ++ (first :: stamp :: no :: rest) :: after) with
  | error e => exact ⟨e, rfl⟩
  | ok out =>
    exfalso
    unfold rmRawData at hres
    obtain ⟨st, h1, _⟩ := (except_map_ok ..).1 hres
    rw [List.foldlM_append] at h1
    cases h2 : before.foldlM (rmRow p) { columns := fun _ => none, ranges := [], rows := [] } with
    | error e => rw [h2] at h1; cases h1
    | ok st1 =>
      rw [h2] at h1
      simp only [bind, Except.bind, List.foldlM_cons] at h1
      have h0 : RmRawOk p before 0 { columns := fun _ => none, ranges := [], rows := [] } := by
        refine ⟨fun k names => ?_, ⟨fun l hl => ?_, fun _ => rfl⟩, .nil⟩
        · constructor
          · intro h; cases h
          · rintro ⟨pre, q, post, e, _⟩; simp at e
        · obtain ⟨pre, q, post, e, _⟩ := hl; simp at e
      have hok := rmRows_ok p before 0 _ st1 before rfl (by omega) h0 h2
      have hc := (hok.columns (k / 10 * 10) names).2 (by rw [List.take_length]; exact hnames)
      have herr : ∃ e, rmRow p st1 (first :: stamp :: no :: rest) = .error e := by
        unfold rmRow
        simp only [hf, if_false]
        unfold rmDataRow
        simp only [hk, hc]
        split
        · rw [if_neg (fun h => hlen h.symm)]; exact ⟨_, rfl⟩
        · exact ⟨_, rfl⟩
      obtain ⟨e, he⟩ := herr
      rw [he] at h1
      cases h1

/-- **C122.** A text of a profile with any other character than digits and a decimal point is missing in the profile: negative numbers and
numbers with an exponent are lost. -/
theorem C122_unsigned (p : RmParsers α) (ranges : List String) (r : RmRecord) (xs : List (Option α)) (h : rmFloats p ranges r = .ok xs)
    (j : ℕ) (name text : String) (hj : ranges[j]? = some name) (ht : r.value name = some text)
    (c : Char) (hc : c ∈ text.toList) (hd : c.isDigit = false) (hp : c ≠ '.') : xs[j]? = some none := by
  rw [rmFloats_ok] at h
  have hlt := (List.getElem?_eq_some_iff.1 hj).1
  have hlen := h.length_eq
  have hx : xs[j]? = some (xs[j]'(by omega)) := List.getElem?_eq_getElem _
  have := List.forall₂_iff_get.1 h
  obtain ⟨_, h2⟩ := this
  obtain ⟨text', e1, e2⟩ := h2 j hlt (by omega)
  simp only [List.get_eq_getElem] at e1 e2
  rw [List.getElem?_eq_getElem hlt, Option.some.injEq] at hj
  rw [hj, ht, Option.some.injEq] at e1
  subst e1
  have hn : rmNumeric text = false := by
    unfold rmNumeric
    simp only [Bool.and_eq_false_iff]
    right
    rw [List.all_eq_false]
    exact ⟨c, (List.mem_erase_of_ne hp).2 hc, by simp [hd]⟩
  rw [hn] at e2
  simp only [Bool.false_eq_true, if_false] at e2
  rw [hx, e2]

/-- **C122.** Every time of a file has the liquid water path (in mm) and ten times the water vapour path (in cm) of one record, and of the
other variables the value that is closest in time; relative humidities divided by 100, vapour densities by 1000. A variable is there if it has
a value at all. -/
theorem C122_file [Field α] (p : RmParsers α) (rows : List (List String)) (f : RmFile α) (h : rmMp p rows = .ok f) :
    ∃ records es, rmRawData p rows = .ok (f.ranges, records) ∧
      rmBlocks p f.ranges (fun _ => none) (rmSplit [] records) = .ok es ∧
      List.Forall₂ (fun q o => o.time = q.1 ∧ o.lwp = some q.2.1 ∧ o.iwv = some (q.2.2 * 10) ∧
        (∀ x, o.irt = some x ↔ Spec.RmNearest q.1 (rmIrts es) x) ∧
        (∀ xs, o.temperature = some xs ↔ Spec.RmNearest q.1 (rmTemperatures es) xs) ∧
        (∀ xs, o.relative = some xs ↔ ∃ ys, Spec.RmNearest q.1 (rmRelatives es) ys ∧ xs = ys.map fun y => y.map (· / 100)) ∧
        (∀ xs, o.absolute = some xs ↔ ∃ ys, Spec.RmNearest q.1 (rmAbsolutes es) ys ∧ xs = ys.map fun y => y.map (· / 1000)))
        (rmIntegrateds es) f.rows ∧
      ("irt" ∈ f.keys ↔ rmIrts es ≠ []) ∧ ("temperature" ∈ f.keys ↔ rmTemperatures es ≠ []) ∧
      ("relative_humidity" ∈ f.keys ↔ rmRelatives es ≠ []) ∧ ("absolute_humidity" ∈ f.keys ↔ rmAbsolutes es ≠ []) := by
  unfold rmMp at h
  split at h
  · cases h
  · rename_i ranges records h1
    obtain ⟨es, h2, rfl⟩ := (except_map_ok ..).1 h
    refine ⟨records, es, h1, h2, ?_, ?_, ?_, ?_, ?_⟩
    · rw [List.forall₂_map_right_iff, List.forall₂_same]
      intro q _
      refine ⟨rfl, rfl, rfl, fun x => (C122_closest q.1 (rmIrts es)).1 x, fun x => (C122_closest q.1 (rmTemperatures es)).1 x, ?_, ?_⟩
      · intro xs
        unfold rmOut
        simp only [Option.map_eq_some_iff, (C122_closest q.1 (rmRelatives es)).1]
        constructor
        · rintro ⟨ys, h, rfl⟩; exact ⟨ys, h, rfl⟩
        · rintro ⟨ys, h, rfl⟩; exact ⟨ys, h, rfl⟩
      · intro xs
        unfold rmOut
        simp only [Option.map_eq_some_iff, (C122_closest q.1 (rmAbsolutes es)).1]
        constructor
        · rintro ⟨ys, h, rfl⟩; exact ⟨ys, h, rfl⟩
        · rintro ⟨ys, h, rfl⟩; exact ⟨ys, h, rfl⟩
    all_goals
      unfold rmKeys
      by_cases c1 : rmIrts es = [] <;> by_cases c2 : rmTemperatures es = [] <;> by_cases c3 : rmRelatives es = [] <;>
        by_cases c4 : rmAbsolutes es = [] <;> simp [c1, c2, c3, c4]

/-! ### WVR-1100 -/

namespace Spec

/-- The value of a column in a line; a text with an asterisk is missing. -/
def RmCell (p : RmParsers α) (headers words : List String) (name : String) (x : Option α) : Prop :=
  ∃ j text, 2 ≤ j ∧ headers[j]? = some name ∧ words[j]? = some text ∧
    if '*' ∈ text.toList then x = none else ∃ y, p.float text = some y ∧ x = some y

/-- A line gives a value: it has all columns, it was measured within a degree of the zenith and both brightness temperatures are positive. -/
def RmWvrGood [Field α] [LinearOrder α] (p : RmParsers α) (headers words : List String) (o : RmOut α) : Prop :=
  words.length = headers.length ∧ ∃ date clock rest e a b liq vap, words = date :: clock :: rest ∧ rmStamp p date clock = some o.time ∧
    RmCell p headers words "ELact" (some e) ∧ 89 < e ∧ e < 91 ∧
    RmCell p headers words "TbSky23" (some a) ∧ 0 < a ∧ RmCell p headers words "TbSky31" (some b) ∧ 0 < b ∧
    RmCell p headers words "LiqCM" liq ∧ o.lwp = liq.map (· * 10) ∧ RmCell p headers words "VapCM" vap ∧ o.iwv = vap.map (· * 10) ∧
    o.irt = none ∧ o.temperature = none ∧ o.relative = none ∧ o.absolute = none

end Spec

theorem rmWvrHeader_some (lines : List (List String)) (headers : List String) (rest : List (List String)) :
    rmWvrHeader lines = some (headers, rest) ↔ ∃ before, lines = before ++ headers :: rest ∧
      headers.take 2 = ["date", "time"] ∧ ∀ l ∈ before, l.take 2 ≠ ["date", "time"] := by
  induction lines with
  | nil => simp [rmWvrHeader]
  | cons l ls ih =>
    rw [rmWvrHeader]
    split
    · rename_i hl
      simp only [Option.some.injEq, Prod.mk.injEq]
      constructor
      · rintro ⟨rfl, rfl⟩; exact ⟨[], rfl, hl, by simp⟩
      · rintro ⟨before, e, h1, h2⟩
        cases before with
        | nil => simp only [List.nil_append, List.cons.injEq] at e; exact e
        | cons b bs =>
          simp only [List.cons_append, List.cons.injEq] at e
          exact absurd (by rw [← e.1]; exact hl) (h2 b (by simp))
    · rename_i hl
      rw [ih]
      constructor
      · rintro ⟨before, rfl, h1, h2⟩
        refine ⟨l :: before, rfl, h1, ?_⟩
        intro q hq
        rcases List.mem_cons.1 hq with rfl | hq
        · exact hl
        · exact h2 q hq
      · rintro ⟨before, e, h1, h2⟩
        cases before with
        | nil => simp only [List.nil_append, List.cons.injEq] at e; rw [← e.1] at h1; exact absurd h1 hl
        | cons b bs =>
          simp only [List.cons_append, List.cons.injEq] at e
          exact ⟨bs, e.2, h1, fun q hq => h2 q (by simp [hq])⟩

theorem rmValue_ok (p : RmParsers α) (text : String) (x : Option α) :
    rmValue p text = some x ↔ if '*' ∈ text.toList then x = none else ∃ y, p.float text = some y ∧ x = some y := by
  unfold rmValue
  split
  · simp only [Option.some.injEq]; exact eq_comm
  · simp only [Option.map_eq_some_iff]
    constructor
    · rintro ⟨y, h, rfl⟩; exact ⟨y, h, rfl⟩
    · rintro ⟨y, h, rfl⟩; exact ⟨y, h, rfl⟩

theorem lookup_zip_iff {X : Type} (names : List String) (xs : List X) (hn : names.Nodup) (name : String) (x : X) :
    (names.zip xs).lookup name = some x ↔ ∃ j : ℕ, names[j]? = some name ∧ xs[j]? = some x := by
  induction names generalizing xs with
  | nil => simp
  | cons n ns ih =>
    cases xs with
    | nil => simp
    | cons y ys =>
      rw [List.nodup_cons] at hn
      rw [List.zip_cons_cons, List.lookup_cons]
      by_cases h : name = n
      · subst h
        simp only [beq_self_eq_true, Option.some.injEq]
        constructor
        · rintro rfl; exact ⟨0, rfl, rfl⟩
        · rintro ⟨j, h1, h2⟩
          cases j with
          | zero => simpa using h2
          | succ j =>
            rw [List.getElem?_cons_succ] at h1
            exact absurd (List.mem_of_getElem? h1) hn.1
      · have : (name == n) = false := by simpa using h
        rw [this]
        simp only
        rw [ih ys hn.2]
        constructor
        · rintro ⟨j, h1, h2⟩; exact ⟨j + 1, by simpa using h1, by simpa using h2⟩
        · rintro ⟨j, h1, h2⟩
          cases j with
          | zero => simp only [List.getElem?_cons_zero, Option.some.injEq] at h1; exact absurd h1.symm h
          | succ j => exact ⟨j, by simpa using h1, by simpa using h2⟩

theorem rmCell_iff (p : RmParsers α) (headers rest : List String) (date clock : String) (vs : List (Option α)) (hn : headers.Nodup)
    (hv : rest.mapM (rmValue p) = some vs) (name : String) (x : Option α) :
    ((headers.drop 2).zip vs).lookup name = some x ↔ Spec.RmCell p headers (date :: clock :: rest) name x := by
  rw [lookup_zip_iff _ _ (hn.sublist (List.drop_sublist 2 headers)), mapM_option_iff] at *
  unfold Spec.RmCell
  have hlen := hv.length_eq
  obtain ⟨_, hget⟩ := List.forall₂_iff_get.1 hv
  constructor
  · rintro ⟨j, h1, h2⟩
    obtain ⟨hj, hx⟩ := List.getElem?_eq_some_iff.1 h2
    have := hget j (by omega) hj
    simp only [List.get_eq_getElem, hx] at this
    refine ⟨j + 2, rest[j], by omega, ?_, ?_, (rmValue_ok ..).1 this⟩
    · rw [List.getElem?_drop, Nat.add_comm] at h1; exact h1
    · simp
  · rintro ⟨j, text, hj2, h1, h2, h3⟩
    obtain ⟨j, rfl⟩ := Nat.exists_eq_add_of_le' hj2
    simp only [List.getElem?_cons_succ] at h2
    obtain ⟨hj, ht⟩ := List.getElem?_eq_some_iff.1 h2
    have := hget j hj (by omega)
    simp only [List.get_eq_getElem, ht] at this
    rw [← rmValue_ok, this, Option.some.injEq] at h3
    refine ⟨j, by rw [List.getElem?_drop, Nat.add_comm]; exact h1, ?_⟩
    rw [List.getElem?_eq_getElem (by omega), h3]

theorem rmWvrOut_iff [Field α] [LinearOrder α] [IsStrictOrderedRing α] (p : RmParsers α) (headers line : List String) (hn : headers.Nodup)
    (hlen : line.length = headers.length) (l : RmWvrLine α) (hl : rmWvrLine p headers line = some l) (o : RmOut α) :
    rmWvrOut l = some o ↔ Spec.RmWvrGood p headers line o := by
  unfold rmWvrLine at hl
  split at hl
  · rename_i date clock rest
    split at hl
    · rename_i t vs ht hv
      simp only [Option.some.injEq] at hl
      subst hl
      have hcell := rmCell_iff p headers rest date clock vs hn hv
      unfold rmWvrOut
      simp only
      constructor
      · intro h
        split at h
        · rename_i liq vap el a b g1 g2 g3 g4 g5
          split at h
          · rename_i hvalid
            simp only [Option.some.injEq] at h
            subst h
            unfold rmWvrValid at hvalid
            split at hvalid
            · rename_i e a b
              simp only [Bool.and_eq_true, decide_eq_true_eq] at hvalid
              obtain ⟨⟨v1, v2⟩, v3⟩ := hvalid
              rw [abs_lt] at v1
              exact ⟨hlen, date, clock, rest, e, a, b, liq, vap, rfl, ht, (hcell ..).1 g3, by linarith, by linarith, (hcell ..).1 g4, v2,
                (hcell ..).1 g5, v3, (hcell ..).1 g1, rfl, (hcell ..).1 g2, rfl, rfl, rfl, rfl, rfl⟩
            · cases hvalid
          · cases h
        · cases h
      · rintro ⟨_, d', c', r', e, a, b, liq, vap, e0, e1, e2, e3, e4, e5, e6, e7, e8, e9, e10, e11, e12, e13, e14, e15, e16⟩
        simp only [List.cons.injEq] at e0
        obtain ⟨rfl, rfl, rfl⟩ := e0
        rw [(hcell ..).2 e2, (hcell ..).2 e5, (hcell ..).2 e7, (hcell ..).2 e9, (hcell ..).2 e11]
        have hvalid : rmWvrValid (some e) (some a) (some b) = true := by
          unfold rmWvrValid
          simp only [Bool.and_eq_true, decide_eq_true_eq]
          exact ⟨⟨abs_lt.2 ⟨by linarith, by linarith⟩, e6⟩, e8⟩
        simp only [hvalid, if_true, Option.some.injEq]
        rw [ht, Option.some.injEq] at e1
        obtain ⟨o1, o2, o3, o4, o5, o6, o7⟩ := o
        simp_all
    · cases hl
  · cases hl

/-- **C122.** A file of a WVR-1100 can only be read if it has a line with the headings "date" and "time", and this line has the headings of both paths, the elevation and both brightness
temperatures. -/
theorem C122_wvr_needed [Field α] [LinearOrder α] [IsStrictOrderedRing α] (p : RmParsers α) (lines : List (List String)) (f : RmFile α) (h : rmWvr p lines = .ok f) :
    ∃ before headers rest, lines = before ++ headers :: rest ∧ (∀ l ∈ before, l.take 2 ≠ ["date", "time"]) ∧ headers.take 2 = ["date", "time"] ∧
      "LiqCM" ∈ headers.drop 2 ∧ "VapCM" ∈ headers.drop 2 ∧ "ELact" ∈ headers.drop 2 ∧ "TbSky23" ∈ headers.drop 2 ∧ "TbSky31" ∈ headers.drop 2 := by
  unfold rmWvr at h
  split at h
  · cases h
  · next headers rest hh =>
    obtain ⟨before, e, h1, h2⟩ := (rmWvrHeader_some _ _ _).1 hh
    split at h
    · cases h
    · split at h
      · next hall =>
        rw [List.all_eq_true] at hall
        refine ⟨before, headers, rest, e, h2, h1, ?_, ?_, ?_, ?_, ?_⟩ <;> exact of_decide_eq_true (hall _ (by simp [rmWvrNeeded]))
      · cases h

/-- **C122.** A file of a WVR-1100: the lines after the first line with the headings "date" and "time". Those with as many columns as
headings that were measured within a degree of the zenith and have two positive brightness temperatures give, in order, a time and the liquid
water and water vapour paths in kg m-2, which are missing if the text has an asterisk. -/
theorem C122_wvr [Field α] [LinearOrder α] [IsStrictOrderedRing α] (p : RmParsers α) (before rest : List (List String)) (headers : List String)
    (hb : ∀ l ∈ before, l.take 2 ≠ ["date", "time"]) (hh : headers.take 2 = ["date", "time"]) (hn : headers.Nodup) (f : RmFile α)
    (h : rmWvr p (before ++ headers :: rest) = .ok f) :
    f.ranges = [] ∧ f.keys = [] ∧ Spec.Collected (Spec.RmWvrGood p headers) rest f.rows := by
  unfold rmWvr at h
  rw [(rmWvrHeader_some _ headers rest).2 ⟨before, rfl, hh, hb⟩] at h
  simp only at h
  split at h
  · cases h
  · rename_i ls hls
    split at h
    · simp only [Except.ok.injEq] at h
      subst h
      refine ⟨rfl, rfl, ?_⟩
      rw [mapM_option_iff] at hls
      clear hb
      induction rest generalizing ls with
      | nil => cases hls; exact .nil
      | cons l rest ih =>
        by_cases hlen : l.length = headers.length
        · rw [List.filter_cons_of_pos (by simpa using hlen)] at hls
          obtain ⟨w, ws, h1, h2, rfl⟩ := List.forall₂_cons_left_iff.1 hls
          have hi := rmWvrOut_iff p headers l hn hlen w h1
          simp only [List.filterMap_cons]
          cases ho : rmWvrOut w with
          | none => exact .skip (fun v hv => by rw [(hi v).2 hv] at ho; cases ho) (ih ws h2)
          | some o => exact .take ((hi o).1 ho) (ih ws h2)
        · rw [List.filter_cons_of_neg (by simpa using hlen)] at hls
          exact .skip (fun v hv => hlen hv.1) (ih ls hls)
    · cases h

/-! ### All files together -/

namespace Spec

/-- `argsort` gives the positions in an order in which the times do not decrease. -/
def RmSorts (argsort : List ℤ → List ℕ) : Prop :=
  ∀ ts, (argsort ts).Perm (List.range ts.length) ∧ ((argsort ts).filterMap fun i => ts[i]?).Pairwise (· ≤ ·)

/-- A variable of one file is missing in another one that has data. -/
def RmUneven (files : List (RmFile α)) : Prop := ∃ f ∈ files, ∃ g ∈ files, ∃ key ∈ f.keys, key ∉ g.keys ∧ g.rows ≠ []

end Spec

theorem pickRows_perm {β : Type} (ind : List ℕ) (l : List β) (h : ind.Perm (List.range l.length)) : (pickRows ind l).Perm l := by
  have h1 : (pickRows ind l).Perm (pickRows (List.range l.length) l) := h.filterMap _
  have h2 : pickRows (List.range l.length) l = l := by
    clear h h1
    unfold pickRows
    induction l using List.reverseRecOn with
    | nil => rfl
    | append_singleton l x ih =>
      rw [List.length_append, List.length_singleton, List.range_succ, List.filterMap_append]
      have : (List.range l.length).filterMap (fun i => (l ++ [x])[i]?) = (List.range l.length).filterMap fun i => l[i]? := by
        refine List.filterMap_congr ?_
        intro i hi
        rw [List.mem_range] at hi
        rw [List.getElem?_append_left hi]
      rw [this, ih]
      simp
  rw [h2] at h1
  exact h1

theorem pickRows_map {β γ : Type} (g : β → γ) (ind : List ℕ) (l : List β) : (pickRows ind l).map g = ind.filterMap fun i => (l.map g)[i]? := by
  unfold pickRows
  rw [List.map_filterMap]
  refine List.filterMap_congr ?_
  intro i _
  rw [List.getElem?_map]

theorem keyLength_eq (files : List (RmFile α)) (key : String) :
    rmKeyLength files key = (files.map fun f => f.rows.length).sum ↔ ∀ g ∈ files, key ∉ g.keys → g.rows = [] := by
  unfold rmKeyLength
  have hle : ∀ files : List (RmFile α), ((files.filter fun f => decide (key ∈ f.keys)).map fun f => f.rows.length).sum ≤
      (files.map fun f => f.rows.length).sum := by
    intro files
    induction files with
    | nil => simp
    | cons f fs ih =>
      by_cases h : key ∈ f.keys
      · rw [List.filter_cons_of_pos (by simpa using h)]; simp only [List.map_cons, List.sum_cons]; omega
      · rw [List.filter_cons_of_neg (by simpa using h)]; simp only [List.map_cons, List.sum_cons]; omega
  induction files with
  | nil => simp
  | cons f fs ih =>
    have hl := hle fs
    by_cases h : key ∈ f.keys
    · rw [List.filter_cons_of_pos (by simpa using h)]
      simp only [List.map_cons, List.sum_cons, Nat.add_left_cancel_iff, ih, List.mem_cons, forall_eq_or_imp, h, not_true_eq_false,
        false_implies, true_and]
    · rw [List.filter_cons_of_neg (by simpa using h)]
      simp only [List.map_cons, List.sum_cons, List.mem_cons, forall_eq_or_imp, h, not_false_eq_true, true_implies]
      constructor
      · intro e
        exact ⟨List.length_eq_zero_iff.1 (by omega), ih.1 (by omega)⟩
      · rintro ⟨e1, e2⟩
        have := ih.2 e2
        rw [e1, List.length_nil]
        omega

theorem rmAligned_iff (files : List (RmFile α)) : rmAligned files = true ↔ ¬ Spec.RmUneven files := by
  unfold rmAligned Spec.RmUneven
  simp only [List.all_eq_true, decide_eq_true_eq, keyLength_eq]
  push Not
  constructor
  · intro h f hf g hg key hk hn; exact h f hf key hk g hg hn
  · intro h f hf key hk g hg hn; exact h f hf g hg key hk hn

theorem rmHours [Field α] [LinearOrder α] [IsStrictOrderedRing α] (t day : ℤ) (h : t / 86400 = day) :
    0 ≤ (((t - day * 86400 : ℤ) : α) / 3600) ∧ (((t - day * 86400 : ℤ) : α) / 3600) < 24 := by
  have h1 : 0 ≤ t - day * 86400 := by omega
  have h2 : t - day * 86400 < 86400 := by omega
  have h1' : (0 : α) ≤ ((t - day * 86400 : ℤ) : α) := by exact_mod_cast h1
  have h2' : ((t - day * 86400 : ℤ) : α) < 86400 := by exact_mod_cast h2
  constructor
  · positivity
  · rw [div_lt_iff₀ (by norm_num)]; linarith

theorem rmScreen_sorted (argsort : List ℤ → List ℕ) (hs : Spec.RmSorts argsort) (rows : List (RmOut α)) :
    (pickRows (argsort (rows.map RmOut.time)) rows).Perm rows ∧
      (pickRows (argsort (rows.map RmOut.time)) rows).Pairwise fun a b => a.time ≤ b.time := by
  obtain ⟨h1, h2⟩ := hs (rows.map RmOut.time)
  rw [List.length_map] at h1
  refine ⟨pickRows_perm _ _ h1, ?_⟩
  rw [← pickRows_map, List.pairwise_map] at h2
  exact h2

/-- **C123.** With a date the output has exactly the values of all files that are of this date, in order of time, and the hours are those
since midnight, from 0 to less than 24. All values of a time stay together. -/
theorem C123_day [Field α] [LinearOrder α] [IsStrictOrderedRing α] (p : RmParsers α) (argsort : List ℤ → List ℕ) (hs : Spec.RmSorts argsort)
    (altitude : α) (day : ℤ) (files : List (RmFile α)) (out : RmResult α) (h : rmCombine p argsort altitude (some day) files = .ok out) :
    out.day = day ∧ (out.rows.map Prod.snd).Perm ((files.flatMap RmFile.rows).filter fun o => decide (o.time / 86400 = day)) ∧
      out.rows ≠ [] ∧ out.rows.Pairwise (fun a b => a.1 ≤ b.1) ∧
      ∀ q ∈ out.rows, 0 ≤ q.1 ∧ q.1 < 24 ∧ q.1 * 3600 = ((q.2.time - day * 86400 : ℤ) : α) := by
  unfold rmCombine at h
  split at h
  · cases h
  · rename_i first rest
    split at h
    · split at h
      · cases h
      · rename_i range hr
        obtain ⟨⟨d, rows⟩, h1, rfl⟩ := (except_map_ok ..).1 h
        generalize List.flatMap RmFile.rows (first :: rest) = all at h1 ⊢
        unfold rmScreen at h1
        simp only at h1
        split at h1
        · cases h1
        · rename_i hk
          split at h1
          · obtain ⟨g1, g2⟩ := rmScreen_sorted argsort hs (all.filter fun o => decide (o.time / 86400 = day))
            generalize hsd : pickRows (argsort ((all.filter fun o => decide (o.time / 86400 = day)).map RmOut.time))
              (all.filter fun o => decide (o.time / 86400 = day)) = sorted at h1 g1 g2
            split at h1
            · cases h1
            · rename_i s ss
              simp only [Except.ok.injEq, Prod.mk.injEq] at h1
              obtain ⟨rfl, rfl⟩ := h1
              have hday : ∀ o ∈ s :: ss, o.time / 86400 = day := by
                intro o ho
                have := g1.mem_iff.1 ho
                simpa using (List.mem_filter.1 this).2
              have hs0 : s.time / 86400 = day := hday s (by simp)
              refine ⟨rfl, ?_, by simp, ?_, ?_⟩
              · rw [List.map_map]
                simpa [Function.comp_def] using g1
              · rw [List.pairwise_map]
                refine g2.imp ?_
                intro a b hab
                simp only [hs0]
                have : ((a.time - day * 86400 : ℤ) : α) ≤ ((b.time - day * 86400 : ℤ) : α) := by
                  exact_mod_cast Int.sub_le_sub_right hab _
                exact div_le_div_of_nonneg_right this (by norm_num)
              · intro q hq
                simp only at hq
                obtain ⟨o, ho, rfl⟩ := List.mem_map.1 hq
                simp only [hs0]
                obtain ⟨k1, k2⟩ := rmHours (α := α) o.time day (hday o ho)
                exact ⟨k1, k2, by field_simp⟩
          · cases h1
    · cases h

/-- **C123.** With a date, there is an output if and only if all files have the same ranges, that can be read, some value is of this date
and no variable of a file is missing in another file with data. -/
theorem C123_day_exists [Field α] (p : RmParsers α) (argsort : List ℤ → List ℕ) (hs : Spec.RmSorts argsort)
    (altitude : α) (day : ℤ) (files : List (RmFile α)) :
    (∃ out, rmCombine p argsort altitude (some day) files = .ok out) ↔
      (∃ ranges, (∀ f ∈ files, f.ranges = ranges) ∧ ∀ x ∈ ranges, p.float x ≠ none) ∧
      (∃ f ∈ files, ∃ o ∈ f.rows, o.time / 86400 = day) ∧ ¬ Spec.RmUneven files := by
  unfold rmCombine
  cases files with
  | nil => simp
  | cons first rest =>
    simp only
    have hall : ((first :: rest).all fun f => decide (f.ranges = first.ranges)) = true ↔ ∀ f ∈ first :: rest, f.ranges = first.ranges := by
      simp [List.all_eq_true]
    have hrange : (∃ range, rmRanges p first.ranges = some range) ↔ ∀ x ∈ first.ranges, p.float x ≠ none := by
      unfold rmRanges
      generalize first.ranges = l
      induction l with
      | nil => simp
      | cons x l ih =>
        rw [List.mapM_cons]
        cases hx : p.float x with
        | none => simp [hx]
        | some y =>
          simp only [Option.map_some, Option.bind_eq_bind, Option.bind_some, List.mem_cons, forall_eq_or_imp, hx, ne_eq, reduceCtorEq,
            not_false_eq_true, true_and]
          rw [← show _ ↔ ∀ x ∈ l, p.float x ≠ none from ih]
          cases (l.mapM fun x => (p.float x).map (· * 1000)) <;> simp
    have hspec : (∃ ranges, (∀ f ∈ first :: rest, f.ranges = ranges) ∧ ∀ x ∈ ranges, p.float x ≠ none) ↔
        (∀ f ∈ first :: rest, f.ranges = first.ranges) ∧ ∀ x ∈ first.ranges, p.float x ≠ none := by
      constructor
      · rintro ⟨r, h1, h2⟩
        have := h1 first (by simp)
        subst this
        exact ⟨h1, h2⟩
      · rintro ⟨h1, h2⟩; exact ⟨_, h1, h2⟩
    rw [hspec, ← hrange, ← rmAligned_iff]
    by_cases c1 : ∀ f ∈ first :: rest, f.ranges = first.ranges
    · rw [if_pos (hall.2 c1)]
      cases c2 : rmRanges p first.ranges with
      | none => simp
      | some range =>
        have hex : (∃ f ∈ first :: rest, ∃ o ∈ f.rows, o.time / 86400 = day) ↔
            ((first :: rest).flatMap RmFile.rows).filter (fun o => decide (o.time / 86400 = day)) ≠ [] := by
          rw [Ne, List.filter_eq_nil_iff]
          simp only [List.mem_flatMap, decide_eq_true_eq]
          push Not
          constructor
          · rintro ⟨f, hf, o, ho, h⟩; exact ⟨o, ⟨f, hf, ho⟩, h⟩
          · rintro ⟨o, ⟨f, hf, ho⟩, h⟩; exact ⟨f, hf, o, ho, h⟩
        rw [hex]
        have hc1 : (∀ f ∈ first :: rest, f.ranges = first.ranges) = True := eq_true c1
        simp only [hc1, Option.some.injEq, exists_eq', true_and]
        generalize List.flatMap RmFile.rows (first :: rest) = all
        generalize rmAligned (first :: rest) = al
        unfold rmScreen
        simp only
        obtain ⟨g1, _⟩ := rmScreen_sorted argsort hs (all.filter fun o => decide (o.time / 86400 = day))
        generalize pickRows (argsort ((all.filter fun o => decide (o.time / 86400 = day)).map RmOut.time))
              (all.filter fun o => decide (o.time / 86400 = day)) = sorted at g1
        generalize all.filter (fun o => decide (o.time / 86400 = day)) = kept at g1
        by_cases hk : kept = []
        · simp [hk, Except.map]
        · rw [if_neg hk]
          cases al with
          | false => simp [Except.map]
          | true =>
            cases sorted with
            | nil => exact absurd (g1.symm.eq_nil) hk
            | cons s ss => simp [Except.map, hk]
    · rw [if_neg (fun h => c1 (hall.1 h))]
      constructor
      · rintro ⟨_, h⟩; cases h
      · rintro ⟨⟨h, _⟩, _⟩; exact absurd h c1

/-- **C123.** The range of the output is the ranges in kilometres times 1000, the height is the range above sea level. -/
theorem C123_height [Field α] (p : RmParsers α) (argsort : List ℤ → List ℕ) (altitude : α) (date : Option ℤ) (files : List (RmFile α))
    (out : RmResult α) (h : rmCombine p argsort altitude date files = .ok out) :
    ∀ f ∈ files, List.Forall₂ (fun text x => ∃ km, p.float text = some km ∧ x = km * 1000) f.ranges out.range ∧
      List.Forall₂ (fun x z => z = x + altitude) out.range out.height := by
  unfold rmCombine at h
  split at h
  · cases h
  · rename_i first rest
    split at h
    · rename_i hall
      split at h
      · cases h
      · rename_i range hr
        obtain ⟨res, h1, rfl⟩ := (except_map_ok ..).1 h
        intro f hf
        have hfr : f.ranges = first.ranges := by
          simp only [List.all_eq_true, decide_eq_true_eq] at hall
          exact hall f hf
        constructor
        · rw [hfr]
          unfold rmRanges at hr
          rw [mapM_option_iff] at hr
          refine hr.imp ?_
          intro t x hx
          simp only [Option.map_eq_some_iff] at hx
          obtain ⟨km, h1, h2⟩ := hx
          exact ⟨km, h1, h2.symm⟩
        · rw [List.forall₂_map_right_iff, List.forall₂_same]
          intro x _; rfl
    · cases h

/-- **C123.** Without a date all values are kept, in order of time. The date of the output is that of the first value read, but the hours
are counted from the midnight before the earliest value. -/
theorem C123_no_date [Field α] [LinearOrder α] [IsStrictOrderedRing α] (p : RmParsers α) (argsort : List ℤ → List ℕ) (hs : Spec.RmSorts argsort)
    (altitude : α) (files : List (RmFile α)) (out : RmResult α) (h : rmCombine p argsort altitude none files = .ok out) :
    (out.rows.map Prod.snd).Perm (files.flatMap RmFile.rows) ∧ out.rows.Pairwise (fun a b => a.1 ≤ b.1) ∧
      (∃ o, (files.flatMap RmFile.rows).head? = some o ∧ out.day = o.time / 86400) ∧
      ∃ s ∈ files.flatMap RmFile.rows, (∀ o ∈ files.flatMap RmFile.rows, s.time ≤ o.time) ∧
        ∀ q ∈ out.rows, q.1 * 3600 = ((q.2.time - s.time / 86400 * 86400 : ℤ) : α) := by
  unfold rmCombine at h
  split at h
  · cases h
  · rename_i first rest
    split at h
    · split at h
      · cases h
      · rename_i range hr
        obtain ⟨⟨d, rows⟩, h1, rfl⟩ := (except_map_ok ..).1 h
        generalize List.flatMap RmFile.rows (first :: rest) = all at h1 ⊢
        unfold rmScreen at h1
        cases all with
        | nil => cases h1
        | cons r rs =>
          simp only at h1
          split at h1
          · obtain ⟨g1, g2⟩ := rmScreen_sorted argsort hs (r :: rs)
            generalize hsd : pickRows (argsort ((r :: rs).map RmOut.time)) (r :: rs) = sorted at h1 g1 g2
            split at h1
            · cases h1
            · rename_i s ss
              simp only [Except.ok.injEq, Prod.mk.injEq] at h1
              obtain ⟨rfl, rfl⟩ := h1
              refine ⟨?_, ?_, ⟨r, rfl, rfl⟩, s, g1.mem_iff.1 (by simp), ?_, ?_⟩
              · rw [List.map_map]
                simpa [Function.comp_def] using g1
              · rw [List.pairwise_map]
                refine g2.imp ?_
                intro a b hab
                simp only
                have : ((a.time - s.time / 86400 * 86400 : ℤ) : α) ≤ ((b.time - s.time / 86400 * 86400 : ℤ) : α) := by
                  exact_mod_cast Int.sub_le_sub_right hab _
                exact div_le_div_of_nonneg_right this (by norm_num)
              · intro o ho
                rcases List.mem_cons.1 (g1.mem_iff.2 ho) with rfl | h
                · exact le_refl _
                · exact (List.pairwise_cons.1 g2).1 o h
              · intro q hq
                simp only at hq
                obtain ⟨o, ho, rfl⟩ := List.mem_map.1 hq
                simp only
                field_simp
          · cases h1
    · cases h

/-! ### Examples -/

/-- Numbers with one digit or two, an optional minus sign, for the examples. -/
def rmTestInt (text : String) : Option ℤ :=
  if text.toList.all Char.isDigit && !text.toList.isEmpty then
    some (text.toList.foldl (fun n c => 10 * n + (c.toNat - 48 : ℤ)) 0) else none

def rmTest : RmParsers ℚ :=
  { int := rmTestInt
    float := fun text => match text.toList with
      | '-' :: _ => some (-1)
      | _ => if text = "0.00" then some 0 else if text = "0.50" then some (1 / 2) else (rmTestInt text).map fun n => (n : ℚ)
    datetime := fun _ _ day h m s => some (86400 * day + 3600 * h + 60 * m + s) }

/-- Two superblocks: measurements of two processors, of which only the second looks at the zenith; then only one of zenith measurements. -/
def rmTestRows : List (List String) :=
  [["Record", "Date/Time", "100", "Record Type", "Title"],
   ["Record", "Date/Time", "200", "Tir(K)"],
   ["Record", "Date/Time", "300", "Int. Vapor(cm)", "Int. Liquid(mm)"],
   ["Record", "Date/Time", "400", "LV2 Processor", "0.00", "0.50"],
   ["1", "01/02/20 00:00:00", "101", "401", "Temperature (K)"],
   ["2", "01/02/20 00:00:01", "201", "270"],
   ["3", "01/02/20 00:00:02", "301", "1", "2"],
   ["4", "01/02/20 00:00:03", "301", "3", "4"],
   ["5", "01/02/20 00:00:04", "401", "Angle20(N)", "280", "281"],
   ["6", "01/02/20 00:00:05", "401", "Zenith", "282", "-3"],
   ["7", "01/02/20 00:00:06", "402", "Angle20(N)", "5", "6"],
   ["8", "01/02/20 00:00:07", "402", "Zenith", "7", "8"],
   ["9", "01/02/20 00:00:09", "201", "271"],
   ["10", "01/02/20 00:00:10", "301", "9", "8"],
   ["11", "01/02/20 00:00:12", "402", "Zenith16", "7", "8"]]

def rmTestFile : Option (List (ℤ × Option ℚ × Option ℚ × Option ℚ)) :=
  (rmMp rmTest rmTestRows).toOption.map fun f => f.rows.map fun o => (o.time, o.lwp, o.iwv, o.irt)

/-- The first measurement is left out; the infrared temperature is that of the same superblock, the closest one. -/
example : rmTestFile = some [(172803, some 4, some 30, some 270), (172810, some 8, some 90, some 271)] := by decide +kernel

/-- The temperature has only one profile: it is used at both times, and its second value is lost. -/
example : ((rmMp rmTest rmTestRows).toOption.map fun f => f.rows.map RmOut.temperature) =
    some [some [some 282, none], some [some 282, none]] := by decide +kernel

example : ((rmMp rmTest rmTestRows).toOption.map fun f => (f.ranges, f.keys)) = some (["0.00", "0.50"], ["irt", "temperature"]) := by
  decide +kernel

/-- More measurements than processors make the file unreadable. -/
example : (match rmMp rmTest (rmTestRows ++ [["12", "01/02/20 00:00:13", "301", "9", "8"]]) with
    | .error e => decide (e = "IndexError")
    | .ok _ => false) = true := by decide +kernel

/-- A missing value makes the file unreadable. -/
example : (match rmMp rmTest (rmTestRows ++ [["12", "01/02/20 00:00:13", "201", ""]]) with
    | .error e => decide (e = "ValueError")
    | .ok _ => false) = true := by decide +kernel

/-- A file without the column of the water vapour cannot be read. -/
example : (match rmWvr rmTest [["date", "time", "LiqCM", "ELact", "TbSky23", "TbSky31"], ["01/02/20", "00:00:01", "1", "90", "20", "30"]] with
    | .error e => decide (e = "KeyError")
    | .ok _ => false) = true := by decide +kernel

/-- A line at the zenith and one that is not. -/
example : ((rmWvr rmTest [["some", "text"], ["date", "time", "LiqCM", "VapCM", "ELact", "TbSky23", "TbSky31"],
      ["01/02/20", "00:00:01", "***", "3", "90", "20", "30"], ["01/02/20", "00:00:02", "1", "3", "89", "20", "30"], ["end"]]).toOption.map fun f =>
        f.rows.map fun o => (o.time, o.lwp, o.iwv)) = some [(172801, none, some 30)] := by decide +kernel

/-- Sorting, for the examples. -/
def rmTestSort (ts : List ℤ) : List ℕ := (List.range ts.length).insertionSort fun i j => ts.getD i 0 ≤ ts.getD j 0

theorem rmTestSort_sorts : Spec.RmSorts rmTestSort := by
  intro ts
  have hp : (rmTestSort ts).Perm (List.range ts.length) := List.perm_insertionSort _ _
  refine ⟨hp, ?_⟩
  have htr : IsTrans ℕ fun i j => ts.getD i 0 ≤ ts.getD j 0 := ⟨fun a b c => le_trans⟩
  have hto : Std.Total fun i j : ℕ => ts.getD i 0 ≤ ts.getD j 0 := ⟨fun a b => le_total _ _⟩
  have hs := List.pairwise_insertionSort (fun i j => ts.getD i 0 ≤ ts.getD j 0) (List.range ts.length)
  have : (rmTestSort ts).filterMap (fun i => ts[i]?) = (rmTestSort ts).map fun i => ts.getD i 0 := by
    have hlt : ∀ i ∈ rmTestSort ts, i < ts.length := fun i hi => List.mem_range.1 (hp.mem_iff.1 hi)
    revert hlt
    generalize rmTestSort ts = l
    intro hlt
    induction l with
    | nil => rfl
    | cons i l ih =>
      have hi := hlt i (by simp)
      rw [List.filterMap_cons, List.getElem?_eq_getElem hi, List.map_cons, ih fun j hj => hlt j (by simp [hj])]
      simp [List.getD_eq_getElem?_getD, hi]
  rw [this, List.pairwise_map]
  exact hs

/-- A row with nothing but a time. -/
def rmTestRow (t : ℤ) : RmOut ℚ := ⟨t, some 1, some 2, none, none, none, none⟩

/-- Files of two days, the later one first. With the date of the first day, only its values are written. -/
example : ((rmCombine rmTest rmTestSort 100 (some 1) [⟨[], [], [rmTestRow 172800]⟩, ⟨[], [], [rmTestRow 90000, rmTestRow 86400]⟩]).toOption.map
    fun out => (out.day, out.rows.map Prod.fst)) = some (1, [0, 1]) := by decide +kernel

/-- **C123.** Without a date, the date of the output can be another day than the one from which the hours are counted: files are read in
any order. -/
theorem C123_wrong_date : ∃ (argsort : List ℤ → List ℕ) (files : List (RmFile ℚ)) (out : RmResult ℚ), Spec.RmSorts argsort ∧
    rmCombine rmTest argsort 100 none files = .ok out ∧ ∃ q ∈ out.rows, q.1 * 3600 + out.day * 86400 ≠ q.2.time := by
  refine ⟨rmTestSort, [⟨[], [], [rmTestRow 172800]⟩, ⟨[], [], [rmTestRow 90000]⟩],
    ⟨[], [], 2, [(1, rmTestRow 90000), (24, rmTestRow 172800)]⟩, rmTestSort_sorts, ?_, (1, rmTestRow 90000), by simp, ?_⟩
  · have h : rmTestSort [172800, 90000] = [1, 0] := by decide +kernel
    unfold rmCombine
    simp only [List.all_cons, List.all_nil, decide_true, Bool.and_self, if_true]
    have hr : rmRanges rmTest [] = some [] := rfl
    rw [hr]
    simp only [List.flatMap_cons, List.flatMap_nil, List.append_nil, List.cons_append, List.nil_append]
    have ha : rmAligned [⟨[], [], [rmTestRow 172800]⟩, ⟨[], [], [rmTestRow 90000]⟩] = true := by rfl
    rw [ha]
    unfold rmScreen
    simp only [if_true, List.map_cons, List.map_nil]
    rw [show (rmTestRow 172800).time = 172800 from rfl, show (rmTestRow 90000).time = 90000 from rfl, h]
    simp only [pickRows, List.filterMap_cons, List.filterMap_nil, List.getElem?_cons_succ, List.getElem?_cons_zero]
    simp [Except.map, rmTestRow]
    norm_num
  · norm_num [rmTestRow]

/-- One file has a temperature and the other one has not. -/
example : Spec.RmUneven [⟨["0.50"], ["temperature"], [rmTestRow 90000]⟩, ⟨["0.50"], [], [rmTestRow 172800]⟩] :=
  ⟨_, List.mem_cons_self, _, List.mem_cons_of_mem _ List.mem_cons_self, "temperature", by decide, by decide, by simp⟩

/-- **C122.** A text counts as a number exactly if it consists of digits with at most one decimal point among them, and has at least one digit. So
signs and exponents make a value missing. -/
theorem C122_numeric (text : String) : rmNumeric text = true ↔
    (text.toList ≠ [] ∧ ∀ c ∈ text.toList, c.isDigit) ∨
    ∃ whole part : String, text = whole ++ "." ++ part ∧ whole ++ part ≠ "" ∧ (∀ c ∈ whole.toList, c.isDigit) ∧ ∀ c ∈ part.toList, c.isDigit := by
  unfold rmNumeric
  simp only [Bool.and_eq_true, Bool.not_eq_true', List.all_eq_true, ← Bool.not_eq_true, List.isEmpty_iff]
  constructor
  · rintro ⟨h1, h2⟩
    by_cases hdot : '.' ∈ text.toList
    · obtain ⟨l, r, hl, e1, e2⟩ := List.exists_erase_eq hdot
      rw [e2] at h1 h2
      refine .inr ⟨String.ofList l, String.ofList r, ?_, ?_, fun c hc => h2 c ?_, fun c hc => h2 c ?_⟩
      · apply String.toList_injective; rw [e1]; simp
      · intro h
        apply h1
        have := congrArg String.toList h
        simpa using this
      · simp at hc; simp [hc]
      · simp at hc; simp [hc]
    · rw [List.erase_of_not_mem hdot] at h1 h2
      exact .inl ⟨h1, h2⟩
  · rintro (⟨h1, h2⟩ | ⟨a, b, rfl, h1, ha, hb⟩)
    · have hdot : '.' ∉ text.toList := fun h => absurd (h2 _ h) (by decide)
      rw [List.erase_of_not_mem hdot]
      exact ⟨h1, h2⟩
    · have hdot : '.' ∉ a.toList := fun h => absurd (ha _ h) (by decide)
      have e : (a ++ "." ++ b).toList.erase '.' = a.toList ++ b.toList := by
        simp only [String.toList_append, List.append_assoc]
        rw [List.erase_append_right _ hdot]
        simp
      rw [e]
      refine ⟨fun h => h1 (String.toList_injective (by simpa using h)), fun c hc => ?_⟩
      rcases List.mem_append.1 hc with h | h
      · exact ha c h
      · exact hb c h

theorem rmSplit_skip (l : List Char) (hl : ∀ c ∈ l, c.isWhitespace) (r : List Char) :
    (((l ++ r).splitOnP Char.isWhitespace).filter fun w => decide (w ≠ [])) = ((r.splitOnP Char.isWhitespace).filter fun w => decide (w ≠ [])) := by
  induction l with
  | nil => rfl
  | cons c l ih =>
    rw [List.cons_append, List.splitOnP_cons, if_pos (hl c (by simp)), List.filter_cons_of_neg (by simp)]
    exact ih fun c hc => hl c (by simp [hc])

theorem rmSplit_word (w : List Char) (hw : ∀ c ∈ w, ¬ c.isWhitespace) (hne : w ≠ []) (c : Char) (hc : c.isWhitespace) (r : List Char) :
    (((w ++ c :: r).splitOnP Char.isWhitespace).filter fun w => decide (w ≠ [])) =
    w :: ((r.splitOnP Char.isWhitespace).filter fun w => decide (w ≠ [])) := by
  rw [List.splitOnP_append_cons _ _ hc, List.splitOnP_eq_singleton (fun c hc => by simpa using hw c hc)]
  simp [hne]

theorem rmSplit_last (w : List Char) (hw : ∀ c ∈ w, ¬ c.isWhitespace) (hne : w ≠ []) :
    ((w.splitOnP Char.isWhitespace).filter fun w => decide (w ≠ [])) = [w] := by
  rw [List.splitOnP_eq_singleton (fun c hc => by simpa using hw c hc)]
  simp [hne]

theorem rmSplit_nil (l : List Char) : ((l.splitOnP Char.isWhitespace).filter fun w => decide (w ≠ [])) = [] ↔ ∀ c ∈ l, c.isWhitespace := by
  constructor
  · intro h
    obtain ⟨r, hr⟩ : ∃ r, r = l.dropWhile Char.isWhitespace := ⟨_, rfl⟩
    have e : l = l.takeWhile Char.isWhitespace ++ r := by rw [hr, List.takeWhile_append_dropWhile]
    have ht : ∀ c ∈ l.takeWhile Char.isWhitespace, c.isWhitespace := fun c hc => List.all_eq_true.1 List.all_takeWhile c hc
    rw [e, rmSplit_skip _ ht] at h
    by_cases hr0 : r = []
    · rw [e, hr0, List.append_nil]; exact ht
    · exfalso
      obtain ⟨s, hs⟩ : ∃ s, s = r.takeWhile fun c => !c.isWhitespace := ⟨_, rfl⟩
      have e2 : r = s ++ r.dropWhile fun c => !c.isWhitespace := by rw [hs, List.takeWhile_append_dropWhile]
      have hsw : ∀ c ∈ s, ¬ c.isWhitespace := fun c hc => by
        rw [hs] at hc
        simpa using List.all_eq_true.1 List.all_takeWhile c hc
      have hs0 : s ≠ [] := by
        rw [hs]
        cases hr1 : r with
        | nil => exact absurd hr1 hr0
        | cons c r' =>
          have : ¬ c.isWhitespace = true := by
            have := List.head_dropWhile_not Char.isWhitespace (l := l) (by rw [← hr]; exact hr0)
            simp only [← hr, hr1, List.head_cons] at this
            simpa using this
          rw [List.takeWhile_cons_of_pos (by simpa using this)]
          simp
      cases hd : r.dropWhile fun c => !c.isWhitespace with
      | nil => rw [e2, hd, List.append_nil, rmSplit_last s hsw hs0] at h; cases h
      | cons c r' =>
        have hc : c.isWhitespace := by
          have := List.head_dropWhile_not (fun c => !Char.isWhitespace c) (l := r) (by rw [hd]; simp)
          simp only [hd, List.head_cons] at this
          simpa using this
        rw [e2, hd, rmSplit_word s hsw hs0 c hc] at h; cases h
  · intro h
    have := rmSplit_skip l h []
    rw [List.append_nil] at this
    rw [this]; simp

theorem rmSplit_cons (l w : List Char) (ws : List (List Char)) :
    ((l.splitOnP Char.isWhitespace).filter fun w => decide (w ≠ [])) = w :: ws ↔
    ∃ before after, l = before ++ w ++ after ∧ (∀ c ∈ before, c.isWhitespace) ∧ (∀ c ∈ w, ¬ c.isWhitespace) ∧ w ≠ [] ∧
      (∀ c, after.head? = some c → c.isWhitespace) ∧ ((after.splitOnP Char.isWhitespace).filter fun w => decide (w ≠ [])) = ws := by
  constructor
  · intro h
    obtain ⟨r, hr⟩ : ∃ r, r = l.dropWhile Char.isWhitespace := ⟨_, rfl⟩
    have e : l = l.takeWhile Char.isWhitespace ++ r := by rw [hr, List.takeWhile_append_dropWhile]
    have ht : ∀ c ∈ l.takeWhile Char.isWhitespace, c.isWhitespace := fun c hc => List.all_eq_true.1 List.all_takeWhile c hc
    rw [e, rmSplit_skip _ ht] at h
    have hr0 : r ≠ [] := by rintro rfl; simp at h
    obtain ⟨s, hs⟩ : ∃ s, s = r.takeWhile fun c => !c.isWhitespace := ⟨_, rfl⟩
    have e2 : r = s ++ r.dropWhile fun c => !c.isWhitespace := by rw [hs, List.takeWhile_append_dropWhile]
    have hsw : ∀ c ∈ s, ¬ c.isWhitespace := fun c hc => by
      rw [hs] at hc
      simpa using List.all_eq_true.1 List.all_takeWhile c hc
    have hs0 : s ≠ [] := by
      rw [hs]
      cases hr1 : r with
      | nil => exact absurd hr1 hr0
      | cons c r' =>
        have : ¬ c.isWhitespace = true := by
          have := List.head_dropWhile_not Char.isWhitespace (l := l) (by rw [← hr]; exact hr0)
          simp only [← hr, hr1, List.head_cons] at this
          simpa using this
        rw [List.takeWhile_cons_of_pos (by simpa using this)]
        simp
    cases hd : r.dropWhile fun c => !c.isWhitespace with
    | nil =>
      rw [hd, List.append_nil] at e2
      rw [e2, rmSplit_last s hsw hs0] at h
      obtain ⟨rfl, rfl⟩ := List.cons.inj h
      exact ⟨_, [], by rw [List.append_nil, ← e2]; exact e, ht, hsw, hs0, by simp, by simp⟩
    | cons c r' =>
      have hc : c.isWhitespace := by
        have := List.head_dropWhile_not (fun c => !Char.isWhitespace c) (l := r) (by rw [hd]; simp)
        simp only [hd, List.head_cons] at this
        simpa using this
      rw [hd] at e2
      rw [e2, rmSplit_word s hsw hs0 c hc] at h
      obtain ⟨rfl, rfl⟩ := List.cons.inj h
      refine ⟨_, c :: r', by rw [List.append_assoc, ← e2]; exact e, ht, hsw, hs0, by simpa using hc, ?_⟩
      exact rmSplit_skip [c] (by simpa using hc) r'
  · rintro ⟨before, after, rfl, hb, hw, hne, ha, rfl⟩
    rw [List.append_assoc, rmSplit_skip _ hb]
    cases after with
    | nil => rw [List.append_nil, rmSplit_last w hw hne]; simp
    | cons c r =>
      have hc : c.isWhitespace := ha c rfl
      rw [rmSplit_word w hw hne c hc]
      congr 1
      exact (rmSplit_skip [c] (by simpa using hc) r).symm

/-- **C122.** The stamp of a record is that of its two words: a date and a clock, with white space between them and possibly around them. No other
text has a stamp. -/
theorem C122_datetime {α : Type} (p : RmParsers α) (text : String) (t : ℤ) : rmDatetime p text = some t ↔
    ∃ (date clock : String) (before between after : List Char), text.toList = before ++ date.toList ++ between ++ clock.toList ++ after ∧
      date ≠ "" ∧ clock ≠ "" ∧ between ≠ [] ∧ (∀ c ∈ date.toList ++ clock.toList, ¬ c.isWhitespace) ∧
      (∀ c ∈ before ++ between ++ after, c.isWhitespace) ∧ rmStamp p date clock = some t := by
  have hw : ∀ date clock, rmWords text = [date, clock] ↔
      ((text.toList.splitOnP Char.isWhitespace).filter fun w => decide (w ≠ [])) = [date.toList, clock.toList] := by
    intro date clock
    unfold rmWords
    constructor
    · intro h
      have := congrArg (List.map String.toList) h
      simpa [List.map_map, Function.comp_def] using this
    · intro h; rw [h]; simp
  have ht : rmDatetime p text = some t ↔ ∃ date clock, rmWords text = [date, clock] ∧ rmStamp p date clock = some t := by
    unfold rmDatetime
    constructor
    · intro h
      split at h
      · exact ⟨_, _, by assumption, h⟩
      · cases h
    · rintro ⟨d, c, h1, h2⟩
      rw [h1]; exact h2
  have hne : ∀ s : String, s ≠ "" ↔ s.toList ≠ [] := by
    intro s
    rw [ne_eq, ne_eq, not_iff_not]
    exact ⟨fun h => by rw [h]; rfl, fun h => String.toList_injective (by simpa using h)⟩
  rw [ht]
  constructor
  · rintro ⟨d, c, h1, h2⟩
    obtain ⟨b, r, e1, hb, hd, hd0, hr, h3⟩ := (rmSplit_cons _ _ _).1 ((hw d c).1 h1)
    obtain ⟨m, a, rfl, hm, hc, hc0, -, h4⟩ := (rmSplit_cons _ _ _).1 h3
    rw [rmSplit_nil] at h4
    refine ⟨d, c, b, m, a, by rw [e1]; simp, (hne d).2 hd0, (hne c).2 hc0, ?_, ?_, ?_, h2⟩
    · rintro rfl
      obtain ⟨x, xs, hx⟩ := List.exists_cons_of_ne_nil hc0
      have : x.isWhitespace = true := hr x (by rw [hx]; rfl)
      exact hc x (by rw [hx]; simp) this
    · intro x hx
      rcases List.mem_append.1 hx with h | h
      exacts [hd x h, hc x h]
    · intro x hx
      simp only [List.mem_append] at hx
      rcases hx with (h | h) | h
      exacts [hb x h, hm x h, h4 x h]
  · rintro ⟨d, c, b, m, a, e, hd0, hc0, hm0, hdc, hbma, h2⟩
    refine ⟨d, c, (hw d c).2 ?_, h2⟩
    refine (rmSplit_cons _ _ _).2 ⟨b, m ++ c.toList ++ a, by rw [e]; simp, fun x hx => hbma x (by simp [hx]), fun x hx => hdc x (by simp [hx]), (hne d).1 hd0, ?_, ?_⟩
    · intro x hx
      obtain ⟨y, ys, rfl⟩ := List.exists_cons_of_ne_nil hm0
      simp at hx
      exact hbma x (by simp [hx])
    · refine (rmSplit_cons _ _ _).2 ⟨m, a, rfl, fun x hx => hbma x (by simp [hx]), fun x hx => hdc x (by simp [hx]), (hne c).1 hc0, ?_, (rmSplit_nil a).2 fun x hx => hbma x (by simp [hx])⟩
      intro x hx
      exact hbma x (by simp [List.mem_of_mem_head? (Option.mem_def.2 hx)])

example : rmNumeric "12.5" = true ∧ rmNumeric "-1" = false ∧ rmNumeric "1e5" = false ∧ rmNumeric "." = false := by decide +kernel

end Cloudnet
