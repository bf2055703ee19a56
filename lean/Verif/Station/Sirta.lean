import Mathlib.Tactic
import Verif.Station.Csv

set_option linter.unusedSimpArgs false

namespace Cloudnet

/-! ## C113: SIRTA files and Limassol -/

namespace Spec
variable {T α : Type}

/-- A line like `# Col. 3 : Air temperature (°C)`: number and title of a column. -/
def IsColumnTitle (line number title : String) : Prop :=
  ∃ (s1 s2 s3 s4 : List Char) (c : Char),
    line.toList = '#' :: s1 ++ ['C', 'o', 'l', c] ++ s2 ++ number.toList ++ s3 ++ ':' :: s4 ++ title.toList ∧
    (∀ x ∈ s1 ++ s2 ++ s3 ++ s4, isSpaceChar x = true) ∧ number.toList ≠ [] ∧ (∀ x ∈ number.toList, x.isDigit = true) ∧
    ∀ x, title.toList.head? = some x → isSpaceChar x = false

/-- Value of a field of a SIRTA file. -/
inductive SirtaCell (p : SirtaParsers T α) : String → String → StationCell T α → Prop
  | time (v : String) (t : T) : p.time v = some t → SirtaCell p "Date Time (yyyy-mm-ddThh:mm:ss)" v (.time t)
  | timeZ (v : String) (t : T) : p.timeZ v = some t → SirtaCell p "Date Time (yyyy-mm-ddThh:mm:ssZ)" v (.time t)
  | num (key v : String) (x : Option α) : key ≠ "Date Time (yyyy-mm-ddThh:mm:ss)" → key ≠ "Date Time (yyyy-mm-ddThh:mm:ssZ)" →
      p.number v = some x → SirtaCell p key v (.num x)
  | bad (key v : String) : key ≠ "Date Time (yyyy-mm-ddThh:mm:ss)" → key ≠ "Date Time (yyyy-mm-ddThh:mm:ssZ)" →
      p.number v = none → SirtaCell p key v (.num none)

/-- A line of data: it is not a comment and has a field for each of `n` columns. -/
def IsDataLine (n : ℕ) (line : String × List String) : Prop :=
  line.1 ≠ "" ∧ line.1.toList.head? ≠ some '#' ∧ line.2.length = n

open Classical in
/-- The fields of the lines of data. -/
noncomputable def dataLines (n : ℕ) (lines : List (String × List String)) : List (List String) :=
  (lines.filter fun l => decide (IsDataLine n l)).map Prod.snd

open Classical in
/-- The column titles of a file, which are numbered from 1. -/
def HasTitles (lines : List (String × List String)) (titles : List String) : Prop :=
  List.Forall₂ (fun line t => IsColumnTitle line (toString (t.2 + 1)) t.1)
    ((lines.map Prod.fst).filter fun line => decide (∃ n t, IsColumnTitle line n t)) titles.zipIdx

end Spec

theorem dropWhile_stop {p : Char → Bool} (w rest : List Char) (hw : ∀ x ∈ w, p x = true)
    (hr : ∀ x, rest.head? = some x → p x = false) : (w ++ rest).dropWhile p = rest := by
  induction w with
  | nil =>
    cases rest with
    | nil => rfl
    | cons x rest => rw [List.nil_append, List.dropWhile_cons, hr x rfl]; rfl
  | cons a w ih =>
    rw [List.cons_append, List.dropWhile_cons, hw a (by simp), if_pos rfl]
    exact ih fun x hx => hw x (by simp [hx])

theorem takeWhile_stop {p : Char → Bool} (w rest : List Char) (hw : ∀ x ∈ w, p x = true)
    (hr : ∀ x, rest.head? = some x → p x = false) : (w ++ rest).takeWhile p = w := by
  induction w with
  | nil =>
    cases rest with
    | nil => rfl
    | cons x rest => rw [List.nil_append, List.takeWhile_cons, hr x rfl]; rfl
  | cons a w ih =>
    rw [List.cons_append, List.takeWhile_cons, hw a (by simp), if_pos rfl, ih fun x hx => hw x (by simp [hx])]

theorem head_dropWhile {p : Char → Bool} (l : List Char) (x : Char) (h : (l.dropWhile p).head? = some x) : p x = false := by
  have := List.head?_dropWhile_not p l
  rw [h] at this
  simpa using this

theorem digit_not_space (c : Char) (h : c.isDigit = true) : isSpaceChar c = false := by
  unfold Char.isDigit at h
  simp only [Bool.and_eq_true, decide_eq_true_eq] at h
  unfold isSpaceChar
  have hne : ∀ d : Char, d.val < 48 → (c == d) = false := by
    intro d hd
    rw [beq_eq_false_iff_ne]
    rintro rfl
    have h1 : (48 : UInt32) ≤ c.val := h.1
    rw [UInt32.le_iff_toNat_le] at h1
    rw [UInt32.lt_iff_toNat_lt] at hd
    omega
  rw [hne _ (by decide), hne _ (by decide), hne _ (by decide), hne _ (by decide), hne _ (by decide), hne _ (by decide)]
  rfl

/-- C113. The regular expression for column titles. -/
theorem C113_title (line number title : String) :
    sirtaHeader line = some (number, title) ↔ Spec.IsColumnTitle line number title := by
  unfold sirtaHeader Spec.IsColumnTitle
  constructor
  · intro h
    split at h
    · rename_i l hl
      split at h
      · rename_i c l2 hl2
        dsimp only at h
        split at h
        · rename_i l3 hl3
          split at h
          · cases h
          · rename_i hd
            rw [Option.some.injEq, Prod.mk.injEq] at h
            obtain ⟨rfl, rfl⟩ := h
            refine ⟨l.takeWhile isSpaceChar, l2.takeWhile isSpaceChar,
              ((l2.dropWhile isSpaceChar).dropWhile Char.isDigit).takeWhile isSpaceChar, l3.takeWhile isSpaceChar, c, ?_, ?_, ?_,
              ?_, ?_⟩
            · rw [hl]
              simp only [String.toList_ofList, List.cons_append, List.nil_append, List.append_assoc]
              rw [List.takeWhile_append_dropWhile, ← hl3, List.takeWhile_append_dropWhile, List.takeWhile_append_dropWhile,
                List.takeWhile_append_dropWhile]
              congr 1
              rw [← hl2, List.takeWhile_append_dropWhile]
            · intro x hx
              simp only [List.mem_append] at hx
              rcases hx with ((hx | hx) | hx) | hx <;> exact List.all_eq_true.1 List.all_takeWhile x hx
            · rw [String.toList_ofList]; exact hd
            · rw [String.toList_ofList]
              intro x hx
              exact List.all_eq_true.1 List.all_takeWhile x hx
            · rw [String.toList_ofList]
              intro x hx
              exact head_dropWhile _ _ hx
        · cases h
      · cases h
    · cases h
  · rintro ⟨s1, s2, s3, s4, c, hl, hsp, hne, hdig, htit⟩
    rw [hl]
    have q1 : ∀ x ∈ s1, isSpaceChar x = true := fun x hx => hsp x (by simp [hx])
    have q2 : ∀ x ∈ s2, isSpaceChar x = true := fun x hx => hsp x (by simp [hx])
    have q3 : ∀ x ∈ s3, isSpaceChar x = true := fun x hx => hsp x (by simp [hx])
    have q4 : ∀ x ∈ s4, isSpaceChar x = true := fun x hx => hsp x (by simp [hx])
    simp only [List.cons_append, List.nil_append, List.append_assoc]
    rw [dropWhile_stop s1 _ q1 (by intro x hx; cases hx; decide)]
    simp only
    rw [dropWhile_stop s2 _ q2 (by
      intro x hx
      cases hn : number.toList with
      | nil => exact absurd hn hne
      | cons d ds =>
        rw [hn] at hx
        cases hx
        exact digit_not_space _ (hdig _ (by rw [hn]; exact List.mem_cons_self)))]
    have hend : ∀ x, (s3 ++ ':' :: (s4 ++ title.toList)).head? = some x → Char.isDigit x = false := by
      intro x hx
      cases s3 with
      | nil => cases hx; decide
      | cons d ds =>
        cases hx
        have := q3 _ List.mem_cons_self
        by_contra hc
        rw [digit_not_space _ (by simpa using hc)] at this
        cases this
    rw [takeWhile_stop _ _ hdig hend, dropWhile_stop _ _ hdig hend,
      dropWhile_stop s3 _ q3 (by intro x hx; cases hx; decide)]
    simp only
    rw [if_neg hne, dropWhile_stop s4 _ q4 htit, String.ofList_toList, String.ofList_toList]

section
variable {T α : Type}

theorem sirtaFold (l : List (String × String)) (acc r : List String) :
    l.foldlM (fun (cols : List String) m =>
      if m.1 ≠ toString (cols.length + 1) then (.error "ValueError: Expected column" : Except String (List String))
      else .ok (cols ++ [m.2])) acc = .ok r ↔
    ∃ new, r = acc ++ new ∧ List.Forall₂ (fun (m : String × String) t => m.1 = toString (t.2 + 1) ∧ m.2 = t.1) l
      (new.zipIdx acc.length) := by
  induction l generalizing acc with
  | nil =>
    constructor
    · intro h; cases h; exact ⟨[], by simp, .nil⟩
    · rintro ⟨new, rfl, h⟩
      cases new with
      | nil => simp; rfl
      | cons => cases h
  | cons m l ih =>
    rw [List.foldlM_cons]
    by_cases hm : m.1 = toString (acc.length + 1)
    · rw [if_neg (not_not.2 hm)]
      show List.foldlM _ (acc ++ [m.2]) l = Except.ok r ↔ _
      rw [ih]
      rw [List.length_append, List.length_singleton]
      constructor
      · rintro ⟨new, rfl, h⟩
        exact ⟨m.2 :: new, by simp, .cons ⟨hm, rfl⟩ h⟩
      · rintro ⟨new, rfl, h⟩
        cases new with
        | nil => cases h
        | cons t new =>
          rw [List.zipIdx_cons] at h
          cases h with
          | cons h1 h2 => exact ⟨new, by simp [h1.2], h2⟩
    · rw [if_pos hm]
      constructor
      · intro h; cases h
      · rintro ⟨new, rfl, h⟩
        cases new with
        | nil => cases h
        | cons t new =>
          rw [List.zipIdx_cons] at h
          cases h with
          | cons h1 h2 => exact absurd h1.1 hm

theorem sirtaColumns_iff (lines : List (String × List String)) (titles : List String) :
    sirtaColumns (lines.map Prod.fst) = .ok titles ↔ Spec.HasTitles lines titles := by
  unfold sirtaColumns Spec.HasTitles
  rw [sirtaFold]
  generalize lines.map Prod.fst = ls
  have key : ∀ (ts : List (String × ℕ)), List.Forall₂ (fun (m : String × String) t => m.1 = toString (t.2 + 1) ∧ m.2 = t.1)
      (ls.filterMap sirtaHeader) ts ↔
      List.Forall₂ (fun line t => Spec.IsColumnTitle line (toString (t.2 + 1)) t.1)
        (ls.filter fun line => @decide (∃ n t, Spec.IsColumnTitle line n t) (Classical.propDecidable _)) ts := by
    induction ls with
    | nil => intro ts; constructor <;> (intro h; cases h; exact .nil)
    | cons line ls ih =>
      intro ts
      rw [List.filterMap_cons, List.filter_cons]
      cases hs : sirtaHeader line with
      | none =>
        have : ¬ ∃ n t, Spec.IsColumnTitle line n t := by
          rintro ⟨n, t, h⟩
          rw [(C113_title line n t).2 h] at hs; cases hs
        simp only [this, decide_false, Bool.false_eq_true, if_false]
        exact ih ts
      | some m =>
        obtain ⟨n, t⟩ := m
        have hm := (C113_title line n t).1 hs
        have : ∃ n t, Spec.IsColumnTitle line n t := ⟨n, t, hm⟩
        simp only [this, decide_true, if_true]
        cases ts with
        | nil => constructor <;> (intro h; cases h)
        | cons u ts =>
          rw [List.forall₂_cons, List.forall₂_cons, ih ts]
          refine and_congr_left fun _ => ?_
          rw [← C113_title, hs]
          simp [Prod.ext_iff]
  constructor
  · rintro ⟨new, rfl, h⟩
    simpa using (key _).1 h
  · intro h
    exact ⟨titles, by simp, by simpa using (key _).2 h⟩

theorem sirtaCell_iff (p : SirtaParsers T α) (key v : String) (a : FieldAction (StationCell T α)) :
    sirtaAction p (key, v) = .ok a ↔ ∃ x, a = .append key x ∧ Spec.SirtaCell p key v x := by
  unfold sirtaAction
  constructor
  · intro h
    split at h
    · rename_i h1
      dsimp only at h1
      subst h1
      cases ht : p.time v with
      | none => rw [ht] at h; cases h
      | some t => rw [ht] at h; cases h; exact ⟨_, rfl, .time v t ht⟩
    · split at h
      · rename_i h1 h2
        dsimp only at h2
        subst h2
        cases ht : p.timeZ v with
        | none => rw [ht] at h; cases h
        | some t => rw [ht] at h; cases h; exact ⟨_, rfl, .timeZ v t ht⟩
      · rename_i h1 h2
        cases h
        cases hn : p.number v with
        | none => exact ⟨_, rfl, .bad key v h1 h2 hn⟩
        | some x => exact ⟨_, rfl, .num key v x h1 h2 hn⟩
  · rintro ⟨x, rfl, h⟩
    cases h with
    | time v t ht => rw [if_pos rfl, ht]
    | timeZ v t ht => rw [if_neg (by simp), if_pos rfl, ht]
    | num _ _ x h1 h2 hn => rw [if_neg h1, if_neg h2, hn]; rfl
    | bad _ _ h1 h2 hn => rw [if_neg h1, if_neg h2, hn]; rfl

theorem sirta_filter (n : ℕ) (lines : List (String × List String)) (f : List String → List (String × String)) :
    (lines.filter fun l => !(l.1 == "") && !(l.1.toList.head? == some '#') && l.2.length == n).map (fun l => f l.2) =
      (Spec.dataLines n lines).map f := by
  unfold Spec.dataLines
  rw [List.map_map]
  congr 1
  refine List.filter_congr fun l _ => ?_
  by_cases hd : Spec.IsDataLine n l
  · simp only [hd, decide_true]
    obtain ⟨h1, h2, h3⟩ := hd
    simp [h1, h2, h3]
  · simp only [hd, decide_false]
    rw [Bool.eq_false_iff]
    intro hc
    simp only [Bool.and_eq_true, Bool.not_eq_true', beq_eq_false_iff_ne, beq_iff_eq] at hc
    exact hd ⟨hc.1.1, hc.1.2, hc.2⟩

/-- **C113.** A SIRTA file is accepted if its columns are numbered 1, 2, ... and the times of all lines of data can be read. -/
theorem C113_sirta_accepted (p : SirtaParsers T α) (lines : List (String × List String)) :
    (∃ cols, parseSirta p lines = .ok cols) ↔ ∃ titles, Spec.HasTitles lines titles ∧
      ∀ fields ∈ Spec.dataLines titles.length lines, ∀ kv ∈ titles.zip fields, ∃ x, Spec.SirtaCell p kv.1 kv.2 x := by
  unfold parseSirta
  constructor
  · rintro ⟨cols, h⟩
    cases ht : sirtaColumns (lines.map Prod.fst) with
    | error e => rw [ht] at h; cases h
    | ok titles =>
      rw [ht] at h
      dsimp only [Except.bind] at h
      refine ⟨titles, (sirtaColumns_iff _ _).1 ht, ?_⟩
      rw [sirta_filter titles.length lines (fun f => titles.zip f)] at h
      have hacc := (storeRows_spec _ _ _).2.1 ⟨cols, h⟩
      intro fields hf kv hkv
      have hns : ∀ i ∈ titles.zip fields, isStop (sirtaAction p) i = false := by
        intro i _
        unfold isStop
        cases ha : sirtaAction p i with
        | error e => rfl
        | ok a =>
          obtain ⟨x, rfl, -⟩ := (sirtaCell_iff p i.1 i.2 a).1 ha
          rfl
      obtain ⟨a, ha, -⟩ := hacc (titles.zip fields) (List.mem_map.2 ⟨fields, hf, rfl⟩) kv (by
        rw [takeWhile_all _ _ (fun i hi => by rw [hns i hi]; rfl)]; exact hkv)
      obtain ⟨x, -, hx⟩ := (sirtaCell_iff p kv.1 kv.2 a).1 ha
      exact ⟨x, hx⟩
  · rintro ⟨titles, ht, hall⟩
    rw [(sirtaColumns_iff _ _).2 ht]
    dsimp only [Except.bind]
    rw [sirta_filter titles.length lines (fun f => titles.zip f), (storeRows_spec _ _ _).2]
    rw [List.forall_mem_map]
    intro fields hf i hi
    have hi := (List.takeWhile_prefix _).subset hi
    obtain ⟨x, hx⟩ := hall fields hf i hi
    refine ⟨.append i.1 x, (sirtaCell_iff p i.1 i.2 _).2 ⟨x, rfl, hx⟩, ?_⟩
    intro n y hy
    cases hy
    rw [lookup_emptyColumns, if_pos (List.of_mem_zip (a := i.1) (b := i.2) hi).1]
    rfl

/-- **C113.** Each column of a SIRTA file has one value for each line of data. -/
theorem C113_sirta_columns (p : SirtaParsers T α) (lines : List (String × List String)) (titles : List String)
    (ht : Spec.HasTitles lines titles) (hnd : titles.Nodup) (cols : Columns (StationCell T α))
    (h : parseSirta p lines = .ok cols) (title : String) :
    (title ∉ titles → cols.lookup title = none) ∧
    (title ∈ titles → ∃ col, cols.lookup title = some col ∧
      List.Forall₂ (fun fields x => ∃ v, (title, v) ∈ titles.zip fields ∧ Spec.SirtaCell p title v x)
        (Spec.dataLines titles.length lines) col) := by
  have hacc := (C113_sirta_accepted p lines).1 ⟨cols, h⟩
  obtain ⟨titles', ht', hall⟩ := hacc
  have : titles' = titles := by
    have e1 := (sirtaColumns_iff _ _).2 ht
    have e2 := (sirtaColumns_iff _ _).2 ht'
    rw [e1] at e2
    cases e2; rfl
  subst this
  unfold parseSirta at h
  rw [(sirtaColumns_iff _ _).2 ht] at h
  dsimp only [Except.bind] at h
  rw [sirta_filter titles'.length lines (fun f => titles'.zip f)] at h
  have hl := (storeRows_spec _ _ _).1 cols h title
  rw [lookup_emptyColumns] at hl
  constructor
  · intro hn
    rw [hl, if_neg hn]; rfl
  · intro hin
    rw [if_pos hin] at hl
    refine ⟨_, hl, ?_⟩
    dsimp only
    rw [List.nil_append, List.flatMap_map]
    have hlen : ∀ fields ∈ Spec.dataLines titles'.length lines, fields.length = titles'.length := by
      intro fields hf
      unfold Spec.dataLines at hf
      obtain ⟨l, h1, rfl⟩ := List.mem_map.1 hf
      have : Spec.IsDataLine titles'.length l := by simpa using (List.mem_filter.1 h1).2
      exact this.2.2
    have hself : ∀ (l : List (List String)), l.filter (fun _ => true) = l := by simp
    rw [← hself (Spec.dataLines titles'.length lines)]
    conv => rhs; rw [hself]
    refine forall₂_flatMap_single _ _ _ _ ?_ (by simp)
    intro fields hf _
    obtain ⟨v, hv⟩ := exists_zip titles' fields (hlen fields hf) title hin
    obtain ⟨x, hx⟩ := hall fields hf (title, v) hv
    refine ⟨x, ?_, v, hv, hx⟩
    have hns : ∀ i ∈ titles'.zip fields, isStop (sirtaAction p) i = false := by
      intro i _
      unfold isStop
      cases ha : sirtaAction p i with
      | error e => rfl
      | ok a =>
        obtain ⟨x, rfl, -⟩ := (sirtaCell_iff p i.1 i.2 a).1 ha
        rfl
    rw [takeWhile_all _ _ (fun i hi => by rw [hns i hi]; rfl)]
    have hzn : ((titles'.zip fields).map Prod.fst).Nodup := by rw [zip_fst _ _ (hlen fields hf)]; exact hnd
    rw [← filterMap_title (titles'.zip fields) hzn title v hv (fun _ => x)]
    refine List.filterMap_congr fun kv hkv => ?_
    obtain ⟨y, hy⟩ := hall fields hf kv hkv
    have hact := (sirtaCell_iff p kv.1 kv.2 _).2 ⟨y, rfl, hy⟩
    unfold cellFor
    rw [show sirtaAction p kv = sirtaAction p (kv.1, kv.2) from rfl, hact]
    dsimp only
    by_cases hk : kv.1 = title
    · rw [if_pos hk, if_pos hk]
      have e1 := (lookup_nodup _ hzn kv.1 kv.2).2 hkv
      have e2 := (lookup_nodup _ hzn title v).2 hv
      rw [hk, e2] at e1
      have hveq : v = kv.2 := Option.some.inj e1
      have e3 := (sirtaCell_iff p title v _).2 ⟨x, rfl, hx⟩
      rw [hk, ← hveq] at hact
      rw [e3] at hact
      cases hact
      rfl
    · rw [if_neg hk, if_neg hk]

/-! ### Limassol -/

theorem extend_lookup {β : Type} (d acc : Columns β) (title : String) (hnd : (d.map Prod.fst).Nodup) :
    (d.foldl (fun acc kv => dictSet acc kv.1 ((acc.lookup kv.1).getD [] ++ kv.2)) acc).lookup title =
      match d.lookup title with
      | some l => some ((acc.lookup title).getD [] ++ l)
      | none => acc.lookup title := by
  induction d generalizing acc with
  | nil => rfl
  | cons kv d ih =>
    obtain ⟨k, l⟩ := kv
    rw [List.map_cons, List.nodup_cons] at hnd
    rw [List.foldl_cons, ih _ hnd.2, List.lookup_cons, lookup_dictSet]
    by_cases hk : title = k
    · subst hk
      have : d.lookup title = none := by
        rw [List.lookup_eq_none_iff]
        intro q hq
        rw [bne_iff_ne]
        rintro rfl
        exact hnd.1 (List.mem_map.2 ⟨q, hq, rfl⟩)
      rw [this, beq_self_eq_true]
      simp
    · rw [beq_false_of_ne hk, if_neg hk]

/-- The keys of the columns of a file stay. -/
theorem storeRow_keys {ι β : Type} (act : ι → Except String (FieldAction β)) (items : List ι) (c c' : Columns β)
    (h : storeRow act items c = .ok c') : c'.map Prod.fst = c.map Prod.fst := by
  induction items generalizing c with
  | nil => cases h; rfl
  | cons i items ih =>
    rw [storeRow] at h
    split at h
    · cases h
    · exact ih c h
    · cases h; rfl
    · rename_i n x _
      unfold appendCol at h
      split at h
      · rw [ih _ h]
        unfold appendTo
        rw [List.map_map]
        refine List.map_congr_left fun kv _ => ?_
        simp only [Function.comp]
        split <;> rfl
      · cases h

theorem storeRows_keys {ι β : Type} (act : ι → Except String (FieldAction β)) (rows : List (List ι)) (c c' : Columns β)
    (h : storeRows act rows c = .ok c') : c'.map Prod.fst = c.map Prod.fst := by
  unfold storeRows at h
  induction rows generalizing c with
  | nil => cases h; rfl
  | cons r rows ih =>
    rw [List.foldlM_cons] at h
    cases hr : storeRow act r c with
    | error e => rw [hr] at h; cases h
    | ok c1 =>
      rw [hr] at h
      rw [ih c1 h, storeRow_keys act r c c1 hr]

theorem emptyColumns_keys {β : Type} (keys : List String) : ((emptyColumns keys : Columns β).map Prod.fst).Nodup := by
  unfold emptyColumns
  have : ∀ (d : Columns β), (d.map Prod.fst).Nodup → ((keys.foldl (fun d k => dictSet d k []) d).map Prod.fst).Nodup := by
    induction keys with
    | nil => intro d h; exact h
    | cons k keys ih => intro d h; exact ih _ (keys_dictSet _ _ _ h)
  exact this [] (by simp)

/-- **C113** for Limassol. The columns of all files are joined by title, file by file. A file without a column adds nothing to
it, so if a file lacks a column, the values of the column are not those of the times at the same positions. -/
theorem C113_limassol (p : SirtaParsers T α) (files : List (List (String × List String)))
    (cols : Columns (StationCell T α)) (h : limassolFiles p files = .ok cols) :
    ∃ titles : List (List String), List.Forall₂ Spec.HasTitles files titles ∧
      ((∀ ts ∈ titles, ts.Nodup) → ∀ title,
        ((∀ ts ∈ titles, title ∉ ts) → cols.lookup title = none) ∧
        ((∃ ts ∈ titles, title ∈ ts) → ∃ col, cols.lookup title = some col ∧
          List.Forall₂ (fun tf x => ∃ v, (title, v) ∈ tf.1.zip tf.2 ∧ Spec.SirtaCell p title v x)
            (((files.zip titles).filter fun ft => decide (title ∈ ft.2)).flatMap
              fun ft => (Spec.dataLines ft.2.length ft.1).map fun fields => (ft.2, fields)) col)) := by
  have gen : ∀ (files : List (List (String × List String))) (acc : Columns (StationCell T α)),
      files.foldlM (fun acc lines => (parseSirta p lines).map fun d =>
        d.foldl (fun acc kv => dictSet acc kv.1 ((acc.lookup kv.1).getD [] ++ kv.2)) acc) acc = .ok cols →
      ∃ titles : List (List String), List.Forall₂ Spec.HasTitles files titles ∧
        ((∀ ts ∈ titles, ts.Nodup) → ∀ title, ∃ new : List (StationCell T α),
          ((∀ ts ∈ titles, title ∉ ts) → cols.lookup title = acc.lookup title) ∧
          ((∃ ts ∈ titles, title ∈ ts) → cols.lookup title = some ((acc.lookup title).getD [] ++ new)) ∧
          List.Forall₂ (fun tf x => ∃ v, (title, v) ∈ tf.1.zip tf.2 ∧ Spec.SirtaCell p title v x)
            (((files.zip titles).filter fun ft => decide (title ∈ ft.2)).flatMap
              fun ft => (Spec.dataLines ft.2.length ft.1).map fun fields => (ft.2, fields)) new) := by
    intro files
    induction files with
    | nil =>
      intro acc h
      cases h
      exact ⟨[], .nil, fun _ title => ⟨[], fun _ => rfl, by simp, by simp⟩⟩
    | cons f files ih =>
      intro acc h
      rw [List.foldlM_cons] at h
      cases hp : parseSirta p f with
      | error e => rw [hp] at h; cases h
      | ok d =>
        rw [hp] at h
        obtain ⟨titles, ht, hrest⟩ := ih _ h
        obtain ⟨ts, hts, -⟩ := (C113_sirta_accepted p f).1 ⟨d, hp⟩
        refine ⟨ts :: titles, .cons hts ht, ?_⟩
        intro hnd title
        obtain ⟨new, h1, h2, h3⟩ := hrest (fun t htm => hnd t (by simp [htm])) title
        have htsnd : ts.Nodup := hnd ts (by simp)
        have hdk : (d.map Prod.fst).Nodup := by
          have := hp
          unfold parseSirta at this
          rw [(sirtaColumns_iff _ _).2 hts] at this
          dsimp only [Except.bind] at this
          rw [storeRows_keys _ _ _ _ this]
          exact emptyColumns_keys ts
        rw [extend_lookup d acc title hdk] at h1 h2
        obtain ⟨g1, g2⟩ := C113_sirta_columns p f ts hts htsnd d hp title
        rw [List.zip_cons_cons, List.filter_cons]
        by_cases hin : title ∈ ts
        · obtain ⟨col, hc1, hc2⟩ := g2 hin
          rw [hc1] at h1 h2
          dsimp only at h1 h2
          refine ⟨col ++ new, ?_, ?_, ?_⟩
          · intro hno
            exact absurd hin (hno ts (by simp))
          · intro _
            by_cases hex : ∃ t ∈ titles, title ∈ t
            · rw [h2 hex]
              simp
            · have hnone : ∀ t ∈ titles, title ∉ t := fun t ht hc => hex ⟨t, ht, hc⟩
              rw [h1 hnone]
              have hnew : new = [] := by
                have hemp : ((files.zip titles).filter fun ft => decide (title ∈ ft.2)) = [] := by
                  rw [List.filter_eq_nil_iff]
                  intro ft hft
                  rw [decide_eq_true_eq]
                  exact hnone _ (List.of_mem_zip (a := ft.1) (b := ft.2) hft).2
                rw [hemp] at h3
                cases h3; rfl
              rw [hnew, List.append_nil]
          · dsimp only
            rw [decide_eq_true hin, if_pos rfl, List.flatMap_cons]
            refine List.rel_append ?_ h3
            rw [List.forall₂_map_left_iff]
            exact hc2
        · rw [g1 hin] at h1 h2
          dsimp only at h1 h2
          refine ⟨new, ?_, ?_, ?_⟩
          · intro hno
            exact h1 fun t ht => hno t (by simp [ht])
          · rintro ⟨t, ht, htin⟩
            rcases List.mem_cons.1 ht with rfl | ht
            · exact absurd htin hin
            · exact h2 ⟨t, ht, htin⟩
          · dsimp only
            rw [decide_eq_false hin, if_neg (by simp)]
            exact h3
  obtain ⟨titles, h1, h2⟩ := gen files [] h
  refine ⟨titles, h1, fun hnd title => ?_⟩
  obtain ⟨new, g1, g2, g3⟩ := h2 hnd title
  refine ⟨fun hno => ?_, fun hex => ⟨new, ?_, g3⟩⟩
  · rw [g1 hno]; rfl
  · rw [g2 hex]; rfl

end

/-! ### Examples -/

example : sirtaHeader "# Col.  2 : Air temperature (°C)" = some ("2", "Air temperature (°C)") := by decide +kernel

/-- Times and numbers written with one digit. -/
def digitSirta : SirtaParsers ℕ ℚ :=
  { time := fun v => if v = "1" then some 1 else if v = "2" then some 2 else none
    timeZ := fun _ => none
    number := fun v => if v = "5" then some (some 5) else if v = "7" then some (some 7) else none }

/-- A small file with or without humidity. -/
def sirtaFile (humid : Bool) (time : String) : List (String × List String) :=
  [("# Col. 1: Date Time (yyyy-mm-ddThh:mm:ss)", []), ("# Col. 2: Air temperature (°C)", [])] ++
    (if humid then [("# Col. 3: Relative humidity (%)", [])] else []) ++
    [("short", ["short"]), ("data", if humid then [time, "5", "7"] else [time, "5"])]

example : (parseSirta digitSirta (sirtaFile true "1")).toOption.bind (fun c => c.lookup "Relative humidity (%)") =
    some [.num (some 7)] := by decide +kernel

/-- C113, a finding: with a first file without humidity, the humidity of the second file gets the time of the first one. -/
theorem C113_limassol_misaligned :
    (limassolFiles digitSirta [sirtaFile false "1", sirtaFile true "2"]).toOption.map
      (fun c => (c.lookup "Date Time (yyyy-mm-ddThh:mm:ss)", c.lookup "Relative humidity (%)")) =
    some (some [.time 1, .time 2], some [.num (some 7)]) := by decide +kernel

end Cloudnet
