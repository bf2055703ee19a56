import Mathlib.Tactic
import Verif.Disdronator.Parsivel
import Verif.Disdronator.LpmProps
import Verif.Disdro.Props
import Verif.Cli.Props

namespace Cloudnet

/-! ## C121: Parsivel files -/

namespace Spec

/-- An element of the telegram is read from its fields. -/
inductive PvReads {T D C α : Type} (p : PvParsers T D C α) (dec : Char) : PvTok → List String → PvItem T α → Prop
  | float {n s x} : n ∈ pvFloats → p.float (pvDot dec s) = some x → PvReads p dec (.num n) [s] (.value (.num x))
  | int {n s x} : n ∈ pvInts → p.int s = some x → PvReads p dec (.num n) [s] (.value (.int x))
  | list {n ss xs} : n = 90 ∨ n = 91 → ss.length = 32 → List.Forall₂ (fun s x => p.float s = some x) ss xs →
      PvReads p dec (.num n) ss (.value (.list xs))
  | grid {ss rows} : List.Forall₂ (fun s x => p.float s = some x) ss rows.flatten → rows.length = 32 → (∀ r ∈ rows, r.length = 32) →
      PvReads p dec (.num 93) ss (.value (.grid rows))
  | text {n s} : n ∉ pvFloats → n ∉ pvInts → n ≠ 90 → n ≠ 91 → n ≠ 93 → PvReads p dec (.num n) [s] (.value (.raw s))
  | stamp {f s t} : p.stamp f s = some t → PvReads p dec (.fmt f) [s] (.stamp t)
  | skip {s} : PvReads p dec .skip [s] .nothing

/-- The fields of a line, split among the elements of the telegram. -/
inductive SplitRow {T D C α : Type} (p : PvParsers T D C α) (dec : Char) : List PvTok → List String → List (PvTok × PvItem T α) → Prop
  | nil : SplitRow p dec [] [] []
  | cons {t ts field vs item is} : PvReads p dec t field item → SplitRow p dec ts vs is →
      SplitRow p dec (t :: ts) (field ++ vs) ((t, item) :: is)

/-- The last selected element. -/
def Last {P X : Type} (R : P → X → Prop) (l : List P) (x : X) : Prop :=
  ∃ pre q post, l = pre ++ q :: post ∧ R q x ∧ ∀ q' ∈ post, ∀ y, ¬ R q' y

/-- A format of a date with time, of a date, of a time of day. -/
def FullFormat (f : String) : Prop := "%H".toList <:+: f.toList ∧ "%Y".toList <:+: f.toList
def DayFormat (f : String) : Prop := ¬ "%H".toList <:+: f.toList
def ClockFormat (f : String) : Prop := "%H".toList <:+: f.toList ∧ ¬ "%Y".toList <:+: f.toList

/-- Value of a number in a row. -/
def OfNum {T α : Type} (n : ℤ) (q : PvTok × PvItem T α) (v : PvVal α) : Prop := q = (.num n, .value v)
def OfFull {T α : Type} (q : PvTok × PvItem T α) (t : T) : Prop := ∃ f, FullFormat f ∧ q = (.fmt f, .stamp t)
def OfDay {T D C α : Type} (p : PvParsers T D C α) (q : PvTok × PvItem T α) (d : D) : Prop :=
  ∃ f t, DayFormat f ∧ q = (.fmt f, .stamp t) ∧ d = p.date t
def OfClock {T D C α : Type} (p : PvParsers T D C α) (q : PvTok × PvItem T α) (c : C) : Prop :=
  ∃ f t, ClockFormat f ∧ q = (.fmt f, .stamp t) ∧ c = p.clock t

/-- In a line that can be read as a whole, the last selected element. -/
def InLine {T D C α X : Type} (p : PvParsers T D C α) (telegram : List PvTok) (sep dec : Char) (R : PvTok × PvItem T α → X → Prop)
    (l : String) (x : X) : Prop :=
  ∃ items, SplitRow p dec telegram (pvValues sep l) items ∧ Last R items x

end Spec

section
variable {T D C α : Type}

theorem pvChunks_spec {n : ℕ} {l : List α} (h : l.length = 32 * n) :
    (pvChunks n l).flatten = l ∧ (pvChunks n l).length = n ∧ ∀ r ∈ pvChunks n l, r.length = 32 := by
  induction n generalizing l with
  | zero =>
    have : l = [] := List.length_eq_zero_iff.1 (by omega)
    subst this
    simp [pvChunks]
  | succ n ih =>
    obtain ⟨a, b, c⟩ := ih (l := l.drop 32) (by rw [List.length_drop]; omega)
    unfold pvChunks
    refine ⟨?_, ?_, ?_⟩
    · rw [List.flatten_cons, a, List.take_append_drop]
    · rw [List.length_cons, b]
    · intro r hr
      rcases List.mem_cons.1 hr with rfl | hr
      · rw [List.length_take]
        omega
      · exact c r hr

theorem pvChunks_flatten {rows : List (List α)} (h : ∀ r ∈ rows, r.length = 32) : pvChunks rows.length rows.flatten = rows := by
  induction rows with
  | nil => rfl
  | cons r rows ih =>
    have hr : r.length = 32 := h r (by simp)
    rw [List.length_cons, pvChunks, List.flatten_cons, List.take_append_of_le_length (by omega), List.take_of_length_le (by omega),
      List.drop_append_of_le_length (by omega), List.drop_of_length_le (by omega), List.nil_append, ih fun r' h' => h r' (by simp [h'])]

theorem flatten_length32 {rows : List (List α)} (h : ∀ r ∈ rows, r.length = 32) : rows.flatten.length = 32 * rows.length := by
  induction rows with
  | nil => rfl
  | cons r rows ih =>
    rw [List.flatten_cons, List.length_append, h r (by simp), ih fun r' h' => h r' (by simp [h']), List.length_cons]
    ring

theorem mapM_option_iff {X Y : Type} (f : X → Option Y) (l : List X) (ys : List Y) :
    l.mapM f = some ys ↔ List.Forall₂ (fun s x => f s = some x) l ys := by
  induction l generalizing ys with
  | nil =>
    rw [List.mapM_nil]
    constructor
    · intro h
      obtain rfl := Option.some.inj h
      exact .nil
    · intro h
      cases h
      rfl
  | cons a l ih =>
    rw [List.mapM_cons]
    constructor
    · intro h
      cases ha : f a with
      | none => simp [ha] at h
      | some y =>
        cases hl : l.mapM f with
        | none => simp [ha, hl] at h
        | some zs =>
          simp [ha, hl] at h
          subst h
          exact .cons ha ((ih zs).1 hl)
    · intro h
      cases h with
      | cons h1 h2 => simp [h1, (ih _).2 h2]

theorem one_of_length {X : Type} {l : List X} (h : l.length = 1) : ∃ x, l = [x] := by
  match l, h with
  | [x], _ => exact ⟨x, rfl⟩

/-- Fields of the right number. -/
theorem pvField_iff (p : PvParsers T D C α) (dec : Char) (t : PvTok) (field : List String) (item : PvItem T α) :
    (field.length = pvWidth t ∧ pvField p dec t field = some item) ↔ Spec.PvReads p dec t field item := by
  have f90 : (90 : ℤ) ∉ pvFloats ∧ (90 : ℤ) ∉ pvInts := by decide
  have f91 : (91 : ℤ) ∉ pvFloats ∧ (91 : ℤ) ∉ pvInts := by decide
  have f93 : (93 : ℤ) ∉ pvFloats ∧ (93 : ℤ) ∉ pvInts := by decide
  have fi : ∀ n ∈ pvInts, n ∉ pvFloats := by decide
  have wf : ∀ n ∈ pvFloats, pvWidth (.num n) = 1 := by decide
  have wi : ∀ n ∈ pvInts, pvWidth (.num n) = 1 := by decide
  constructor
  · rintro ⟨hl, h⟩
    cases t with
    | skip =>
      obtain ⟨s, rfl⟩ := one_of_length hl
      obtain rfl := Option.some.inj h
      exact .skip
    | fmt f =>
      obtain ⟨s, rfl⟩ := one_of_length hl
      obtain ⟨x, hx, rfl⟩ := Option.map_eq_some_iff.1 (show (p.stamp f s).map PvItem.stamp = some item from h)
      exact .stamp hx
    | num n =>
      unfold pvField at h
      dsimp only at h
      split_ifs at h with c1 c2 c3 c4
      · rw [wf n c1] at hl
        obtain ⟨s, rfl⟩ := one_of_length hl
        obtain ⟨x, hx, rfl⟩ := Option.map_eq_some_iff.1 (show (p.float (pvDot dec s)).map (fun x => PvItem.value (.num x)) = some item from h)
        exact .float c1 hx
      · rw [wi n c2] at hl
        obtain ⟨s, rfl⟩ := one_of_length hl
        obtain ⟨x, hx, rfl⟩ := Option.map_eq_some_iff.1 (show (p.int s).map (fun x => PvItem.value (.int x)) = some item from h)
        exact .int c2 hx
      · obtain ⟨xs, hx, rfl⟩ := Option.map_eq_some_iff.1 h
        refine .list c3 ?_ ((mapM_option_iff _ _ _).1 hx)
        rw [hl]
        unfold pvWidth
        dsimp only
        rw [if_pos c3]
      · obtain ⟨xs, hx, rfl⟩ := Option.map_eq_some_iff.1 h
        subst c4
        have hf := (mapM_option_iff _ _ _).1 hx
        have hxl : xs.length = 32 * 32 := by
          rw [← hf.length_eq, hl]
          rfl
        obtain ⟨a, b, c⟩ := pvChunks_spec hxl
        exact .grid (by rw [a]; exact hf) b c
      · rw [not_or] at c3
        have : pvWidth (.num n) = 1 := by
          unfold pvWidth
          dsimp only
          rw [if_neg (not_or.2 c3), if_neg c4]
        rw [this] at hl
        obtain ⟨s, rfl⟩ := one_of_length hl
        obtain rfl := Option.some.inj (show some (PvItem.value (.raw s)) = some item from h)
        exact .text c1 c2 c3.1 c3.2 c4
  · intro h
    cases h with
    | float hn hx =>
      refine ⟨(wf _ hn).symm, ?_⟩
      unfold pvField
      dsimp only
      rw [if_pos hn]
      simp [hx]
    | int hn hx =>
      refine ⟨(wi _ hn).symm, ?_⟩
      unfold pvField
      dsimp only
      rw [if_neg (fi _ hn), if_pos hn]
      simp [hx]
    | @list n ss xs hn hl hx =>
      have h1 : n ∉ pvFloats := by rcases hn with rfl | rfl; exacts [f90.1, f91.1]
      have h2 : n ∉ pvInts := by rcases hn with rfl | rfl; exacts [f90.2, f91.2]
      refine ⟨?_, ?_⟩
      · rw [hl]
        unfold pvWidth
        dsimp only
        rw [if_pos hn]
      · unfold pvField
        dsimp only
        rw [if_neg h1, if_neg h2, if_pos hn, (mapM_option_iff _ _ _).2 hx]
        rfl
    | @grid ss rows hx h32 hr =>
      refine ⟨?_, ?_⟩
      · rw [hx.length_eq, flatten_length32 hr, h32]
        rfl
      · unfold pvField
        dsimp only
        rw [if_neg f93.1, if_neg f93.2, if_neg (by decide), if_pos rfl, (mapM_option_iff _ _ _).2 hx]
        have := pvChunks_flatten hr
        rw [h32] at this
        rw [Option.map_some, this]
    | text h1 h2 h3 h4 h5 =>
      refine ⟨?_, ?_⟩
      · unfold pvWidth
        dsimp only
        rw [if_neg (not_or.2 ⟨h3, h4⟩), if_neg h5]
        rfl
      · unfold pvField
        dsimp only
        rw [if_neg h1, if_neg h2, if_neg (not_or.2 ⟨h3, h4⟩), if_neg h5]
        rfl
    | stamp hx =>
      refine ⟨rfl, ?_⟩
      unfold pvField
      simp [hx]
    | skip => exact ⟨rfl, rfl⟩

/-- Rows of the right number of fields. -/
theorem pvRow_iff (p : PvParsers T D C α) (dec : Char) (ts : List PvTok) (vs : List String) (r r' : PvRow T D C α) :
    (vs.length = pvExpected ts ∧ pvRow p dec ts vs r = some r') ↔
      ∃ items, Spec.SplitRow p dec ts vs items ∧ r' = items.foldl (pvStore p) r := by
  induction ts generalizing vs r with
  | nil =>
    constructor
    · rintro ⟨h1, h2⟩
      have : vs = [] := List.length_eq_zero_iff.1 (by rw [h1]; rfl)
      subst this
      exact ⟨[], .nil, (Option.some.inj h2).symm⟩
    · rintro ⟨items, h, rfl⟩
      cases h
      exact ⟨rfl, rfl⟩
  | cons t ts ih =>
    have hexp : pvExpected (t :: ts) = pvWidth t + pvExpected ts := by
      unfold pvExpected
      rw [List.map_cons, List.sum_cons]
    constructor
    · rintro ⟨h1, h2⟩
      rw [hexp] at h1
      unfold pvRow at h2
      cases hf : pvField p dec t (vs.take (pvWidth t)) with
      | none => rw [hf] at h2; exact absurd h2 (by simp)
      | some item =>
        rw [hf] at h2
        have hread := (pvField_iff p dec t (vs.take (pvWidth t)) item).1 ⟨by rw [List.length_take]; omega, hf⟩
        obtain ⟨items, h3, h4⟩ := (ih (vs.drop (pvWidth t)) (pvStore p r (t, item))).1 ⟨by rw [List.length_drop]; omega, h2⟩
        refine ⟨(t, item) :: items, ?_, h4⟩
        have := Spec.SplitRow.cons hread h3
        rwa [List.take_append_drop] at this
    · rintro ⟨items, h, rfl⟩
      cases h with
      | @cons _ _ field vs' item is hr hs =>
        obtain ⟨h1, h2⟩ := (pvField_iff p dec t field item).2 hr
        obtain ⟨h3, h4⟩ := (ih vs' (pvStore p r (t, item))).2 ⟨is, hs, rfl⟩
        refine ⟨by rw [List.length_append, h1, h3, hexp], ?_⟩
        unfold pvRow
        rw [← h1, List.take_left, h2, List.drop_left]
        exact h4

theorem last_fold {S P X : Type} (slot : S → Option X) (step : S → P → S) (R : P → X → Prop)
    (h1 : ∀ s q x, R q x → slot (step s q) = some x) (h2 : ∀ s q, (∀ x, ¬ R q x) → slot (step s q) = slot s) (l : List P) (s : S) :
    (∀ x, Spec.Last R l x → slot (l.foldl step s) = some x) ∧ ((∀ x, ¬ Spec.Last R l x) → slot (l.foldl step s) = slot s) := by
  have none_rest : ∀ (l : List P) (s : S), (∀ q ∈ l, ∀ y, ¬ R q y) → slot (l.foldl step s) = slot s := by
    intro l
    induction l with
    | nil => exact fun _ _ => rfl
    | cons q l ih =>
      intro s h
      rw [List.foldl_cons, ih _ fun q' hq' => h q' (by simp [hq']), h2 s q (h q (by simp))]
  refine ⟨?_, ?_⟩
  · rintro x ⟨pre, q, post, rfl, hq, hpost⟩
    rw [List.foldl_append, List.foldl_cons, none_rest _ _ hpost, h1 _ _ _ hq]
  · intro h
    apply none_rest
    by_contra hne
    push Not at hne
    -- take the last selected one
    have : ∀ l : List P, (∃ q ∈ l, ∃ y, R q y) → ∃ x, Spec.Last R l x := by
      intro l
      induction l with
      | nil => rintro ⟨q, hq, -⟩; simp at hq
      | cons a l ih =>
        rintro ⟨q, hq, y, hy⟩
        by_cases hl : ∃ q ∈ l, ∃ y, R q y
        · obtain ⟨x, pre, q', post, rfl, h3⟩ := ih hl
          exact ⟨x, a :: pre, q', post, rfl, h3⟩
        · rcases List.mem_cons.1 hq with rfl | hq
          · exact ⟨y, [], q, l, rfl, hy, fun q' hq' y' hy' => hl ⟨q', hq', y', hy'⟩⟩
          · exact absurd ⟨q, hq, y, hy⟩ hl
    obtain ⟨x, hx⟩ := this l hne
    exact h x hx

theorem slot_num (p : PvParsers T D C α) (n : ℤ) (l : List (PvTok × PvItem T α)) (s : PvRow T D C α) :
    (∀ x, Spec.Last (Spec.OfNum n) l x → (l.foldl (pvStore p) s).data n = some x) ∧
    ((∀ x, ¬ Spec.Last (Spec.OfNum n) l x) → (l.foldl (pvStore p) s).data n = s.data n) := by
  refine last_fold (fun s => s.data n) (pvStore p) _ ?_ ?_ l s
  · rintro s q x rfl
    simp [pvStore]
  · intro s q hq
    unfold pvStore
    split
    · next m v =>
      have : n ≠ m := by
        rintro rfl
        exact hq v rfl
      dsimp only
      rw [if_neg this]
    · split_ifs <;> rfl
    · rfl

theorem pvContains_iff (a b : String) : pvContains a b = true ↔ a.toList <:+: b.toList := by
  unfold pvContains
  rw [decide_eq_true_iff]

theorem slot_full (p : PvParsers T D C α) (l : List (PvTok × PvItem T α)) (s : PvRow T D C α) :
    (∀ x, Spec.Last Spec.OfFull l x → (l.foldl (pvStore p) s).full = some x) ∧
    ((∀ x, ¬ Spec.Last Spec.OfFull l x) → (l.foldl (pvStore p) s).full = s.full) := by
  refine last_fold (fun s => s.full) (pvStore p) _ ?_ ?_ l s
  · rintro s q x ⟨f, ⟨h1, h2⟩, rfl⟩
    rw [← pvContains_iff] at h1 h2
    unfold pvStore
    simp [h1, h2]
  · intro s q hq
    unfold pvStore
    split
    · rfl
    · next f t =>
      split_ifs with c1 c2
      · rfl
      · exfalso
        refine hq t ⟨f, ⟨?_, ?_⟩, rfl⟩
        · rw [← pvContains_iff]
          exact c2
        · rw [← pvContains_iff]
          by_contra h
          exact c1 ⟨c2, h⟩
      · rfl
    · rfl

theorem slot_day (p : PvParsers T D C α) (l : List (PvTok × PvItem T α)) (s : PvRow T D C α) :
    (∀ x, Spec.Last (Spec.OfDay p) l x → (l.foldl (pvStore p) s).date = some x) ∧
    ((∀ x, ¬ Spec.Last (Spec.OfDay p) l x) → (l.foldl (pvStore p) s).date = s.date) := by
  refine last_fold (fun s => s.date) (pvStore p) _ ?_ ?_ l s
  · rintro s q x ⟨f, t, h1, rfl, rfl⟩
    unfold Spec.DayFormat at h1
    rw [← pvContains_iff] at h1
    unfold pvStore
    simp [h1]
  · intro s q hq
    unfold pvStore
    split
    · rfl
    · next f t =>
      split_ifs with c1 c2
      · rfl
      · rfl
      · exfalso
        refine hq _ ⟨f, t, ?_, rfl, rfl⟩
        unfold Spec.DayFormat
        rw [← pvContains_iff]
        exact c2
    · rfl

theorem slot_clock (p : PvParsers T D C α) (l : List (PvTok × PvItem T α)) (s : PvRow T D C α) :
    (∀ x, Spec.Last (Spec.OfClock p) l x → (l.foldl (pvStore p) s).clock = some x) ∧
    ((∀ x, ¬ Spec.Last (Spec.OfClock p) l x) → (l.foldl (pvStore p) s).clock = s.clock) := by
  refine last_fold (fun s => s.clock) (pvStore p) _ ?_ ?_ l s
  · rintro s q x ⟨f, t, ⟨h1, h2⟩, rfl, rfl⟩
    rw [← pvContains_iff] at h1 h2
    unfold pvStore
    simp [h1, h2]
  · intro s q hq
    unfold pvStore
    split
    · rfl
    · next f t =>
      split_ifs with c1 c2
      · exfalso
        refine hq _ ⟨f, t, ⟨?_, ?_⟩, rfl, rfl⟩
        · rw [← pvContains_iff]
          exact c1.1
        · rw [← pvContains_iff]
          exact c1.2
      · rfl
      · rfl
    · rfl

/-- A line can be read in one way only. -/
theorem split_unique (p : PvParsers T D C α) (dec : Char) {ts : List PvTok} {vs : List String} {a b : List (PvTok × PvItem T α)}
    (ha : Spec.SplitRow p dec ts vs a) (hb : Spec.SplitRow p dec ts vs b) : a = b := by
  induction ha generalizing b with
  | nil => cases hb; rfl
  | @cons t ts field vs item is hr _ ih =>
    generalize hw : field ++ vs = ws at hb
    cases hb with
    | @cons _ _ field' vs' item' is' hr' hs' =>
      obtain ⟨h1, h2⟩ := (pvField_iff p dec t field item).2 hr
      obtain ⟨h3, h4⟩ := (pvField_iff p dec t field' item').2 hr'
      obtain ⟨rfl, rfl⟩ := List.append_inj hw (by rw [h1, h3])
      rw [h2] at h4
      rw [Option.some.inj h4, ih hs']

theorem collect_step {X : Type} (p : PvParsers T D C α) (telegram : List PvTok) (sep dec : Char)
    (R : PvTok × PvItem T α → X → Prop) (slot : PvRow T D C α → Option X) (get : PvData T D C α → List X)
    (hslot : ∀ l s, (∀ x, Spec.Last R l x → slot (l.foldl (pvStore p) s) = some x) ∧
      ((∀ x, ¬ Spec.Last R l x) → slot (l.foldl (pvStore p) s) = slot s)) (h0 : slot pvEmpty = none)
    (hget : ∀ (s : PvData T D C α) (r : PvRow T D C α), get ⟨s.clocks ++ r.clock.toList, s.dates ++ r.date.toList, s.fulls ++ r.full.toList,
      fun n => s.data n ++ (r.data n).toList⟩ = get s ++ (slot r).toList) (lines : List String) (s : PvData T D C α) :
    ∃ xs, Spec.Collected (Spec.InLine p telegram sep dec R) lines xs ∧ get (lines.foldl (pvLine p telegram sep dec) s) = get s ++ xs := by
  induction lines generalizing s with
  | nil => exact ⟨[], .nil, by simp⟩
  | cons l ls ih =>
    rw [List.foldl_cons]
    obtain ⟨xs, h1, h2⟩ := ih (pvLine p telegram sep dec s l)
    have hskip : get (pvLine p telegram sep dec s l) = get s → (∀ x, ¬ Spec.InLine p telegram sep dec R l x) → ∃ xs,
        Spec.Collected (Spec.InLine p telegram sep dec R) (l :: ls) xs ∧
          get (ls.foldl (pvLine p telegram sep dec) (pvLine p telegram sep dec s l)) = get s ++ xs := by
      intro e hn
      exact ⟨xs, .skip hn h1, by rw [h2, e]⟩
    have hno : (¬ ∃ r', (pvValues sep l).length = pvExpected telegram ∧ pvRow p dec telegram (pvValues sep l) pvEmpty = some r') →
        ∀ x, ¬ Spec.InLine p telegram sep dec R l x := by
      rintro hnone x ⟨items, hi, -⟩
      exact hnone ⟨_, (pvRow_iff p dec telegram _ pvEmpty _).2 ⟨items, hi, rfl⟩⟩
    by_cases hl : (pvValues sep l).length = pvExpected telegram
    · cases hr : pvRow p dec telegram (pvValues sep l) pvEmpty with
      | none =>
        refine hskip ?_ (hno ?_)
        · unfold pvLine
          rw [if_neg (not_not.2 hl), hr]
        · rintro ⟨r', -, h⟩
          rw [hr] at h
          cases h
      | some r =>
        obtain ⟨items, hi, rfl⟩ := (pvRow_iff p dec telegram _ pvEmpty r).1 ⟨hl, hr⟩
        have e : get (pvLine p telegram sep dec s l) = get s ++ (slot (items.foldl (pvStore p) pvEmpty)).toList := by
          unfold pvLine
          rw [if_neg (not_not.2 hl), hr]
          exact hget s _
        obtain ⟨a, b⟩ := hslot items pvEmpty
        by_cases hx : ∃ x, Spec.Last R items x
        · obtain ⟨x, hx⟩ := hx
          refine ⟨x :: xs, .take ⟨items, hi, hx⟩ h1, ?_⟩
          rw [h2, e, a x hx]
          simp
        · rw [not_exists] at hx
          refine hskip ?_ ?_
          · rw [e, b hx, h0]
            simp
          · rintro x ⟨items', hi', hx'⟩
            rw [split_unique p dec hi' hi] at hx'
            exact hx x hx'
    · refine hskip ?_ (hno ?_)
      · unfold pvLine
        rw [if_pos hl]
      · rintro ⟨r', h, -⟩
        exact hl h

/-- **C121.** Only lines that can be read as a whole count; a column has the value of its number for each of them. -/
theorem C121_columns (p : PvParsers T D C α) (telegram : List PvTok) (sep dec : Char) (lines : List String) (n : ℤ) :
    Spec.Collected (Spec.InLine p telegram sep dec (Spec.OfNum n)) lines ((pvCollect p telegram sep dec lines).data n) := by
  obtain ⟨xs, h1, h2⟩ := collect_step p telegram sep dec (Spec.OfNum n) (fun r => r.data n) (fun s => s.data n)
    (fun l s => slot_num p n l s) rfl (fun _ _ => rfl) lines ⟨[], [], [], fun _ => []⟩
  unfold pvCollect
  rw [h2]
  exact h1

theorem collect_full (p : PvParsers T D C α) (telegram : List PvTok) (sep dec : Char) (lines : List String) :
    Spec.Collected (Spec.InLine p telegram sep dec Spec.OfFull) lines (pvCollect p telegram sep dec lines).fulls := by
  obtain ⟨xs, h1, h2⟩ := collect_step p telegram sep dec Spec.OfFull (fun r => r.full) (fun s => s.fulls)
    (fun l s => slot_full p l s) rfl (fun _ _ => rfl) lines ⟨[], [], [], fun _ => []⟩
  unfold pvCollect
  rw [h2]
  exact h1

theorem collect_day (p : PvParsers T D C α) (telegram : List PvTok) (sep dec : Char) (lines : List String) :
    Spec.Collected (Spec.InLine p telegram sep dec (Spec.OfDay p)) lines (pvCollect p telegram sep dec lines).dates := by
  obtain ⟨xs, h1, h2⟩ := collect_step p telegram sep dec (Spec.OfDay p) (fun r => r.date) (fun s => s.dates)
    (fun l s => slot_day p l s) rfl (fun _ _ => rfl) lines ⟨[], [], [], fun _ => []⟩
  unfold pvCollect
  rw [h2]
  exact h1

theorem collect_clock (p : PvParsers T D C α) (telegram : List PvTok) (sep dec : Char) (lines : List String) :
    Spec.Collected (Spec.InLine p telegram sep dec (Spec.OfClock p)) lines (pvCollect p telegram sep dec lines).clocks := by
  obtain ⟨xs, h1, h2⟩ := collect_step p telegram sep dec (Spec.OfClock p) (fun r => r.clock) (fun s => s.clocks)
    (fun l s => slot_clock p l s) rfl (fun _ _ => rfl) lines ⟨[], [], [], fun _ => []⟩
  unfold pvCollect
  rw [h2]
  exact h1

/-- Selected elements are there in every line that can be read, if they are in the telegram. -/
theorem inLine_iff {X : Type} (p : PvParsers T D C α) (telegram : List PvTok) (sep dec : Char) (R : PvTok × PvItem T α → X → Prop)
    (hR : ∀ items vs, Spec.SplitRow p dec telegram vs items → ∃ q ∈ items, ∃ x, R q x) (l : String) :
    (∃ x, Spec.InLine p telegram sep dec R l x) ↔ ∃ items, Spec.SplitRow p dec telegram (pvValues sep l) items := by
  constructor
  · rintro ⟨x, items, h, -⟩
    exact ⟨items, h⟩
  · rintro ⟨items, h⟩
    obtain ⟨q, hq, x, hx⟩ := hR items _ h
    by_contra hne
    rw [not_exists] at hne
    have := (last_fold (S := Option (PvTok × PvItem T α)) (X := PvTok × PvItem T α) id (fun s q => open Classical in if ∃ x, R q x then some q else s)
      (fun q q' => q' = q ∧ ∃ x, R q x) (by rintro s q _ ⟨rfl, h⟩; simp [h]) (by
        intro s q h
        have : ¬ ∃ x, R q x := fun h' => h q ⟨rfl, h'⟩
        simp [this]) items none).2 (by
        rintro q0 ⟨pre, q1, post, rfl, ⟨rfl, y, hy⟩, hpost⟩
        refine hne y ⟨_, h, pre, q0, post, rfl, hy, ?_⟩
        intro q' hq' y' hy'
        exact hpost q' hq' q' ⟨rfl, y', hy'⟩)
    have hfold : ∀ (items : List (PvTok × PvItem T α)) (s : Option (PvTok × PvItem T α)), (s.isSome ∨ ∃ q ∈ items, ∃ x, R q x) →
        (items.foldl (fun s q => open Classical in if ∃ x, R q x then some q else s) s).isSome := by
      intro items
      induction items with
      | nil => simp
      | cons a items ih =>
        intro s hs
        rw [List.foldl_cons]
        apply ih
        by_cases ha : ∃ x, R a x
        · left
          simp [ha]
        · rcases hs with hs | ⟨q, hq, hx⟩
          · left
            simp [ha, hs]
          · rcases List.mem_cons.1 hq with rfl | hq
            · exact absurd hx ha
            · exact .inr ⟨q, hq, hx⟩
    have h3 := hfold items none (.inr ⟨q, hq, x, hx⟩)
    simp only [id] at this
    rw [this] at h3
    simp at h3

/-- Each element of the telegram is in the row, with what it was read as. -/
theorem split_mem (p : PvParsers T D C α) (dec : Char) {ts : List PvTok} {vs : List String} {items : List (PvTok × PvItem T α)}
    (h : Spec.SplitRow p dec ts vs items) (t : PvTok) (ht : t ∈ ts) : ∃ field item, (t, item) ∈ items ∧ Spec.PvReads p dec t field item := by
  induction h with
  | nil => simp at ht
  | @cons t' ts field vs item is hr _ ih =>
    rcases List.mem_cons.1 ht with rfl | ht
    · exact ⟨field, item, by simp, hr⟩
    · obtain ⟨f, i, h1, h2⟩ := ih ht
      exact ⟨f, i, by simp [h1], h2⟩

theorem has_num (p : PvParsers T D C α) (dec : Char) {ts : List PvTok} {n : ℤ} (hn : .num n ∈ ts) (items : List (PvTok × PvItem T α))
    (vs : List String) (h : Spec.SplitRow p dec ts vs items) : ∃ q ∈ items, ∃ x, Spec.OfNum n q x := by
  obtain ⟨field, item, h1, h2⟩ := split_mem p dec h _ hn
  cases h2 <;> exact ⟨_, h1, _, rfl⟩

theorem has_stamp (p : PvParsers T D C α) (dec : Char) {ts : List PvTok} {f : String} (hf : .fmt f ∈ ts)
    (items : List (PvTok × PvItem T α)) (vs : List String) (h : Spec.SplitRow p dec ts vs items) :
    ∃ t, (.fmt f, .stamp t) ∈ items := by
  obtain ⟨field, item, h1, h2⟩ := split_mem p dec h _ hf
  cases h2
  exact ⟨_, h1⟩

theorem split_tokens (p : PvParsers T D C α) (dec : Char) {ts : List PvTok} {vs : List String} {items : List (PvTok × PvItem T α)}
    (h : Spec.SplitRow p dec ts vs items) : items.map Prod.fst = ts := by
  induction h with
  | nil => rfl
  | cons _ _ ih => rw [List.map_cons, ih]

theorem inLine_token {X : Type} (p : PvParsers T D C α) (telegram : List PvTok) (sep dec : Char) (R : PvTok × PvItem T α → X → Prop)
    {l : String} {x : X} (h : Spec.InLine p telegram sep dec R l x) : ∃ q, q.1 ∈ telegram ∧ R q x := by
  obtain ⟨items, hs, pre, q, post, rfl, hq, -⟩ := h
  refine ⟨q, ?_, hq⟩
  rw [← split_tokens p dec hs]
  simp

theorem collected_none {L V : Type} {R : L → V → Prop} {ls : List L} {vs : List V} (h : Spec.Collected R ls vs)
    (hn : ∀ l ∈ ls, ∀ v, ¬ R l v) : vs = [] := by
  induction h with
  | nil => rfl
  | take h _ _ => exact absurd h (hn _ (by simp) _)
  | skip _ _ ih => exact ih fun l hl => hn l (by simp [hl])

theorem collected_some {L V : Type} {R : L → V → Prop} {ls : List L} {vs : List V} (h : Spec.Collected R ls vs)
    (hn : ∃ l ∈ ls, ∃ v, R l v) : vs ≠ [] := by
  induction h with
  | nil => simp at hn
  | take _ _ _ => simp
  | skip hs _ ih =>
    obtain ⟨l, hl, v, hv⟩ := hn
    rcases List.mem_cons.1 hl with rfl | hl
    · exact absurd hv (hs v)
    · exact ih ⟨l, hl, v, hv⟩

theorem collected_length {L V W : Type} {R : L → V → Prop} {S : L → W → Prop} {ls : List L} {vs : List V} {ws : List W}
    (h1 : Spec.Collected R ls vs) (h2 : Spec.Collected S ls ws) (h : ∀ l ∈ ls, (∃ v, R l v) ↔ ∃ w, S l w) : vs.length = ws.length :=
  (collected_forall₂ h1 h2 h).length_eq

/-- **C121.** If the telegram has a date with time and no other times, then times of a file and values of a number of the telegram
belong together: each is from the same line. -/
theorem C121_aligned (p : PvParsers T D C α) (telegram : List PvTok) (sep dec : Char) (lines : List String) (f : String)
    (hf : Spec.FullFormat f) (hft : .fmt f ∈ telegram) (hother : ∀ f', .fmt f' ∈ telegram → Spec.FullFormat f') :
    ∃ times data, pvRead p telegram sep dec lines = .ok (times, data) ∧
      Spec.Collected (Spec.InLine p telegram sep dec Spec.OfFull) lines times ∧
      ∀ n, .num n ∈ telegram → List.Forall₂ (fun t v => ∃ l ∈ lines, Spec.InLine p telegram sep dec Spec.OfFull l t ∧
        Spec.InLine p telegram sep dec (Spec.OfNum n) l v) times (data n) := by
  have hfull := collect_full p telegram sep dec lines
  have hR : ∀ items vs, Spec.SplitRow p dec telegram vs items → ∃ q ∈ items, ∃ x, Spec.OfFull q x := by
    intro items vs h
    obtain ⟨t, ht⟩ := has_stamp p dec hft items vs h
    exact ⟨_, ht, t, f, hf, rfl⟩
  have hal : ∀ n, .num n ∈ telegram → List.Forall₂ (fun t v => ∃ l ∈ lines, Spec.InLine p telegram sep dec Spec.OfFull l t ∧
      Spec.InLine p telegram sep dec (Spec.OfNum n) l v) (pvCollect p telegram sep dec lines).fulls ((pvCollect p telegram sep dec lines).data n) := by
    intro n hn
    refine collected_forall₂ hfull (C121_columns p telegram sep dec lines n) ?_
    intro l _
    rw [inLine_iff p telegram sep dec _ hR, inLine_iff p telegram sep dec _ (has_num p dec hn)]
  have hday : (pvCollect p telegram sep dec lines).dates = [] := by
    refine collected_none (collect_day p telegram sep dec lines) ?_
    intro l _ v hv
    obtain ⟨q, h1, f', t, h2, rfl, -⟩ := inLine_token p telegram sep dec _ hv
    exact h2 (hother f' h1).1
  have hclock : (pvCollect p telegram sep dec lines).clocks = [] := by
    refine collected_none (collect_clock p telegram sep dec lines) ?_
    intro l _ v hv
    obtain ⟨q, h1, f', t, h2, rfl, -⟩ := inLine_token p telegram sep dec _ hv
    exact h2.2 (hother f' h1).2
  refine ⟨(pvCollect p telegram sep dec lines).fulls, (pvCollect p telegram sep dec lines).data, ?_, hfull, hal⟩
  unfold pvRead
  dsimp only
  split_ifs with h1 h2
  · rw [h1, hday]
    rfl
  · rw [hday, hclock] at h2
    exact absurd rfl h2
  · rfl

/-- **C121.** The same if the telegram has a date and a time of day, which are combined. -/
theorem C121_aligned_date (p : PvParsers T D C α) (telegram : List PvTok) (sep dec : Char) (lines : List String) (f g : String)
    (hf : Spec.DayFormat f) (hft : .fmt f ∈ telegram) (hg : Spec.ClockFormat g) (hgt : .fmt g ∈ telegram)
    (hother : ∀ f', .fmt f' ∈ telegram → ¬ Spec.FullFormat f') :
    ∃ times data, pvRead p telegram sep dec lines = .ok (times, data) ∧
      Spec.Collected (fun l t => ∃ d c, Spec.InLine p telegram sep dec (Spec.OfDay p) l d ∧ Spec.InLine p telegram sep dec (Spec.OfClock p) l c ∧
        t = p.combine d c) lines times ∧
      ∀ n, .num n ∈ telegram → List.Forall₂ (fun t v => ∃ l ∈ lines, (∃ d c, Spec.InLine p telegram sep dec (Spec.OfDay p) l d ∧
        Spec.InLine p telegram sep dec (Spec.OfClock p) l c ∧ t = p.combine d c) ∧ Spec.InLine p telegram sep dec (Spec.OfNum n) l v)
          times (data n) := by
  have hRd : ∀ items vs, Spec.SplitRow p dec telegram vs items → ∃ q ∈ items, ∃ x, Spec.OfDay p q x := by
    intro items vs h
    obtain ⟨t, ht⟩ := has_stamp p dec hft items vs h
    exact ⟨_, ht, _, f, t, hf, rfl, rfl⟩
  have hRc : ∀ items vs, Spec.SplitRow p dec telegram vs items → ∃ q ∈ items, ∃ x, Spec.OfClock p q x := by
    intro items vs h
    obtain ⟨t, ht⟩ := has_stamp p dec hgt items vs h
    exact ⟨_, ht, _, g, t, hg, rfl, rfl⟩
  have hfull : (pvCollect p telegram sep dec lines).fulls = [] := by
    refine collected_none (collect_full p telegram sep dec lines) ?_
    intro l _ v hv
    obtain ⟨q, h1, f', h2, rfl⟩ := inLine_token p telegram sep dec _ hv
    exact hother f' h1 h2
  have hiff : ∀ l ∈ lines, (∃ d, Spec.InLine p telegram sep dec (Spec.OfDay p) l d) ↔ ∃ c, Spec.InLine p telegram sep dec (Spec.OfClock p) l c := by
    intro l _
    rw [inLine_iff p telegram sep dec _ hRd, inLine_iff p telegram sep dec _ hRc]
  have hlen := collected_length (collect_day p telegram sep dec lines) (collect_clock p telegram sep dec lines) hiff
  have hzip : ∀ (ls : List String) (ds : List D) (cs : List C), Spec.Collected (Spec.InLine p telegram sep dec (Spec.OfDay p)) ls ds →
      Spec.Collected (Spec.InLine p telegram sep dec (Spec.OfClock p)) ls cs →
      (∀ l ∈ ls, (∃ d, Spec.InLine p telegram sep dec (Spec.OfDay p) l d) ↔ ∃ c, Spec.InLine p telegram sep dec (Spec.OfClock p) l c) →
      Spec.Collected (fun l t => ∃ d c, Spec.InLine p telegram sep dec (Spec.OfDay p) l d ∧ Spec.InLine p telegram sep dec (Spec.OfClock p) l c ∧
        t = p.combine d c) ls (List.zipWith p.combine ds cs) := by
    intro ls ds cs h1
    induction h1 generalizing cs with
    | nil => intro h2 _; cases h2; exact .nil
    | @take l d ls ds hd _ ih =>
      intro h2 h
      cases h2 with
      | @take _ c _ cs hc h2 =>
        exact .take ⟨d, c, hd, hc, rfl⟩ (ih cs h2 fun l' hl' => h l' (by simp [hl']))
      | skip hc _ =>
        obtain ⟨c, hc'⟩ := (h l (by simp)).1 ⟨d, hd⟩
        exact absurd hc' (hc c)
    | @skip l ls ds hd _ ih =>
      intro h2 h
      cases h2 with
      | @take _ c _ cs hc h2 =>
        obtain ⟨d, hd'⟩ := (h l (by simp)).2 ⟨c, hc⟩
        exact absurd hd' (hd d)
      | skip hc h2 =>
        refine .skip ?_ (ih cs h2 fun l' hl' => h l' (by simp [hl']))
        rintro t ⟨d, c, h3, -⟩
        exact hd d h3
  have hz := hzip lines _ _ (collect_day p telegram sep dec lines) (collect_clock p telegram sep dec lines) hiff
  refine ⟨_, (pvCollect p telegram sep dec lines).data, ?_, hz, ?_⟩
  · unfold pvRead
    dsimp only
    rw [if_pos hfull, if_pos hlen]
  · intro n hn
    refine collected_forall₂ hz (C121_columns p telegram sep dec lines n) ?_
    intro l hl
    rw [inLine_iff p telegram sep dec _ (has_num p dec hn), ← inLine_iff p telegram sep dec _ hRd]
    constructor
    · rintro ⟨t, d, c, h1, -⟩
      exact ⟨d, h1⟩
    · rintro ⟨d, h1⟩
      obtain ⟨c, h2⟩ := (hiff l hl).1 ⟨d, h1⟩
      exact ⟨_, d, c, h1, h2, rfl⟩

/-- **C121, finding** A format of date and time whose year has two digits counts as a time of day: a file in which a line can be read
is then refused. -/
theorem C121_short_year (p : PvParsers T D C α) (telegram : List PvTok) (sep dec : Char) (lines : List String) (f : String)
    (hf : Spec.ClockFormat f) (hft : .fmt f ∈ telegram) (hother : ∀ f', .fmt f' ∈ telegram → Spec.ClockFormat f')
    (hl : ∃ l ∈ lines, ∃ items, Spec.SplitRow p dec telegram (pvValues sep l) items) :
    ∃ e, pvRead p telegram sep dec lines = .error e := by
  have hRc : ∀ items vs, Spec.SplitRow p dec telegram vs items → ∃ q ∈ items, ∃ x, Spec.OfClock p q x := by
    intro items vs h
    obtain ⟨t, ht⟩ := has_stamp p dec hft items vs h
    exact ⟨_, ht, _, f, t, hf, rfl, rfl⟩
  have hfull : (pvCollect p telegram sep dec lines).fulls = [] := by
    refine collected_none (collect_full p telegram sep dec lines) ?_
    intro l _ v hv
    obtain ⟨q, h1, f', h2, rfl⟩ := inLine_token p telegram sep dec _ hv
    exact (hother f' h1).2 h2.2
  have hday : (pvCollect p telegram sep dec lines).dates = [] := by
    refine collected_none (collect_day p telegram sep dec lines) ?_
    intro l _ v hv
    obtain ⟨q, h1, f', t, h2, rfl, -⟩ := inLine_token p telegram sep dec _ hv
    exact h2 (hother f' h1).1
  have hclock : (pvCollect p telegram sep dec lines).clocks ≠ [] := by
    refine collected_some (collect_clock p telegram sep dec lines) ?_
    obtain ⟨l, h1, h2⟩ := hl
    exact ⟨l, h1, (inLine_iff p telegram sep dec _ hRc l).2 h2⟩
  unfold pvRead
  dsimp only
  rw [if_pos hfull, if_neg]
  · exact ⟨_, rfl⟩
  · rw [hday]
    intro h
    exact hclock (List.length_eq_zero_iff.1 h.symm)

/-! Spectra of ASDO files -/

/-- **C121.** In a spectrum, empty fields count as zero; the word "ZERO" is a spectrum of 1024 zeros. -/
theorem C121_spectrum (m : String) :
    (m = "ZERO" → pvValues ';' (pvExpand m) = List.replicate 1024 "0") ∧
    (m ≠ "ZERO" → splitChar ';' (pvExpand m) = (splitChar ';' m).map fun x => if x = "" then "0" else x) := by
  refine ⟨?_, ?_⟩
  · rintro rfl
    unfold pvExpand
    rw [if_pos rfl]
    have hz : ∀ n : ℕ, (List.replicate (n + 1) "0;".toList).flatten
        = [';'].intercalate ((List.replicate (n + 1) "0").map String.toList) ++ List.replicate 1 ';' := by
      intro n
      induction n with
      | zero => decide
      | succ n ih =>
        rw [List.replicate_succ, List.flatten_cons, ih, List.replicate_succ (n := n + 1), List.replicate_succ (n := n), List.map_cons,
          List.map_cons, List.map_cons, List.intercalate_cons_cons]
        rfl
    have hzero : ∀ x ∈ List.replicate (1023 + 1) "0", ';' ∉ x.toList := by
      intro x hx
      rw [List.eq_of_mem_replicate hx]
      decide
    unfold pvValues
    rw [String.toList_ofList, hz 1023, rstrip_fields ';' _ "0" ?_ (by decide) hzero, splitChar_intercalate ';' (List.replicate (1023 + 1) "0") (by rw [List.replicate_succ]; exact List.cons_ne_nil _ _) hzero]
    rw [List.replicate_succ', List.getLast?_concat]
  · intro h
    unfold pvExpand
    rw [if_neg h]
    apply splitChar_intercalate
    · unfold splitChar
      simpa using List.splitOn_ne_nil _ _
    · intro x hx
      obtain ⟨y, hy, rfl⟩ := List.mem_map.1 hx
      split_ifs
      · decide
      · unfold splitChar at hy
        obtain ⟨z, hz, rfl⟩ := List.mem_map.1 hy
        rw [String.toList_ofList]
        exact splitOn_not_mem _ _ z hz

/-! Files of Hyytiälä -/

/-- **C121.** Every column has a value, or none, for each record, in order; there is a column for each number that a record has. -/
theorem C121_hyytiala {V : Type} (records : List (T × (ℤ → Option V))) :
    let r := records.foldl pvAdd (([] : List T), fun _ => none)
    r.1 = records.map Prod.fst ∧ ∀ k, (r.2 k = none ↔ ∀ q ∈ records, q.2 k = none) ∧
      ∀ col, r.2 k = some col → col = records.map fun q => q.2 k := by
  intro r
  have key : r.1 = records.map Prod.fst ∧ ∀ k, r.2 k = if ∀ q ∈ records, (q.2 k).isNone then none else some (records.map fun q => q.2 k) := by
    induction records using List.reverseRecOn with
    | nil => simp [r]
    | append_singleton rs q ih =>
      obtain ⟨h1, h2⟩ := ih
      have hr : r = pvAdd (rs.foldl pvAdd (([] : List T), fun _ => none)) q := by
        show (rs ++ [q]).foldl pvAdd _ = _
        rw [List.foldl_append]
        rfl
      rw [hr]
      refine ⟨?_, ?_⟩
      · show (rs.foldl pvAdd _).1 ++ [q.1] = _
        rw [h1]
        simp
      · intro k
        generalize rs.foldl pvAdd (([] : List T), fun _ => none) = st at h1 h2
        unfold pvAdd
        dsimp only
        rw [h2 k, h1, List.length_map]
        by_cases c : ∀ q ∈ rs, (q.2 k).isNone
        · rw [if_pos c]
          have hrep : rs.map (fun q => q.2 k) = List.replicate rs.length none := by
            rw [List.eq_replicate_iff]
            refine ⟨by simp, ?_⟩
            intro b hb
            obtain ⟨q', hq', rfl⟩ := List.mem_map.1 hb
            simpa using c q' hq'
          cases hq : q.2 k with
          | none =>
            rw [if_pos]
            intro q' hq'
            rcases List.mem_append.1 hq' with h | h
            · exact c q' h
            · rw [List.mem_singleton.1 h, hq]
              rfl
          | some v =>
            rw [if_neg]
            · dsimp only
              rw [List.map_append, hrep]
              simp [hq]
            · intro h
              have := h q (by simp)
              rw [hq] at this
              simp at this
        · rw [if_neg c, if_neg fun h => c fun q' hq' => h q' (by simp [hq'])]
          simp
  refine ⟨key.1, ?_⟩
  intro k
  rw [key.2 k]
  constructor
  · split_ifs with c
    · simp only [true_iff]
      intro q hq
      simpa using c q hq
    · simp only [reduceCtorEq, false_iff]
      intro h
      exact c fun q hq => by simp [h q hq]
  · intro col
    split_ifs with c
    · intro h
      cases h
    · intro h
      exact (Option.some.inj h).symm

/-- A line of a message gives a value to a number. -/
def Spec.MessageLine (p : PvParsers T D C α) (ofInt : ℤ → α) (l : String) (n : ℤ) (v : PvVal α) : Prop :=
  ∃ key text, ':' ∉ key ∧ l.toList = key ++ ':' :: text ∧ p.int (String.ofList key) = some n ∧
    ((n ∈ pvInts ∧ ∃ x, p.int (String.ofList text) = some x ∧ v = .int x) ∨
      (n ∈ pvFloats ∧ ∃ x, p.float (String.ofList text) = some x ∧ v = .num x) ∨
      ((n = 90 ∨ n = 91) ∧ ∃ xs, List.Forall₂ (fun s x => p.float s = some x) (pvValues ';' (String.ofList text)) xs ∧ v = .list xs) ∨
      (n = 93 ∧ ∃ xs rows, List.Forall₂ (fun s x => p.int s = some x) (pvValues ';' (String.ofList text)) xs ∧
        rows.flatten = xs.map ofInt ∧ rows.length = 32 ∧ (∀ r ∈ rows, r.length = 32) ∧ v = .grid rows))

/-- A line of a message is fine, but its number is not used. -/
def Spec.MessageUnused (p : PvParsers T D C α) (l : String) : Prop :=
  ∃ key text n, ':' ∉ key ∧ l.toList = key ++ ':' :: text ∧ p.int (String.ofList key) = some n ∧
    n ∉ pvInts ∧ n ∉ pvFloats ∧ n ≠ 90 ∧ n ≠ 91 ∧ n ≠ 93

theorem pvKeyValue_iff (l a b : String) : pvKeyValue l = some (a, b) ↔ ':' ∉ a.toList ∧ l.toList = a.toList ++ ':' :: b.toList := by
  unfold pvKeyValue
  constructor
  · intro h
    cases hd : l.toList.dropWhile (fun c => decide (c ≠ ':')) with
    | nil => rw [hd] at h; cases h
    | cons c rest =>
      rw [hd] at h
      have hc : c = ':' := by
        have := head_dropWhile_char l.toList (fun c => decide (c ≠ ':')) c (by rw [hd]; rfl)
        simpa using this
      obtain ⟨h1, h2⟩ := Prod.mk.inj (Option.some.inj h)
      subst h1 h2
      rw [String.toList_ofList, String.toList_ofList]
      refine ⟨?_, ?_⟩
      · intro hm
        have := List.mem_takeWhile_imp hm
        simp at this
      · conv_lhs => rw [← List.takeWhile_append_dropWhile (p := fun c => decide (c ≠ ':')) (l := l.toList), hd, hc]
  · rintro ⟨h1, h2⟩
    have hpos : ∀ c ∈ a.toList, decide (c ≠ ':') = true := by
      intro c hc
      rw [decide_eq_true_iff]
      rintro rfl
      exact h1 hc
    rw [h2, List.dropWhile_append_of_pos hpos, List.takeWhile_append_of_pos hpos]
    simp

theorem pvMessageValue_iff (p : PvParsers T D C α) (ofInt : ℤ → α) (n : ℤ) (text : String) (v : PvVal α) :
    pvMessageValue p ofInt n text = some (some v) ↔
      ((n ∈ pvInts ∧ ∃ x, p.int text = some x ∧ v = .int x) ∨
      (n ∈ pvFloats ∧ ∃ x, p.float text = some x ∧ v = .num x) ∨
      ((n = 90 ∨ n = 91) ∧ ∃ xs, List.Forall₂ (fun s x => p.float s = some x) (pvValues ';' text) xs ∧ v = .list xs) ∨
      (n = 93 ∧ ∃ xs rows, List.Forall₂ (fun s x => p.int s = some x) (pvValues ';' text) xs ∧
        rows.flatten = xs.map ofInt ∧ rows.length = 32 ∧ (∀ r ∈ rows, r.length = 32) ∧ v = .grid rows)) := by
  have f90 : (90 : ℤ) ∉ pvFloats ∧ (90 : ℤ) ∉ pvInts := by decide
  have f91 : (91 : ℤ) ∉ pvFloats ∧ (91 : ℤ) ∉ pvInts := by decide
  have f93 : (93 : ℤ) ∉ pvFloats ∧ (93 : ℤ) ∉ pvInts := by decide
  have fi : ∀ n ∈ pvInts, n ∉ pvFloats := by decide
  have fi' : ∀ n ∈ pvFloats, n ∉ pvInts := by decide
  unfold pvMessageValue pvNumbers
  constructor
  · intro h
    split_ifs at h with c1 c2 c3 c4
    · obtain ⟨x, hx, h2⟩ := Option.map_eq_some_iff.1 h
      exact .inl ⟨c1, x, hx, (Option.some.inj h2).symm⟩
    · obtain ⟨x, hx, h2⟩ := Option.map_eq_some_iff.1 h
      exact .inr (.inl ⟨c2, x, hx, (Option.some.inj h2).symm⟩)
    · obtain ⟨xs, hx, h2⟩ := Option.map_eq_some_iff.1 h
      exact .inr (.inr (.inl ⟨c3, xs, (mapM_option_iff _ _ _).1 hx, (Option.some.inj h2).symm⟩))
    · obtain ⟨xs, hx, h2⟩ := Option.bind_eq_some_iff.1 h
      split_ifs at h2 with c5
      obtain ⟨a, b, c⟩ := pvChunks_spec (n := 32) (l := xs.map ofInt) (by rw [List.length_map, c5])
      exact .inr (.inr (.inr ⟨c4, xs, _, (mapM_option_iff _ _ _).1 hx, a, b, c, (Option.some.inj (Option.some.inj h2)).symm⟩))
    · simp at h
  · rintro (⟨hn, x, hx, rfl⟩ | ⟨hn, x, hx, rfl⟩ | ⟨hn, xs, hx, rfl⟩ | ⟨rfl, xs, rows, hx, h1, h2, h3, rfl⟩)
    · rw [if_pos hn, hx]
      rfl
    · rw [if_neg (fi' _ hn), if_pos hn, hx]
      rfl
    · have h1 : n ∉ pvFloats := by rcases hn with rfl | rfl; exacts [f90.1, f91.1]
      have h2 : n ∉ pvInts := by rcases hn with rfl | rfl; exacts [f90.2, f91.2]
      rw [if_neg h2, if_neg h1, if_pos hn, (mapM_option_iff _ _ _).2 hx]
      rfl
    · have hl : xs.length = 1024 := by
        have := flatten_length32 h3
        rw [h1, List.length_map, h2] at this
        exact this
      have hc := pvChunks_flatten h3
      rw [h2, h1] at hc
      rw [if_neg f93.2, if_neg f93.1, if_neg (by decide), if_pos rfl, (mapM_option_iff _ _ _).2 hx, Option.bind_some, if_pos hl, hc]

theorem pvMessageValue_none (p : PvParsers T D C α) (ofInt : ℤ → α) (n : ℤ) (text : String) :
    pvMessageValue p ofInt n text = some none ↔ n ∉ pvInts ∧ n ∉ pvFloats ∧ n ≠ 90 ∧ n ≠ 91 ∧ n ≠ 93 := by
  unfold pvMessageValue
  constructor
  · intro h
    split_ifs at h with c1 c2 c3 c4
    · obtain ⟨x, -, h2⟩ := Option.map_eq_some_iff.1 h
      cases h2
    · obtain ⟨x, -, h2⟩ := Option.map_eq_some_iff.1 h
      cases h2
    · obtain ⟨x, -, h2⟩ := Option.map_eq_some_iff.1 h
      cases h2
    · obtain ⟨xs, -, h2⟩ := Option.bind_eq_some_iff.1 h
      split_ifs at h2
      cases h2
    · exact ⟨c1, c2, fun h => c3 (.inl h), fun h => c3 (.inr h), c4⟩
  · rintro ⟨h1, h2, h3, h4, h5⟩
    rw [if_neg h1, if_neg h2, if_neg (not_or.2 ⟨h3, h4⟩), if_neg h5]

/-- One line of a message. -/
theorem pvMessageLine_spec (p : PvParsers T D C α) (ofInt : ℤ → α) (d : ℤ → Option (PvVal α)) (l : String) :
    (∀ n v, Spec.MessageLine p ofInt l n v → pvMessageLine p ofInt d l = some fun m => if m = n then some v else d m) ∧
    (Spec.MessageUnused p l → pvMessageLine p ofInt d l = some d) ∧
    ((∀ n v, ¬ Spec.MessageLine p ofInt l n v) → ¬ Spec.MessageUnused p l → pvMessageLine p ofInt d l = none) := by
  have hline : ∀ n v, Spec.MessageLine p ofInt l n v ↔ ∃ kv, pvKeyValue l = some kv ∧ p.int kv.1 = some n ∧
      pvMessageValue p ofInt n kv.2 = some (some v) := by
    intro n v
    constructor
    · rintro ⟨key, text, h1, h2, h3, h4⟩
      exact ⟨(String.ofList key, String.ofList text), (pvKeyValue_iff _ _ _).2 (by simpa using ⟨h1, h2⟩), h3,
        (pvMessageValue_iff _ _ _ _ _).2 h4⟩
    · rintro ⟨⟨a, b⟩, h1, h2, h3⟩
      obtain ⟨h4, h5⟩ := (pvKeyValue_iff _ _ _).1 h1
      exact ⟨a.toList, b.toList, h4, h5, by simpa using h2, by
        rw [String.ofList_toList]
        exact (pvMessageValue_iff _ _ _ _ _).1 h3⟩
  have hunused : Spec.MessageUnused p l ↔ ∃ kv n, pvKeyValue l = some kv ∧ p.int kv.1 = some n ∧
      pvMessageValue p ofInt n kv.2 = some none := by
    constructor
    · rintro ⟨key, text, n, h1, h2, h3, h4⟩
      exact ⟨(String.ofList key, String.ofList text), n, (pvKeyValue_iff _ _ _).2 (by simpa using ⟨h1, h2⟩), h3,
        (pvMessageValue_none _ _ _ _).2 h4⟩
    · rintro ⟨⟨a, b⟩, n, h1, h2, h3⟩
      obtain ⟨h4, h5⟩ := (pvKeyValue_iff _ _ _).1 h1
      exact ⟨a.toList, b.toList, n, h4, h5, by simpa using h2, (pvMessageValue_none _ _ _ _).1 h3⟩
  refine ⟨?_, ?_, ?_⟩
  · intro n v h
    obtain ⟨kv, h1, h2, h3⟩ := (hline n v).1 h
    unfold pvMessageLine
    rw [h1, Option.bind_some, h2, Option.bind_some, h3]
    rfl
  · intro h
    obtain ⟨kv, n, h1, h2, h3⟩ := hunused.1 h
    unfold pvMessageLine
    rw [h1, Option.bind_some, h2, Option.bind_some, h3]
    rfl
  · intro h1 h2
    unfold pvMessageLine
    cases hk : pvKeyValue l with
    | none => rfl
    | some kv =>
      rw [Option.bind_some]
      cases hi : p.int kv.1 with
      | none => rfl
      | some n =>
        rw [Option.bind_some]
        cases hv : pvMessageValue p ofInt n kv.2 with
        | none => rfl
        | some v =>
          exfalso
          cases v with
          | none => exact h2 (hunused.2 ⟨kv, n, hk, hi, hv⟩)
          | some v => exact h1 n v ((hline n v).2 ⟨kv, hk, hi, hv⟩)

/-- **C121.** A message is read if it begins with the right line and all its lines are fine; a number has the value of its last line. -/
theorem C121_message (p : PvParsers T D C α) (ofInt : ℤ → α) (lines : List String) :
    (∀ d, pvMessage p ofInt lines = .ok d ↔ ∃ rest, lines = "TYP OP4A" :: rest ∧
      (∀ l ∈ rest, (∃ n v, Spec.MessageLine p ofInt l n v) ∨ Spec.MessageUnused p l) ∧
      ∀ n, (∀ v, Spec.Last (fun l v => Spec.MessageLine p ofInt l n v) rest v → d n = some v) ∧
        ((∀ v, ¬ Spec.Last (fun l v => Spec.MessageLine p ofInt l n v) rest v) → d n = none)) ∧
    (lines = [] → pvMessage p ofInt lines = .error "IndexError: list index out of range") := by
  have huniq : ∀ l n v n' v', Spec.MessageLine p ofInt l n v → Spec.MessageLine p ofInt l n' v' → n = n' ∧ v = v' := by
    intro l n v n' v' h1 h2
    have e1 := (pvMessageLine_spec p ofInt (fun _ => none) l).1 n v h1
    have e2 := (pvMessageLine_spec p ofInt (fun _ => none) l).1 n' v' h2
    rw [e1] at e2
    have e := congrFun (Option.some.inj e2) n
    rw [if_pos rfl] at e
    split_ifs at e with c
    exact ⟨c, Option.some.inj e⟩
  have hunused : ∀ l n v, Spec.MessageUnused p l → ¬ Spec.MessageLine p ofInt l n v := by
    intro l n v h1 h2
    have e1 := (pvMessageLine_spec p ofInt (fun _ => none) l).1 n v h2
    have e2 := (pvMessageLine_spec p ofInt (fun _ => none) l).2.1 h1
    rw [e1] at e2
    have e := congrFun (Option.some.inj e2) n
    rw [if_pos rfl] at e
    cases e
  classical
  have step : ∀ (d : ℤ → Option (PvVal α)) l, ((∃ n v, Spec.MessageLine p ofInt l n v) ∨ Spec.MessageUnused p l) →
      pvMessageLine p ofInt d l = some fun m => if h : ∃ v, Spec.MessageLine p ofInt l m v then some h.choose else d m := by
    rintro d l (⟨n, v, h⟩ | h)
    · rw [(pvMessageLine_spec p ofInt d l).1 n v h]
      congr 1
      funext m
      by_cases c : m = n
      · subst c
        have hex : ∃ v, Spec.MessageLine p ofInt l m v := ⟨v, h⟩
        rw [if_pos rfl, dif_pos hex, (huniq l m v m _ h hex.choose_spec).2]
      · rw [if_neg c, dif_neg]
        rintro ⟨v', h'⟩
        exact c (huniq l m v' n v h' h).1
    · rw [(pvMessageLine_spec p ofInt d l).2.1 h]
      congr 1
      funext m
      rw [dif_neg]
      rintro ⟨v', h'⟩
      exact hunused l m v' h h'
  have fold : ∀ (rest : List String) (d : ℤ → Option (PvVal α)),
      (∀ l ∈ rest, (∃ n v, Spec.MessageLine p ofInt l n v) ∨ Spec.MessageUnused p l) →
      rest.foldlM (pvMessageLine p ofInt) d = some (rest.foldl (fun d l => fun m =>
        if h : ∃ v, Spec.MessageLine p ofInt l m v then some h.choose else d m) d) := by
    intro rest
    induction rest with
    | nil => exact fun _ _ => rfl
    | cons l rest ih =>
      intro d h
      rw [List.foldlM_cons, step d l (h l (by simp)), List.foldl_cons]
      exact ih _ fun l' h' => h l' (by simp [h'])
  have bad : ∀ (rest : List String) (d : ℤ → Option (PvVal α)),
      (¬ ∀ l ∈ rest, (∃ n v, Spec.MessageLine p ofInt l n v) ∨ Spec.MessageUnused p l) → rest.foldlM (pvMessageLine p ofInt) d = none := by
    intro rest
    induction rest with
    | nil => intro d h; exact absurd (by simp) h
    | cons l rest ih =>
      intro d h
      rw [List.foldlM_cons]
      by_cases c : (∃ n v, Spec.MessageLine p ofInt l n v) ∨ Spec.MessageUnused p l
      · rw [step d l c]
        refine ih _ ?_
        intro h'
        apply h
        intro l' hl'
        rcases List.mem_cons.1 hl' with rfl | hl'
        · exact c
        · exact h' l' hl'
      · rw [not_or] at c
        rw [(pvMessageLine_spec p ofInt d l).2.2 (fun n v h => c.1 ⟨n, v, h⟩) c.2]
        rfl
  have value : ∀ (rest : List String) (n : ℤ),
      (∀ v, Spec.Last (fun l v => Spec.MessageLine p ofInt l n v) rest v → (rest.foldl (fun d l => fun m =>
        if h : ∃ v, Spec.MessageLine p ofInt l m v then some h.choose else d m) (fun _ => none)) n = some v) ∧
      ((∀ v, ¬ Spec.Last (fun l v => Spec.MessageLine p ofInt l n v) rest v) → (rest.foldl (fun d l => fun m =>
        if h : ∃ v, Spec.MessageLine p ofInt l m v then some h.choose else d m) (fun _ => none)) n = none) := by
    intro rest n
    refine last_fold (S := ℤ → Option (PvVal α)) (fun d => d n) _ (fun l v => Spec.MessageLine p ofInt l n v) ?_ ?_ rest (fun _ => none)
    · intro d l v h
      have hex : ∃ v, Spec.MessageLine p ofInt l n v := ⟨v, h⟩
      rw [dif_pos hex, (huniq l n v n _ h hex.choose_spec).2]
    · intro d l h
      rw [dif_neg fun ⟨v, hv⟩ => h v hv]
  refine ⟨?_, ?_⟩
  · intro d
    cases lines with
    | nil =>
      constructor
      · intro h
        cases h
      · rintro ⟨rest, h, -⟩
        cases h
    | cons first rest =>
      unfold pvMessage
      dsimp only
      by_cases c : first = "TYP OP4A"
      · subst c
        rw [if_neg (not_not.2 rfl)]
        by_cases hall : ∀ l ∈ rest, (∃ n v, Spec.MessageLine p ofInt l n v) ∨ Spec.MessageUnused p l
        · rw [fold rest _ hall]
          dsimp only
          constructor
          · intro h
            obtain rfl := Except.ok.inj h
            exact ⟨rest, rfl, hall, value rest⟩
          · rintro ⟨rest', he, -, h⟩
            obtain rfl := List.tail_eq_of_cons_eq he
            congr 1
            funext n
            obtain ⟨a, b⟩ := value rest n
            obtain ⟨a', b'⟩ := h n
            by_cases hv : ∃ v, Spec.Last (fun l v => Spec.MessageLine p ofInt l n v) rest v
            · obtain ⟨v, hv⟩ := hv
              rw [a v hv, a' v hv]
            · rw [not_exists] at hv
              rw [b hv, b' hv]
        · rw [bad rest _ hall]
          constructor
          · intro h
            cases h
          · rintro ⟨rest', he, h, -⟩
            obtain rfl := List.tail_eq_of_cons_eq he
            exact absurd h hall
      · rw [if_pos c]
        constructor
        · intro h
          cases h
        · rintro ⟨rest', he, -⟩
          exact absurd (List.head_eq_of_cons_eq he) c
  · rintro rfl
    rfl

/-- **C121.** A file of Hyytiälä: records are the blocks with a valid time whose message can be read; a block without any line stops
everything. -/
theorem C121_blocks (p : PvParsers T D C α) (ofInt : ℤ → α) (blocks : List (Option T × List String)) :
    ((∀ b ∈ blocks, b.2 ≠ []) → ∃ records, pvHyytiala p ofInt blocks = .ok (records.foldl pvAdd ([], fun _ => none)) ∧
      Spec.Collected (fun b r => b.1 = some r.1 ∧ pvMessage p ofInt b.2 = .ok r.2) blocks records) ∧
    ((∃ b ∈ blocks, b.2 = []) → pvHyytiala p ofInt blocks = .error "IndexError: list index out of range") := by
  have herr : ∀ lines e, lines ≠ [] → pvMessage p ofInt lines = .error e → e = "ValueError" := by
    intro lines e hne h
    cases lines with
    | nil => exact absurd rfl hne
    | cons first rest =>
      unfold pvMessage at h
      dsimp only at h
      split_ifs at h with c
      · exact (Except.error.inj h).symm
      · split at h
        · exact (Except.error.inj h).symm
        · cases h
  have hstep : ∀ s (b : Option T × List String), b.2 ≠ [] →
      (∃ t d, b.1 = some t ∧ pvMessage p ofInt b.2 = .ok d ∧ pvBlock p ofInt s b = .ok (pvAdd s (t, d))) ∨
      ((∀ r : T × (ℤ → Option (PvVal α)), ¬ (b.1 = some r.1 ∧ pvMessage p ofInt b.2 = .ok r.2)) ∧ pvBlock p ofInt s b = .ok s) := by
    intro s b hb
    unfold pvBlock
    cases hm : pvMessage p ofInt b.2 with
    | error e =>
      right
      refine ⟨?_, ?_⟩
      · rintro r ⟨-, h⟩
        cases h
      · dsimp only
        rw [if_pos (herr _ _ hb hm)]
    | ok d =>
      cases ht : b.1 with
      | none =>
        right
        refine ⟨?_, rfl⟩
        rintro r ⟨h, -⟩
        cases h
      | some t => exact .inl ⟨t, d, rfl, rfl, rfl⟩
  refine ⟨?_, ?_⟩
  · intro hb
    unfold pvHyytiala
    generalize (([] : List T), fun _ : ℤ => (none : Option (List (Option (PvVal α))))) = s
    induction blocks generalizing s with
    | nil => exact ⟨[], rfl, .nil⟩
    | cons b blocks ih =>
      rw [List.foldlM_cons]
      rcases hstep s b (hb b (by simp)) with ⟨t, d, h1, h2, h3⟩ | ⟨h1, h2⟩
      · obtain ⟨rs, h4, h5⟩ := ih (fun b' h' => hb b' (by simp [h'])) (pvAdd s (t, d))
        exact ⟨(t, d) :: rs, by rw [h3]; exact h4, .take ⟨h1, h2⟩ h5⟩
      · obtain ⟨rs, h4, h5⟩ := ih (fun b' h' => hb b' (by simp [h'])) s
        exact ⟨rs, by rw [h2]; exact h4, .skip h1 h5⟩
  · intro hb
    unfold pvHyytiala
    generalize (([] : List T), fun _ : ℤ => (none : Option (List (Option (PvVal α))))) = s
    induction blocks generalizing s with
    | nil => simp at hb
    | cons b blocks ih =>
      rw [List.foldlM_cons]
      by_cases c : b.2 = []
      · have : pvBlock p ofInt s b = .error "IndexError: list index out of range" := by
          unfold pvBlock
          rw [c]
          unfold pvMessage
          dsimp only
          rw [if_neg (by decide)]
        rw [this]
        rfl
      · have hb' : ∃ b ∈ blocks, b.2 = [] := by
          obtain ⟨b', h1, h2⟩ := hb
          rcases List.mem_cons.1 h1 with rfl | h1
          · exact absurd h2 c
          · exact ⟨b', h1, h2⟩
        rcases hstep s b c with ⟨t, d, h1, h2, h3⟩ | ⟨h1, h2⟩
        · rw [h3]
          exact ih hb' _
        · rw [h2]
          exact ih hb' _

/-- **C121, finding** A file in which a record has an integer and another one does not have it cannot be read. -/
theorem C121_unreadable (records : List (T × (ℤ → Option (PvVal α)))) (n : ℤ) (hn : n ∈ pvInts ∨ n = 90 ∨ n = 91 ∨ n = 93)
    (a b : T × (ℤ → Option (PvVal α))) (ha : a ∈ records) (hb : b ∈ records) (h1 : a.2 n ≠ none) (h2 : b.2 n = none) :
    pvReadable (records.foldl pvAdd (([] : List T), fun _ => none)) = false := by
  obtain ⟨-, h⟩ := C121_hyytiala records
  obtain ⟨h3, h4⟩ := h n
  cases hc : (records.foldl pvAdd (([] : List T), fun _ => none)).2 n with
  | none => exact absurd (h3.1 hc a ha) h1
  | some col =>
    have hcol := h4 col hc
    have hmem : none ∈ col := by
      rw [hcol]
      exact List.mem_map.2 ⟨b, hb, h2⟩
    rw [Bool.eq_false_iff]
    intro hr
    unfold pvReadable at hr
    rw [List.all_eq_true] at hr
    have := hr n (by
      rcases hn with hn | rfl | rfl | rfl
      · exact List.mem_append_left _ hn
      · decide
      · decide
      · decide)
    rw [hc] at this
    simp only [Option.map_some, Option.getD_some] at this
    unfold pvConvertible at this
    split_ifs at this with c1 c2
    · rw [List.all_eq_true] at this
      simpa using this none hmem
    · rw [List.all_eq_true] at this
      simpa using this none hmem
    · rcases hn with hn | rfl | rfl | rfl
      · exact c1 (.inl hn)
      · exact c2 (.inl rfl)
      · exact c2 (.inr rfl)
      · exact c1 (.inr rfl)

/-- **C121.** A file can be read if every record has the same integers, spectra and lists, and the lists have the same lengths. -/
theorem C121_readable (records : List (T × (ℤ → Option (PvVal α))))
    (h : ∀ n, n ∈ pvInts ∨ n = 93 → (∀ q ∈ records, q.2 n = none) ∨ ∀ q ∈ records, q.2 n ≠ none)
    (hl : ∀ n, n = 90 ∨ n = 91 → (∀ q ∈ records, q.2 n = none) ∨ ∃ k : ℕ, ∀ q ∈ records, ∃ xs, q.2 n = some (.list xs) ∧ xs.length = k) :
    pvReadable (records.foldl pvAdd (([] : List T), fun _ => none)) = true := by
  obtain ⟨-, hh⟩ := C121_hyytiala records
  unfold pvReadable
  rw [List.all_eq_true]
  intro n hn
  obtain ⟨h3, h4⟩ := hh n
  cases hc : (records.foldl pvAdd (([] : List T), fun _ => none)).2 n with
  | none => rfl
  | some col =>
    have hcol := h4 col hc
    have hnot : ¬ ∀ q ∈ records, q.2 n = none := by
      intro hall
      rw [h3.2 hall] at hc
      cases hc
    simp only [Option.map_some, Option.getD_some]
    unfold pvConvertible
    split_ifs with c1 c2
    · rw [List.all_eq_true]
      intro v hv
      rw [hcol] at hv
      obtain ⟨q, hq, rfl⟩ := List.mem_map.1 hv
      rcases h n c1 with h' | h'
      · exact absurd h' hnot
      · exact Option.isSome_iff_ne_none.2 (h' q hq)
    · rw [List.all_eq_true]
      intro v hv
      rcases hl n c2 with h' | ⟨k, h'⟩
      · exact absurd h' hnot
      · have hcell : ∀ v ∈ col, ∃ xs, v = some (.list xs) ∧ xs.length = k := by
          intro v hv
          rw [hcol] at hv
          obtain ⟨q, hq, rfl⟩ := List.mem_map.1 hv
          exact h' q hq
        obtain ⟨xs, rfl, hx⟩ := hcell v hv
        cases hd : col.head? with
        | none =>
          rw [List.head?_eq_none_iff] at hd
          rw [hd] at hv
          simp at hv
        | some w =>
          obtain ⟨ys, rfl, hy⟩ := hcell w (List.mem_of_mem_head? hd)
          dsimp only
          rw [decide_eq_true_iff, hx, hy]
    · rfl

/-- **C121.** How text files are recognised. -/
theorem C121_dispatch (head : String) (t : Bool) (r : PvReader) :
    pvDispatch none head t = .ok r ↔
      (r = .pyatmoslogger ∧ "datetime_utc;".toList <+: head.toList) ∨ (r = .asdo ∧ "Date;Time;".toList <+: head.toList) ∨
      (r = .granada ∧ "\"TOA5\"".toList <+: head.toList) ∨
      ((¬ "datetime_utc;".toList <+: head.toList ∧ ¬ "Date;Time;".toList <+: head.toList ∧ ¬ "\"TOA5\"".toList <+: head.toList) ∧
        ((r = .hyytiala ∧ "TYP OP4A".toList <:+: head.toList) ∨
          (r = .headerless ∧ ¬ "TYP OP4A".toList <:+: head.toList ∧ t = true))) := by
  have excl : ∀ a b : Char, ∀ as bs : List Char, a ≠ b → a :: as <+: head.toList → ¬ b :: bs <+: head.toList := by
    rintro a b as bs hab ⟨u, hu⟩ ⟨v, hv⟩
    rw [← hu] at hv
    simp only [List.cons_append, List.cons.injEq] at hv
    exact hab hv.1.symm
  have e1 : "datetime_utc;".toList <+: head.toList → ¬ "Date;Time;".toList <+: head.toList := excl 'd' 'D' _ _ (by decide)
  have e2 : "datetime_utc;".toList <+: head.toList → ¬ "\"TOA5\"".toList <+: head.toList := excl 'd' '"' _ _ (by decide)
  have e3 : "Date;Time;".toList <+: head.toList → ¬ "\"TOA5\"".toList <+: head.toList := excl 'D' '"' _ _ (by decide)
  unfold pvDispatch
  dsimp only
  rw [← pvContains_iff "TYP OP4A" head]
  have comm : ∀ x : PvReader, (Except.ok x = (Except.ok r : Except String PvReader)) ↔ r = x :=
    fun x => ⟨fun h => (Except.ok.inj h).symm, fun h => by rw [h]⟩
  split_ifs with c1 c2 c3 c4 c5
  · have h2 := e1 c1
    have h3 := e2 c1
    rw [comm]
    simp only [c1, h2, h3, not_true_eq_false, not_false_eq_true, and_true, and_false, or_false, false_and, true_and]
  · have h3 := e3 c2
    rw [comm]
    simp only [c1, c2, h3, not_true_eq_false, not_false_eq_true, and_true, and_false, or_false, false_and, true_and, false_or]
  · rw [comm]
    simp only [c1, c2, c3, not_true_eq_false, not_false_eq_true, and_true, and_false, or_false, false_and, true_and, false_or]
  · rw [comm]
    simp only [c1, c2, c3, c4, not_true_eq_false, not_false_eq_true, and_true, and_false, or_false, false_and, true_and, false_or]
  · rw [comm]
    simp only [c1, c2, c3, c4, c5, Bool.false_eq_true, not_false_eq_true, and_true, and_false, true_and, false_or]
  · simp only [c1, c2, c3, c4, c5, Bool.false_eq_true, reduceCtorEq, not_false_eq_true, and_false, or_false]

/-! netCDF files -/

/-- The last variable of a number, of those that are in the file. -/
theorem C121_netcdf {V : Type} (keys : List (String × ℤ)) (get : String → Option V) :
    ((∀ kn ∈ keys, (get kn.1).isSome) → pvNetcdf keys get = .ok (pvNetcdfPresent keys get)) ∧
    ((∃ kn ∈ keys, get kn.1 = none) → pvNetcdf keys get = .error "IndexError") ∧
    ∀ n, (∀ v, Spec.Last (fun (kn : String × ℤ) v => kn.2 = n ∧ get kn.1 = some v) keys v → pvNetcdfPresent keys get n = some v) ∧
      ((∀ kn ∈ keys, kn.2 = n → get kn.1 = none) → pvNetcdfPresent keys get n = none) := by
  refine ⟨?_, ?_, ?_⟩
  · unfold pvNetcdf pvNetcdfPresent
    generalize (fun _ : ℤ => (none : Option V)) = d
    induction keys generalizing d with
    | nil => exact fun _ => rfl
    | cons kn keys ih =>
      intro h
      obtain ⟨v, hv⟩ := Option.isSome_iff_exists.1 (h kn (by simp))
      rw [List.foldlM_cons, List.foldl_cons, hv]
      exact ih _ fun kn' h' => h kn' (by simp [h'])
  · unfold pvNetcdf
    generalize (fun _ : ℤ => (none : Option V)) = d
    induction keys generalizing d with
    | nil => simp
    | cons kn keys ih =>
      rintro ⟨kn', h1, h2⟩
      rw [List.foldlM_cons]
      cases hv : get kn.1 with
      | none => rfl
      | some v =>
        rcases List.mem_cons.1 h1 with rfl | h1
        · rw [hv] at h2
          cases h2
        · exact ih _ ⟨kn', h1, h2⟩
  · intro n
    have := last_fold (S := ℤ → Option V) (fun d => d n) (fun (d : ℤ → Option V) (kn : String × ℤ) =>
      match get kn.1 with
      | none => d
      | some v => fun m => if m = kn.2 then some v else d m) (fun kn v => kn.2 = n ∧ get kn.1 = some v) (by
        rintro d kn v ⟨rfl, h⟩
        rw [h]
        simp) (by
        intro d kn h
        cases hv : get kn.1 with
        | none => rfl
        | some v =>
          have : n ≠ kn.2 := fun e => h v ⟨e.symm, hv⟩
          dsimp only
          rw [if_neg this]) keys (fun _ => none)
    refine ⟨this.1, ?_⟩
    intro h
    apply this.2
    rintro v ⟨pre, kn, post, rfl, ⟨h1, h2⟩, -⟩
    rw [h kn (by simp) h1] at h2
    cases h2

/-- **C121, finding** Kinetic energy is stored under the number of the absolute amount of rain (24, not 34) in files of parsivel2nc and in
older files of Leipzig; in the latter it replaces the total of rain. -/
theorem C121_kinetic_energy {V : Type} (get : String → Option V) :
    (∀ d, pvNetcdf pvParsivel2nc get = .ok d → d 24 = get "E_kin" ∧ d 34 = none) ∧
    (∀ d, pvNetcdf pvLeipzig get = .ok d → d 24 = get "E_kin" ∧ d 34 = none) ∧
    (∀ v, get "kinetic_energy" = some v → pvNetcdfPresent pvDisdrodl get 34 = some v) := by
  have hok : ∀ (keys : List (String × ℤ)) d, pvNetcdf keys get = .ok d → (∀ kn ∈ keys, (get kn.1).isSome) ∧ d = pvNetcdfPresent keys get := by
    intro keys d h
    obtain ⟨a, b, -⟩ := C121_netcdf keys get
    have hall : ∀ kn ∈ keys, (get kn.1).isSome := by
      by_contra hne
      push Not at hne
      obtain ⟨kn, h1, h2⟩ := hne
      rw [b ⟨kn, h1, by simpa using h2⟩] at h
      cases h
    rw [a hall] at h
    exact ⟨hall, (Except.ok.inj h).symm⟩
  refine ⟨?_, ?_, ?_⟩
  · intro d h
    obtain ⟨h1, rfl⟩ := hok _ _ h
    obtain ⟨v, hv⟩ := Option.isSome_iff_exists.1 (h1 ("E_kin", 24) (by decide))
    refine ⟨?_, ?_⟩
    · rw [hv]
      refine ((C121_netcdf pvParsivel2nc get).2.2 24).1 v
        ⟨pvParsivel2nc.take 7, ("E_kin", 24), pvParsivel2nc.drop 8, by decide, ⟨rfl, hv⟩, ?_⟩
      intro kn hkn y hy
      have : ∀ kn ∈ pvParsivel2nc.drop 8, kn.2 ≠ 24 := by decide
      exact this kn hkn hy.1
    · refine ((C121_netcdf pvParsivel2nc get).2.2 34).2 ?_
      intro kn hkn e
      have : ∀ kn ∈ pvParsivel2nc, kn.2 ≠ 34 := by decide
      exact absurd e (this kn hkn)
  · intro d h
    obtain ⟨h1, rfl⟩ := hok _ _ h
    obtain ⟨v, hv⟩ := Option.isSome_iff_exists.1 (h1 ("E_kin", 24) (by decide))
    refine ⟨?_, ?_⟩
    · rw [hv]
      refine ((C121_netcdf pvLeipzig get).2.2 24).1 v
        ⟨pvLeipzig.take 12, ("E_kin", 24), pvLeipzig.drop 13, by decide, ⟨rfl, hv⟩, ?_⟩
      intro kn hkn y hy
      have : ∀ kn ∈ pvLeipzig.drop 13, kn.2 ≠ 24 := by decide
      exact this kn hkn hy.1
    · refine ((C121_netcdf pvLeipzig get).2.2 34).2 ?_
      intro kn hkn e
      have : ∀ kn ∈ pvLeipzig, kn.2 ≠ 34 := by decide
      exact absurd e (this kn hkn)
  · intro v hv
    refine ((C121_netcdf pvDisdrodl get).2.2 34).1 v
      ⟨pvDisdrodl.take 18, ("kinetic_energy", 34), pvDisdrodl.drop 19, by decide, ⟨rfl, hv⟩, ?_⟩
    intro kn hkn y hy
    have : ∀ kn ∈ pvDisdrodl.drop 19, kn.2 ≠ 34 := by decide
    exact this kn hkn hy.1

/-- **C121, finding** The left and right sensor heads are swapped between files of disdroDL and files of Munich. -/
theorem C121_sensor_heads {V : Type} (get : String → Option V) :
    (∀ v, get "T_L_sensor_head" = some v → pvNetcdfPresent pvDisdrodl get 27 = some v) ∧
    (∀ v, get "T_sensor_right" = some v → pvNetcdfPresent pvMunich get 27 = some v) := by
  refine ⟨?_, ?_⟩
  · intro v hv
    refine ((C121_netcdf pvDisdrodl get).2.2 27).1 v
      ⟨pvDisdrodl.take 16, ("T_L_sensor_head", 27), pvDisdrodl.drop 17, by decide, ⟨rfl, hv⟩, ?_⟩
    intro kn hkn y hy
    have : ∀ kn ∈ pvDisdrodl.drop 17, kn.2 ≠ 27 := by decide
    exact this kn hkn hy.1
  · intro v hv
    refine ((C121_netcdf pvMunich get).2.2 27).1 v
      ⟨pvMunich.take 18, ("T_sensor_right", 27), pvMunich.drop 19, by decide, ⟨rfl, hv⟩, ?_⟩
    intro kn hkn y hy
    have : ∀ kn ∈ pvMunich.drop 19, kn.2 ≠ 27 := by decide
    exact this kn hkn hy.1

end

/-! Examples -/

/-- Parsers for examples. -/
def pvDemo : PvParsers String String String ℕ :=
  ⟨fun s => if s = "1.5" then some 15 else if s = "0" then some 0 else none, fun s => if s = "7" then some 7 else none,
    fun _ s => if s = "" then none else some s, fun s => s, fun s => s, fun a b => a ++ " " ++ b⟩

/-- A telegram with two times, a float, an integer, a text and an unused field. The line with a bad number is left out as a whole. -/
example : (pvRead pvDemo [.fmt "%Y/%m/%d", .fmt "%H:%M:%S", .num 1, .num 3, .skip, .num 5] ';' ','
    ["d1;c1;1,5;7;x;RA;", "d2;c2;1,5;bad;x;RA;", "d3;c3;0;7;x;SN", "d4;c4;0;7"]).toOption.map
      (fun r => (r.1, r.2 1, r.2 3, r.2 5)) =
    some (["d1 c1", "d3 c3"], [.num 15, .num 0], [.int 7, .int 7], [.raw "RA", .raw "SN"]) := by decide +kernel

/-- A year of two digits. -/
example : (pvRead pvDemo [.fmt "%d.%m.%y %H:%M:%S", .num 1] ';' '.' ["16.11.26 12:00:00;1.5"]).toOption.map Prod.fst = none := by
  decide +kernel

example : Spec.ClockFormat "%d.%m.%y %H:%M:%S" ∧ Spec.FullFormat "%Y-%m-%d %H:%M:%S" ∧ Spec.DayFormat "%Y/%m/%d" ∧ Spec.ClockFormat "%H:%M:%S" := by
  unfold Spec.ClockFormat Spec.FullFormat Spec.DayFormat
  decide +kernel

/-- Parsers for messages. -/
def pvDemoMessage : PvParsers String String String ℕ :=
  ⟨fun _ => some 15, fun s => if s = "01" then some 1 else if s = "03" then some 3 else if s = "7" then some 7 else none,
      fun _ _ => none, fun s => s, fun s => s, fun a _ => a⟩

/-- Messages of Hyytiälä: two records, one of which has no value for a number. -/
def pvDemoBlocks : List (Option String × List String) :=
  [(some "t1", ["TYP OP4A", "01:1.5"]), (some "t2", ["TYP OP4A", "01:1.5", "03:7"]), (none, ["TYP OP4A"]), (some "t3", ["noise"])]

example : (pvHyytiala pvDemoMessage Int.toNat pvDemoBlocks).toOption.map Prod.fst = some ["t1", "t2"] := by decide +kernel

example : (((pvHyytiala pvDemoMessage Int.toNat pvDemoBlocks).toOption.bind fun r => r.2 1) =
    some [some (.num 15), some (.num 15)]) := by decide +kernel

example : (((pvHyytiala pvDemoMessage Int.toNat pvDemoBlocks).toOption.bind fun r => r.2 3) =
    some [none, some (.int 7)]) := by decide +kernel

/-- The numbers of the manufacturer for the variables of older files of Leipzig, without the total of rain. -/
def Spec.leipzigNumbers : List (ℤ × String) :=
  [(1, "RR_Intensity"), (2, "RR_Accumulated"), (3, "Synop_WaWa"), (4, "Synop_WW"), (7, "Reflectivity"), (8, "Visibility"),
    (9, "Meas_Interval"), (10, "Sig_Laser"), (11, "N_Particles"), (12, "T_Sensor"), (16, "I_Heating"), (17, "V_Sensor"),
    (18, "State_Sensor"), (25, "Error_Code"), (90, "Data_N_Field"), (91, "Data_V_Field"), (93, "Data_Raw")]

/-- **C121.** A file of Leipzig is read exactly if it has all variables, the total of rain included, and each variable except the
total of rain and the kinetic energy is stored under its number. -/
theorem C121_leipzig {V : Type} (get : String → Option V) :
    (∀ nk ∈ Spec.leipzigNumbers, ∀ d, pvNetcdf pvLeipzig get = .ok d → d nk.1 = get nk.2) ∧
    ((pvNetcdf pvLeipzig get).isOk ↔
      (∀ nk ∈ Spec.leipzigNumbers, (get nk.2).isSome) ∧ (get "RR_Total").isSome ∧ (get "E_kin").isSome) := by
  obtain ⟨a, b, c⟩ := C121_netcdf pvLeipzig get
  have hiff : (∀ kn ∈ pvLeipzig, (get kn.1).isSome) ↔
      (∀ nk ∈ Spec.leipzigNumbers, (get nk.2).isSome) ∧ (get "RR_Total").isSome ∧ (get "E_kin").isSome := by
    constructor
    · intro h
      refine ⟨?_, h ("RR_Total", 24) (by decide), h ("E_kin", 24) (by decide)⟩
      intro nk hnk
      exact h (nk.2, nk.1) ((by decide : ∀ nk ∈ Spec.leipzigNumbers, (nk.2, nk.1) ∈ pvLeipzig) nk hnk)
    · rintro ⟨h1, h2, h3⟩ kn hkn
      rcases (by decide : ∀ kn ∈ pvLeipzig, (kn.2, kn.1) ∈ Spec.leipzigNumbers ∨ kn.1 = "RR_Total" ∨ kn.1 = "E_kin") kn hkn with h | h | h
      · exact h1 _ h
      · rw [h]; exact h2
      · rw [h]; exact h3
  by_cases hall : ∀ kn ∈ pvLeipzig, (get kn.1).isSome
  · have ha := a hall
    refine ⟨?_, ?_⟩
    · intro nk hnk d hd
      rw [ha] at hd
      obtain rfl := Except.ok.inj hd
      have hm := (by decide : ∀ nk ∈ Spec.leipzigNumbers, (nk.2, nk.1) ∈ pvLeipzig) nk hnk
      have hu := (by decide : ∀ nk ∈ Spec.leipzigNumbers, ∀ kn ∈ pvLeipzig, kn.2 = nk.1 → kn.1 = nk.2) nk hnk
      obtain ⟨v, hv⟩ := Option.isSome_iff_exists.1 (hall _ hm)
      have hnd := (by decide : ∀ nk ∈ Spec.leipzigNumbers, pvLeipzig.countP (fun kn => kn.2 = nk.1) = 1) nk hnk
      obtain ⟨pre, post, e⟩ := List.append_of_mem hm
      rw [e, List.countP_append, List.countP_cons] at hnd
      simp only [decide_true, if_true] at hnd
      have hpost : post.countP (fun kn => kn.2 = nk.1) = 0 := by omega
      rw [hv]
      refine (c nk.1).1 v ⟨pre, _, post, e, ⟨rfl, hv⟩, ?_⟩
      intro q hq y hy
      rw [List.countP_eq_zero] at hpost
      exact hpost q hq (by simpa using hy.1)
    · rw [ha, ← hiff]
      simp only [Except.isOk, Except.toBool, true_iff]
      exact hall
  · have hb := b (by push Not at hall; obtain ⟨kn, h1, h2⟩ := hall; exact ⟨kn, h1, by simpa using h2⟩)
    refine ⟨?_, ?_⟩
    · intro nk _ d hd
      rw [hb] at hd
      cases hd
    · rw [hb, ← hiff]
      simp only [Except.isOk, Except.toBool, Bool.false_eq_true, false_iff]
      exact hall

example : (pvNetcdf pvLeipzig fun k => some k).toOption.map (fun d => (d 24, d 2, d 93)) = some (some "E_kin", some "RR_Accumulated", some "Data_Raw") := by
  decide +kernel

/-- A number that only one variable has. -/
theorem pvNetcdfPresent_unique {V : Type} (keys : List (String × ℤ)) (get : String → Option V) (n : ℤ) (k : String) (hm : (k, n) ∈ keys)
    (hc : keys.countP (fun kn => kn.2 = n) = 1) : pvNetcdfPresent keys get n = get k := by
  obtain ⟨pre, post, e⟩ := List.append_of_mem hm
  rw [e, List.countP_append, List.countP_cons] at hc
  simp only [decide_true, if_true] at hc
  have hpre : pre.countP (fun kn => kn.2 = n) = 0 := by omega
  have hpost : post.countP (fun kn => kn.2 = n) = 0 := by omega
  rw [List.countP_eq_zero] at hpre hpost
  obtain ⟨-, -, c⟩ := C121_netcdf keys get
  cases hv : get k with
  | some v => exact (c n).1 v ⟨pre, _, post, e, ⟨rfl, hv⟩, fun q hq y hy => hpost q hq (by simpa using hy.1)⟩
  | none =>
    refine (c n).2 fun kn hkn hn => ?_
    rw [e] at hkn
    rcases List.mem_append.1 hkn with h | h
    · exact absurd (by simpa using hn) (hpre kn h)
    · rcases List.mem_cons.1 h with rfl | h
      · exact hv
      · exact absurd (by simpa using hn) (hpost kn h)

namespace Spec

/-- The names of the quantities in files of parsivel2nc, with the numbers of the manufacturer. -/
def parsivel2ncNumbers : List (ℤ × String) :=
  [(1, "rainfall_rate"), (3, "synop_WaWa"), (4, "synop_WW"), (7, "radar_reflectivity"), (8, "visibility"), (9, "interval"), (10, "sig_laser"), (11, "n_particles"),
    (12, "T_sensor"), (16, "I_heating"), (17, "V_sensor"), (18, "state_sensor"), (25, "error_code"), (90, "number_concentration"), (91, "fall_velocity"),
    (93, "data_raw")]

/-- The same of disdroDL, without the temperatures of sensor heads. -/
def disdrodlNumbers : List (ℤ × String) :=
  [(1, "rain_intensity"), (3, "code_4680"), (4, "code_4677"), (5, "code_4678"), (6, "code_NWS"), (7, "reflectivity"), (8, "MOR"), (10, "amplitude"),
    (11, "n_particles"), (12, "T_sensor"), (16, "I_heating"), (17, "V_power_supply"), (18, "state_sensor"), (24, "absolute_rain_amount"), (25, "error_code"),
    (26, "T_pcb"), (34, "kinetic_energy"), (35, "snowfall_intensity"), (90, "fieldN"), (91, "fieldV"), (93, "data_raw")]

/-- The same of Munich. -/
def munichNumbers : List (ℤ × String) :=
  [(1, "rr"), (2, "rain_accum"), (3, "wawa"), (7, "Ze"), (9, "sample_interval"), (10, "signal_amplitude"), (11, "n_particles"), (12, "T_sensor_housing"),
    (13, "serial_no"), (14, "firmware_IOP"), (15, "firmware_DSP"), (16, "curr_heating"), (17, "volt_sensor"), (18, "status_sensor"), (20, "sensor_time"),
    (25, "error_code"), (26, "T_pcb"), (27, "T_sensor_right"), (28, "T_sensor_left"), (35, "snow_intensity"), (90, "N"), (91, "v"), (93, "M")]

end Spec

/-- **C121.** Each variable of the files of parsivel2nc, disdroDL and Munich is stored under its number. A file of disdroDL may lack variables; the others need all. -/
theorem C121_numbers {V : Type} (get : String → Option V) :
    ((pvNetcdf pvParsivel2nc get).isOk ↔ (∀ nk ∈ Spec.parsivel2ncNumbers, (get nk.2).isSome) ∧ (get "E_kin").isSome) ∧
    (∀ d, pvNetcdf pvParsivel2nc get = .ok d → ∀ nk ∈ Spec.parsivel2ncNumbers, d nk.1 = get nk.2) ∧
    ((pvNetcdf pvMunich get).isOk ↔ ∀ nk ∈ Spec.munichNumbers, (get nk.2).isSome) ∧
    (∀ d, pvNetcdf pvMunich get = .ok d → ∀ nk ∈ Spec.munichNumbers, d nk.1 = get nk.2) ∧
    (∀ nk ∈ Spec.disdrodlNumbers, pvNetcdfPresent pvDisdrodl get nk.1 = get nk.2) := by
  have hok : ∀ keys : List (String × ℤ), (pvNetcdf keys get).isOk ↔ ∀ kn ∈ keys, (get kn.1).isSome := by
    intro keys
    obtain ⟨a, b, -⟩ := C121_netcdf keys get
    by_cases hall : ∀ kn ∈ keys, (get kn.1).isSome
    · rw [a hall]; exact ⟨fun _ => hall, fun _ => rfl⟩
    · rw [b (by push Not at hall; obtain ⟨kn, h1, h2⟩ := hall; exact ⟨kn, h1, by simpa using h2⟩)]
      exact ⟨fun h => (by simp [Except.isOk, Except.toBool] at h), fun h => absurd h hall⟩
  have hval : ∀ (keys : List (String × ℤ)) d, pvNetcdf keys get = .ok d → d = pvNetcdfPresent keys get := by
    intro keys d hd
    have := (hok keys).1 (by rw [hd]; rfl)
    rw [(C121_netcdf keys get).1 this] at hd
    exact (Except.ok.inj hd).symm
  refine ⟨?_, ?_, ?_, ?_, ?_⟩
  · rw [hok]
    constructor
    · intro h
      exact ⟨fun nk hnk => h (nk.2, nk.1) ((by decide : ∀ nk ∈ Spec.parsivel2ncNumbers, (nk.2, nk.1) ∈ pvParsivel2nc) nk hnk), h ("E_kin", 24) (by decide)⟩
    · rintro ⟨h1, h2⟩ kn hkn
      rcases (by decide : ∀ kn ∈ pvParsivel2nc, (kn.2, kn.1) ∈ Spec.parsivel2ncNumbers ∨ kn.1 = "E_kin") kn hkn with h | h
      · exact h1 _ h
      · rw [h]; exact h2
  · intro d hd nk hnk
    rw [hval _ d hd]
    exact pvNetcdfPresent_unique _ get _ _ ((by decide : ∀ nk ∈ Spec.parsivel2ncNumbers, (nk.2, nk.1) ∈ pvParsivel2nc) nk hnk)
      ((by decide : ∀ nk ∈ Spec.parsivel2ncNumbers, pvParsivel2nc.countP (fun kn => kn.2 = nk.1) = 1) nk hnk)
  · rw [hok]
    constructor
    · intro h nk hnk
      exact h (nk.2, nk.1) ((by decide : ∀ nk ∈ Spec.munichNumbers, (nk.2, nk.1) ∈ pvMunich) nk hnk)
    · intro h kn hkn
      exact h _ ((by decide : ∀ kn ∈ pvMunich, (kn.2, kn.1) ∈ Spec.munichNumbers) kn hkn)
  · intro d hd nk hnk
    rw [hval _ d hd]
    exact pvNetcdfPresent_unique _ get _ _ ((by decide : ∀ nk ∈ Spec.munichNumbers, (nk.2, nk.1) ∈ pvMunich) nk hnk)
      ((by decide : ∀ nk ∈ Spec.munichNumbers, pvMunich.countP (fun kn => kn.2 = nk.1) = 1) nk hnk)
  · intro nk hnk
    exact pvNetcdfPresent_unique _ get _ _ ((by decide : ∀ nk ∈ Spec.disdrodlNumbers, (nk.2, nk.1) ∈ pvDisdrodl) nk hnk)
      ((by decide : ∀ nk ∈ Spec.disdrodlNumbers, pvDisdrodl.countP (fun kn => kn.2 = nk.1) = 1) nk hnk)

/-- **C121.** How netCDF files are recognised: by the name of the spectrum of concentrations, in this order. -/
theorem C121_dispatch_netcdf (names : List String) (head : String) (t : Bool) (r : PvReader) :
    pvDispatch (some names) head t = .ok r ↔
      (r = .parsivel2nc ∧ "number_concentration" ∈ names) ∨ ("number_concentration" ∉ names ∧
        ((r = .disdrodl ∧ "fieldN" ∈ names) ∨ ("fieldN" ∉ names ∧
          ((r = .munich ∧ "N" ∈ names) ∨ ("N" ∉ names ∧ r = .leipzig ∧ "Data_N_Field" ∈ names))))) := by
  unfold pvDispatch
  dsimp only
  have comm : ∀ x : PvReader, (Except.ok x = (Except.ok r : Except String PvReader)) ↔ r = x :=
    fun x => ⟨fun h => (Except.ok.inj h).symm, fun h => by rw [h]⟩
  split_ifs with c1 c2 c3 c4 <;> simp [*]

/-- **C121.** The numbers of the quantities that are read as integers and as numbers. -/
theorem C121_kinds (n : ℤ) :
    (n ∈ pvInts ↔ n = 3 ∨ n = 4 ∨ (8 ≤ n ∧ n ≤ 13) ∨ n = 18 ∨ (25 ≤ n ∧ n ≤ 28) ∨ n = 60) ∧
    (n ∈ pvFloats ↔ n = 1 ∨ n = 2 ∨ n = 7 ∨ n = 16 ∨ n = 17 ∨ n = 24 ∨ n = 30 ∨ n = 31 ∨ (33 ≤ n ∧ n ≤ 35)) := by
  unfold pvInts pvFloats
  simp only [List.mem_cons, List.not_mem_nil, or_false]
  omega

/-- The numbers of the Parsivel telegram with the variables of netCDF files of the formats parsivel2nc, DISDRODL, Munich and Leipzig. -/
def Spec.parsivelVariables : List (ℤ × Option String × Option String × Option String × Option String) :=
  [(1, some "rainfall_rate", some "rain_intensity", some "rr", some "RR_Intensity"), (2, none, none, some "rain_accum", some "RR_Accumulated"),
   (3, some "synop_WaWa", some "code_4680", some "wawa", some "Synop_WaWa"), (4, some "synop_WW", some "code_4677", none, some "Synop_WW"),
   (5, none, some "code_4678", none, none), (6, none, some "code_NWS", none, none),
   (7, some "radar_reflectivity", some "reflectivity", some "Ze", some "Reflectivity"), (8, some "visibility", some "MOR", none, some "Visibility"),
   (9, some "interval", none, some "sample_interval", some "Meas_Interval"), (10, some "sig_laser", some "amplitude", some "signal_amplitude", some "Sig_Laser"),
   (11, some "n_particles", some "n_particles", some "n_particles", some "N_Particles"),
   (12, some "T_sensor", some "T_sensor", some "T_sensor_housing", some "T_Sensor"), (13, none, none, some "serial_no", none),
   (14, none, none, some "firmware_IOP", none), (15, none, none, some "firmware_DSP", none),
   (16, some "I_heating", some "I_heating", some "curr_heating", some "I_Heating"),
   (17, some "V_sensor", some "V_power_supply", some "volt_sensor", some "V_Sensor"),
   (18, some "state_sensor", some "state_sensor", some "status_sensor", some "State_Sensor"), (20, none, none, some "sensor_time", none),
   (24, some "E_kin", some "absolute_rain_amount", none, some "E_kin"), (25, some "error_code", some "error_code", some "error_code", some "Error_Code"),
   (26, none, some "T_pcb", some "T_pcb", none), (27, none, some "T_L_sensor_head", some "T_sensor_right", none),
   (28, none, some "T_R_sensor_head", some "T_sensor_left", none), (34, none, some "kinetic_energy", none, none),
   (35, none, some "snowfall_intensity", some "snow_intensity", none),
   (90, some "number_concentration", some "fieldN", some "N", some "Data_N_Field"), (91, some "fall_velocity", some "fieldV", some "v", some "Data_V_Field"),
   (93, some "data_raw", some "data_raw", some "M", some "Data_Raw")]

/-- C121. The variables of netCDF files and the numbers of the telegram they stand for: the last variable of a number counts (Leipzig has two
with the number 24), and other variables are not used. -/
theorem C121_variables :
    (∀ n, (pvParsivel2nc.reverse.find? fun kn => kn.2 = n).map Prod.fst = (Spec.parsivelVariables.lookup n).bind (·.1)) ∧
    (∀ n, (pvDisdrodl.reverse.find? fun kn => kn.2 = n).map Prod.fst = (Spec.parsivelVariables.lookup n).bind (·.2.1)) ∧
    (∀ n, (pvMunich.reverse.find? fun kn => kn.2 = n).map Prod.fst = (Spec.parsivelVariables.lookup n).bind (·.2.2.1)) ∧
    (∀ n, (pvLeipzig.reverse.find? fun kn => kn.2 = n).map Prod.fst = (Spec.parsivelVariables.lookup n).bind (·.2.2.2)) ∧
    pvLeipzig.filter (fun kn => kn.2 = 24) = [("RR_Total", 24), ("E_kin", 24)] := by
  have key : ∀ keys : List (String × ℤ), (∀ kn ∈ keys, kn.2 ∈ Spec.parsivelVariables.map Prod.fst) →
      ∀ f : Option String × Option String × Option String × Option String → Option String,
      (∀ n ∈ Spec.parsivelVariables.map Prod.fst,
        (keys.reverse.find? fun kn => kn.2 = n).map Prod.fst = (Spec.parsivelVariables.lookup n).bind f) →
      ∀ n, (keys.reverse.find? fun kn => kn.2 = n).map Prod.fst = (Spec.parsivelVariables.lookup n).bind f := by
    intro keys hk f hf n
    by_cases hn : n ∈ Spec.parsivelVariables.map Prod.fst
    · exact hf n hn
    · have h1 : keys.reverse.find? (fun kn => kn.2 = n) = none := by
        rw [List.find?_eq_none]
        intro kn hkn hc
        have := hk kn (List.mem_reverse.1 hkn)
        rw [of_decide_eq_true hc] at this
        exact hn this
      have h2 : Spec.parsivelVariables.lookup n = none := by
        rw [List.lookup_eq_none_iff]
        intro p hp
        rw [bne_iff_ne]
        rintro rfl
        exact hn (List.mem_map.2 ⟨p, hp, rfl⟩)
      rw [h1, h2]
      rfl
  refine ⟨key _ (by decide) _ (by decide +kernel), key _ (by decide) _ (by decide +kernel), key _ (by decide) _ (by decide +kernel),
    key _ (by decide) _ (by decide +kernel), by decide⟩

/-- **C121.** The decimal separator becomes a point, all other characters stay. -/
theorem C121_decimal (dec : Char) (s : String) : (pvDot dec s).toList.length = s.toList.length ∧
    ∀ (i : ℕ) c, s.toList[i]? = some c → (pvDot dec s).toList[i]? = some (if c = dec then '.' else c) := by
  unfold pvDot
  simp only [String.toList_ofList, List.length_map, true_and, List.getElem?_map]
  intro i c h
  rw [h]; rfl

example : pvDot ',' "1,25" = "1.25" := by decide +kernel

end Cloudnet
