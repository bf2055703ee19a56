import Mathlib.Tactic
import Verif.Disdronator.Lpm
import Verif.Disdrom.ThiesProps

namespace Cloudnet

/-! ## C120: Thies LPM telegrams -/

namespace Spec

/-- The fields of a telegram with integers: instrument, errors and counts of particles. -/
def LpmInteger (no : ℕ) : Prop :=
  no = 2 ∨ no = 3 ∨ no = 7 ∨ no = 8 ∨ no = 11 ∨ no = 12 ∨ no = 18 ∨ no = 20 ∨ (22 ≤ no ∧ no ≤ 45) ∨ (47 ≤ no ∧ no ≤ 51) ∨ (81 ≤ no ∧ no ≤ 520) ∨ no = 524

/-- The fields of a telegram with decimal numbers: intensities, reflectivity, and what sensors outside of the instrument measure. -/
def LpmDecimal (no : ℕ) : Prop := no = 10 ∨ (14 ≤ no ∧ no ≤ 17) ∨ no = 19 ∨ no = 21 ∨ no = 46 ∨ (521 ≤ no ∧ no ≤ 523)

/-- How the field with a number is read. -/
inductive LpmReads {D C T α : Type} (p : LpmParsers D C T α) : ℕ → String → LpmValue D C α → Prop
  | date {s d} : p.date s = some d → LpmReads p 5 s (.date d)
  | clock {s c} : p.clock s = some c → LpmReads p 6 s (.clock c)
  | int {no s n} : LpmInteger no → p.int s = some n → LpmReads p no s (.int n)
  | num {no s x} : LpmDecimal no → p.float s = some x → LpmReads p no s (.num x)
  | text {no s} : no ≠ 5 → no ≠ 6 → ¬ LpmInteger no → ¬ LpmDecimal no → LpmReads p no s (.text s)

/-- A line has the value of a number: it has the length of telegram 4 or 5, the number is one of 2 to 520 or 524, and all fields up
to this one can be read. -/
def HasValue {D C T α : Type} (p : LpmParsers D C T α) (line : Option String × String) (no : ℕ) (v : LpmValue D C α) : Prop :=
  ((lpmValues line.2).length = 520 ∨ (lpmValues line.2).length = 524) ∧ 2 ≤ no ∧ no ≤ (lpmValues line.2).length ∧
    (∀ m, 2 ≤ m → m < no → ∃ s w, (lpmValues line.2)[m - 2]? = some s ∧ LpmReads p m s w) ∧
    ∃ s, (lpmValues line.2)[no - 2]? = some s ∧ LpmReads p no s v

/-- All fields of a line can be read. -/
def Whole {D C T α : Type} (p : LpmParsers D C T α) (line : Option String × String) : Prop :=
  ((lpmValues line.2).length = 520 ∨ (lpmValues line.2).length = 524) ∧
    ∀ m, 2 ≤ m → m ≤ (lpmValues line.2).length → ∃ s w, (lpmValues line.2)[m - 2]? = some s ∧ LpmReads p m s w

/-- The time of a line: of the data logger, or else date and time of the telegram. -/
def LineTime {D C T α : Type} (p : LpmParsers D C T α) (line : Option String × String) (t : T) : Prop :=
  Whole p line ∧ match line.1 with
    | some stamp => p.stamp stamp = some t
    | none => ∃ s c d k, (lpmValues line.2)[3]? = some s ∧ p.date s = some d ∧ (lpmValues line.2)[4]? = some c ∧
        p.clock c = some k ∧ t = p.combine d k

/-- A list has one element for every line that has one, in order. -/
inductive Collected {L V : Type} (R : L → V → Prop) : List L → List V → Prop
  | nil : Collected R [] []
  | take {l v ls vs} : R l v → Collected R ls vs → Collected R (l :: ls) (v :: vs)
  | skip {l ls vs} : (∀ v, ¬ R l v) → Collected R ls vs → Collected R (l :: ls) vs

end Spec

section
variable {D C T α : Type}

theorem lpmInts_iff (no : ℕ) : no ∈ lpmInts ∨ (81 ≤ no ∧ no ≤ 520) ↔ Spec.LpmInteger no := by
  unfold Spec.LpmInteger
  simp only [lpmInts, List.mem_cons, List.not_mem_nil, or_false]
  omega

theorem lpmFloats_iff (no : ℕ) : no ∈ lpmFloats ↔ Spec.LpmDecimal no := by
  unfold Spec.LpmDecimal
  simp only [lpmFloats, List.mem_cons, List.not_mem_nil, or_false]
  omega

theorem lpmParse_iff (p : LpmParsers D C T α) (no : ℕ) (s : String) (v : LpmValue D C α) :
    lpmParse p no s = some v ↔ Spec.LpmReads p no s v := by
  have d1 : ¬ Spec.LpmInteger 5 := by unfold Spec.LpmInteger; omega
  have d2 : ¬ Spec.LpmInteger 6 := by unfold Spec.LpmInteger; omega
  have d3 : ¬ Spec.LpmDecimal 5 := by unfold Spec.LpmDecimal; omega
  have d4 : ¬ Spec.LpmDecimal 6 := by unfold Spec.LpmDecimal; omega
  have d5 : ∀ n, Spec.LpmDecimal n → ¬ Spec.LpmInteger n := by intro n; unfold Spec.LpmDecimal Spec.LpmInteger; omega
  constructor
  · intro h
    unfold lpmParse at h
    split_ifs at h with h1 h2 h3 h4
    · obtain ⟨t, ht, rfl⟩ := Option.map_eq_some_iff.1 h
      subst h1
      exact .date ht
    · obtain ⟨t, ht, rfl⟩ := Option.map_eq_some_iff.1 h
      subst h2
      exact .clock ht
    · obtain ⟨t, ht, rfl⟩ := Option.map_eq_some_iff.1 h
      exact .int ((lpmInts_iff no).1 h3) ht
    · obtain ⟨t, ht, rfl⟩ := Option.map_eq_some_iff.1 h
      exact .num ((lpmFloats_iff no).1 h4) ht
    · obtain rfl := Option.some.inj h
      exact .text h1 h2 (fun hc => h3 ((lpmInts_iff no).2 hc)) fun hc => h4 ((lpmFloats_iff no).2 hc)
  · intro h
    unfold lpmParse
    cases h with
    | date h => rw [if_pos rfl, h]; rfl
    | clock h => rw [if_neg (by decide), if_pos rfl, h]; rfl
    | int hk h =>
      have e5 : no ≠ 5 := by rintro rfl; exact d1 hk
      have e6 : no ≠ 6 := by rintro rfl; exact d2 hk
      rw [if_neg e5, if_neg e6, if_pos ((lpmInts_iff no).2 hk), h]
      rfl
    | num hk h =>
      have e5 : no ≠ 5 := by rintro rfl; exact d3 hk
      have e6 : no ≠ 6 := by rintro rfl; exact d4 hk
      rw [if_neg e5, if_neg e6, if_neg fun hc => d5 _ hk ((lpmInts_iff no).1 hc), if_pos ((lpmFloats_iff no).2 hk), h]
      rfl
    | text h1 h2 h3 h4 => rw [if_neg h1, if_neg h2, if_neg fun hc => h3 ((lpmInts_iff no).1 hc), if_neg fun hc => h4 ((lpmFloats_iff no).1 hc)]

/-- Columns after some fields. -/
theorem lpmFields_spec (p : LpmParsers D C T α) (no : ℕ) (vs : List String) (data : ℕ → List (LpmValue D C α)) :
    ((lpmFields p no vs data).2 = true ↔ ∀ k < vs.length, ∃ s w, vs[k]? = some s ∧ Spec.LpmReads p (no + k) s w) ∧
    ∀ m, (∀ v, (no ≤ m ∧ (∀ k, no + k < m → ∃ s w, vs[k]? = some s ∧ Spec.LpmReads p (no + k) s w) ∧
        ∃ s, vs[m - no]? = some s ∧ Spec.LpmReads p m s v) → (lpmFields p no vs data).1 m = data m ++ [v]) ∧
      ((∀ v, ¬ (no ≤ m ∧ (∀ k, no + k < m → ∃ s w, vs[k]? = some s ∧ Spec.LpmReads p (no + k) s w) ∧
        ∃ s, vs[m - no]? = some s ∧ Spec.LpmReads p m s v)) → (lpmFields p no vs data).1 m = data m) := by
  induction vs generalizing no data with
  | nil =>
    refine ⟨by simp [lpmFields], ?_⟩
    intro m
    refine ⟨?_, fun _ => rfl⟩
    rintro v ⟨-, -, s, hs, -⟩
    simp at hs
  | cons a vs ih =>
    unfold lpmFields
    cases ha : lpmParse p no a with
    | none =>
      have hno : ∀ w, ¬ Spec.LpmReads p no a w := by
        intro w hw
        rw [← lpmParse_iff, ha] at hw
        cases hw
      refine ⟨?_, ?_⟩
      · simp only [Bool.false_eq_true, false_iff]
        intro h
        obtain ⟨s, w, h1, h2⟩ := h 0 (by simp)
        obtain rfl := Option.some.inj h1
        exact hno w h2
      · intro m
        refine ⟨?_, fun _ => rfl⟩
        rintro v ⟨h1, h2, s, h3, h4⟩
        exfalso
        rcases h1.eq_or_lt with rfl | hlt
        · rw [Nat.sub_self] at h3
          obtain rfl := Option.some.inj h3
          exact hno v h4
        · obtain ⟨s', w, h5, h6⟩ := h2 0 (by omega)
          obtain rfl := Option.some.inj h5
          exact hno w h6
    | some x =>
      have hx : Spec.LpmReads p no a x := (lpmParse_iff _ _ _ _).1 ha
      dsimp only
      obtain ⟨i1, i2⟩ := ih (no + 1) (lpmAppend data no x)
      -- the condition for larger numbers
      have hcond : ∀ m v, m ≠ no → ((no ≤ m ∧ (∀ k, no + k < m → ∃ s w, (a :: vs)[k]? = some s ∧ Spec.LpmReads p (no + k) s w) ∧
          ∃ s, (a :: vs)[m - no]? = some s ∧ Spec.LpmReads p m s v) ↔
          (no + 1 ≤ m ∧ (∀ k, no + 1 + k < m → ∃ s w, vs[k]? = some s ∧ Spec.LpmReads p (no + 1 + k) s w) ∧
            ∃ s, vs[m - (no + 1)]? = some s ∧ Spec.LpmReads p m s v)) := by
        intro m v hm
        constructor
        · rintro ⟨h1, h2, s, h3, h4⟩
          refine ⟨by omega, ?_, s, ?_, h4⟩
          · intro k hk
            obtain ⟨s', w, h5, h6⟩ := h2 (k + 1) (by omega)
            rw [List.getElem?_cons_succ] at h5
            exact ⟨s', w, h5, by rwa [show no + (k + 1) = no + 1 + k by omega] at h6⟩
          · rw [show m - no = (m - (no + 1)) + 1 by omega, List.getElem?_cons_succ] at h3
            exact h3
        · rintro ⟨h1, h2, s, h3, h4⟩
          refine ⟨by omega, ?_, s, ?_, h4⟩
          · intro k hk
            cases k with
            | zero => exact ⟨a, x, rfl, hx⟩
            | succ k =>
              obtain ⟨s', w, h5, h6⟩ := h2 k (by omega)
              refine ⟨s', w, by rw [List.getElem?_cons_succ]; exact h5, ?_⟩
              rwa [show no + (k + 1) = no + 1 + k by omega]
          · rw [show m - no = (m - (no + 1)) + 1 by omega, List.getElem?_cons_succ]
            exact h3
      refine ⟨?_, ?_⟩
      · rw [i1]
        constructor
        · intro h k hk
          cases k with
          | zero => exact ⟨a, x, rfl, hx⟩
          | succ k =>
            obtain ⟨s', w, h5, h6⟩ := h k (by simpa using hk)
            refine ⟨s', w, by rw [List.getElem?_cons_succ]; exact h5, ?_⟩
            rwa [show no + (k + 1) = no + 1 + k by omega]
        · intro h k hk
          obtain ⟨s', w, h5, h6⟩ := h (k + 1) (by simpa using hk)
          rw [List.getElem?_cons_succ] at h5
          exact ⟨s', w, h5, by rwa [show no + (k + 1) = no + 1 + k by omega] at h6⟩
      · intro m
        obtain ⟨j1, j2⟩ := i2 m
        by_cases hm : m = no
        · subst hm
          have hend : (lpmFields p (m + 1) vs (lpmAppend data m x)).1 m = data m ++ [x] := by
            rw [j2 fun v h => absurd h.1 (by omega)]
            unfold lpmAppend
            rw [if_pos rfl]
          refine ⟨?_, ?_⟩
          · rintro v ⟨-, -, s, h3, h4⟩
            rw [Nat.sub_self] at h3
            obtain rfl := Option.some.inj h3
            rw [← lpmParse_iff, ha] at h4
            rw [hend, Option.some.inj h4]
          · intro h
            exact absurd ⟨le_refl m, fun k hk => absurd hk (by omega), a, by simp, hx⟩ (h x)
        · have happ : lpmAppend data no x m = data m := by
            unfold lpmAppend
            rw [if_neg hm]
          rw [happ] at j1 j2
          refine ⟨?_, ?_⟩
          · intro v h
            exact j1 v ((hcond m v hm).1 h)
          · intro h
            exact j2 fun v h' => h v ((hcond m v hm).2 h')

theorem dropLast_get {l : List String} {k : ℕ} (hk : k + 1 < l.length) : l.dropLast[k]? = l[k]? := by
  rw [List.getElem?_dropLast]
  rw [if_pos (by omega)]

/-- Columns after a line. -/
theorem lpmTelegram_spec (p : LpmParsers D C T α) (line : Option String × String) (data : ℕ → List (LpmValue D C α)) :
    ((lpmTelegram p line.2 data).2 = true ↔ Spec.Whole p line) ∧
    ∀ m, (∀ v, Spec.HasValue p line m v → (lpmTelegram p line.2 data).1 m = data m ++ [v]) ∧
      ((∀ v, ¬ Spec.HasValue p line m v) → (lpmTelegram p line.2 data).1 m = data m) := by
  unfold lpmTelegram
  by_cases c : (lpmValues line.2).length = 520 ∨ (lpmValues line.2).length = 524
  · rw [if_neg fun h => c.elim h.1 h.2]
    have hpos : 2 ≤ (lpmValues line.2).length := by omega
    have hlen : (lpmValues line.2).dropLast.length = (lpmValues line.2).length - 1 := List.length_dropLast
    obtain ⟨a, b⟩ := lpmFields_spec p 2 (lpmValues line.2).dropLast data
    refine ⟨?_, ?_⟩
    · rw [a, hlen]
      unfold Spec.Whole
      constructor
      · intro h
        refine ⟨c, ?_⟩
        intro m h2 hm
        obtain ⟨s, w, h3, h4⟩ := h (m - 2) (by omega)
        rw [dropLast_get (by omega)] at h3
        rw [show 2 + (m - 2) = m by omega] at h4
        exact ⟨s, w, h3, h4⟩
      · rintro ⟨-, h⟩ k hk
        obtain ⟨s, w, h3, h4⟩ := h (k + 2) (by omega) (by omega)
        rw [Nat.add_sub_cancel] at h3
        rw [add_comm] at h4
        exact ⟨s, w, by rw [dropLast_get (by omega)]; exact h3, h4⟩
    · intro m
      have hiff : ∀ v, Spec.HasValue p line m v ↔ (2 ≤ m ∧ (∀ k, 2 + k < m → ∃ s w, (lpmValues line.2).dropLast[k]? = some s ∧
          Spec.LpmReads p (2 + k) s w) ∧ ∃ s, (lpmValues line.2).dropLast[m - 2]? = some s ∧ Spec.LpmReads p m s v) := by
        intro v
        unfold Spec.HasValue
        constructor
        · rintro ⟨-, h1, h2, h3, s, h4, h5⟩
          refine ⟨h1, ?_, s, by rw [dropLast_get (by omega)]; exact h4, h5⟩
          intro k hk
          obtain ⟨s', w, h6, h7⟩ := h3 (2 + k) (by omega) hk
          rw [show 2 + k - 2 = k by omega] at h6
          exact ⟨s', w, by rw [dropLast_get (by omega)]; exact h6, h7⟩
        · rintro ⟨h1, h3, s, h4, h5⟩
          have hm : m ≤ (lpmValues line.2).length := by
            have := (List.getElem?_eq_some_iff.1 h4).1
            rw [hlen] at this
            omega
          refine ⟨c, h1, hm, ?_, s, by rw [dropLast_get (by omega)] at h4; exact h4, h5⟩
          intro k hk2 hk
          obtain ⟨s', w, h6, h7⟩ := h3 (k - 2) (by omega)
          rw [dropLast_get (by omega)] at h6
          rw [show 2 + (k - 2) = k by omega] at h7
          exact ⟨s', w, h6, h7⟩
      obtain ⟨b1, b2⟩ := b m
      exact ⟨fun v h => b1 v ((hiff v).1 h), fun h => b2 fun v h' => h v ((hiff v).2 h')⟩
  · have hc : (lpmValues line.2).length ≠ 520 ∧ (lpmValues line.2).length ≠ 524 := not_or.1 c
    rw [if_pos hc]
    refine ⟨?_, ?_⟩
    · simp only [Bool.false_eq_true, false_iff]
      exact fun h => c h.1
    · intro m
      exact ⟨fun v h => absurd h.1 c, fun _ => rfl⟩

theorem whole_hasValue (p : LpmParsers D C T α) (line : Option String × String) (h : Spec.Whole p line) (no : ℕ) (h2 : 2 ≤ no)
    (hl : no ≤ (lpmValues line.2).length) : ∃ v, Spec.HasValue p line no v := by
  obtain ⟨s, v, h3, h4⟩ := h.2 no h2 hl
  exact ⟨v, h.1, h2, hl, fun m h5 h6 => h.2 m h5 (by omega), s, h3, h4⟩

/-- Times after a line. -/
theorem lpmLine_spec (p : LpmParsers D C T α) (line : Option String × String) (s : List T × (ℕ → List (LpmValue D C α))) :
    (lpmLine p s line).2 = (lpmTelegram p line.2 s.2).1 ∧
    (∀ t, Spec.LineTime p line t → (lpmLine p s line).1 = s.1 ++ [t]) ∧
    ((∀ t, ¬ Spec.LineTime p line t) → (lpmLine p s line).1 = s.1) := by
  obtain ⟨a, b⟩ := lpmTelegram_spec p line s.2
  unfold lpmLine
  dsimp only
  by_cases c : (lpmTelegram p line.2 s.2).2 = true
  · rw [if_neg (by simp [c])]
    have hw := a.1 c
    have hcomb : line.1 = none → ∃ s' k d c', (lpmValues line.2)[3]? = some s' ∧ p.date s' = some d ∧
        (lpmValues line.2)[4]? = some k ∧ p.clock k = some c' ∧
        lpmCombine p (lpmTelegram p line.2 s.2).1 = some (p.combine d c') := by
      intro _
      have h5 : 5 ≤ (lpmValues line.2).length := by have := hw.1; omega
      have h6 : 6 ≤ (lpmValues line.2).length := by have := hw.1; omega
      obtain ⟨v, hv⟩ := whole_hasValue p line hw 5 (by omega) h5
      obtain ⟨v', hv'⟩ := whole_hasValue p line hw 6 (by omega) h6
      have e1 := (b 5).1 v hv
      have e2 := (b 6).1 v' hv'
      obtain ⟨-, -, -, -, s1, h1, h2⟩ := hv
      obtain ⟨-, -, -, -, s2, h3, h4⟩ := hv'
      rw [← lpmParse_iff] at h2 h4
      unfold lpmParse at h2 h4
      rw [if_pos rfl] at h2
      rw [if_neg (by decide), if_pos rfl] at h4
      obtain ⟨d, hd, rfl⟩ := Option.map_eq_some_iff.1 h2
      obtain ⟨k, hk, rfl⟩ := Option.map_eq_some_iff.1 h4
      refine ⟨s1, s2, d, k, h1, hd, h3, hk, ?_⟩
      unfold lpmCombine
      rw [e1, e2]
      simp
    unfold Spec.LineTime
    generalize lpmTelegram p line.2 s.2 = tel at *
    cases hl : line.1 with
    | some text =>
      dsimp only
      cases hs : p.stamp text with
      | none => exact ⟨rfl, fun t h => (Option.some_ne_none t (And.right h).symm).elim, fun _ => rfl⟩
      | some t0 =>
        refine ⟨rfl, ?_, fun h => (h t0 (And.intro hw rfl)).elim⟩
        intro t h
        have h2 := And.right h
        rw [Option.some.inj h2]
    | none =>
      dsimp only
      obtain ⟨s', k, d, c', h1, h2, h3, h4, h5⟩ := hcomb hl
      rw [h5]
      refine ⟨rfl, ?_, fun h => (h _ (And.intro hw ⟨s', k, d, c', h1, h2, h3, h4, rfl⟩)).elim⟩
      rintro t ⟨-, s1, k1, d1, c1, e1, e2, e3, e4, rfl⟩
      rw [h1] at e1
      obtain rfl := Option.some.inj e1
      rw [h3] at e3
      obtain rfl := Option.some.inj e3
      rw [h2] at e2
      rw [h4] at e4
      rw [Option.some.inj e2, Option.some.inj e4]
  · generalize lpmTelegram p line.2 s.2 = tel at *
    rw [if_pos (by simpa using c)]
    refine ⟨rfl, ?_, fun _ => rfl⟩
    intro t h
    exact absurd (a.2 (And.left h)) c

/-- **C120.** Times are those of the lines that can be read as a whole; the values of a column are those of the lines that can be
read up to the column's field. -/
theorem C120_columns (p : LpmParsers D C T α) (lines : List (Option String × String)) :
    Spec.Collected (Spec.LineTime p) lines (lpmRead p lines).1 ∧
    ∀ no, Spec.Collected (fun l v => Spec.HasValue p l no v) lines ((lpmRead p lines).2 no) := by
  have key : ∀ s : List T × (ℕ → List (LpmValue D C α)),
      (∃ ts, Spec.Collected (Spec.LineTime p) lines ts ∧ (lines.foldl (lpmLine p) s).1 = s.1 ++ ts) ∧
      ∀ no, ∃ vs, Spec.Collected (fun l v => Spec.HasValue p l no v) lines vs ∧ (lines.foldl (lpmLine p) s).2 no = s.2 no ++ vs := by
    induction lines with
    | nil => exact fun s => ⟨⟨[], .nil, by simp⟩, fun no => ⟨[], .nil, by simp⟩⟩
    | cons l ls ih =>
      intro s
      rw [List.foldl_cons]
      obtain ⟨⟨ts, i1, i2⟩, i3⟩ := ih (lpmLine p s l)
      obtain ⟨l1, l2, l3⟩ := lpmLine_spec p l s
      obtain ⟨-, t2⟩ := lpmTelegram_spec p l s.2
      refine ⟨?_, ?_⟩
      · by_cases h : ∃ t, Spec.LineTime p l t
        · obtain ⟨t, ht⟩ := h
          exact ⟨t :: ts, .take ht i1, by rw [i2, l2 t ht]; simp⟩
        · rw [not_exists] at h
          exact ⟨ts, .skip h i1, by rw [i2, l3 h]⟩
      · intro no
        obtain ⟨vs, j1, j2⟩ := i3 no
        by_cases h : ∃ v, Spec.HasValue p l no v
        · obtain ⟨v, hv⟩ := h
          exact ⟨v :: vs, .take hv j1, by rw [j2, l1, (t2 no).1 v hv]; simp⟩
        · rw [not_exists] at h
          exact ⟨vs, .skip h j1, by rw [j2, l1, (t2 no).2 h]⟩
  obtain ⟨⟨ts, h1, h2⟩, h3⟩ := key ([], fun _ => [])
  refine ⟨?_, ?_⟩
  · unfold lpmRead
    rw [h2]
    exact h1
  · intro no
    obtain ⟨vs, h4, h5⟩ := h3 no
    unfold lpmRead
    rw [h5]
    exact h4

theorem collected_forall₂ {L V W : Type} {R : L → V → Prop} {S : L → W → Prop} {ls : List L} {vs : List V} {ws : List W}
    (h1 : Spec.Collected R ls vs) (h2 : Spec.Collected S ls ws) (h : ∀ l ∈ ls, (∃ v, R l v) ↔ ∃ w, S l w) :
    List.Forall₂ (fun v w => ∃ l ∈ ls, R l v ∧ S l w) vs ws := by
  induction h1 generalizing ws with
  | nil => cases h2; exact .nil
  | @take l v ls vs hr _ ih =>
    cases h2 with
    | take hs h2 =>
      refine .cons ⟨l, by simp, hr, hs⟩ ((ih h2 fun l' hl' => h l' (by simp [hl'])).imp ?_)
      rintro a b ⟨l', h3, h4⟩
      exact ⟨l', by simp [h3], h4⟩
    | skip hs _ =>
      obtain ⟨w, hw⟩ := (h l (by simp)).1 ⟨v, hr⟩
      exact absurd hw (hs w)
  | @skip l ls vs hr _ ih =>
    cases h2 with
    | take hs _ =>
      obtain ⟨w, hw⟩ := (h l (by simp)).2 ⟨_, hs⟩
      exact absurd hw (hr w)
    | skip hs h2 =>
      refine (ih h2 fun l' hl' => h l' (by simp [hl'])).imp ?_
      rintro a b ⟨l', h3, h4⟩
      exact ⟨l', by simp [h3], h4⟩

/-- **C120.** If every line either has a time or has none of the fields, then times and values of a column belong together. -/
theorem C120_aligned (p : LpmParsers D C T α) (lines : List (Option String × String))
    (h : ∀ l ∈ lines, (∃ t, Spec.LineTime p l t) ∨ ∀ no v, ¬ Spec.HasValue p l no v) (no : ℕ) (h2 : 2 ≤ no) (hno : no ≤ 520) :
    List.Forall₂ (fun t v => ∃ l ∈ lines, Spec.LineTime p l t ∧ Spec.HasValue p l no v) (lpmRead p lines).1
      ((lpmRead p lines).2 no) := by
  obtain ⟨a, b⟩ := C120_columns p lines
  refine collected_forall₂ a (b no) ?_
  intro l hl
  constructor
  · rintro ⟨t, ht⟩
    exact whole_hasValue p l ht.1 no h2 (by have := ht.1.1; omega)
  · rintro ⟨v, hv⟩
    rcases h l hl with ht | hn
    · exact ht
    · exact absurd hv (hn no v)

/-- **C120, finding** A telegram with a bad field leaves the fields before it in the columns: after it, the values of the first column
belong to earlier times. -/
theorem C120_misaligned (p : LpmParsers D C T α) (bad good : Option String × String) (v w : LpmValue D C α) (t : T)
    (hb : Spec.HasValue p bad 2 v) (hw : ¬ Spec.Whole p bad) (hg : Spec.LineTime p good t) (hv : Spec.HasValue p good 2 w) :
    (lpmRead p [bad, good]).1 = [t] ∧ (lpmRead p [bad, good]).2 2 = [v, w] := by
  have e : lpmRead p [bad, good] = lpmLine p (lpmLine p ([], fun _ => []) bad) good := by
    unfold lpmRead
    rw [List.foldl_cons, List.foldl_cons, List.foldl_nil]
  obtain ⟨l1, -, l3⟩ := lpmLine_spec p bad ([], fun _ => [])
  obtain ⟨m1, m2, -⟩ := lpmLine_spec p good (lpmLine p ([], fun _ => []) bad)
  rw [e, m1, m2 t hg, l3 fun t ht => hw (And.left ht)]
  refine ⟨List.nil_append _, ?_⟩
  rw [((lpmTelegram_spec p good _).2 2).1 w hv, l1, ((lpmTelegram_spec p bad _).2 2).1 v hb, List.nil_append, List.singleton_append]

end

/-! Fields of a telegram -/

theorem intercalate_last (c : Char) (fields : List (List Char)) (last : List Char) (h : fields.getLast? = some last) :
    ∃ y, [c].intercalate fields = y ++ last := by
  induction fields with
  | nil => simp at h
  | cons a fields ih =>
    cases fields with
    | nil =>
      simp at h
      subst h
      exact ⟨[], by simp [List.intercalate]⟩
    | cons b fields =>
      obtain ⟨y, hy⟩ := ih (by simpa using h)
      refine ⟨a ++ c :: y, ?_⟩
      rw [List.intercalate_cons_cons, hy]
      simp

theorem mem_intercalate_char (c : Char) (fields : List (List Char)) (x : Char) (hx : x ∈ [c].intercalate fields) :
    x = c ∨ ∃ f ∈ fields, x ∈ f := by
  induction fields with
  | nil => simp [List.intercalate] at hx
  | cons a fields ih =>
    cases fields with
    | nil =>
      right
      exact ⟨a, by simp, by simpa [List.intercalate] using hx⟩
    | cons b fields =>
      rw [List.intercalate_cons_cons] at hx
      rcases List.mem_append.1 hx with hx | hx
      · rcases List.mem_append.1 hx with hx | hx
        · exact .inr ⟨a, by simp, hx⟩
        · exact .inl (by simpa using hx)
      · rcases ih hx with h | ⟨f, hf, h⟩
        · exact .inl h
        · exact .inr ⟨f, List.mem_cons_of_mem _ hf, h⟩

theorem splitChar_intercalate (c : Char) (fields : List String) (hne : fields ≠ []) (hs : ∀ x ∈ fields, c ∉ x.toList) :
    splitChar c (String.ofList ([c].intercalate (fields.map String.toList))) = fields := by
  unfold splitChar
  rw [String.toList_ofList, List.splitOn_intercalate]
  · rw [List.map_map]
    conv_rhs => rw [← List.map_id fields]
    apply List.map_congr_left
    intro x _
    simp
  · intro l hl
    obtain ⟨x, hx, rfl⟩ := List.mem_map.1 hl
    exact hs x hx
  · simpa using hne

/-- Semicolons at the end do not count. -/
theorem rstrip_fields (c : Char) (fields : List String) (last : String) (hl : fields.getLast? = some last) (hlast : last ≠ "")
    (hs : ∀ x ∈ fields, c ∉ x.toList) (k : ℕ) :
    ((([c].intercalate (fields.map String.toList)) ++ List.replicate k c).reverse.dropWhile fun x => decide (x = c)).reverse
      = [c].intercalate (fields.map String.toList) := by
  obtain ⟨y, hy⟩ := intercalate_last c (fields.map String.toList) last.toList (by rw [List.getLast?_map, hl]; rfl)
  have hmem : last ∈ fields := List.mem_of_getLast? hl
  rw [List.reverse_append, List.reverse_replicate, List.dropWhile_append_of_pos]
  · rw [dropWhile_end, List.reverse_reverse]
    intro x hx
    rw [hy, List.reverse_append] at hx
    have hne : last.toList ≠ [] := fun h => hlast (String.toList_inj.1 (h.trans rfl))
    have hx' : x ∈ last.toList := by
      cases hr : last.toList.reverse with
      | nil => exact absurd (List.reverse_eq_nil_iff.1 hr) hne
      | cons z zs =>
        rw [hr] at hx
        simp at hx
        subst hx
        rw [← List.mem_reverse, hr]
        simp
    rw [decide_eq_false_iff_not]
    rintro rfl
    exact hs last hmem hx'
  · intro x hx
    rw [List.eq_of_mem_replicate hx]
    simp

/-- **C120.** The fields of a telegram are separated by semicolons; semicolons at the end, and spaces around the telegram, do not
count. -/
theorem C120_fields (fields : List String) (last : String) (hl : fields.getLast? = some last) (hlast : last ≠ "")
    (hs : ∀ x ∈ fields, ∀ c ∈ x.toList, c ≠ ';' ∧ c.isWhitespace = false) (k : ℕ) (before after : List Char)
    (hb : ∀ c ∈ before, c.isWhitespace = true) (ha : ∀ c ∈ after, c.isWhitespace = true) :
    lpmValues (String.ofList (before ++ ([';'].intercalate (fields.map String.toList) ++ List.replicate k ';') ++ after)) = fields := by
  have hne : fields ≠ [] := by
    rintro rfl
    simp at hl
  have hsemi : ∀ x ∈ fields, ';' ∉ x.toList := fun x hx h => (hs x hx ';' h).1 rfl
  have hall : ∀ c ∈ [';'].intercalate (fields.map String.toList) ++ List.replicate k ';', c.isWhitespace = false := by
    intro c hc
    rcases List.mem_append.1 hc with hc | hc
    · rcases mem_intercalate_char _ _ _ hc with rfl | ⟨f, hf, h⟩
      · decide
      · obtain ⟨x, hx, rfl⟩ := List.mem_map.1 hf
        exact (hs x hx c h).2
    · rw [List.eq_of_mem_replicate hc]
      decide
  have hstrip : (pyStrip (String.ofList (before ++ ([';'].intercalate (fields.map String.toList) ++ List.replicate k ';') ++ after))).toList
      = [';'].intercalate (fields.map String.toList) ++ List.replicate k ';' := by
    generalize [';'].intercalate (fields.map String.toList) ++ List.replicate k ';' = x at hall
    unfold pyStrip
    rw [String.toList_ofList, String.toList_ofList]
    have h1 : trim Char.isWhitespace (before ++ x ++ after) = trim Char.isWhitespace (before ++ x) := trim_append _ _ _ ha
    have h2 : trim Char.isWhitespace (before ++ x) = trim Char.isWhitespace x := by
      unfold trim
      rw [List.dropWhile_append_of_pos hb]
    have h3 : trim Char.isWhitespace x = x :=
      trim_self _ _ (fun c hc => hall c (List.mem_of_mem_head? hc))
        fun c hc => hall c (List.mem_reverse.1 (List.mem_of_mem_head? hc))
    exact h1.trans (h2.trans h3)
  unfold lpmValues
  rw [hstrip, rstrip_fields ';' fields last hl hlast hsemi, splitChar_intercalate ';' fields hne hsemi]

/-- Parsers of a telegram of zeros, for examples. -/
def lpmDemo : LpmParsers ℕ ℕ ℕ ℚ :=
  ⟨fun _ => some 1, fun _ => some 2, fun s => if s = "0" then some 0 else none, fun _ => some 0, fun _ => some 7, fun d c => d + c⟩

/-- A telegram for examples: a second field, and zeros. -/
def lpmDemoFields (second : String) : List String := "0" :: second :: List.replicate 518 "0"

/-- The telegram with these fields. -/
def lpmDemoText (second : String) : String := String.ofList ([';'].intercalate ((lpmDemoFields second).map String.toList))

theorem lpmDemo_values (second : String) (h : ∀ c ∈ second.toList, c ≠ ';' ∧ c.isWhitespace = false) :
    lpmValues (lpmDemoText second) = lpmDemoFields second := by
  have := C120_fields (lpmDemoFields second) "0" (by
    show ("0" :: second :: List.replicate (517 + 1) "0").getLast? = _
    rw [List.replicate_succ', ← List.cons_append, ← List.cons_append, List.getLast?_concat]) (by decide) (by
    intro x hx
    unfold lpmDemoFields at hx
    rcases List.mem_cons.1 hx with rfl | hx
    · decide
    · rcases List.mem_cons.1 hx with rfl | hx
      · exact h
      · rw [List.eq_of_mem_replicate hx]
        decide) 0 [] [] (by simp) (by simp)
  simpa [lpmDemoText] using this

theorem lpmDemo_reads (no : ℕ) : ∃ w, Spec.LpmReads lpmDemo no "0" w := by
  have : (lpmParse lpmDemo no "0").isSome := by
    unfold lpmParse lpmDemo
    split_ifs <;> simp
  obtain ⟨w, hw⟩ := Option.isSome_iff_exists.1 this
  exact ⟨w, (lpmParse_iff _ _ _ _).1 hw⟩

theorem lpmDemo_get (second : String) (k : ℕ) (hk : k < 520) (h1 : k ≠ 1) : (lpmDemoFields second)[k]? = some "0" := by
  unfold lpmDemoFields
  match k, h1 with
  | 0, _ => rfl
  | k + 2, _ =>
    rw [List.getElem?_cons_succ, List.getElem?_cons_succ, List.getElem?_replicate, if_pos (by omega)]

theorem lpmDemo_length (second : String) : (lpmDemoFields second).length = 520 := by
  unfold lpmDemoFields
  rw [List.length_cons, List.length_cons, List.length_replicate]

theorem lpmDemo_good : Spec.Whole lpmDemo (none, lpmDemoText "0") := by
  have hv : lpmValues (lpmDemoText "0") = lpmDemoFields "0" := lpmDemo_values "0" (by decide)
  unfold Spec.Whole
  dsimp only
  rw [hv]
  refine ⟨.inl (lpmDemo_length _), ?_⟩
  intro m h1 h2
  rw [lpmDemo_length] at h2
  obtain ⟨w, hw⟩ := lpmDemo_reads m
  refine ⟨"0", w, ?_, hw⟩
  by_cases c : m - 2 = 1
  · rw [c]
    rfl
  · exact lpmDemo_get _ _ (by omega) c

/-- A whole telegram, with its time. -/
theorem lpmDemo_time : Spec.LineTime lpmDemo (none, lpmDemoText "0") 3 := by
  have hv : lpmValues (lpmDemoText "0") = lpmDemoFields "0" := lpmDemo_values "0" (by decide)
  refine And.intro lpmDemo_good ?_
  dsimp only
  rw [hv]
  exact ⟨"0", "0", 1, 2, lpmDemo_get _ 3 (by omega) (by omega), rfl, lpmDemo_get _ 4 (by omega) (by omega), rfl, rfl⟩

/-- A broken telegram leaves its first field. -/
theorem lpmDemo_bad : (∃ v, Spec.HasValue lpmDemo (none, lpmDemoText "x") 2 v) ∧ ¬ Spec.Whole lpmDemo (none, lpmDemoText "x") := by
  have hv : lpmValues (lpmDemoText "x") = lpmDemoFields "x" := lpmDemo_values "x" (by decide)
  refine ⟨?_, ?_⟩
  · obtain ⟨w, hw⟩ := lpmDemo_reads 2
    refine ⟨w, ?_⟩
    unfold Spec.HasValue
    dsimp only
    rw [hv]
    refine ⟨.inl (lpmDemo_length _), le_refl 2, by rw [lpmDemo_length]; omega, fun m h1 h2 => absurd h1 (by omega), "0", ?_, hw⟩
    exact lpmDemo_get _ 0 (by omega) (by omega)
  · unfold Spec.Whole
    dsimp only
    rw [hv]
    rintro ⟨-, h⟩
    obtain ⟨s, w, h1, h2⟩ := h 3 (by omega) (by rw [lpmDemo_length]; omega)
    obtain rfl : "x" = s := Option.some.inj h1
    rw [← lpmParse_iff] at h2
    revert h2
    have : lpmParse lpmDemo 3 "x" = none := by decide +kernel
    rw [this]
    simp

/-- The hypotheses of `C120_misaligned` can be met. -/
example : ∃ v w, (lpmRead lpmDemo [(none, lpmDemoText "x"), (none, lpmDemoText "0")]).1 = [3] ∧
    (lpmRead lpmDemo [(none, lpmDemoText "x"), (none, lpmDemoText "0")]).2 2 = [v, w] := by
  obtain ⟨⟨v, hv⟩, hb⟩ := lpmDemo_bad
  obtain ⟨w, hw⟩ := whole_hasValue lpmDemo _ lpmDemo_good 2 (le_refl 2) (by rw [lpmDemo_values "0" (by decide), lpmDemo_length]; omega)
  exact ⟨v, w, C120_misaligned lpmDemo _ _ v w 3 hv hb lpmDemo_time hw⟩

/-- Columns of a whole telegram: as long as the times. -/
example (no : ℕ) (h2 : 2 ≤ no) (hno : no ≤ 520) : ∃ v, (lpmRead lpmDemo [(none, lpmDemoText "0")]).2 no = [v] := by
  have := C120_aligned lpmDemo [(none, lpmDemoText "0")] (by
    intro l hl
    rw [List.mem_singleton.1 hl]
    exact .inl ⟨3, lpmDemo_time⟩) no h2 hno
  have hl := this.length_eq
  have ht : (lpmRead lpmDemo [(none, lpmDemoText "0")]).1 = [3] := by
    have h := (C120_columns lpmDemo [(none, lpmDemoText "0")]).1
    generalize (lpmRead lpmDemo [(none, lpmDemoText "0")]).1 = ts at h
    cases h with
    | take hr hrest =>
      cases hrest
      refine congrArg (fun x => [x]) ?_
      obtain ⟨-, s, c, d, k, h1, h2, h3, h4, rfl⟩ := hr
      simp only [lpmDemo, Option.some.injEq] at h2 h4
      subst h2 h4
      rfl
    | skip h _ => exact absurd lpmDemo_time (h 3)
  rw [ht] at hl
  exact List.length_eq_one_iff.1 hl.symm

section
variable {D C T α : Type}

/-! Missing values -/

namespace Spec

/-- The values that stand for a missing value. -/
def lpmMissing : List (ℕ × ℚ) :=
  [(18, 99999), (19, -99 / 10), (46, 99999), (47, 999), (48, 9999), (49, 9999), (50, 9999), (521, 99999), (522, 99999), (523, 9999),
    (524, 999)]

end Spec

theorem lookup_iff_mem_nodup {K V : Type} [BEq K] [LawfulBEq K] {l : List (K × V)} (h : (l.map Prod.fst).Nodup) (k : K) (v : V) :
    l.lookup k = some v ↔ (k, v) ∈ l := by
  induction l with
  | nil => simp
  | cons q l ih =>
    rw [List.map_cons, List.nodup_cons] at h
    rw [List.lookup_cons, List.mem_cons]
    by_cases c : k = q.1
    · subst c
      simp only [beq_self_eq_true]
      constructor
      · intro hv
        exact .inl (by rw [← Option.some.inj hv])
      · rintro (hq | hm)
        · rw [← hq]
        · exact absurd (List.mem_map.2 ⟨_, hm, rfl⟩) h.1
    · rw [beq_false_of_ne c]
      dsimp only
      rw [ih h.2]
      constructor
      · exact .inr
      · rintro (rfl | hm)
        · exact absurd rfl c
        · exact hm

/-- **C120.** A value is missing if it is the fill value of its number; the others are kept. -/
theorem C120_missing [Field α] [LinearOrder α] [IsStrictOrderedRing α] (p : LpmParsers D C T α) (lines : List (Option String × String))
    (no : ℕ) :
    (lpmColumn p lines no).length = ((lpmRead p lines).2 no).length ∧
    ∀ (k : ℕ) (v : LpmValue D C α), ((lpmRead p lines).2 no)[k]? = some v →
      (lpmColumn p lines no)[k]? = some none ∧ (∃ f : ℚ, (no, f) ∈ Spec.lpmMissing ∧ ((∃ n : ℤ, v = .int n ∧ (n : α) = (f : α)) ∨
        ∃ x : α, v = .num x ∧ x = (f : α))) ∨
      (lpmColumn p lines no)[k]? = some (some v) ∧ ¬ ∃ f : ℚ, (no, f) ∈ Spec.lpmMissing ∧ ((∃ n : ℤ, v = .int n ∧ (n : α) = (f : α)) ∨
        ∃ x : α, v = .num x ∧ x = (f : α)) := by
  refine ⟨by simp [lpmColumn], ?_⟩
  intro k v hv
  have hget : (lpmColumn p lines no)[k]? = some (if lpmIsFill no v then none else some v) := by
    unfold lpmColumn
    rw [List.getElem?_map, hv]
    rfl
  have htab : ∀ f : ℚ, (no, f) ∈ Spec.lpmMissing ↔ ∃ g : ℤ, lpmFill.lookup no = some g ∧ f = g / 10 := by
    intro f
    have hl : ∀ g, lpmFill.lookup no = some g ↔ (no, g) ∈ lpmFill := fun g => lookup_iff_mem_nodup (by decide) no g
    simp only [hl]
    simp only [Spec.lpmMissing, lpmFill, List.mem_cons, Prod.mk.injEq, List.not_mem_nil, or_false]
    constructor
    · intro h
      rcases h with h | h | h | h | h | h | h | h | h | h | h <;> obtain ⟨rfl, rfl⟩ := h
      exacts [⟨999990, by norm_num⟩, ⟨-99, by norm_num⟩, ⟨999990, by norm_num⟩, ⟨9990, by norm_num⟩, ⟨99990, by norm_num⟩,
        ⟨99990, by norm_num⟩, ⟨99990, by norm_num⟩, ⟨999990, by norm_num⟩, ⟨999990, by norm_num⟩, ⟨99990, by norm_num⟩,
        ⟨9990, by norm_num⟩]
    · rintro ⟨g, h, rfl⟩
      rcases h with h | h | h | h | h | h | h | h | h | h | h <;> obtain ⟨rfl, rfl⟩ := h <;> norm_num
  have hfill : lpmIsFill no v = true ↔ ∃ f : ℚ, (no, f) ∈ Spec.lpmMissing ∧ ((∃ n : ℤ, v = .int n ∧ (n : α) = (f : α)) ∨
      ∃ x : α, v = .num x ∧ x = (f : α)) := by
    have h10 : (10 : α) ≠ 0 := by norm_num
    unfold lpmIsFill
    simp only [htab]
    constructor
    · intro h
      split at h
      · next g n hg =>
        rw [decide_eq_true_iff] at h
        refine ⟨g / 10, ⟨g, hg, rfl⟩, .inl ⟨n, rfl, ?_⟩⟩
        rw [← h]
        push_cast
        field_simp
      · next g x hg =>
        rw [decide_eq_true_iff] at h
        refine ⟨g / 10, ⟨g, hg, rfl⟩, .inr ⟨x, rfl, ?_⟩⟩
        push_cast
        rw [← h]
        field_simp
      · cases h
    · rintro ⟨f, ⟨g, hg, rfl⟩, ⟨n, rfl, hn⟩ | ⟨x, rfl, hx⟩⟩
      · rw [hg]
        dsimp only
        rw [decide_eq_true_iff]
        push_cast at hn
        have : ((10 * n : ℤ) : α) = (g : α) := by
          push_cast
          rw [hn]
          field_simp
        exact_mod_cast this
      · rw [hg]
        dsimp only
        rw [decide_eq_true_iff, hx]
        push_cast
        field_simp
  rw [hget]
  by_cases c : lpmIsFill no v = true
  · left
    exact ⟨by rw [if_pos c], hfill.1 c⟩
  · right
    exact ⟨by rw [if_neg c], fun h => c (hfill.2 h)⟩

end

end Cloudnet
