import Mathlib.Tactic
import Verif.Stamps.Model
import Verif.Cli.Props
import Verif.Geo.Props
import Verif.Radiometrics.Props

namespace Cloudnet

/-! ## C155: dates and times as text -/

namespace Spec

/-- The decimal number a list of digits stands for, the last digit being that of the ones. -/
def decimal (ds : List Char) : ℕ := Nat.ofDigits 10 (ds.map fun c => c.toNat - '0'.toNat).reverse

/-- `t` are `w` digits that stand for `n`. -/
def Digits (w : ℕ) (n : ℤ) (t : List Char) : Prop := t.length = w ∧ (∀ c ∈ t, c.isDigit) ∧ n = decimal t

/-- Digits, possibly with single underscores between them. -/
def Grouped (t : List Char) (n : ℕ) : Prop :=
  ∃ pieces : List (List Char), pieces ≠ [] ∧ (∀ p ∈ pieces, p ≠ [] ∧ ∀ c ∈ p, c.isDigit) ∧ t = ['_'].intercalate pieces ∧ n = decimal pieces.flatten

/-- The texts of the integer `n`: white space, a sign or none, digits, and white space. -/
def IntText (s : String) (n : ℤ) : Prop :=
  ∃ (a b t : List Char) (k : ℕ), (∀ c ∈ a ++ b, c.isWhitespace) ∧ Grouped t k ∧
    ((s.toList = a ++ t ++ b ∧ n = k) ∨ (s.toList = a ++ '+' :: t ++ b ∧ n = k) ∨ (s.toList = a ++ '-' :: t ++ b ∧ n = -k))

/-- A time of day. -/
def IsClock (c : DayClock) : Prop := (0 ≤ c.hour ∧ c.hour ≤ 23) ∧ (0 ≤ c.minute ∧ c.minute ≤ 59) ∧ (0 ≤ c.second ∧ c.second ≤ 59)

end Spec

theorem digitsValue_eq (ds : List Char) : digitsValue ds = Spec.decimal ds := by
  unfold digitsValue Spec.decimal
  induction ds using List.reverseRecOn with
  | nil => rfl
  | append_singleton l c ih =>
    rw [List.foldl_append, List.map_append, List.reverse_append]
    simp only [List.foldl_cons, List.foldl_nil, List.map_cons, List.map_nil, List.reverse_cons, List.reverse_nil, List.nil_append,
      List.singleton_append, Nat.ofDigits_cons]
    rw [ih, add_comm]
    rfl

theorem decimal_concat (l : List Char) (c : Char) : Spec.decimal (l ++ [c]) = 10 * Spec.decimal l + (c.toNat - 48) := by
  rw [← digitsValue_eq, ← digitsValue_eq]
  unfold digitsValue
  rw [List.foldl_append]
  rfl

theorem isDigit_iff (c : Char) : c.isDigit = true ↔ 48 ≤ c.toNat ∧ c.toNat ≤ 57 := by
  unfold Char.isDigit Char.toNat
  simp only [ge_iff_le, Bool.and_eq_true, decide_eq_true_eq, UInt32.le_iff_toNat_le]
  exact Iff.rfl

theorem isWhitespace_not_digit (c : Char) (h : c.isWhitespace = true) : c.isDigit = false := by
  have : c = ' ' ∨ c = '\t' ∨ c = '\r' ∨ c = '\n' := by
    unfold Char.isWhitespace at h
    simpa [or_assoc] using h
  rcases this with rfl | rfl | rfl | rfl <;> rfl

/-- A number below the power of ten has exactly one text of that many digits. -/
theorem digits_unique (w : ℕ) : ∀ n : ℕ, n < 10 ^ w → ∃! t, Spec.Digits w n t := by
  induction w with
  | zero =>
    intro n hn
    refine ⟨[], ⟨rfl, by simp, ?_⟩, ?_⟩
    · simp only [pow_zero, Nat.lt_one_iff] at hn
      rw [hn]; rfl
    · rintro t ⟨ht, -⟩
      exact List.length_eq_zero_iff.1 ht
  | succ w ih =>
    intro n hn
    obtain ⟨t, ⟨h1, h2, h3⟩, h4⟩ := ih (n / 10) (by rw [pow_succ] at hn; omega)
    have hchar : ∃ c : Char, c.toNat = 48 + n % 10 := by
      have : n % 10 < 10 := Nat.mod_lt _ (by norm_num)
      refine ⟨Char.ofNat (48 + n % 10), ?_⟩
      interval_cases n % 10 <;> rfl
    obtain ⟨c, hc⟩ := hchar
    have h3' : n / 10 = Spec.decimal t := by exact_mod_cast h3
    refine ⟨t ++ [c], ⟨by simp [h1], ?_, ?_⟩, ?_⟩
    · intro x hx
      rcases List.mem_append.1 hx with h | h
      · exact h2 x h
      · rw [List.mem_singleton.1 h, isDigit_iff, hc]; omega
    · rw [decimal_concat, ← h3', hc]; push_cast; omega
    · rintro t' ⟨g1, g2, g3⟩
      obtain ⟨l, x, rfl⟩ : ∃ l x, t' = l ++ [x] := by
        refine ⟨t'.dropLast, t'.getLast (by rintro rfl; simp at g1), (List.dropLast_append_getLast _).symm⟩
      rw [decimal_concat] at g3
      have hx := (isDigit_iff x).1 (g2 x (by simp))
      have g3' : n = 10 * Spec.decimal l + (x.toNat - 48) := by exact_mod_cast g3
      have hl : l = t := h4 l ⟨by simpa using g1, fun c hc => g2 c (by simp [hc]), by push_cast; omega⟩
      have hxc : x = c := by
        apply Char.toNat_inj.1
        omega
      rw [hl, hxc]

theorem digits_lt (w : ℕ) (n : ℤ) (t : List Char) (h : Spec.Digits w n t) : 0 ≤ n ∧ n < 10 ^ w := by
  obtain ⟨h1, h2, h3⟩ := h
  refine ⟨by rw [h3]; positivity, ?_⟩
  have key : Spec.decimal t < 10 ^ t.length := by
    unfold Spec.decimal
    have := Nat.ofDigits_lt_base_pow_length (b := 10) (l := (t.map fun c => c.toNat - '0'.toNat).reverse) (by norm_num) ?_
    · simpa using this
    · intro x hx
      simp only [List.mem_reverse, List.mem_map] at hx
      obtain ⟨c, hc, rfl⟩ := hx
      have := (isDigit_iff c).1 (h2 c hc)
      show c.toNat - 48 < 10
      omega
  rw [h3, ← h1]
  exact_mod_cast key

theorem pyDigits_iff (t : List Char) (n : ℤ) : pyDigits t = some n ↔ ∃ k : ℕ, Spec.Grouped t k ∧ n = k := by
  unfold pyDigits
  dsimp only
  constructor
  · intro h
    split_ifs at h with hall
    cases h
    rw [List.all_eq_true] at hall
    refine ⟨_, ⟨t.splitOn '_', List.splitOn_ne_nil _ _, ?_, (List.intercalate_splitOn '_').symm, rfl⟩, by rw [digitsValue_eq]⟩
    intro p hp
    have := hall p hp
    simp only [Bool.and_eq_true, bne_iff_ne, List.all_eq_true] at this
    exact this
  · rintro ⟨k, ⟨pieces, h1, h2, rfl, rfl⟩, rfl⟩
    have hs : (['_'].intercalate pieces).splitOn '_' = pieces := by
      refine List.splitOn_intercalate _ ?_ h1
      intro p hp hc
      exact absurd ((h2 p hp).2 '_' hc) (by decide)
    rw [hs, if_pos, digitsValue_eq]
    rw [List.all_eq_true]
    intro p hp
    simp only [Bool.and_eq_true, bne_iff_ne, List.all_eq_true]
    exact h2 p hp

theorem grouped_chars (t : List Char) (k : ℕ) (h : Spec.Grouped t k) :
    t ≠ [] ∧ (∀ c ∈ t, c.isDigit ∨ c = '_') ∧ (∀ c, t.head? = some c → c.isDigit) ∧ (∀ c, t.getLast? = some c → c.isDigit) := by
  obtain ⟨pieces, h1, h2, rfl, -⟩ := h
  clear k
  induction pieces with
  | nil => exact absurd rfl h1
  | cons p ps ih =>
    obtain ⟨hp, hpd⟩ := h2 p (by simp)
    cases ps with
    | nil =>
      have e : ['_'].intercalate [p] = p := by simp [List.intercalate]
      rw [e]
      refine ⟨hp, fun c hc => Or.inl (hpd c hc), ?_, ?_⟩
      · intro c hc; exact hpd c (List.mem_of_mem_head? hc)
      · intro c hc; exact hpd c (List.mem_of_mem_getLast? hc)
    | cons q qs =>
      have e : ['_'].intercalate (p :: q :: qs) = p ++ '_' :: ['_'].intercalate (q :: qs) := by simp [List.intercalate]
      obtain ⟨i1, i2, i3, i4⟩ := ih (by simp) fun x hx => h2 x (by simp [List.mem_cons.1 hx])
      rw [e]
      refine ⟨by simp, ?_, ?_, ?_⟩
      · intro c hc
        simp only [List.mem_append, List.mem_cons] at hc
        rcases hc with h | h | h
        · exact Or.inl (hpd c h)
        · exact Or.inr h
        · exact i2 c h
      · intro c hc
        cases p with
        | nil => exact absurd rfl hp
        | cons x xs => exact hpd c (by simp at hc; simp [hc])
      · intro c hc
        apply i4 c
        rw [List.getLast?_append_of_ne_nil _ (by simp), List.getLast?_cons] at hc
        rw [← hc]
        cases hg : (['_'].intercalate (q :: qs)).getLast? with
        | none => exact absurd (List.getLast?_eq_none_iff.1 hg) i1
        | some x => rfl

theorem stripped_unique (l a v b : List Char) (h : l = a ++ v ++ b) (hab : ∀ c ∈ a ++ b, c.isWhitespace) (hv : v ≠ [])
    (h1 : ∀ c, v.head? = some c → ¬ c.isWhitespace) (h2 : ∀ c, v.getLast? = some c → ¬ c.isWhitespace) :
    (pyStrip (String.ofList l)).toList = v := by
  unfold pyStrip
  rw [String.toList_ofList, String.toList_ofList, h]
  have e1 : (a ++ v ++ b).dropWhile Char.isWhitespace = v ++ b := by
    rw [List.append_assoc, List.dropWhile_append_of_pos fun c hc => hab c (by simp [hc])]
    cases v with
    | nil => exact absurd rfl hv
    | cons x xs =>
      rw [List.cons_append, List.dropWhile_cons_of_neg]
      exact h1 x rfl
  have e2 : (v ++ b).reverse.dropWhile Char.isWhitespace = v.reverse := by
    rw [List.reverse_append, List.dropWhile_append_of_pos fun c hc => hab c (by simp at hc; simp [hc])]
    cases hr : v.reverse with
    | nil => exact absurd (List.reverse_eq_nil_iff.1 hr) hv
    | cons x xs =>
      rw [List.dropWhile_cons_of_neg]
      apply h2 x
      rw [List.getLast?_eq_head?_reverse, hr]
      rfl
  rw [e1, e2, List.reverse_reverse]

/-- **C155.** Whole numbers are texts of digits, with single underscores between them, a sign, and white space around. -/
theorem C155_int (s : String) (n : ℤ) : pyInt s = some n ↔ Spec.IntText s n := by
  have hs : String.ofList s.toList = s := by simp
  constructor
  · intro h
    obtain ⟨a, b, hab, hw, -⟩ := pyStrip_spec s.toList
    rw [hs] at hab
    unfold pyInt at h
    split at h
    · next r hr =>
      rw [Option.map_eq_some_iff] at h
      obtain ⟨m, hm, rfl⟩ := h
      obtain ⟨k, hk, rfl⟩ := (pyDigits_iff r m).1 hm
      exact ⟨a, b, r, k, hw, hk, Or.inr (Or.inr ⟨by rw [hab, hr], rfl⟩)⟩
    · next r hr =>
      obtain ⟨k, hk, rfl⟩ := (pyDigits_iff r n).1 h
      exact ⟨a, b, r, k, hw, hk, Or.inr (Or.inl ⟨by rw [hab, hr], rfl⟩)⟩
    · obtain ⟨k, hk, rfl⟩ := (pyDigits_iff _ n).1 h
      exact ⟨a, b, _, k, hw, hk, Or.inl ⟨hab, rfl⟩⟩
  · rintro ⟨a, b, t, k, hw, hk, h⟩
    obtain ⟨g1, g2, g3, g4⟩ := grouped_chars t k hk
    have hdw : ∀ c : Char, c.isDigit = true → ¬ c.isWhitespace = true := fun c hc hw => by
      rw [isWhitespace_not_digit c hw] at hc; cases hc
    have hlast : ∀ (x c : Char), (x :: t).getLast? = some c → ¬ c.isWhitespace = true := by
      intro x c hc
      apply hdw
      apply g4
      rw [List.getLast?_cons] at hc
      cases hg : t.getLast? with
      | none => exact absurd (List.getLast?_eq_none_iff.1 hg) g1
      | some y => rw [hg] at hc; exact hc
    rcases h with ⟨h, rfl⟩ | ⟨h, rfl⟩ | ⟨h, rfl⟩
    · have hst := stripped_unique s.toList a t b h hw g1 (fun c hc => hdw c (g3 c hc)) (fun c hc => hdw c (g4 c hc))
      rw [hs] at hst
      unfold pyInt
      rw [hst]
      split
      · exact absurd (g3 '-' rfl) (by decide)
      · exact absurd (g3 '+' rfl) (by decide)
      · exact (pyDigits_iff t k).2 ⟨k, hk, rfl⟩
    · have hst := stripped_unique s.toList a ('+' :: t) b h hw (by simp) (by simp) (hlast '+')
      rw [hs] at hst
      unfold pyInt
      rw [hst]
      exact (pyDigits_iff t k).2 ⟨k, hk, rfl⟩
    · have hst := stripped_unique s.toList a ('-' :: t) b h hw (by simp) (by simp) (hlast '-')
      rw [hs] at hst
      unfold pyInt
      rw [hst]
      show (pyDigits t).map _ = _
      rw [(pyDigits_iff t k).2 ⟨k, hk, rfl⟩]
      rfl

theorem intText_chars (s : String) (n : ℤ) (h : Spec.IntText s n) :
    s.toList ≠ [] ∧ ∀ c ∈ s.toList, c.isWhitespace ∨ c.isDigit ∨ c = '_' ∨ c = '+' ∨ c = '-' := by
  obtain ⟨a, b, t, k, hw, hk, h⟩ := h
  obtain ⟨g1, g2, -⟩ := grouped_chars t k hk
  have key : ∀ c, c ∈ a ++ b ∨ c ∈ t ∨ c = '+' ∨ c = '-' → c.isWhitespace ∨ c.isDigit ∨ c = '_' ∨ c = '+' ∨ c = '-' := by
    rintro c (h | h | h | h)
    · exact Or.inl (hw c h)
    · rcases g2 c h with h | h <;> simp [h]
    · simp [h]
    · simp [h]
  rcases h with ⟨h, -⟩ | ⟨h, -⟩ | ⟨h, -⟩ <;> rw [h] <;> refine ⟨by simp [g1], fun c hc => key c ?_⟩ <;>
    simp only [List.mem_append, List.mem_cons] at hc ⊢ <;> tauto

theorem intText_free (s : String) (n : ℤ) (h : Spec.IntText s n) : '/' ∉ s.toList ∧ '.' ∉ s.toList ∧ ':' ∉ s.toList := by
  have := (intText_chars s n h).2
  refine ⟨fun hc => ?_, fun hc => ?_, fun hc => ?_⟩ <;> exact absurd (this _ hc) (by decide)

theorem digits_intText (w : ℕ) (n : ℤ) (t : List Char) (h : Spec.Digits (w + 1) n t) : Spec.IntText (String.ofList t) n := by
  obtain ⟨h1, h2, h3⟩ := h
  refine ⟨[], [], t, Spec.decimal t, by simp, ⟨[t], by simp, ?_, by simp [List.intercalate], by simp⟩, Or.inl ⟨by simp, h3⟩⟩
  intro p hp
  rw [List.mem_singleton.1 hp]
  exact ⟨by rintro rfl; simp at h1, h2⟩

theorem dayClock_iff (h m s : ℤ) (c : DayClock) : dayClock h m s = .ok c ↔ Spec.IsClock c ∧ c = ⟨h, m, s⟩ := by
  unfold dayClock Spec.IsClock
  by_cases hc : 0 ≤ h ∧ h < 24 ∧ 0 ≤ m ∧ m < 60 ∧ 0 ≤ s ∧ s < 60
  · rw [if_pos hc]
    constructor
    · intro h'; cases h'; exact ⟨by dsimp only; omega, rfl⟩
    · rintro ⟨-, rfl⟩; rfl
  · rw [if_neg hc]
    constructor
    · intro h'; cases h'
    · rintro ⟨h', rfl⟩; dsimp only at h'; omega

theorem pyInt3_ok (a b c : String) (x y z : ℤ) :
    pyInt3 a b c = .ok (x, y, z) ↔ Spec.IntText a x ∧ Spec.IntText b y ∧ Spec.IntText c z := by
  rw [← C155_int, ← C155_int, ← C155_int]
  unfold pyInt3
  cases pyInt a <;> cases pyInt b <;> cases pyInt c <;> simp

theorem unpack3_ok (l : List String) (a b c : String) : unpack3 l = .ok (a, b, c) ↔ l = [a, b, c] := by
  constructor
  · intro h
    match l, h with
    | [x, y, z], h => cases h; rfl
  · rintro rfl; rfl

/-! ### FD12P -/

theorem digits_two (n : ℤ) (t : List Char) : Spec.Digits 2 n t ↔ ∃ a b, t = [a, b] ∧ a.isDigit ∧ b.isDigit ∧ n = digitsValue [a, b] := by
  constructor
  · rintro ⟨h1, h2, h3⟩
    match t, h1 with
    | [a, b], _ => exact ⟨a, b, rfl, h2 a (by simp), h2 b (by simp), by rw [h3, digitsValue_eq]⟩
  · rintro ⟨a, b, rfl, ha, hb, h⟩
    refine ⟨rfl, ?_, by rw [h, digitsValue_eq]⟩
    simp [ha, hb]

theorem digits_four (n : ℤ) (t : List Char) :
    Spec.Digits 4 n t ↔ ∃ a b c d, t = [a, b, c, d] ∧ a.isDigit ∧ b.isDigit ∧ c.isDigit ∧ d.isDigit ∧ n = digitsValue [a, b, c, d] := by
  constructor
  · rintro ⟨h1, h2, h3⟩
    match t, h1 with
    | [a, b, c, d], _ => exact ⟨a, b, c, d, rfl, h2 a (by simp), h2 b (by simp), h2 c (by simp), h2 d (by simp), by rw [h3, digitsValue_eq]⟩
  · rintro ⟨a, b, c, d, rfl, ha, hb, hc, hd, h⟩
    refine ⟨rfl, ?_, by rw [h, digitsValue_eq]⟩
    simp [ha, hb, hc, hd]

/-- **C155.** The date of an FD12P line is read exactly from two digits for the day, a dot, two digits for the month, a dot, and four digits for
the year, if there is such a date. -/
theorem C155_fd12p_date (text : String) (d : CivilDate) :
    fd12pDate text = .ok d ↔ Spec.IsDate d.year d.month d.day ∧
      ∃ dd mm yyyy, Spec.Digits 2 d.day dd ∧ Spec.Digits 2 d.month mm ∧ Spec.Digits 4 d.year yyyy ∧ text.toList = dd ++ '.' :: mm ++ '.' :: yyyy := by
  constructor
  · intro h
    unfold fd12pDate at h
    split at h
    · next a b c d' e f g k ht =>
      split_ifs at h with hall
      simp only [List.all_cons, List.all_nil, Bool.and_true, Bool.and_eq_true] at hall
      obtain ⟨ha, hb, hc, hd, he, hf, hg, hk⟩ := hall
      obtain ⟨hdate, rfl⟩ := (civilDate_iff _ _ _ d).1 h
      exact ⟨hdate, [a, b], [c, d'], [e, f, g, k], (digits_two _ _).2 ⟨a, b, rfl, ha, hb, rfl⟩, (digits_two _ _).2 ⟨c, d', rfl, hc, hd, rfl⟩,
        (digits_four _ _).2 ⟨e, f, g, k, rfl, he, hf, hg, hk, rfl⟩, ht⟩
    · cases h
  · rintro ⟨hdate, dd, mm, yyyy, h1, h2, h3, ht⟩
    obtain ⟨a, b, rfl, ha, hb, e1⟩ := (digits_two _ _).1 h1
    obtain ⟨c, d', rfl, hc, hd, e2⟩ := (digits_two _ _).1 h2
    obtain ⟨e, f, g, k, rfl, he, hf, hg, hk, e3⟩ := (digits_four _ _).1 h3
    unfold fd12pDate
    rw [ht]
    simp only [List.cons_append, List.nil_append, List.all_cons, List.all_nil, ha, hb, hc, hd, he, hf, hg, hk, Bool.and_true, if_true]
    rw [civilDate_iff, ← e1, ← e2, ← e3]
    exact ⟨hdate, rfl⟩

/-- **C155.** Each date has exactly one text. -/
theorem C155_fd12p_text (d : CivilDate) (h : Spec.IsDate d.year d.month d.day) : ∃! text, fd12pDate text = .ok d := by
  obtain ⟨y1, y2, m1, m2, d1, d2⟩ := id h
  have d3 : d.day ≤ 31 := by
    refine d2.trans ?_
    split_ifs <;> norm_num
  have key : ∀ (w : ℕ) (n : ℤ), 0 ≤ n → n < 10 ^ w → ∃! t, Spec.Digits w n t := by
    intro w n h0 h1
    obtain ⟨k, rfl⟩ := Int.eq_ofNat_of_zero_le h0
    exact digits_unique w k (by exact_mod_cast h1)
  obtain ⟨dd, hdd, ud⟩ := key 2 d.day (by omega) (by norm_num; omega)
  obtain ⟨mm, hmm, um⟩ := key 2 d.month (by omega) (by norm_num; omega)
  obtain ⟨yy, hyy, uy⟩ := key 4 d.year (by omega) (by norm_num; omega)
  refine ⟨String.ofList (dd ++ '.' :: mm ++ '.' :: yy), (C155_fd12p_date _ d).2 ⟨h, dd, mm, yy, hdd, hmm, hyy, by simp⟩, ?_⟩
  intro t ht
  obtain ⟨-, a, b, c, ha, hb, hc, e⟩ := (C155_fd12p_date t d).1 ht
  rw [ud a ha, um b hb, uy c hc] at e
  rw [← e]
  simp

/-- **C155.** The time of an FD12P line is read exactly from two digits for the hour, a colon and two digits for the minute, and optionally a colon
and two digits for the second. -/
theorem C155_fd12p_time (text : String) (c : DayClock) :
    fd12pTime text = .ok c ↔ Spec.IsClock c ∧ ∃ hh mm, Spec.Digits 2 c.hour hh ∧ Spec.Digits 2 c.minute mm ∧
      ((c.second = 0 ∧ text.toList = hh ++ ':' :: mm) ∨ ∃ ss, Spec.Digits 2 c.second ss ∧ text.toList = hh ++ ':' :: mm ++ ':' :: ss) := by
  constructor
  · intro h
    unfold fd12pTime at h
    split at h
    · next a b e d ht =>
      split_ifs at h with hall
      simp only [List.all_cons, List.all_nil, Bool.and_true, Bool.and_eq_true] at hall
      obtain ⟨ha, hb, he, hd⟩ := hall
      obtain ⟨hc, rfl⟩ := (dayClock_iff _ _ _ c).1 h
      exact ⟨hc, [a, b], [e, d], (digits_two _ _).2 ⟨a, b, rfl, ha, hb, rfl⟩, (digits_two _ _).2 ⟨e, d, rfl, he, hd, rfl⟩, Or.inl ⟨rfl, ht⟩⟩
    · next a b e d f g ht =>
      split_ifs at h with hall
      simp only [List.all_cons, List.all_nil, Bool.and_true, Bool.and_eq_true] at hall
      obtain ⟨ha, hb, he, hd, hf, hg⟩ := hall
      obtain ⟨hc, rfl⟩ := (dayClock_iff _ _ _ c).1 h
      exact ⟨hc, [a, b], [e, d], (digits_two _ _).2 ⟨a, b, rfl, ha, hb, rfl⟩, (digits_two _ _).2 ⟨e, d, rfl, he, hd, rfl⟩,
        Or.inr ⟨[f, g], (digits_two _ _).2 ⟨f, g, rfl, hf, hg, rfl⟩, ht⟩⟩
    · cases h
  · rintro ⟨hclock, hh, mm, h1, h2, h⟩
    obtain ⟨a, b, rfl, ha, hb, e1⟩ := (digits_two _ _).1 h1
    obtain ⟨e, d, rfl, he, hd, e2⟩ := (digits_two _ _).1 h2
    unfold fd12pTime
    rcases h with ⟨h0, ht⟩ | ⟨ss, h3, ht⟩
    · rw [ht]
      simp only [List.cons_append, List.nil_append, List.all_cons, List.all_nil, ha, hb, he, hd, Bool.and_true, if_true]
      rw [dayClock_iff, ← e1, ← e2, ← h0]
      exact ⟨hclock, rfl⟩
    · obtain ⟨f, g, rfl, hf, hg, e3⟩ := (digits_two _ _).1 h3
      rw [ht]
      simp only [List.cons_append, List.nil_append, List.all_cons, List.all_nil, ha, hb, he, hd, hf, hg, Bool.and_true, if_true]
      rw [dayClock_iff, ← e1, ← e2, ← e3]
      exact ⟨hclock, rfl⟩

/-! ### Parsivel and Radiometrics -/

/-- Three integers between separators. -/
theorem three_ints (sep : Char) (hsep : sep = '/' ∨ sep = '.' ∨ sep = ':') (text : String) (x y z : ℤ) :
    (unpack3 (splitChar sep text) >>= fun t => pyInt3 t.1 t.2.1 t.2.2) = .ok (x, y, z) ↔
      ∃ a b c, Spec.IntText a x ∧ Spec.IntText b y ∧ Spec.IntText c z ∧
        text = a ++ String.singleton sep ++ b ++ String.singleton sep ++ c := by
  constructor
  · intro h
    cases hu : unpack3 (splitChar sep text) with
    | error e => rw [hu] at h; cases h
    | ok t =>
      obtain ⟨a, b, c⟩ := t
      rw [hu] at h
      simp only [bind, Except.bind] at h
      obtain ⟨h1, h2, h3⟩ := (pyInt3_ok a b c x y z).1 h
      exact ⟨a, b, c, h1, h2, h3, ((splitChar_three sep text a b c).1 ((unpack3_ok _ _ _ _).1 hu)).1⟩
  · rintro ⟨a, b, c, h1, h2, h3, ht⟩
    have free : ∀ s n, Spec.IntText s n → sep ∉ s.toList := by
      intro s n h
      obtain ⟨f1, f2, f3⟩ := intText_free s n h
      rcases hsep with rfl | rfl | rfl <;> assumption
    have hu := (unpack3_ok _ _ _ _).2 ((splitChar_three sep text a b c).2 ⟨ht, free a x h1, free b y h2, free c z h3⟩)
    rw [hu]
    simp only [bind, Except.bind]
    exact (pyInt3_ok a b c x y z).2 ⟨h1, h2, h3⟩

/-- **C155.** The date of a Parsivel row is read exactly from year, month and day with slashes between them, or day, month and year with dots
between them, where the year takes four characters, if there is such a date. -/
theorem C155_parsivel_date (text : String) (d : CivilDate) :
    parsivelDate text = .ok d ↔ Spec.IsDate d.year d.month d.day ∧
      ∃ year month day, year.length = 4 ∧ Spec.IntText year d.year ∧ Spec.IntText month d.month ∧ Spec.IntText day d.day ∧
        (text = year ++ "/" ++ month ++ "/" ++ day ∨ text = day ++ "." ++ month ++ "." ++ year) := by
  have hbind : ∀ y m k : String, (parsivelDateText text = .ok (y, m, k)) → parsivelDate text =
      if y.length ≠ 4 then .error "ValueError" else pyInt3 y m k >>= fun t => civilDate t.1 t.2.1 t.2.2 := by
    intro y m k h
    unfold parsivelDate
    simp only [bind, Except.bind]
    rw [h]
  have hslash : ∀ x y z : String, splitChar '/' text = [x, y, z] ↔ text = x ++ "/" ++ y ++ "/" ++ z ∧ '/' ∉ x.toList ∧ '/' ∉ y.toList ∧ '/' ∉ z.toList :=
    splitChar_three '/' text
  have hdot : ∀ x y z : String, splitChar '.' text = [x, y, z] ↔ text = x ++ "." ++ y ++ "." ++ z ∧ '.' ∉ x.toList ∧ '.' ∉ y.toList ∧ '.' ∉ z.toList :=
    splitChar_three '.' text
  have hsplit : ∀ y m k : String, parsivelDateText text = .ok (y, m, k) ↔
      (text = y ++ "/" ++ m ++ "/" ++ k ∧ '/' ∉ y.toList ∧ '/' ∉ m.toList ∧ '/' ∉ k.toList) ∨
      ('/' ∉ text.toList ∧ text = k ++ "." ++ m ++ "." ++ y ∧ '.' ∉ k.toList ∧ '.' ∉ m.toList ∧ '.' ∉ y.toList) := by
    intro y m k
    unfold parsivelDateText
    by_cases h1 : '/' ∈ text.toList
    · rw [if_pos h1, unpack3_ok, hslash]
      constructor
      · exact Or.inl
      · rintro (h | h)
        · exact h
        · exact absurd h1 h.1
    · have hno : ¬ (text = y ++ "/" ++ m ++ "/" ++ k ∧ '/' ∉ y.toList ∧ '/' ∉ m.toList ∧ '/' ∉ k.toList) := by
        rintro ⟨rfl, -⟩
        exact h1 (by simp)
      rw [if_neg h1]
      by_cases h2 : '.' ∈ text.toList
      · rw [if_pos h2]
        constructor
        · intro h
          cases hu : unpack3 (splitChar '.' text) with
          | error e => rw [hu] at h; cases h
          | ok t =>
            obtain ⟨a, b, c⟩ := t
            rw [hu] at h
            cases h
            exact Or.inr ⟨h1, (hdot a b c).1 ((unpack3_ok _ _ _ _).1 hu)⟩
        · rintro (h | ⟨-, h⟩)
          · exact absurd h hno
          · rw [(unpack3_ok _ _ _ _).2 ((hdot k m y).2 h)]
            rfl
      · rw [if_neg h2]
        constructor
        · intro h; cases h
        · rintro (h | ⟨-, rfl, -⟩)
          · exact absurd h hno
          · exact absurd (by simp) h2
  constructor
  · intro h
    cases ht : parsivelDateText text with
    | error e =>
      unfold parsivelDate at h
      simp only [bind, Except.bind] at h
      rw [ht] at h
      cases h
    | ok t =>
      obtain ⟨y, m, k⟩ := t
      rw [hbind y m k ht] at h
      split_ifs at h with hlen
      push Not at hlen
      cases hp : pyInt3 y m k with
      | error e => rw [hp] at h; cases h
      | ok n =>
        obtain ⟨n1, n2, n3⟩ := n
        rw [hp] at h
        obtain ⟨hdate, rfl⟩ := (civilDate_iff _ _ _ d).1 h
        obtain ⟨i1, i2, i3⟩ := (pyInt3_ok _ _ _ _ _ _).1 hp
        refine ⟨hdate, y, m, k, hlen, i1, i2, i3, ?_⟩
        rcases (hsplit y m k).1 ht with h | h
        · exact Or.inl h.1
        · exact Or.inr h.2.1
  · rintro ⟨hdate, y, m, k, hlen, i1, i2, i3, ht⟩
    obtain ⟨y1, y2, -⟩ := intText_free _ _ i1
    obtain ⟨m1, m2, -⟩ := intText_free _ _ i2
    obtain ⟨k1, k2, -⟩ := intText_free _ _ i3
    have hp : parsivelDateText text = .ok (y, m, k) := by
      rw [hsplit]
      rcases ht with h | h
      · exact Or.inl ⟨h, y1, m1, k1⟩
      · refine Or.inr ⟨?_, h, k2, m2, y2⟩
        rw [h]
        simp [y1, m1, k1]
    rw [hbind y m k hp, if_neg (by simpa using hlen), (pyInt3_ok _ _ _ _ _ _).2 ⟨i1, i2, i3⟩]
    exact (civilDate_iff _ _ _ d).2 ⟨hdate, rfl⟩

theorem clock_text (text : String) (c : DayClock) :
    (unpack3 (splitChar ':' text) >>= fun t => pyInt3 t.1 t.2.1 t.2.2 >>= fun n => dayClock n.1 n.2.1 n.2.2) = .ok c ↔ Spec.IsClock c ∧
      ∃ hour minute second, Spec.IntText hour c.hour ∧ Spec.IntText minute c.minute ∧ Spec.IntText second c.second ∧
        text = hour ++ ":" ++ minute ++ ":" ++ second := by
  have h3 := three_ints ':' (by simp) text
  have hassoc : (unpack3 (splitChar ':' text) >>= fun t => pyInt3 t.1 t.2.1 t.2.2 >>= fun n => dayClock n.1 n.2.1 n.2.2) =
      ((unpack3 (splitChar ':' text) >>= fun t => pyInt3 t.1 t.2.1 t.2.2) >>= fun n => dayClock n.1 n.2.1 n.2.2) := by
    cases unpack3 (splitChar ':' text) <;> rfl
  rw [hassoc]
  constructor
  · intro h
    cases hn : (unpack3 (splitChar ':' text) >>= fun t => pyInt3 t.1 t.2.1 t.2.2) with
    | error e => rw [hn] at h; cases h
    | ok n =>
      obtain ⟨x, y, z⟩ := n
      rw [hn] at h
      obtain ⟨hc, rfl⟩ := (dayClock_iff _ _ _ c).1 h
      exact ⟨hc, (h3 x y z).1 hn⟩
  · rintro ⟨hc, h⟩
    rw [(h3 c.hour c.minute c.second).2 h]
    exact (dayClock_iff _ _ _ c).2 ⟨hc, rfl⟩

/-- **C155.** The time of a Parsivel row: hour, minute and second with colons between them. -/
theorem C155_parsivel_time (text : String) (c : DayClock) :
    parsivelTime text = .ok c ↔ Spec.IsClock c ∧
      ∃ hour minute second, Spec.IntText hour c.hour ∧ Spec.IntText minute c.minute ∧ Spec.IntText second c.second ∧
        text = hour ++ ":" ++ minute ++ ":" ++ second := clock_text text c

/-- **C155.** The time of a Radiometrics record: hour, minute and second with colons between them. -/
theorem C155_radiometrics_time (text : String) (c : DayClock) :
    rmTime text = .ok c ↔ Spec.IsClock c ∧
      ∃ hour minute second, Spec.IntText hour c.hour ∧ Spec.IntText minute c.minute ∧ Spec.IntText second c.second ∧
        text = hour ++ ":" ++ minute ++ ":" ++ second := clock_text text c

/-- **C155.** The date of a Radiometrics record: month, day and year with slashes between them; 2000 is added to a year below 100. -/
theorem C155_radiometrics_date (text : String) (d : CivilDate) :
    rmDate text = .ok d ↔ Spec.IsDate d.year d.month d.day ∧
      ∃ month day year, ∃ n : ℤ, Spec.IntText month d.month ∧ Spec.IntText day d.day ∧ Spec.IntText year n ∧
        text = month ++ "/" ++ day ++ "/" ++ year ∧ ((n < 100 ∧ d.year = 2000 + n) ∨ (100 ≤ n ∧ d.year = n)) := by
  have h3 := three_ints '/' (by simp) text
  have hassoc : rmDate text = ((unpack3 (splitChar '/' text) >>= fun t => pyInt3 t.1 t.2.1 t.2.2) >>= fun n =>
      civilDate (if n.2.2 < 100 then n.2.2 + 2000 else n.2.2) n.1 n.2.1) := by
    unfold rmDate
    cases unpack3 (splitChar '/' text) <;> rfl
  rw [hassoc]
  constructor
  · intro h
    cases hn : (unpack3 (splitChar '/' text) >>= fun t => pyInt3 t.1 t.2.1 t.2.2) with
    | error e => rw [hn] at h; cases h
    | ok n =>
      obtain ⟨x, y, z⟩ := n
      rw [hn] at h
      obtain ⟨hc, rfl⟩ := (civilDate_iff _ _ _ d).1 h
      obtain ⟨a, b, c, i1, i2, i3, ht⟩ := (h3 x y z).1 hn
      refine ⟨hc, a, b, c, z, i1, i2, i3, ht, ?_⟩
      dsimp only
      split_ifs with hz
      · exact Or.inl ⟨hz, by ring⟩
      · exact Or.inr ⟨not_lt.1 hz, rfl⟩
  · rintro ⟨hc, a, b, c, n, i1, i2, i3, ht, hn⟩
    rw [(h3 d.month d.day n).2 ⟨a, b, c, i1, i2, i3, ht⟩]
    have : (if n < 100 then n + 2000 else n) = d.year := by
      rcases hn with ⟨h, e⟩ | ⟨h, e⟩
      · rw [if_pos h, e]; ring
      · rw [if_neg (not_lt.2 h), e]
    simp only [bind, Except.bind]
    rw [this]
    exact (civilDate_iff _ _ _ d).2 ⟨hc, rfl⟩

/-- **C155.** The time stamp of a Parsivel row: four characters for the year and two for month, day, hour, minute and second each; the last one may
have one character only, and what follows does not matter. -/
theorem C155_parsivel_datetime (text : String) (d : CivilDate) (c : DayClock) :
    parsivelDatetime text = .ok (d, c) ↔ Spec.IsDate d.year d.month d.day ∧ Spec.IsClock c ∧
      ∃ year month day hour minute second rest : String, text = year ++ month ++ day ++ hour ++ minute ++ second ++ rest ∧
        year.length = 4 ∧ month.length = 2 ∧ day.length = 2 ∧ hour.length = 2 ∧ minute.length = 2 ∧
        (second.length = 2 ∨ (second.length = 1 ∧ rest = "")) ∧
        Spec.IntText year d.year ∧ Spec.IntText month d.month ∧ Spec.IntText day d.day ∧
        Spec.IntText hour c.hour ∧ Spec.IntText minute c.minute ∧ Spec.IntText second c.second := by
  have key : parsivelDatetime text = .ok (d, c) ↔ Spec.IsDate d.year d.month d.day ∧ Spec.IsClock c ∧
      Spec.IntText (textSlice text 0 4) d.year ∧ Spec.IntText (textSlice text 4 6) d.month ∧ Spec.IntText (textSlice text 6 8) d.day ∧
      Spec.IntText (textSlice text 8 10) c.hour ∧ Spec.IntText (textSlice text 10 12) c.minute ∧ Spec.IntText (textSlice text 12 14) c.second := by
    unfold parsivelDatetime
    simp only [bind, Except.bind, pure, Except.pure]
    constructor
    · intro h
      cases h1 : pyInt3 (textSlice text 0 4) (textSlice text 4 6) (textSlice text 6 8) with
      | error e => rw [h1] at h; cases h
      | ok n =>
        obtain ⟨x, y, z⟩ := n
        rw [h1] at h
        cases h2 : pyInt3 (textSlice text 8 10) (textSlice text 10 12) (textSlice text 12 14) with
        | error e => rw [h2] at h; cases h
        | ok m =>
          obtain ⟨u, v, w⟩ := m
          rw [h2] at h
          dsimp only at h
          cases h3 : civilDate x y z with
          | error e => rw [h3] at h; cases h
          | ok d' =>
            rw [h3] at h
            cases h4 : dayClock u v w with
            | error e => rw [h4] at h; cases h
            | ok c' =>
              rw [h4] at h
              cases h
              obtain ⟨g3, rfl⟩ := (civilDate_iff _ _ _ _).1 h3
              obtain ⟨g4, rfl⟩ := (dayClock_iff _ _ _ _).1 h4
              obtain ⟨a1, a2, a3⟩ := (pyInt3_ok _ _ _ _ _ _).1 h1
              obtain ⟨b1, b2, b3⟩ := (pyInt3_ok _ _ _ _ _ _).1 h2
              exact ⟨g3, g4, a1, a2, a3, b1, b2, b3⟩
    · rintro ⟨g3, g4, a1, a2, a3, b1, b2, b3⟩
      rw [(pyInt3_ok _ _ _ _ _ _).2 ⟨a1, a2, a3⟩, (pyInt3_ok _ _ _ _ _ _).2 ⟨b1, b2, b3⟩]
      dsimp only
      rw [(civilDate_iff _ _ _ d).2 ⟨g3, rfl⟩, (dayClock_iff _ _ _ c).2 ⟨g4, rfl⟩]
  rw [key]
  refine and_congr_right fun _ => and_congr_right fun _ => ?_
  constructor
  · rintro ⟨a1, a2, a3, b1, b2, b3⟩
    have hne := (intText_chars _ _ b3).1
    have hlen : 12 < text.toList.length := by
      by_contra hc
      apply hne
      unfold textSlice
      rw [String.toList_ofList]
      apply List.drop_eq_nil_of_le
      rw [List.length_take]
      omega
    have hslice : ∀ a b, a ≤ b → b ≤ text.toList.length → (textSlice text a b).length = b - a := by
      intro a b hab hb
      rw [← String.length_toList]
      unfold textSlice
      rw [String.toList_ofList, List.length_drop, List.length_take]
      omega
    refine ⟨_, _, _, _, _, _, String.ofList (text.toList.drop 14), ?_, hslice 0 4 (by omega) (by omega), hslice 4 6 (by omega) (by omega),
      hslice 6 8 (by omega) (by omega), hslice 8 10 (by omega) (by omega), hslice 10 12 (by omega) (by omega), ?_, a1, a2, a3, b1, b2, b3⟩
    · apply String.toList_injective
      simp only [String.toList_append, textSlice, String.toList_ofList, List.drop_zero]
      have step : ∀ (l : List Char) (a b : ℕ), a ≤ b → l.take a ++ (l.take b).drop a = l.take b := by
        intro l a b hab
        rw [show l.take a = (l.take b).take a by rw [List.take_take, min_eq_left hab], List.take_append_drop]
      rw [step _ 4 6 (by omega), step _ 6 8 (by omega), step _ 8 10 (by omega), step _ 10 12 (by omega), step _ 12 14 (by omega),
        List.take_append_drop]
    · by_cases h : 14 ≤ text.toList.length
      · exact Or.inl (hslice 12 14 (by omega) h)
      · right
        constructor
        · rw [← String.length_toList]
          unfold textSlice
          rw [String.toList_ofList, List.length_drop, List.length_take]
          omega
        · rw [List.drop_eq_nil_of_le (by omega)]
  · rintro ⟨y, mo, dd, h, mi, s, rest, rfl, l1, l2, l3, l4, l5, l6, i1, i2, i3, i4, i5, i6⟩
    rw [← String.length_toList] at l1 l2 l3 l4 l5 l6
    have cut : ∀ (pre x post : List Char) (a b : ℕ), pre.length = a → (b = a + x.length ∨ (a + x.length ≤ b ∧ post = [])) →
        ((pre ++ x ++ post).take b).drop a = x := by
      intro pre x post a b ha hb
      rcases hb with rfl | ⟨hb, rfl⟩
      · rw [List.take_append_of_le_length (by simp [ha]), List.take_of_length_le (by simp [ha]), ← ha, List.drop_left]
      · rw [List.append_nil, List.take_of_length_le (by simp [ha, hb]), ← ha, List.drop_left]
    have lift : ∀ (x : String) (a b : ℕ) (pre post : List Char),
        (y ++ mo ++ dd ++ h ++ mi ++ s ++ rest).toList = pre ++ x.toList ++ post → pre.length = a →
        (b = a + x.toList.length ∨ (a + x.toList.length ≤ b ∧ post = [])) →
        textSlice (y ++ mo ++ dd ++ h ++ mi ++ s ++ rest) a b = x := by
      intro x a b pre post hx ha hb
      unfold textSlice
      rw [hx, cut pre x.toList post a b ha hb]
      simp
    rw [lift y 0 4 [] (mo.toList ++ dd.toList ++ h.toList ++ mi.toList ++ s.toList ++ rest.toList) (by simp) rfl (by omega),
      lift mo 4 6 y.toList (dd.toList ++ h.toList ++ mi.toList ++ s.toList ++ rest.toList) (by simp) l1 (by omega),
      lift dd 6 8 (y.toList ++ mo.toList) (h.toList ++ mi.toList ++ s.toList ++ rest.toList) (by simp) (by simp [l1, l2]) (by omega),
      lift h 8 10 (y.toList ++ mo.toList ++ dd.toList) (mi.toList ++ s.toList ++ rest.toList) (by simp) (by simp [l1, l2, l3]) (by omega),
      lift mi 10 12 (y.toList ++ mo.toList ++ dd.toList ++ h.toList) (s.toList ++ rest.toList) (by simp) (by simp [l1, l2, l3, l4]) (by omega),
      lift s 12 14 (y.toList ++ mo.toList ++ dd.toList ++ h.toList ++ mi.toList) rest.toList (by simp) (by simp [l1, l2, l3, l4, l5])
        (by rcases l6 with h | ⟨h, e⟩
            · left; omega
            · right; exact ⟨by omega, by rw [e]; rfl⟩)]
    exact ⟨i1, i2, i3, i4, i5, i6⟩

/-- **C155.** A date written with all its digits is read back: for Parsivel in both forms, for Radiometrics with the full year, and with the last
two digits of the year for a date of this century. -/
theorem C155_written_date (d : CivilDate) (hd : Spec.IsDate d.year d.month d.day) (yyyy mm dd : List Char) (hy : Spec.Digits 4 d.year yyyy)
    (hm : Spec.Digits 2 d.month mm) (hday : Spec.Digits 2 d.day dd) :
    parsivelDate (String.ofList yyyy ++ "/" ++ String.ofList mm ++ "/" ++ String.ofList dd) = .ok d ∧
    parsivelDate (String.ofList dd ++ "." ++ String.ofList mm ++ "." ++ String.ofList yyyy) = .ok d ∧
    (100 ≤ d.year → rmDate (String.ofList mm ++ "/" ++ String.ofList dd ++ "/" ++ String.ofList yyyy) = .ok d) ∧
    (∀ yy, Spec.Digits 2 (d.year - 2000) yy → rmDate (String.ofList mm ++ "/" ++ String.ofList dd ++ "/" ++ String.ofList yy) = .ok d) := by
  have i1 := digits_intText 3 _ _ hy
  have i2 := digits_intText 1 _ _ hm
  have i3 := digits_intText 1 _ _ hday
  have hl : (String.ofList yyyy).length = 4 := by rw [← String.length_toList, String.toList_ofList]; exact hy.1
  refine ⟨(C155_parsivel_date _ d).2 ⟨hd, _, _, _, hl, i1, i2, i3, Or.inl rfl⟩, (C155_parsivel_date _ d).2 ⟨hd, _, _, _, hl, i1, i2, i3, Or.inr rfl⟩,
    fun h => (C155_radiometrics_date _ d).2 ⟨hd, _, _, _, _, i2, i3, i1, rfl, Or.inr ⟨h, rfl⟩⟩, ?_⟩
  intro yy hyy
  refine (C155_radiometrics_date _ d).2 ⟨hd, _, _, _, _, i2, i3, digits_intText 1 _ _ hyy, rfl, Or.inl ⟨?_, by ring⟩⟩
  have := (digits_lt _ _ _ hyy).2
  norm_num at this
  omega

example : parsivelDate "2021/02/28" = .ok ⟨2021, 2, 28⟩ ∧ parsivelDate "28.02.2021" = .ok ⟨2021, 2, 28⟩ ∧
    parsivelDate "2021/02/29" = .error "ValueError" ∧ parsivelDate "28.02.21" = .error "ValueError" ∧ parsivelDate "20210228" = .error "ValueError" ∧
    fd12pDate "28.02.2021" = .ok ⟨2021, 2, 28⟩ ∧ fd12pDate "8.02.2021" = .error "ValueError" ∧
    fd12pTime "12:34" = .ok ⟨12, 34, 0⟩ ∧ fd12pTime "12:34:56" = .ok ⟨12, 34, 56⟩ ∧ fd12pTime "24:00:00" = .error "ValueError" ∧
    rmDate "2/28/21" = .ok ⟨2021, 2, 28⟩ ∧ rmDate "2/28/2021" = .ok ⟨2021, 2, 28⟩ ∧ rmTime "1:2:3" = .ok ⟨1, 2, 3⟩ ∧
    parsivelTime "01:02:60" = .error "ValueError" ∧ parsivelDatetime "20210228010203" = .ok (⟨2021, 2, 28⟩, ⟨1, 2, 3⟩) := by decide +kernel

example : Spec.Digits 4 2021 "2021".toList ∧ Spec.Digits 2 2 "02".toList ∧ Spec.Digits 2 28 "28".toList ∧ Spec.IsDate 2021 2 28 ∧
    Spec.IntText " +1_0 " 10 := by
  refine ⟨⟨rfl, by decide, by decide +kernel⟩, ⟨rfl, by decide, by decide +kernel⟩, ⟨rfl, by decide, by decide +kernel⟩, by norm_num [Spec.IsDate],
    (C155_int _ _).1 (by decide +kernel)⟩

/-- **C155**, findings: damaged texts give wrong dates instead of being refused. A Radiometrics year of `-5` is 1995, a Parsivel year of `1_23` is
123, and a Parsivel time stamp with a missing or an additional digit is read with what there is. -/
theorem C155_damaged :
    rmDate "1/2/-5" = .ok ⟨1995, 1, 2⟩ ∧ parsivelDate "1_23/1/2" = .ok ⟨123, 1, 2⟩ ∧
    parsivelDatetime "2021022801020" = .ok (⟨2021, 2, 28⟩, ⟨1, 2, 0⟩) ∧
    parsivelDatetime "202102280102031" = .ok (⟨2021, 2, 28⟩, ⟨1, 2, 3⟩) := by decide +kernel

end Cloudnet
