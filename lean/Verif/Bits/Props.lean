import Verif.Bits.Lemmas

/-!
Properties C01, C02 and C04: the bit fields of categorize files.

`Int.testBit a k` (Mathlib) is the specification of "bit `k` of the two's complement number `a`".
-/

namespace Cloudnet

/-- C01. Reading back the category bits written from any six masks returns the same six masks, at
every pixel. -/
theorem C01_category_bits_round_trip (c : CategoryBits) :
    readCategoryBits (classesToBits c.fields) = .ok c := by
  simp only [readCategoryBits]
  rw [show (0 : ℤ) = ((0 : ℕ) : ℤ) from rfl, show (1 : ℤ) = ((1 : ℕ) : ℤ) from rfl,
    show (2 : ℤ) = ((2 : ℕ) : ℤ) from rfl, show (3 : ℤ) = ((3 : ℕ) : ℤ) from rfl,
    show (4 : ℤ) = ((4 : ℕ) : ℤ) from rfl, show (5 : ℤ) = ((5 : ℕ) : ℤ) from rfl]
  simp only [isbitGrid_ok, testBit_classesToBits]
  rfl

/-- C01. The bit positions are the documented ones, and all values lie in `0..63`. -/
theorem C01_category_bits_positions (c : CategoryBits) (t h : ℕ) :
    let v := classesToBits c.fields t h
    0 ≤ v ∧ v < 64 ∧
    v.testBit 0 = c.droplet t h ∧ v.testBit 1 = c.falling t h ∧ v.testBit 2 = c.freezing t h ∧
    v.testBit 3 = c.melting t h ∧ v.testBit 4 = c.aerosol t h ∧ v.testBit 5 = c.insect t h := by
  refine ⟨classesToBits_nonneg _ t h, by simpa [CategoryBits.fields] using classesToBits_lt c.fields t h, ?_, ?_, ?_, ?_, ?_, ?_⟩ <;>
  exact testBit_classesToBits _ t h _

/-- C01. Two pixels (of the same or of different files) share a value only if all six classes
agree. -/
theorem C01_category_bits_injective (c d : CategoryBits) (t h t' h' : ℕ)
    (heq : classesToBits c.fields t h = classesToBits d.fields t' h') :
    c.droplet t h = d.droplet t' h' ∧ c.falling t h = d.falling t' h' ∧
    c.freezing t h = d.freezing t' h' ∧ c.melting t h = d.melting t' h' ∧
    c.aerosol t h = d.aerosol t' h' ∧ c.insect t h = d.insect t' h' := by
  obtain ⟨_, _, a0, a1, a2, a3, a4, a5⟩ := C01_category_bits_positions c t h
  obtain ⟨_, _, b0, b1, b2, b3, b4, b5⟩ := C01_category_bits_positions d t' h'
  rw [heq] at a0 a1 a2 a3 a4 a5
  exact ⟨a0.symm.trans b0, a1.symm.trans b1, a2.symm.trans b2, a3.symm.trans b3, a4.symm.trans b4,
    a5.symm.trans b5⟩

/-- A melting, falling pixel next to a droplet pixel: two different values, 10 and 1. -/
example : ∃ c : CategoryBits, classesToBits c.fields 0 0 = 10 ∧ classesToBits c.fields 0 1 = 1 :=
  ⟨⟨fun _ h => h == 1, fun _ h => h == 0, fun _ _ => false, fun _ h => h == 0, fun _ _ => false,
    fun _ _ => false⟩, by decide, by decide⟩

/-- C02. Reading back the quality bits written from any ten masks returns the same ten masks. -/
theorem C02_quality_bits_round_trip (q : QualityBits) :
    readQualityBits (classesToBits q.fields) = .ok q := by
  simp only [readQualityBits]
  rw [show (0 : ℤ) = ((0 : ℕ) : ℤ) from rfl, show (1 : ℤ) = ((1 : ℕ) : ℤ) from rfl,
    show (2 : ℤ) = ((2 : ℕ) : ℤ) from rfl, show (3 : ℤ) = ((3 : ℕ) : ℤ) from rfl,
    show (4 : ℤ) = ((4 : ℕ) : ℤ) from rfl, show (5 : ℤ) = ((5 : ℕ) : ℤ) from rfl,
    show (6 : ℤ) = ((6 : ℕ) : ℤ) from rfl, show (7 : ℤ) = ((7 : ℕ) : ℤ) from rfl,
    show (8 : ℤ) = ((8 : ℕ) : ℤ) from rfl, show (9 : ℤ) = ((9 : ℕ) : ℤ) from rfl]
  simp only [isbitGrid_ok, testBit_classesToBits]
  rfl

/-- C02. The bit positions are the documented ones, and all values lie in `0..1023`. -/
theorem C02_quality_bits_positions (q : QualityBits) (t h : ℕ) :
    let v := classesToBits q.fields t h
    0 ≤ v ∧ v < 1024 ∧
    v.testBit 0 = q.radar t h ∧ v.testBit 1 = q.lidar t h ∧ v.testBit 2 = q.clutter t h ∧
    v.testBit 3 = q.molecular t h ∧ v.testBit 4 = q.attenuatedLiquid t h ∧
    v.testBit 5 = q.correctedLiquid t h ∧ v.testBit 6 = q.attenuatedRain t h ∧
    v.testBit 7 = q.correctedRain t h ∧ v.testBit 8 = q.attenuatedMelting t h ∧
    v.testBit 9 = q.correctedMelting t h := by
  refine ⟨classesToBits_nonneg _ t h, by simpa [QualityBits.fields] using classesToBits_lt q.fields t h, ?_, ?_, ?_, ?_, ?_, ?_, ?_, ?_,
    ?_, ?_⟩ <;>
  exact testBit_classesToBits _ t h _

example : ∃ q : QualityBits, classesToBits q.fields 0 0 = 1 + 16 + 512 :=
  ⟨⟨fun _ _ => true, fun _ _ => false, fun _ _ => false, fun _ _ => false, fun _ _ => true,
    fun _ _ => false, fun _ _ => false, fun _ _ => false, fun _ _ => false, fun _ _ => true⟩,
    by decide +kernel⟩

/-- C04. `isbit` reads the bit of the two's complement number for every non-negative bit number, and
raises `ValueError` for every negative one. -/
theorem C04_isbit (a n : ℤ) :
    (0 ≤ n → isbit a n = .ok (a.testBit n.toNat)) ∧
    (n < 0 → isbit a n = .error "Negative bit number") := by
  constructor
  · intro hn
    obtain ⟨m, rfl⟩ := Int.eq_ofNat_of_zero_le hn
    exact isbit_ok a m
  · intro hn
    simp [isbit, hn]

/-- C04. `setbit` succeeds for every non-negative bit number; the result has that bit set and all
other bits unchanged. It raises `ValueError` for every negative bit number. -/
theorem C04_setbit (a n : ℤ) :
    (0 ≤ n → ∃ b, setbit a n = .ok b ∧
      ∀ k : ℕ, b.testBit k = if (k : ℤ) = n then true else a.testBit k) ∧
    (n < 0 → setbit a n = .error "Negative bit number") := by
  constructor
  · intro hn
    obtain ⟨m, rfl⟩ := Int.eq_ofNat_of_zero_le hn
    refine ⟨_, setbit_ok a m, fun k => ?_⟩
    rw [Int.testBit_lor, int_testBit_two_pow]
    by_cases h : m = k
    · subst h; simp
    · have : ¬ ((k : ℤ) = (m : ℤ)) := by omega
      simp [h, this]
  · intro hn
    simp [setbit, hn]

/-- C04. After `setbit(a, n)`, `isbit(., n)` is true and `isbit(., k)` answers as before for every
other bit `k`. -/
theorem C04_isbit_setbit (a : ℤ) (n k : ℤ) (hn : 0 ≤ n) (hk : 0 ≤ k) (b : ℤ)
    (hb : setbit a n = .ok b) :
    isbit b n = .ok true ∧ (k ≠ n → isbit b k = isbit a k) := by
  obtain ⟨b', hb', hbits⟩ := (C04_setbit a n).1 hn
  rw [hb] at hb'
  injection hb' with hb'
  subst hb'
  constructor
  · rw [(C04_isbit b n).1 hn, hbits]
    have : ((n.toNat : ℕ) : ℤ) = n := by omega
    simp [this]
  · intro hne
    rw [(C04_isbit b k).1 hk, (C04_isbit a k).1 hk, hbits]
    have : ¬ ((k.toNat : ℕ) : ℤ) = n := by omega
    rw [if_neg this]

theorem int_eq_of_testBit_eq {a b : ℤ} (h : ∀ k, a.testBit k = b.testBit k) : a = b := by
  have key : ∀ m n : ℕ, ¬ (∀ k, m.testBit k = !n.testBit k) := by
    intro m n hmn
    have h1 : m.testBit (m + n) = false := by
      apply Nat.testBit_lt_two_pow
      exact lt_of_lt_of_le Nat.lt_two_pow_self (Nat.pow_le_pow_right (by norm_num) (by omega))
    have h2 : n.testBit (m + n) = false := by
      apply Nat.testBit_lt_two_pow
      exact lt_of_lt_of_le Nat.lt_two_pow_self (Nat.pow_le_pow_right (by norm_num) (by omega))
    have := hmn (m + n)
    rw [h1, h2] at this
    simp at this
  cases a with
  | ofNat m =>
    cases b with
    | ofNat n => congr 1; exact Nat.eq_of_testBit_eq h
    | negSucc n => exact absurd h (key m n)
  | negSucc m =>
    cases b with
    | ofNat n => exact absurd (fun k => (h k).symm) (key n m)
    | negSucc n =>
      congr 1
      apply Nat.eq_of_testBit_eq
      intro k
      have : (!m.testBit k) = (!n.testBit k) := h k
      simpa using this

/-- C04. Setting a bit twice is the same as once, and the order of two settings does not matter. -/
theorem C04_setbit_idempotent_commutes (a : ℤ) (n m : ℕ) :
    (setbit a n >>= fun b => setbit b n) = setbit a n ∧
    (setbit a n >>= fun b => setbit b m) = (setbit a m >>= fun b => setbit b n) := by
  constructor
  · rw [setbit_ok]
    simp only [bind, Except.bind]
    rw [setbit_ok]
    congr 1
    apply int_eq_of_testBit_eq
    intro k
    simp only [Int.testBit_lor, Bool.or_assoc, Bool.or_self]
  · rw [setbit_ok, setbit_ok]
    simp only [bind, Except.bind]
    rw [setbit_ok, setbit_ok]
    congr 1
    apply int_eq_of_testBit_eq
    intro k
    simp only [Int.testBit_lor, Bool.or_assoc]
    congr 1
    exact Bool.or_comm _ _

example : setbit 1 1 = .ok 3 ∧ setbit (-8) 1 = .ok (-6) ∧ isbit (-6) 1 = .ok true := by decide +kernel

end Cloudnet
