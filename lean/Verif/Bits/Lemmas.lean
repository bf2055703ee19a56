import Verif.Bits.Model
import Mathlib.Tactic.Ring
import Mathlib.Tactic.Positivity
import Mathlib.Tactic.NormNum

namespace Cloudnet

theorem int_two_pow_cast (n : ℕ) : (2 : ℤ) ^ n = Int.ofNat (2 ^ n) := by simp

theorem nat_and_two_pow_pos (m n : ℕ) : 0 < m &&& 2 ^ n ↔ m.testBit n = true := by
  rw [Nat.and_two_pow]
  cases m.testBit n <;> simp

theorem nat_ldiff_two_pow_pos (m n : ℕ) : 0 < Nat.ldiff (2 ^ n) m ↔ m.testBit n = false := by
  constructor
  · intro hp
    by_contra hc
    have : m.testBit n = true := by simpa using hc
    have h0 : Nat.ldiff (2 ^ n) m = 0 := by
      apply Nat.eq_of_testBit_eq
      intro i
      rw [Nat.testBit_ldiff, Nat.testBit_two_pow]
      by_cases h : n = i
      · subst h; simp [this]
      · simp [h]
    omega
  · intro hf
    apply Nat.pos_of_ne_zero
    intro h0
    have := Nat.testBit_ldiff (2 ^ n) m n
    rw [h0, Nat.testBit_two_pow] at this
    simp [hf] at this

theorem int_land_two_pow_pos (a : ℤ) (n : ℕ) :
    Int.land a (2 ^ n) > 0 ↔ Int.testBit a n = true := by
  rw [int_two_pow_cast]
  cases a with
  | ofNat m =>
    show (Int.ofNat (m &&& 2 ^ n)) > 0 ↔ m.testBit n = true
    rw [← nat_and_two_pow_pos]
    simp
  | negSucc m =>
    show (Int.ofNat (Nat.ldiff (2 ^ n) m)) > 0 ↔ (!m.testBit n) = true
    have := nat_ldiff_two_pow_pos m n
    simp only [Bool.not_eq_true', ← this]
    simp

theorem int_testBit_two_pow (n i : ℕ) : Int.testBit (2 ^ n) i = decide (n = i) := by
  rw [int_two_pow_cast]
  show (2 ^ n).testBit i = _
  exact Nat.testBit_two_pow

theorem isbit_ok (a : ℤ) (n : ℕ) : isbit a n = .ok (Int.testBit a n) := by
  have : ¬ ((n : ℤ) < 0) := by omega
  simp only [isbit, this, if_false, Int.toNat_natCast]
  congr 1
  have := int_land_two_pow_pos a n
  by_cases h : Int.testBit a n = true
  · simp only [h]; exact decide_eq_true (this.2 h)
  · simp only [Bool.not_eq_true] at h
    rw [h]; apply decide_eq_false; rw [this]; simp [h]

theorem setbit_ok (a : ℤ) (n : ℕ) : setbit a n = .ok (Int.lor a (2 ^ n)) := by
  have : ¬ ((n : ℤ) < 0) := by omega
  simp only [setbit, this, if_false, Int.toNat_natCast]

theorem isbitGrid_ok (b : Grid ℤ) (n : ℕ) :
    isbitGrid b n = .ok (fun t h => Int.testBit (b t h) n) := by
  have hn : ¬ ((n : ℤ) < 0) := by omega
  simp only [isbitGrid, hn, if_false, Int.toNat_natCast]
  congr 1
  funext t h
  have := int_land_two_pow_pos (b t h) n
  by_cases h' : Int.testBit (b t h) n = true
  · simp only [h']; exact decide_eq_true (this.2 h')
  · simp only [Bool.not_eq_true] at h'
    rw [h']; apply decide_eq_false; rw [this]; simp [h']

theorem int_testBit_zero' (i : ℕ) : Int.testBit 0 i = false := by
  show Nat.testBit 0 i = false
  simp

theorem int_testBit_flag (n i : ℕ) (b : Bool) :
    Int.testBit (2 ^ n * (if b then 1 else 0)) i = (b && decide (n = i)) := by
  cases b
  · simp [int_testBit_zero']
  · simp [int_testBit_two_pow]

/-- The bits of the encoded value: old bits, plus field `j` at position `i + j`. -/
theorem testBit_classesToBitsLoop (fs : List (Grid Bool)) (i : ℕ) (q : Grid ℤ) (t h k : ℕ) :
    Int.testBit (classesToBitsLoop fs i q t h) k =
      (Int.testBit (q t h) k ||
        (decide (i ≤ k) && (match fs[k - i]? with | some f => f t h | none => false))) := by
  induction fs generalizing i q with
  | nil => simp [classesToBitsLoop]
  | cons f fs ih =>
    rw [classesToBitsLoop, ih, Int.testBit_lor, int_testBit_flag]
    by_cases hk : k = i
    · subst hk
      have : ¬ (k + 1 ≤ k) := by omega
      simp
    · by_cases hlt : i < k
      · obtain ⟨d, rfl⟩ : ∃ d, k = i + (d + 1) := ⟨k - i - 1, by omega⟩
        have h1 : i + (d + 1) - (i + 1) = d := by omega
        have h2 : i + (d + 1) - i = d + 1 := by omega
        have h3 : i + 1 ≤ i + (d + 1) := by omega
        have h4 : i ≤ i + (d + 1) := by omega
        rw [h1, h2]
        simp [h3]
      · have h1 : ¬ (i + 1 ≤ k) := by omega
        have h2 : ¬ (i ≤ k) := by omega
        have h3 : ¬ i = k := by omega
        simp [h1, h2, h3]

theorem testBit_classesToBits (fs : List (Grid Bool)) (t h k : ℕ) :
    Int.testBit (classesToBits fs t h) k =
      (match fs[k]? with | some f => f t h | none => false) := by
  rw [classesToBits, testBit_classesToBitsLoop]
  simp [int_testBit_zero']

theorem int_lor_nonneg {a b : ℤ} (ha : 0 ≤ a) (hb : 0 ≤ b) : 0 ≤ Int.lor a b := by
  obtain ⟨m, rfl⟩ := Int.eq_ofNat_of_zero_le ha
  obtain ⟨n, rfl⟩ := Int.eq_ofNat_of_zero_le hb
  show (0 : ℤ) ≤ Int.ofNat (m ||| n)
  exact Int.natCast_nonneg _

theorem classesToBitsLoop_nonneg (fs : List (Grid Bool)) (i : ℕ) (q : Grid ℤ) (t h : ℕ)
    (hq : 0 ≤ q t h) : 0 ≤ classesToBitsLoop fs i q t h := by
  induction fs generalizing i q with
  | nil => exact hq
  | cons f fs ih =>
    apply ih
    apply int_lor_nonneg hq
    split <;> positivity

theorem classesToBits_nonneg (fs : List (Grid Bool)) (t h : ℕ) : 0 ≤ classesToBits fs t h :=
  classesToBitsLoop_nonneg fs 0 _ t h (le_refl _)

theorem classesToBits_lt (fs : List (Grid Bool)) (t h : ℕ) :
    classesToBits fs t h < 2 ^ fs.length := by
  obtain ⟨m, hm⟩ := Int.eq_ofNat_of_zero_le (classesToBits_nonneg fs t h)
  rw [hm]
  have : m < 2 ^ fs.length := by
    apply Nat.lt_pow_two_of_testBit
    intro i hi
    have := testBit_classesToBits fs t h i
    rw [hm] at this
    have h2 : fs[i]? = none := by simp; omega
    rw [h2] at this
    exact this
  exact_mod_cast this

end Cloudnet
