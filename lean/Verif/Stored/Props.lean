import Verif.Stored.Model
import Mathlib.Tactic

namespace Cloudnet

/-! ### Integers -/

namespace Spec

/-- Values of the integer types. -/
def IsOfType (t : NpType) (v : ℤ) : Prop := match t with
  | .bool => v = 0 ∨ v = 1
  | .int8 => -128 ≤ v ∧ v ≤ 127
  | .uint8 => 0 ≤ v ∧ v ≤ 255
  | .int16 => -32768 ≤ v ∧ v ≤ 32767
  | .uint16 => 0 ≤ v ∧ v ≤ 65535
  | .int32 => -2147483648 ≤ v ∧ v ≤ 2147483647
  | .uint32 => 0 ≤ v ∧ v ≤ 4294967295
  | .int64 => -9223372036854775808 ≤ v ∧ v ≤ 9223372036854775807
  | .float32 | .float64 => False

end Spec

theorem readInt_eq_some (masked : Bool) (t : NcType) (a w : ℤ) : readInt masked t a = some w ↔ a = w ∧ (masked = true → w ≠ fillInt t) := by
  unfold readInt
  cases masked
  · simp
  · simp only [Bool.true_and, decide_eq_true_eq]
    by_cases h : a = fillInt t
    · simp only [h, if_true]
      constructor
      · intro h; cases h
      · rintro ⟨rfl, h⟩; exact absurd rfl (h trivial)
    · rw [if_neg h, Option.some.injEq]
      constructor
      · rintro rfl; exact ⟨rfl, fun _ => h⟩
      · exact fun h => h.1

/-- **C162.** Integers: a value of an array of type `t` is read back as it was written exactly if it fits into 32 bits and is not, in a masked array, the number that stands
for missing values (-32767 for 16 bits, else -2147483647). Missing values of a masked array are missing. -/
theorem C162_integers (t : NpType) (v : ℤ) (hv : Spec.IsOfType t v) (masked : Bool) :
    (readInt masked (initDataType t) (writeInt (initDataType t) (some v)) = some v ↔
      -2147483648 ≤ v ∧ v ≤ 2147483647 ∧ (masked = true → v ≠ if t = .int16 then -32767 else -2147483647)) ∧
    readInt true (initDataType t) (writeInt (initDataType t) none) = none := by
  refine ⟨?_, by simp [readInt, writeInt]⟩
  rw [readInt_eq_some]
  cases t <;> simp only [initDataType, writeInt, storeInt, fillInt, wrapInt, Spec.IsOfType, reduceCtorEq, if_false, if_true] at hv ⊢ <;>
    cases masked <;> norm_num <;> omega

/-- **C162.** Without a mask all values of a type can be read back exactly if the type is not `uint32` or `int64`: both have values that do not fit into 32 bits. -/
theorem C162_types (t : NpType) (ht : t ≠ .float32 ∧ t ≠ .float64) :
    (∀ v, Spec.IsOfType t v → readInt false (initDataType t) (writeInt (initDataType t) (some v)) = some v) ↔ t ≠ .uint32 ∧ t ≠ .int64 := by
  constructor
  · intro h
    constructor
    · rintro rfl
      have := ((C162_integers .uint32 4294967295 (by simp [Spec.IsOfType]) false).1).1 (h _ (by simp [Spec.IsOfType]))
      omega
    · rintro rfl
      have := ((C162_integers .int64 4294967295 (by simp [Spec.IsOfType]) false).1).1 (h _ (by simp [Spec.IsOfType]))
      omega
  · rintro ⟨h1, h2⟩ v hv
    refine (C162_integers t v hv false).1.2 ⟨?_, ?_, by simp⟩ <;> cases t <;> simp only [Spec.IsOfType, ne_eq, not_true] at hv h1 h2 ht <;> omega

/-- **C162, a finding.** An integer that is too large becomes another one. -/
theorem C162_wraps : readInt false (initDataType .uint32) (writeInt (initDataType .uint32) (some 4294967295)) = some (-1) := by decide

/-! ### Rounding -/

section
variable {α : Type} [Field α] [LinearOrder α] [IsStrictOrderedRing α] [FloorRing α]

theorem halfEven_cases (q : α) : (halfEven q = ⌊q⌋ ∧ q - ⌊q⌋ ≤ 1 / 2) ∨ (halfEven q = ⌊q⌋ + 1 ∧ 1 / 2 ≤ q - ⌊q⌋) := by
  unfold halfEven
  split_ifs with h1 h2 h3
  · exact Or.inl ⟨rfl, h1.le⟩
  · exact Or.inr ⟨rfl, h2.le⟩
  · exact Or.inl ⟨rfl, not_lt.1 h2⟩
  · exact Or.inr ⟨rfl, not_lt.1 h1⟩

/-- The nearest integer. -/
theorem halfEven_nearest (q : α) (n : ℤ) : |(halfEven q : α) - q| ≤ |(n : α) - q| := by
  have hf := Int.floor_le q
  have hl := Int.lt_floor_add_one q
  rcases halfEven_cases q with ⟨h, h'⟩ | ⟨h, h'⟩ <;> rw [h]
  · rw [abs_of_nonpos (by linarith)]
    by_cases hn : n ≤ ⌊q⌋
    · have : (n : α) ≤ ⌊q⌋ := by exact_mod_cast hn
      rw [abs_of_nonpos (by linarith)]
      linarith
    · have : (⌊q⌋ : α) + 1 ≤ n := by exact_mod_cast Int.add_one_le_iff.2 (not_le.1 hn)
      rw [abs_of_nonneg (by linarith)]
      linarith
  · push_cast
    rw [abs_of_nonneg (by linarith)]
    by_cases hn : n ≤ ⌊q⌋
    · have : (n : α) ≤ ⌊q⌋ := by exact_mod_cast hn
      rw [abs_of_nonpos (by linarith)]
      linarith
    · have : (⌊q⌋ : α) + 1 ≤ n := by exact_mod_cast Int.add_one_le_iff.2 (not_le.1 hn)
      rw [abs_of_nonneg (by linarith)]
      linarith

theorem halfEven_near (q : α) : |(halfEven q : α) - q| ≤ 1 / 2 := by
  have hf := Int.floor_le q
  have hl := Int.lt_floor_add_one q
  rcases halfEven_cases q with ⟨h, h'⟩ | ⟨h, h'⟩ <;> rw [h, abs_le]
  · constructor <;> linarith
  · push_cast
    constructor <;> linarith

theorem halfEven_int (n : ℤ) : halfEven (n : α) = n := by
  have := halfEven_nearest (n : α) n
  rw [sub_self, abs_zero] at this
  have := abs_nonpos_iff.1 this
  rw [sub_eq_zero] at this
  exact_mod_cast this

theorem halfEven_mono {q q' : α} (h : q ≤ q') : halfEven q ≤ halfEven q' := by
  have hfl := Int.floor_le_floor h
  rcases hfl.lt_or_eq with hlt | heq
  · have h1 : halfEven q ≤ ⌊q⌋ + 1 := by rcases halfEven_cases q with ⟨h, -⟩ | ⟨h, -⟩ <;> omega
    have h2 : ⌊q'⌋ ≤ halfEven q' := by rcases halfEven_cases q' with ⟨h, -⟩ | ⟨h, -⟩ <;> omega
    omega
  · unfold halfEven
    rw [← heq]
    split_ifs with a1 a2 a3 a4 a5 a6 <;> first | omega | (exfalso; linarith)

theorem two_zpow_pos (k : ℤ) : (0 : α) < 2 ^ k := zpow_pos (by norm_num) k

/-- A number with digits below some power of two. -/
theorem div_two_zpow {y : α} {m e k : ℤ} (hy : y = (m : α) * 2 ^ e) (hk : k ≤ e) : ∃ n : ℤ, y / 2 ^ k = (n : α) := by
  obtain ⟨d, rfl⟩ := Int.le.dest hk
  refine ⟨m * 2 ^ d, ?_⟩
  rw [hy, zpow_add₀ (by norm_num : (2 : α) ≠ 0), zpow_natCast]
  push_cast
  field_simp

namespace Spec

/-- Numbers of a format, without a limit of size. -/
def Representable (f : FloatFormat) (y : α) : Prop := ∃ m e : ℤ, y = (m : α) * 2 ^ e ∧ |m| < 2 ^ f.digits ∧ f.least ≤ e

end Spec

theorem abs_lt_last (f : FloatFormat) (x : α) : |x| < 2 ^ (lastExponent f x + f.digits) := by
  rcases eq_or_ne x 0 with rfl | hx
  · rw [abs_zero]; exact two_zpow_pos _
  have h := Int.lt_zpow_succ_log_self (R := α) (b := 2) (by norm_num) |x|
  refine lt_of_lt_of_le (by exact_mod_cast h) (zpow_le_zpow_right₀ (by norm_num) ?_)
  unfold lastExponent
  have := le_max_left (Int.log 2 |x| - ((f.digits : ℤ) - 1)) f.least
  omega

theorem fixed_of_multiple (f : FloatFormat) (y : α) (n : ℤ) (h : y / 2 ^ lastExponent f y = (n : α)) : roundFloat f y = y := by
  unfold roundFloat
  rw [h, halfEven_int, ← h]
  field_simp

theorem last_le (f : FloatFormat) (y : α) (e : ℤ) (he : f.least ≤ e) (hy : |y| < 2 ^ (e + f.digits)) (hy0 : y ≠ 0) : lastExponent f y ≤ e := by
  unfold lastExponent
  refine max_le ?_ he
  have hlog := Int.zpow_log_le_self (R := α) (b := 2) (by norm_num) (abs_pos.2 hy0)
  have : (2 : α) ^ Int.log 2 |y| < 2 ^ (e + f.digits) := lt_of_le_of_lt (by exact_mod_cast hlog) hy
  have := (zpow_lt_zpow_iff_right₀ (by norm_num : (1 : α) < 2)).1 this
  omega

theorem roundFloat_zero (f : FloatFormat) : roundFloat f (0 : α) = 0 := by
  have : halfEven (0 : α) = 0 := by simpa using halfEven_int (α := α) 0
  simp [roundFloat, this]

/-- **C162.** Numbers that the type has are stored as they are. -/
theorem roundFloat_fixed (f : FloatFormat) (y : α) (h : Spec.Representable f y) : roundFloat f y = y := by
  obtain ⟨m, e, hy, hm, he⟩ := h
  rcases eq_or_ne y 0 with rfl | hy0
  · exact roundFloat_zero f
  have habs : |y| < 2 ^ (e + f.digits) := by
    rw [hy, abs_mul, abs_of_pos (two_zpow_pos (α := α) e), zpow_add₀ (by norm_num : (2 : α) ≠ 0), zpow_natCast, mul_comm]
    apply mul_lt_mul_of_pos_left _ (two_zpow_pos e)
    have : ((|m| : ℤ) : α) < ((2 ^ f.digits : ℤ) : α) := by exact_mod_cast hm
    rw [Int.cast_abs] at this
    simpa using this
  obtain ⟨n, hn⟩ := div_two_zpow hy (last_le f y e he habs hy0)
  exact fixed_of_multiple f y n hn

theorem roundFloat_representable (f : FloatFormat) (hp : 1 ≤ f.digits) (x : α) : Spec.Representable f (roundFloat f x) := by
  set k := lastExponent f x with hk
  have hkl : f.least ≤ k := le_max_right _ _
  set m := halfEven (x / 2 ^ k) with hm
  have hle : |m| ≤ 2 ^ f.digits := by
    have hx := abs_lt_last f x
    rw [← hk, zpow_add₀ (by norm_num : (2 : α) ≠ 0), zpow_natCast] at hx
    have hq : |x / 2 ^ k| < 2 ^ f.digits := by
      rw [abs_div, abs_of_pos (two_zpow_pos (α := α) k), div_lt_iff₀ (two_zpow_pos k), mul_comm]
      exact hx
    rw [abs_lt] at hq
    have h1 : m ≤ 2 ^ f.digits := by
      have := halfEven_mono (q' := ((2 ^ f.digits : ℤ) : α)) (by push_cast; exact hq.2.le)
      rwa [halfEven_int] at this
    have h2 : -2 ^ f.digits ≤ m := by
      have := halfEven_mono (q := ((-2 ^ f.digits : ℤ) : α)) (by push_cast; exact hq.1.le)
      rwa [halfEven_int] at this
    exact abs_le.2 ⟨h2, h1⟩
  have hval : roundFloat f x = (m : α) * 2 ^ k := rfl
  rcases hle.lt_or_eq with hlt | heq
  · exact ⟨m, k, hval, hlt, hkl⟩
  · obtain ⟨d, hd⟩ : ∃ d, f.digits = d + 1 := ⟨f.digits - 1, by omega⟩
    rw [hd, pow_succ] at heq
    have hsplit : ∃ s : ℤ, m = s * 2 ∧ |s| = 2 ^ d := by
      rcases abs_cases m with ⟨h, -⟩ | ⟨h, -⟩
      · exact ⟨2 ^ d, by omega, abs_of_pos (by positivity)⟩
      · exact ⟨-2 ^ d, by omega, by rw [abs_neg]; exact abs_of_pos (by positivity)⟩
    obtain ⟨s, hs, hsd⟩ := hsplit
    refine ⟨s, k + 1, ?_, ?_, by omega⟩
    · rw [hval, hs, zpow_add₀ (by norm_num : (2 : α) ≠ 0)]
      push_cast
      ring
    · rw [hsd, hd]
      exact pow_lt_pow_right₀ (by norm_num) (by omega)

/-- The error of rounding is at most that of any number of the format. -/
theorem roundFloat_nearest (f : FloatFormat) (hp : 1 ≤ f.digits) (x y : α) (hy : Spec.Representable f y) : |roundFloat f x - x| ≤ |y - x| := by
  set k := lastExponent f x with hk
  have hpos := two_zpow_pos (α := α) k
  have mult : ∀ (z : α) (n : ℤ), z = (n : α) * 2 ^ k → |roundFloat f x - x| ≤ |z - x| := by
    intro z n hz
    have h := halfEven_nearest (x / 2 ^ k) n
    have e1 : roundFloat f x - x = ((halfEven (x / 2 ^ k) : α) - x / 2 ^ k) * 2 ^ k := by
      unfold roundFloat
      rw [← hk]
      field_simp
    have e2 : z - x = ((n : α) - x / 2 ^ k) * 2 ^ k := by
      rw [hz]
      field_simp
    rw [e1, e2, abs_mul, abs_mul]
    exact mul_le_mul_of_nonneg_right h (abs_nonneg _)
  obtain ⟨m, e, hye, hm, he⟩ := hy
  by_cases hek : k ≤ e
  · obtain ⟨n, hn⟩ := div_two_zpow hye hek
    exact mult y n (by rw [← hn]; field_simp)
  · push Not at hek
    rcases eq_or_ne x 0 with rfl | hx
    · rw [roundFloat_zero, sub_self, abs_zero]
      exact abs_nonneg _
    have hkl : k = Int.log 2 |x| - ((f.digits : ℤ) - 1) := by
      rw [hk]
      unfold lastExponent
      apply max_eq_left
      by_contra h
      have : k = f.least := max_eq_right (not_le.1 h).le
      omega
    have hy' : |y| < 2 ^ Int.log 2 |x| := by
      have : |y| < 2 ^ (e + f.digits) := by
        rw [hye, abs_mul, abs_of_pos (two_zpow_pos (α := α) e), zpow_add₀ (by norm_num : (2 : α) ≠ 0), zpow_natCast, mul_comm]
        apply mul_lt_mul_of_pos_left _ (two_zpow_pos e)
        have : ((|m| : ℤ) : α) < ((2 ^ f.digits : ℤ) : α) := by exact_mod_cast hm
        rw [Int.cast_abs] at this
        simpa using this
      exact lt_of_lt_of_le this (zpow_le_zpow_right₀ (by norm_num) (by omega))
    have hx' : (2 : α) ^ Int.log 2 |x| ≤ |x| := by
      exact_mod_cast Int.zpow_log_le_self (R := α) (b := 2) (by norm_num) (abs_pos.2 hx)
    have hpow : (2 : α) ^ Int.log 2 |x| = ((2 ^ (f.digits - 1) : ℤ) : α) * 2 ^ k := by
      push_cast
      rw [← zpow_natCast, ← zpow_add₀ (by norm_num : (2 : α) ≠ 0)]
      congr 1
      omega
    rw [abs_lt] at hy'
    rcases abs_cases x with ⟨hax, hx0⟩ | ⟨hax, hx0⟩
    · refine (mult _ _ hpow).trans ?_
      rw [hax] at hx' hy' ⊢
      rw [abs_of_nonpos (by linarith), abs_of_nonpos (by linarith)]
      linarith
    · refine (mult (-2 ^ Int.log 2 |x|) (-2 ^ (f.digits - 1)) (by rw [hpow]; push_cast; ring)).trans ?_
      rw [hax] at hx' hy' ⊢
      rw [abs_of_nonneg (by linarith), abs_of_nonneg (by linarith)]
      linarith

/-- Numbers keep their order. -/
theorem roundFloat_mono (f : FloatFormat) (hp : 1 ≤ f.digits) {x y : α} (h : x ≤ y) : roundFloat f x ≤ roundFloat f y := by
  by_contra hc
  push Not at hc
  have hx := roundFloat_nearest f hp x _ (roundFloat_representable f hp y)
  have hy := roundFloat_nearest f hp y _ (roundFloat_representable f hp x)
  have hlt : x < y := lt_of_le_of_ne h fun he => by rw [he] at hc; exact lt_irrefl _ hc
  generalize roundFloat f x = a at *
  generalize roundFloat f y = b at *
  rcases abs_cases (a - x) with ⟨e1, h1⟩ | ⟨e1, h1⟩ <;> rcases abs_cases (b - x) with ⟨e2, h2⟩ | ⟨e2, h2⟩ <;>
    rcases abs_cases (b - y) with ⟨e3, h3⟩ | ⟨e3, h3⟩ <;> rcases abs_cases (a - y) with ⟨e4, h4⟩ | ⟨e4, h4⟩ <;>
    rw [e1, e2] at hx <;> rw [e3, e4] at hy <;> linarith

/-- The relative error. -/
theorem roundFloat_error (f : FloatFormat) (x : α) (hx : (2 : α) ^ (f.least + f.digits - 1) ≤ |x|) :
    |roundFloat f x - x| ≤ |x| / 2 ^ f.digits := by
  have hpos : 0 < |x| := (two_zpow_pos _).trans_le hx
  have hlog : f.least + f.digits - 1 ≤ Int.log 2 |x| := (Int.zpow_le_iff_le_log (b := 2) (by norm_num) hpos).1 (by exact_mod_cast hx)
  have hk : lastExponent f x = Int.log 2 |x| - ((f.digits : ℤ) - 1) := max_eq_left (by omega)
  have h := halfEven_near (x / 2 ^ lastExponent f x)
  have e1 : roundFloat f x - x = ((halfEven (x / 2 ^ lastExponent f x) : α) - x / 2 ^ lastExponent f x) * 2 ^ lastExponent f x := by
    unfold roundFloat
    have := two_zpow_pos (α := α) (lastExponent f x)
    field_simp
  rw [e1, abs_mul, abs_of_pos (two_zpow_pos (α := α) _)]
  have hx' : (2 : α) ^ Int.log 2 |x| ≤ |x| := by
    exact_mod_cast Int.zpow_log_le_self (R := α) (b := 2) (by norm_num) hpos
  calc |(halfEven (x / 2 ^ lastExponent f x) : α) - x / 2 ^ lastExponent f x| * 2 ^ lastExponent f x
      ≤ 1 / 2 * 2 ^ lastExponent f x := mul_le_mul_of_nonneg_right h (two_zpow_pos _).le
    _ = 2 ^ Int.log 2 |x| / 2 ^ f.digits := by
        rw [hk, zpow_sub₀ (by norm_num : (2 : α) ≠ 0), zpow_sub₀ (by norm_num : (2 : α) ≠ 0), zpow_natCast, zpow_one]
        field_simp
    _ ≤ |x| / 2 ^ f.digits := by gcongr

theorem format_digits (t : NcType) : 24 ≤ t.format.digits := by cases t <;> simp [NcType.format]

theorem zpow_representable (f : FloatFormat) (hp : 2 ≤ f.digits) (m k : ℤ) (hm : |m| < 2 ^ f.digits) (hk : f.least ≤ k) : Spec.Representable f ((m : α) * 2 ^ k) :=
  ⟨m, k, rfl, hm, hk⟩

theorem fill_representable (t : NcType) : Spec.Representable t.format (fillFloat : α) := by
  refine ⟨15, 119, ?_, ?_, ?_⟩
  · unfold fillFloat
    rw [show (122 : ℤ) = 3 + 119 by norm_num, zpow_add₀ (by norm_num : (2 : α) ≠ 0)]
    norm_num
  · cases t <;> simp [NcType.format]
  · cases t <;> simp [NcType.format]

theorem storeFloat_small (t : NcType) (x : α) (hx : |x| ≤ 2 ^ (122 : ℤ)) : |roundFloat t.format x| ≤ 2 ^ (122 : ℤ) := by
  have hd := format_digits t
  have hr : Spec.Representable t.format ((2 : α) ^ (122 : ℤ)) := by
    have := zpow_representable (α := α) t.format (by omega) 1 122 (by cases t <;> simp [NcType.format]) (by cases t <;> simp [NcType.format])
    simpa using this
  have hr' : Spec.Representable t.format (-(2 : α) ^ (122 : ℤ)) := by
    have := zpow_representable (α := α) t.format (by omega) (-1) 122 (by cases t <;> simp [NcType.format]) (by cases t <;> simp [NcType.format])
    simpa using this
  rw [abs_le] at hx ⊢
  have h1 := roundFloat_mono t.format (by omega) hx.1
  have h2 := roundFloat_mono t.format (by omega) hx.2
  rw [roundFloat_fixed _ _ hr'] at h1
  rw [roundFloat_fixed _ _ hr] at h2
  exact ⟨h1, h2⟩

namespace Spec

/-- What a number of an array, or a missing one, is after writing it as a variable of type `t` and reading it. -/
def ReadsBack (masked : Bool) (t : NcType) (x : Option α) (y : Option α) : Prop := ∃ s, writeFloat t x = some s ∧ readFloat masked s = y

end Spec

/-- **C162.** Numbers up to 2¹²² (5.3·10³⁶): the number read back is known; it is one of the numbers of the type, and no number of the type is nearer. It differs from what was
written by at most the part 2⁻²⁴ (32 bits) or 2⁻⁵³ (64 bits), if that is not below the normal numbers. A number that the type has is read back as it is. Missing values of a masked array
stay missing. -/
theorem C162_numbers (t : NcType) (masked : Bool) (x : α) (hx : |x| ≤ 2 ^ (122 : ℤ)) :
    (∃ y, Spec.ReadsBack masked t (some x) (some y) ∧ Spec.Representable t.format y ∧ (∀ z, Spec.Representable t.format z → |y - x| ≤ |z - x|) ∧
      ((2 : α) ^ (t.format.least + t.format.digits - 1) ≤ |x| → |y - x| ≤ |x| / 2 ^ t.format.digits) ∧
      (Spec.Representable t.format x → y = x)) ∧
    Spec.ReadsBack true t (none : Option α) none := by
  have hd := format_digits t
  have hs := storeFloat_small t x hx
  have hlim : (2 : α) ^ (122 : ℤ) < 2 ^ t.format.limit := zpow_lt_zpow_right₀ (by norm_num) (by cases t <;> simp [NcType.format])
  have hfill : (2 : α) ^ (122 : ℤ) < fillFloat := by
    unfold fillFloat
    have := two_zpow_pos (α := α) 122
    linarith
  constructor
  · refine ⟨roundFloat t.format x, ⟨roundFloat t.format x, ?_, ?_⟩, roundFloat_representable _ (by omega) x, fun z => roundFloat_nearest _ (by omega) x z, roundFloat_error _ x,
      roundFloat_fixed _ x⟩
    · exact if_pos (hs.trans_lt hlim)
    · unfold readFloat
      have : roundFloat t.format x ≠ fillFloat := by
        intro h
        have := (le_abs_self _).trans hs
        rw [h] at this
        linarith
      simp [this]
  · exact ⟨fillFloat, rfl, by simp [readFloat]⟩

/-- **C162.** Numbers do not drift: what was read from a file is read again as the same number, after any number of files in between. -/
theorem C162_no_drift (t : NcType) (masked : Bool) (x y z : Option α) (h1 : Spec.ReadsBack masked t x y) (h2 : Spec.ReadsBack masked t y z) : z = y := by
  have hd := format_digits t
  obtain ⟨s, hw, hr⟩ := h1
  obtain ⟨s', hw', hr'⟩ := h2
  have hrep : Spec.Representable t.format s ∧ |s| < 2 ^ t.format.limit := by
    cases x with
    | none =>
      cases hw
      refine ⟨fill_representable t, ?_⟩
      unfold fillFloat
      have h0 := two_zpow_pos (α := α) 122
      rw [abs_of_pos (by linarith)]
      have : (2 : α) ^ (123 : ℤ) ≤ 2 ^ t.format.limit := zpow_le_zpow_right₀ (by norm_num) (by cases t <;> simp [NcType.format])
      rw [show (123 : ℤ) = 122 + 1 by norm_num, zpow_add₀ (by norm_num : (2 : α) ≠ 0), zpow_one] at this
      linarith
    | some v =>
      unfold writeFloat storeFloat at hw
      simp only at hw
      split_ifs at hw with hl
      cases hw
      exact ⟨roundFloat_representable _ (by omega) v, hl⟩
  have hfix := roundFloat_fixed _ _ hrep.1
  unfold readFloat at hr
  split_ifs at hr with hc
  · subst hr
    cases hw'
    rw [← hr']
    simp only [Bool.and_eq_true] at hc
    simp [readFloat, hc.1]
  · subst hr
    have : writeFloat t (some s) = some s := by
      show storeFloat t s = _
      unfold storeFloat
      rw [hfix, if_pos hrep.2]
    rw [this] at hw'
    cases hw'
    rw [← hr']
    exact if_neg hc

/-- **C162.** Numbers keep their order, and times of a day that differ by 2⁻¹⁸ hours (14 ms) or more stay different in 32 bits. -/
theorem C162_order (t : NcType) (masked : Bool) (x x' y y' : α) (h : Spec.ReadsBack masked t (some x) (some y)) (h' : Spec.ReadsBack masked t (some x') (some y')) :
    (x ≤ x' → y ≤ y') ∧ (0 ≤ x → x' ≤ 25 → x + 1 / 2 ^ 18 ≤ x' → y < y') := by
  have hd := format_digits t
  have key : ∀ a b : α, Spec.ReadsBack masked t (some a) (some b) → b = roundFloat t.format a := by
    rintro a b ⟨s, hw, hr⟩
    unfold writeFloat storeFloat at hw
    simp only at hw
    split_ifs at hw
    cases hw
    unfold readFloat at hr
    split_ifs at hr
    cases hr
    rfl
  rw [key _ _ h, key _ _ h']
  refine ⟨roundFloat_mono _ (by omega), fun h0 h25 hgap => ?_⟩
  have herr : ∀ a : α, 0 ≤ a → a ≤ 25 → |roundFloat t.format a - a| ≤ 1 / 2 ^ 19 - 1 / 2 ^ 22 := by
    intro a ha ha'
    by_cases hn : (2 : α) ^ (t.format.least + t.format.digits - 1) ≤ |a|
    · refine (roundFloat_error _ a hn).trans ?_
      rw [abs_of_nonneg ha, div_le_iff₀ (by positivity)]
      have : (2 : α) ^ 24 ≤ 2 ^ t.format.digits := pow_le_pow_right₀ (by norm_num) hd
      have : (1 / 2 ^ 19 - 1 / 2 ^ 22) * (2 : α) ^ 24 ≤ (1 / 2 ^ 19 - 1 / 2 ^ 22) * 2 ^ t.format.digits := by
        apply mul_le_mul_of_nonneg_left this
        norm_num
      norm_num at this
      norm_num
      linarith
    · push Not at hn
      have := roundFloat_nearest t.format (by omega) a 0 ⟨0, t.format.least, by simp, by simp, le_rfl⟩
      rw [zero_sub, abs_neg] at this
      have h2 : (2 : α) ^ (t.format.least + t.format.digits - 1) ≤ 2 ^ (-100 : ℤ) := zpow_le_zpow_right₀ (by norm_num) (by cases t <;> simp [NcType.format])
      have h3 : (2 : α) ^ (-100 : ℤ) ≤ 1 / 2 ^ 19 - 1 / 2 ^ 22 := by norm_num
      exact this.trans (hn.le.trans (h2.trans h3))
  have e1 := abs_le.1 (herr x h0 (by have : (0 : α) ≤ 1 / 2 ^ 18 := by positivity
                                     linarith))
  have e2 := abs_le.1 (herr x' (by have : (0 : α) ≤ 1 / 2 ^ 18 := by positivity
                                   linarith) h25)
  have : (1 : α) / 2 ^ 18 = 1 / 2 ^ 19 + 1 / 2 ^ 19 := by norm_num
  have : (0 : α) < 1 / 2 ^ 22 := by positivity
  linarith

/-- **C162, a finding.** A known number of a masked array that is the fill value, 1.875·2¹²², is read as missing. -/
theorem C162_fill (t : NcType) : Spec.ReadsBack true t (some (fillFloat : α)) none := by
  refine ⟨fillFloat, ?_, by simp [readFloat]⟩
  show storeFloat t fillFloat = _
  unfold storeFloat
  rw [roundFloat_fixed _ _ (fill_representable t)]
  apply if_pos
  unfold fillFloat
  have h0 := two_zpow_pos (α := α) 122
  rw [abs_of_pos (by linarith)]
  have : (2 : α) ^ (123 : ℤ) ≤ 2 ^ t.format.limit := zpow_le_zpow_right₀ (by norm_num) (by cases t <;> simp [NcType.format])
  rw [show (123 : ℤ) = 122 + 1 by norm_num, zpow_add₀ (by norm_num : (2 : α) ≠ 0), zpow_one] at this
  linarith

end

/-- **C162, a finding.** Two times of the evening, one millisecond apart, become equal in 32 bits: in a file of 32-bit times they do not ascend strictly. -/
theorem C162_times_equal : ∃ y : ℚ, Spec.ReadsBack false .f4 (some (47 / 2)) (some y) ∧ Spec.ReadsBack false .f4 (some (47 / 2 + 1 / 3600000)) (some y) :=
  ⟨47 / 2, ⟨47 / 2, by decide +kernel, by decide +kernel⟩, ⟨47 / 2, by decide +kernel, by decide +kernel⟩⟩

/-- A number that 32 bits do not have: 0.1. -/
example : Spec.ReadsBack true .f4 (some (1 / 10 : ℚ)) (some (13421773 / 134217728)) ∧ |(1 / 10 : ℚ)| ≤ 2 ^ (122 : ℤ) ∧ ¬ (13421773 / 134217728 : ℚ) = 1 / 10 :=
  ⟨⟨13421773 / 134217728, by decide +kernel, by decide +kernel⟩, by decide +kernel, by norm_num⟩

/-- The type of numbers of an array is not kept: those of 64 bits are stored with 32. -/
theorem C162_float_types : initDataType .float64 = .f4 ∧ initDataType .float32 = .f4 := ⟨rfl, rfl⟩

end Cloudnet
