import Verif.FloatDate.Model
import Verif.FloatBins.Props
import Verif.Times.Model

/-!
C183: the date of a time stamp.
-/

namespace Cloudnet

theorem wholePart_near (x : ℚ) : |x - wholePart x| ≤ 1 := by
  unfold wholePart
  split
  · have a := Int.floor_le x
    have b := Int.lt_floor_add_one x
    rw [abs_le]
    constructor <;> linarith
  · have a := Int.le_ceil x
    have b := Int.ceil_lt_add_one x
    rw [abs_le]
    constructor <;> linarith

theorem fl_million (x : ℚ) (h : |x| ≤ 1000000) : |fl x - x| ≤ 1 / 10 ^ 9 := by
  by_cases hx : 1 / 2 ^ 1000 ≤ |x|
  · have h' := roundFloat_error NcType.f8.format x (by
      refine le_trans ?_ hx
      have : (2 : ℚ) ^ (NcType.f8.format.least + NcType.f8.format.digits - 1) ≤ 2 ^ (-1000 : ℤ) :=
        zpow_le_zpow_right₀ (by norm_num) (by simp [NcType.format])
      refine this.trans (le_of_eq ?_)
      rw [zpow_neg, one_div]
      norm_cast)
    refine h'.trans ((div_le_div_of_nonneg_right h (by positivity)).trans ?_)
    norm_num [NcType.format]
  · push Not at hx
    have h' := roundFloat_nearest NcType.f8.format f8_digits x 0 ⟨0, 0, by simp, by simp [NcType.format], by simp [NcType.format]⟩
    rw [zero_sub, abs_neg] at h'
    refine h'.trans (hx.le.trans ?_)
    have : (1 : ℚ) / 2 ^ 1000 ≤ 1 / 2 ^ 53 := one_div_le_one_div_of_le (by positivity) (pow_le_pow_right₀ (by norm_num) (by norm_num))
    refine this.trans ?_
    norm_num

/-- **C183.** The time of a time stamp is exact up to half a microsecond (and a nanosecond), and exact for whole seconds. -/
theorem C183_time (epoch : ℤ) (x : ℚ) :
    |(seconds2dateMicros epoch x : ℚ) - 1000000 * (epoch + x)| ≤ 1 / 2 + 1 / 10 ^ 9 ∧
    (∀ k : ℤ, x = k → seconds2dateMicros epoch x = 1000000 * (epoch + k)) := by
  constructor
  · have h1 := wholePart_near x
    have h2 : |1000000 * (x - wholePart x)| ≤ 1000000 := by
      rw [abs_mul, abs_of_nonneg (by norm_num : (0 : ℚ) ≤ 1000000)]
      linarith
    have h3 := abs_le.1 (fl_million _ h2)
    have h4 := abs_le.1 (halfEven_near (fl (1000000 * (x - wholePart x))))
    unfold seconds2dateMicros timedeltaSeconds
    push_cast
    rw [abs_le]
    constructor <;> linarith
  · rintro k rfl
    have hw : wholePart (k : ℚ) = k := by
      unfold wholePart
      split <;> simp
    unfold seconds2dateMicros timedeltaSeconds
    rw [hw, sub_self, mul_zero, show fl 0 = 0 from roundFloat_zero _]
    have := halfEven_int (α := ℚ) 0
    rw [Int.cast_zero] at this
    rw [this]
    ring

/-- **C183.** The date of a time stamp that is `r` seconds after the midnight of a day: this day, if `r` is 0.6 microseconds or more before the next midnight. The next day, if it is
0.4 microseconds or less before. Never another one. -/
theorem C183_date (epoch : ℤ) (x : ℚ) (day : ℤ) (r : ℚ) (h : epoch + x = 86400 * day + r) (h0 : 0 ≤ r) (h1 : r < 86400) :
    (r ≤ 86400 - 6 / 10 ^ 7 → dateMicros epoch x = day) ∧ (86400 - 4 / 10 ^ 7 ≤ r → dateMicros epoch x = day + 1) ∧
    (dateMicros epoch x = day ∨ dateMicros epoch x = day + 1) := by
  obtain ⟨ht, -⟩ := C183_time epoch x
  unfold dateMicros
  set M := seconds2dateMicros epoch x
  rw [h] at ht
  obtain ⟨a, b⟩ := abs_le.1 ht
  have hsmall : (1 : ℚ) / 10 ^ 9 < 1 / 100 := by norm_num
  have lower : 86400000000 * day ≤ M := by
    have : (86400000000 * day : ℚ) - 1 < M := by linarith
    have h' : 86400000000 * day - 1 < M := by exact_mod_cast this
    omega
  have upper : M < 86400000000 * (day + 2) := by
    have : (M : ℚ) < 86400000000 * (day + 2) := by linarith
    exact_mod_cast this
  refine ⟨fun hr => ?_, fun hr => ?_, by omega⟩
  · have : (M : ℚ) < 86400000000 * (day + 1) := by linarith
    have h' : M < 86400000000 * (day + 1) := by exact_mod_cast this
    omega
  · have : (86400000000 * (day + 1) : ℚ) - 1 < M := by linarith
    have h' : 86400000000 * (day + 1) - 1 < M := by exact_mod_cast this
    omega

/-- **C183.** The model of the date with exact numbers (`dateOf`, used for the selection of profiles of a day) is right for all time stamps that are not in the last 0.6 microseconds of
a day; so for all whole seconds. -/
theorem C183_exact (epoch : ℤ) (x : ℚ) :
    (∀ r, Spec.IsSecondOfDay (epoch + x) r → r ≤ 86400 - 6 / 10 ^ 7 → dateMicros epoch x = dateOf (epoch : ℚ) x) ∧
    (∀ k : ℤ, x = k → dateMicros epoch x = dateOf (epoch : ℚ) x) := by
  have first : ∀ r, Spec.IsSecondOfDay (epoch + x) r → r ≤ 86400 - 6 / 10 ^ 7 → dateMicros epoch x = dateOf (epoch : ℚ) x := by
    rintro r ⟨r0, r1, day, hd⟩ hr
    rw [(C183_date epoch x day r hd r0 r1).1 hr]
    unfold dateOf
    symm
    rw [Int.floor_eq_iff, le_div_iff₀ (by norm_num), div_lt_iff₀ (by norm_num)]
    constructor <;> linarith
  refine ⟨first, ?_⟩
  rintro k rfl
  have e := Int.emod_add_mul_ediv (epoch + k) 86400
  have m0 := Int.emod_nonneg (epoch + k) (show (86400 : ℤ) ≠ 0 by norm_num)
  have m1 := Int.emod_lt_of_pos (epoch + k) (show (0 : ℤ) < 86400 by norm_num)
  have m1' : (epoch + k) % 86400 ≤ 86399 := by omega
  refine first (((epoch + k) % 86400 : ℤ) : ℚ) ⟨by exact_mod_cast m0, by exact_mod_cast m1, (epoch + k) / 86400, ?_⟩ ?_
  · have : ((epoch + k : ℤ) : ℚ) = (((epoch + k) % 86400 + 86400 * ((epoch + k) / 86400) : ℤ) : ℚ) := by rw [e]
    push_cast at this ⊢
    linarith
  · have : (((epoch + k) % 86400 : ℤ) : ℚ) ≤ 86399 := by exact_mod_cast m1'
    refine this.trans ?_
    norm_num

/-- A time stamp of 14 November 2023 (day 19675 since 1970). -/
example : Spec.IsSecondOfDay (((0 : ℤ) : ℚ) + 1700000000) 80000 ∧ dateMicros 0 1700000000 = 19675 :=
  ⟨⟨by norm_num, by norm_num, 19675, by norm_num⟩, by decide +kernel⟩

/-- **C183.** Date and time of day disagree for the last double precision number before a midnight: the date is the next day, the time of day is before 24 hours. A profile with this
time is at the end of the next day. -/
theorem C183_wrong_end : IsDouble (1700006400 - 1 / 2 ^ 22) ∧ dateMicros 0 (1700006400 - 1 / 2 ^ 22) = 19676 ∧
    (seconds2hoursFloat 2 fun i => if i = 0 then 1700006400 - 1 / 2 ^ 22 else 1700006401).toOption.map (fun f => decide (23.999999 < f 0 ∧ f 0 < 24)) = some true := by
  refine ⟨⟨1700006400 * 2 ^ 22 - 1, -22, by norm_num, by norm_num [NcType.format], by simp [NcType.format]⟩, by decide +kernel, by decide +kernel⟩

/-- **C180.** Times of day of instruments with clock times (weather stations and others): the hours are exact up to 1e-13, between 0 and 24, and in the same order as the whole seconds
of the clock; the same hours are given by the same second only. -/
theorem C180_clock (t t' : ClockTime) (h : t.hour < 24 ∧ t.minute < 60 ∧ t.second < 60) (h' : t'.hour < 24 ∧ t'.minute < 60 ∧ t'.second < 60) :
    |clockHoursFloat t - (3600 * t.hour + 60 * t.minute + t.second) / 3600| ≤ 1 / 10 ^ 13 ∧ 0 ≤ clockHoursFloat t ∧ clockHoursFloat t < 24 ∧
    (clockHoursFloat t < clockHoursFloat t' ↔ 3600 * t.hour + 60 * t.minute + t.second < 3600 * t'.hour + 60 * t'.minute + t'.second) := by
  have near : ∀ c : ClockTime, c.hour < 24 ∧ c.minute < 60 ∧ c.second < 60 →
      |clockHoursFloat c - (3600 * c.hour + 60 * c.minute + c.second) / 3600| ≤ 1 / 10 ^ 13 := by
    rintro c ⟨c1, c2, c3⟩
    have c1' : (c.hour : ℚ) ≤ 24 := by exact_mod_cast c1.le
    have c2' : (c.minute : ℚ) ≤ 60 := by exact_mod_cast c2.le
    have c3' : (c.second : ℚ) ≤ 60 := by exact_mod_cast c3.le
    have n1 : (0 : ℚ) ≤ c.hour := Nat.cast_nonneg _
    have n2 : (0 : ℚ) ≤ c.minute := Nat.cast_nonneg _
    have n3 : (0 : ℚ) ≤ c.second := Nat.cast_nonneg _
    have a := fl_absolute ((c.minute : ℚ) / 60) (by rw [abs_of_nonneg (by positivity)]; linarith)
    have b := fl_absolute ((c.second : ℚ) / 3600) (by rw [abs_of_nonneg (by positivity)]; linarith)
    have d : |(c.hour : ℚ) + fl (c.minute / 60) - (c.hour + c.minute / 60)| ≤ 1 / 10 ^ 14 := by
      rw [add_sub_add_left_eq_sub]
      exact a
    have e := fl_near d (by norm_num) (by rw [abs_of_nonneg (by positivity)]; linarith)
    have f : |fl ((c.hour : ℚ) + fl (c.minute / 60)) + fl (c.second / 3600) - (3600 * c.hour + 60 * c.minute + c.second) / 3600| ≤ 3 / 10 ^ 14 := by
      rw [abs_le] at b e ⊢
      constructor <;> linarith
    have g := fl_near f (by norm_num) (by rw [abs_of_nonneg (by positivity)]; linarith)
    unfold clockHoursFloat
    refine g.trans ?_
    norm_num
  have a := abs_le.1 (near t h)
  have b := abs_le.1 (near t' h')
  have small : (2 : ℚ) / 10 ^ 13 < 1 / 3600 := by norm_num
  refine ⟨near t h, ?_, ?_, ?_⟩
  · unfold clockHoursFloat
    refine fl_nonneg (add_nonneg (fl_nonneg (add_nonneg (Nat.cast_nonneg _) (fl_nonneg (by positivity)))) (fl_nonneg (by positivity)))
  · obtain ⟨c1, c2, c3⟩ := h
    have : 3600 * t.hour + 60 * t.minute + t.second ≤ 86399 := by omega
    have : (3600 * t.hour + 60 * t.minute + t.second : ℚ) ≤ 86399 := by exact_mod_cast this
    linarith
  · constructor
    · intro hlt
      by_contra hc
      push Not at hc
      rcases Nat.lt_or_eq_of_le hc with hc | hc
      · have : (3600 * t'.hour + 60 * t'.minute + t'.second : ℚ) + 1 ≤ 3600 * t.hour + 60 * t.minute + t.second := by exact_mod_cast hc
        linarith
      · have e1 : t'.hour = t.hour := by omega
        have e2 : t'.minute = t.minute := by omega
        have e3 : t'.second = t.second := by omega
        unfold clockHoursFloat at hlt
        rw [e1, e2, e3] at hlt
        exact lt_irrefl _ hlt
    · intro hlt
      have : (3600 * t.hour + 60 * t.minute + t.second : ℚ) + 1 ≤ 3600 * t'.hour + 60 * t'.minute + t'.second := by exact_mod_cast hlt
      linarith

example : (23 < 24 ∧ 59 < 60 ∧ 59 < 60) ∧ clockHoursFloat ⟨23, 59, 59, 0⟩ ≠ 86399 / 3600 := by decide +kernel

end Cloudnet
