import Verif.FloatHeight.Model
import Verif.FloatMean.Props

/-!
C186: heights of gates in single precision.
-/

namespace Cloudnet

theorem round_small (t : NcType) (x b : ℚ) (h : |x| ≤ b) (hb : 1 ≤ b) : |roundFloat t.format x - x| ≤ b * (1001 / 1000) / 2 ^ 24 := by
  have hx : |x| / 2 ^ 24 ≤ b / 2 ^ 24 := div_le_div_of_nonneg_right h (by positivity)
  have ht : (1 : ℚ) / 2 ^ 149 ≤ 1 / 2 ^ 40 := by norm_num
  have hbb : b * (1001 / 1000) / 2 ^ 24 = b / 2 ^ 24 + b * (1 / 1000 / 2 ^ 24) := by ring
  have hb2 : (1 : ℚ) * (1 / 1000 / 2 ^ 24) ≤ b * (1 / 1000 / 2 ^ 24) := mul_le_mul_of_nonneg_right hb (by norm_num)
  have hc : (1 : ℚ) / 2 ^ 40 ≤ 1 * (1 / 1000 / 2 ^ 24) := by norm_num
  cases t with
  | i2 | i4 | f4 =>
    show |roundFloat NcType.f4.format x - x| ≤ _
    have := fl4_any x
    unfold fl4 at this
    linarith
  | f8 =>
    have := fl_any x
    unfold fl at this
    have h8 : |x| / 2 ^ 53 ≤ |x| / 2 ^ 24 := div_le_div_of_nonneg_left (abs_nonneg x) (by positivity) (by norm_num)
    have h9 : (1 : ℚ) / 2 ^ 1074 ≤ 1 / 2 ^ 149 := one_div_le_one_div_of_le (by positivity) (pow_le_pow_right₀ (by norm_num) (by norm_num))
    linarith

/-- **C186.** Up to 32 km the stored height of a gate differs from the exact one by less than 7 mm, whether heights are computed in single or in double precision. -/
theorem C186_near (t : NcType) (altitude cosine range : ℚ) (h0 : |range * cosine| ≤ 32000) (h1 : |range * cosine + altitude| ≤ 32000) :
    |gateHeight t altitude cosine range - (range * cosine + altitude)| < 7 / 1000 := by
  unfold gateHeight
  set y := range * cosine
  have a := round_small t y 32000 h0 (by norm_num)
  set y' := roundFloat t.format y
  have e1 : |y' + altitude - (y + altitude)| ≤ 32000 * (1001 / 1000) / 2 ^ 24 := by rwa [add_sub_add_right_eq_sub]
  have b1 : |y' + altitude| ≤ 32001 := by
    have := abs_add_le (y' + altitude - (y + altitude)) (y + altitude)
    rw [sub_add_cancel] at this
    have n : (32000 : ℚ) * (1001 / 1000) / 2 ^ 24 ≤ 1 := by norm_num
    linarith
  have b := round_small t (y' + altitude) 32001 b1 (by norm_num)
  set z := roundFloat t.format (y' + altitude)
  have c1 : |z| ≤ 32002 := by
    have := abs_add_le (z - (y' + altitude)) (y' + altitude)
    rw [sub_add_cancel] at this
    have n : (32001 : ℚ) * (1001 / 1000) / 2 ^ 24 ≤ 1 := by norm_num
    linarith
  have c := round_small .f4 z 32002 c1 (by norm_num)
  have f := abs_add_le (fl4 z - z) (z - (y' + altitude))
  have g := abs_add_le (fl4 z - z + (z - (y' + altitude))) (y' + altitude - (y + altitude))
  rw [show fl4 z - z + (z - (y' + altitude)) + (y' + altitude - (y + altitude)) = fl4 z - (y + altitude) by ring] at g
  have c' : |fl4 z - z| ≤ 32002 * (1001 / 1000) / 2 ^ 24 := c
  have n : (32000 : ℚ) * (1001 / 1000) / 2 ^ 24 + 32001 * (1001 / 1000) / 2 ^ 24 + 32002 * (1001 / 1000) / 2 ^ 24 < 7 / 1000 := by norm_num
  linarith

/-- **C186.** Higher gates never have smaller heights. -/
theorem C186_mono (t : NcType) (altitude cosine : ℚ) (hc : 0 ≤ cosine) {r s : ℚ} (h : r ≤ s) : gateHeight t altitude cosine r ≤ gateHeight t altitude cosine s := by
  have hd := format_digits t
  unfold gateHeight
  refine roundFloat_mono _ (by simp [NcType.format]) (roundFloat_mono _ (by omega) ?_)
  exact add_le_add (roundFloat_mono _ (by omega) (mul_le_mul_of_nonneg_right h hc)) le_rfl

/-- **C186.** Gates whose heights are at least 14 mm apart have different stored heights: heights strictly increase, as interpolation and regridding need. -/
theorem C186_increasing (t : NcType) (altitude cosine r s : ℚ) (hgap : r * cosine + 14 / 1000 ≤ s * cosine)
    (h0 : |r * cosine| ≤ 32000) (h1 : |r * cosine + altitude| ≤ 32000) (h2 : |s * cosine| ≤ 32000) (h3 : |s * cosine + altitude| ≤ 32000) :
    gateHeight t altitude cosine r < gateHeight t altitude cosine s := by
  have a := abs_lt.1 (C186_near t altitude cosine r h0 h1)
  have b := abs_lt.1 (C186_near t altitude cosine s h2 h3)
  linarith [a.2, b.1]

/-- **C186.** No gate is below the instrument: for an altitude that single precision has, the stored height is at least the altitude, and equal to it at range zero. -/
theorem C186_altitude (t : NcType) (altitude cosine range : ℚ) (ha : Spec.Representable NcType.f4.format altitude) (hc : 0 ≤ cosine) (hr : 0 ≤ range) :
    altitude ≤ gateHeight t altitude cosine range ∧ gateHeight t altitude cosine 0 = altitude := by
  have hrep : Spec.Representable t.format altitude := by
    cases t with
    | i2 | i4 | f4 => exact ha
    | f8 =>
      obtain ⟨m, e, hx, hm, he⟩ := ha
      refine ⟨m, e, hx, hm.trans ?_, le_trans ?_ he⟩
      · simp [NcType.format]
      · simp [NcType.format]
  have hz : gateHeight t altitude cosine 0 = altitude := by
    unfold gateHeight fl4
    rw [zero_mul, roundFloat_zero, zero_add, roundFloat_fixed _ _ hrep, roundFloat_fixed _ _ ha]
  refine ⟨?_, hz⟩
  have := C186_mono t altitude cosine hc hr
  rwa [hz] at this

/-- **C186, a limit.** Above 16 km gates one millimetre apart can have the same stored height. -/
theorem C186_equal : gateHeight .f8 100 1 20000 = gateHeight .f8 100 1 (20000 + 1 / 2000) ∧ gateHeight .f4 100 1 20000 = gateHeight .f4 100 1 (20000 + 1 / 2000) := by
  decide +kernel

/-- A radar that is tilted by a quarter of a degree or so, at 107 m: gates 30 m apart. -/
example : |(1000 : ℚ) * (99999 / 100000)| ≤ 32000 ∧ |(1000 : ℚ) * (99999 / 100000) + 107| ≤ 32000 ∧ (1000 : ℚ) * (99999 / 100000) + 14 / 1000 ≤ 1030 * (99999 / 100000) ∧
    Spec.Representable NcType.f4.format (107 : ℚ) ∧ gateHeight .f4 107 1 1000 = 1107 := by
  refine ⟨by norm_num, by norm_num, by norm_num, ⟨107, 0, by norm_num, by norm_num [NcType.format], by norm_num [NcType.format]⟩, by decide +kernel⟩

end Cloudnet
