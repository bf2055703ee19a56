import Mathlib.Tactic
import Verif.FloatGrid.Model
import Verif.Stored.Props
import Verif.Interp.Props

/-!
C179: the time grid in double precision.
-/

namespace Cloudnet

/-- Half a unit in the last place of one. -/
def flUnit : ℚ := 1 / 2 ^ 53

theorem flUnit_pos : 0 < flUnit := by unfold flUnit; positivity

/-- The relative error of one operation. -/
theorem fl_error (x : ℚ) (hx : 1 / 100000 ≤ x) : |fl x - x| ≤ x * flUnit := by
  have h := roundFloat_error NcType.f8.format x (by
    rw [abs_of_nonneg (by linarith [show (0 : ℚ) < 1 / 100000 by norm_num])]
    refine le_trans ?_ hx
    have : (2 : ℚ) ^ (NcType.f8.format.least + NcType.f8.format.digits - 1) ≤ 2 ^ (-17 : ℤ) :=
      zpow_le_zpow_right₀ (by norm_num) (by simp [NcType.format])
    refine this.trans ?_
    norm_num)
  rw [abs_of_nonneg (by linarith [show (0 : ℚ) < 1 / 100000 by norm_num] : (0 : ℚ) ≤ x)] at h
  unfold fl flUnit
  refine h.trans (le_of_eq ?_)
  simp only [NcType.format]
  ring

/-- `x` is `y` up to a relative error of `a` units. -/
def Within (a : ℚ) (x y : ℚ) : Prop := y * (1 - a * flUnit) ≤ x ∧ x ≤ y * (1 + a * flUnit)

theorem within_fl {a x y : ℚ} (h : Within a x y) (hy : 1 / 50000 ≤ y) (h0 : 0 ≤ a) (ha : a ≤ 1000) : Within (a + 2) (fl x) y := by
  have hu := flUnit_pos
  have hu' : flUnit ≤ 1 / 1000000 := by unfold flUnit; norm_num
  have hau : a * flUnit ≤ 1 / 1000 := by nlinarith
  have hau0 : 0 ≤ a * flUnit := mul_nonneg h0 hu.le
  have hy0 : 0 < y := by linarith [show (0 : ℚ) < 1 / 50000 by norm_num]
  obtain ⟨h1, h2⟩ := h
  have hx : 1 / 100000 ≤ x := by nlinarith
  have he := abs_le.1 (fl_error x hx)
  have hxu : x * flUnit ≤ y * (1 + a * flUnit) * flUnit := mul_le_mul_of_nonneg_right h2 hu.le
  have hy1 : y * (1 + a * flUnit) * flUnit ≤ y * (2 * flUnit) := by
    rw [mul_assoc]
    apply mul_le_mul_of_nonneg_left _ hy0.le
    apply mul_le_mul_of_nonneg_right _ hu.le
    linarith
  constructor
  · have : y * (1 - (a + 2) * flUnit) = y * (1 - a * flUnit) - y * (2 * flUnit) := by ring
    rw [this]
    linarith
  · have : y * (1 + (a + 2) * flUnit) = y * (1 + a * flUnit) + y * (2 * flUnit) := by ring
    rw [this]
    linarith

theorem within_refl (x : ℚ) : Within 0 x x := by constructor <;> simp

/-- The numbers of a time grid with step `t` (hours). -/
theorem grid_numbers (t : ℚ) (h1 : 1 / 3600 ≤ t) (h24 : t ≤ 24) :
    let half := fl (fl t / 2)
    let delta := fl (half * 2)
    Within 4 half (t / 2) ∧ Within 6 delta t ∧ Within 6 (fl (fl (24 + half) - half)) 24 ∧ Within 8 (fl (half + delta)) (3 * t / 2) ∧
    Within 16 (fl (fl (half + delta) - half)) t := by
  intro half delta
  have hu := flUnit_pos
  have hu' : flUnit ≤ 1 / 1000000 := by unfold flUnit; norm_num
  have w1 : Within 2 (fl t) t := by
    have := within_fl (within_refl t) (by linarith) le_rfl (by norm_num)
    rwa [zero_add] at this
  have w2 : Within 4 half (t / 2) := by
    have : Within 2 (fl t / 2) (t / 2) := ⟨by linarith [w1.1], by linarith [w1.2]⟩
    have := within_fl this (by linarith) (by norm_num) (by norm_num)
    norm_num at this
    exact this
  have w3 : Within 6 delta t := by
    have : Within 4 (half * 2) t := ⟨by linarith [w2.1], by linarith [w2.2]⟩
    have := within_fl this (by linarith) (by norm_num) (by norm_num)
    norm_num at this
    exact this
  have tu : 0 ≤ t * flUnit := by positivity
  have tu24 : t * flUnit ≤ 24 * flUnit := mul_le_mul_of_nonneg_right h24 hu.le
  have hhalf : half ≤ 13 := by have := w2.2; nlinarith
  have hhalf0 : 0 ≤ half := by have := w2.1; nlinarith
  have w4 : Within 6 (fl (fl (24 + half) - half)) 24 := by
    have hs := within_fl (within_refl (24 + half)) (by linarith) le_rfl (by norm_num)
    have hb : (24 + half) * flUnit ≤ 37 * flUnit := mul_le_mul_of_nonneg_right (by linarith) hu.le
    have : Within 4 (fl (24 + half) - half) 24 := by
      obtain ⟨a, b⟩ := hs
      constructor <;> nlinarith
    have := within_fl this (by norm_num) (by norm_num) (by norm_num)
    norm_num at this
    exact this
  have w5 : Within 8 (fl (half + delta)) (3 * t / 2) := by
    have : Within 6 (half + delta) (3 * t / 2) := by
      obtain ⟨a, b⟩ := w2
      obtain ⟨c, d⟩ := w3
      constructor <;> nlinarith
    have := within_fl this (by linarith) (by norm_num) (by norm_num)
    norm_num at this
    exact this
  refine ⟨w2, w3, w4, w5, ?_⟩
  have : Within 14 (fl (half + delta) - half) t := by
    obtain ⟨a, b⟩ := w2
    obtain ⟨c, d⟩ := w5
    constructor <;> nlinarith
  have := within_fl this (by linarith) (by norm_num) (by norm_num)
  norm_num at this
  exact this

/-- The quotient that gives the number of points. -/
theorem grid_quotient (t : ℚ) (h1 : 1 / 3600 ≤ t) (h24 : t ≤ 24) :
    Within 16 (fl (fl (fl (24 + fl (fl t / 2)) - fl (fl t / 2)) / fl (fl (fl t / 2) * 2))) (24 / t) := by
  obtain ⟨-, w3, w4, -, -⟩ := grid_numbers t h1 h24
  have hu := flUnit_pos
  have hu' : flUnit ≤ 1 / 1000000 := by unfold flUnit; norm_num
  have ht : 0 < t := by linarith [show (0 : ℚ) < 1 / 3600 by norm_num]
  set num := fl (fl (24 + fl (fl t / 2)) - fl (fl t / 2))
  set delta := fl (fl (fl t / 2) * 2)
  have hd : 0 < delta := by
    have := w3.1
    have : 0 < t * (1 - 6 * flUnit) := mul_pos ht (by linarith)
    linarith
  have hq : 0 < 24 / t := by positivity
  have hqt : 24 / t * t = 24 := by field_simp
  have w : Within 14 (num / delta) (24 / t) := by
    constructor
    · rw [le_div_iff₀ hd]
      have e1 : 24 / t * (1 - 14 * flUnit) * delta ≤ 24 / t * (1 - 14 * flUnit) * (t * (1 + 6 * flUnit)) :=
        mul_le_mul_of_nonneg_left w3.2 (mul_nonneg hq.le (by linarith))
      have e2 : 24 / t * (1 - 14 * flUnit) * (t * (1 + 6 * flUnit)) = 24 * ((1 - 14 * flUnit) * (1 + 6 * flUnit)) := by
        field_simp
      rw [e2] at e1
      have := w4.1
      nlinarith
    · rw [div_le_iff₀ hd]
      have e1 : 24 / t * (1 + 14 * flUnit) * (t * (1 - 6 * flUnit)) ≤ 24 / t * (1 + 14 * flUnit) * delta :=
        mul_le_mul_of_nonneg_left w3.1 (mul_nonneg hq.le (by linarith))
      have e2 : 24 / t * (1 + 14 * flUnit) * (t * (1 - 6 * flUnit)) = 24 * ((1 + 14 * flUnit) * (1 - 6 * flUnit)) := by
        field_simp
      rw [e2] at e1
      have := w4.2
      nlinarith
  have := within_fl w (by
    rw [le_div_iff₀ ht]
    linarith) (by norm_num) (by norm_num)
  norm_num at this
  exact this

/-- Number of points of the grid. -/
def gridLength (s : ℕ) : ℕ :=
  ⌈fl (fl (fl (24 + fl (fl ((s : ℚ) / 3600) / 2)) - fl (fl ((s : ℚ) / 3600) / 2)) / fl (fl (fl ((s : ℚ) / 3600) / 2) * 2))⌉₊

theorem gridLength_divisors : ∀ a < 8, ∀ b < 4, ∀ c < 3, gridLength (2 ^ a * 3 ^ b * 5 ^ c) * (2 ^ a * 3 ^ b * 5 ^ c) = 86400 := by
  decide +kernel

theorem divisor_of_day (s : ℕ) (h : s ∣ 86400) : ∃ a < 8, ∃ b < 4, ∃ c < 3, s = 2 ^ a * 3 ^ b * 5 ^ c := by
  have e : 86400 = 2 ^ 7 * 3 ^ 3 * 5 ^ 2 := by norm_num
  rw [e] at h
  obtain ⟨k, k3, hk, h3, rfl⟩ := (Nat.dvd_mul).1 h
  obtain ⟨k1, k2, h1, h2, rfl⟩ := (Nat.dvd_mul).1 hk
  obtain ⟨a, ha, rfl⟩ := (Nat.dvd_prime_pow Nat.prime_two).1 h1
  obtain ⟨b, hb, rfl⟩ := (Nat.dvd_prime_pow Nat.prime_three).1 h2
  obtain ⟨c, hc, rfl⟩ := (Nat.dvd_prime_pow Nat.prime_five).1 h3
  exact ⟨a, by omega, b, by omega, c, by omega, rfl⟩

/-- The number of points is the number of steps that cover the day. -/
theorem gridLength_eq (s : ℕ) (h1 : 1 ≤ s) (h2 : s ≤ 86400) : 86400 ≤ gridLength s * s ∧ ∀ m, 86400 ≤ m * s → gridLength s ≤ m := by
  by_cases hd : s ∣ 86400
  · obtain ⟨a, ha, b, hb, c, hc, e⟩ := divisor_of_day s hd
    have := gridLength_divisors a ha b hb c hc
    rw [← e] at this
    refine ⟨this.ge, fun m hm => ?_⟩
    rw [← this] at hm
    exact Nat.le_of_mul_le_mul_right hm (by omega)
  · have hs : (0 : ℚ) < s := by exact_mod_cast h1
    have h1' : (1 : ℚ) ≤ s := by exact_mod_cast h1
    have h2' : (s : ℚ) ≤ 86400 := by exact_mod_cast h2
    have w := grid_quotient ((s : ℚ) / 3600) (by linarith) (by linarith)
    have e : 24 / ((s : ℚ) / 3600) = 86400 / s := by field_simp; norm_num
    rw [e] at w
    have hb : 86400 / (s : ℚ) * (16 * flUnit) < 1 / s := by
      rw [div_mul_eq_mul_div]
      apply div_lt_div_of_pos_right _ hs
      unfold flUnit
      norm_num
    obtain ⟨w1, w2⟩ := w
    unfold gridLength
    set q := fl (fl (fl (24 + fl (fl ((s : ℚ) / 3600) / 2)) - fl (fl ((s : ℚ) / 3600) / 2)) / fl (fl (fl ((s : ℚ) / 3600) / 2) * 2))
    have l1 : 86400 / (s : ℚ) - 1 / s < q := by
      have : 86400 / (s : ℚ) * (1 - 16 * flUnit) = 86400 / s - 86400 / s * (16 * flUnit) := by ring
      linarith
    have l2 : q < 86400 / (s : ℚ) + 1 / s := by
      have : 86400 / (s : ℚ) * (1 + 16 * flUnit) = 86400 / s + 86400 / s * (16 * flUnit) := by ring
      linarith
    have le : ∀ m : ℕ, 86400 ≤ m * s → q ≤ m := by
      intro m hm
      have hne : m * s ≠ 86400 := fun e => hd ⟨m, by rw [← e, mul_comm]⟩
      have hm' : (86400 : ℚ) + 1 ≤ m * s := by exact_mod_cast (show 86400 + 1 ≤ m * s by omega)
      have : 86400 / (s : ℚ) + 1 / s ≤ m := by
        rw [← add_div, div_le_iff₀ hs]
        exact hm'
      linarith
    refine ⟨?_, fun m hm => Nat.ceil_le.2 (le m hm)⟩
    by_contra hc
    push Not at hc
    have hc' : ((⌈q⌉₊ : ℕ) : ℚ) * s + 1 ≤ 86400 := by exact_mod_cast (show ⌈q⌉₊ * s + 1 ≤ 86400 by omega)
    have : ((⌈q⌉₊ : ℕ) : ℚ) ≤ 86400 / (s : ℚ) - 1 / s := by
      rw [← sub_div, le_div_iff₀ hs]
      linarith
    have := Nat.le_ceil q
    linarith

/-- **C179.** `time_grid` with the arithmetic of the machine, for every whole number of seconds up to a day: the number of points is exactly the least
number of steps that cover the day, as with exact numbers. Every point is the mid point of its step up to 1e-13 hours (less than a nanosecond), points
increase, and if the step divides the day all of them are inside the day. -/
theorem C179_time_grid (s : ℕ) (h1 : 1 ≤ s) (h2 : s ≤ 86400) :
    ∃ n g, timeGridFloat s = .ok (n, g) ∧ 86400 ≤ n * s ∧ (∀ m, 86400 ≤ m * s → n ≤ m) ∧
      (∀ i < n, |g i - (i + 1 / 2) * (s / 3600)| ≤ 1 / 10 ^ 13) ∧
      (∀ i j, i < j → j < n → g i < g j) ∧
      (s ∣ 86400 → ∀ i < n, 0 < g i ∧ g i < 24) := by
  obtain ⟨hl1, hl2⟩ := gridLength_eq s h1 h2
  have h1' : (1 : ℚ) ≤ s := by exact_mod_cast h1
  have h2' : (s : ℚ) ≤ 86400 := by exact_mod_cast h2
  set t : ℚ := (s : ℚ) / 3600 with ht
  have ht1 : 1 / 3600 ≤ t := by rw [ht]; linarith
  have ht24 : t ≤ 24 := by rw [ht]; linarith
  obtain ⟨w2, w3, w4, w5, w6⟩ := grid_numbers t ht1 ht24
  set half := fl (fl t / 2) with hhalf
  set delta := fl (half * 2) with hdelta
  have hu := flUnit_pos
  have hu' : 720 * flUnit ≤ 1 / 10 ^ 13 := by unfold flUnit; norm_num
  have hgrid : timeGridFloat (s : ℤ) = .ok (arangeFloat half (fl (24 + half)) delta) := by
    unfold timeGridFloat
    rw [if_neg (by omega)]
    rfl
  refine ⟨gridLength s, (arangeFloat half (fl (24 + half)) delta).2, hgrid.trans rfl, hl1, hl2, ?_⟩
  have hlt : ∀ i < gridLength s, i * s < 86400 := by
    intro i hi
    by_contra hc
    exact absurd (hl2 i (not_lt.1 hc)) (not_le.2 hi)
  have hwithin : ∀ i, Within 20 ((arangeFloat half (fl (24 + half)) delta).2 i) ((i + 1 / 2) * t) := by
    intro i
    unfold arangeFloat
    dsimp only
    have tu : 0 ≤ t * flUnit := by positivity
    by_cases h0 : i = 0
    · rw [if_pos h0, h0]
      obtain ⟨a, b⟩ := w2
      push_cast
      constructor <;> nlinarith
    · rw [if_neg h0]
      by_cases h01 : i = 1
      · rw [if_pos h01, h01]
        obtain ⟨a, b⟩ := w5
        push_cast
        constructor <;> nlinarith
      · rw [if_neg h01]
        have hi : (2 : ℚ) ≤ i := by exact_mod_cast (show 2 ≤ i by omega)
        have v1 : Within 16 ((i : ℚ) * fl (fl (half + delta) - half)) (i * t) := by
          obtain ⟨a, b⟩ := w6
          have i0 : (0 : ℚ) ≤ i := by linarith
          refine ⟨?_, ?_⟩
          · rw [mul_assoc]; exact mul_le_mul_of_nonneg_left a i0
          · rw [mul_assoc]; exact mul_le_mul_of_nonneg_left b i0
        have hit : 1 / 50000 ≤ (i : ℚ) * t := by nlinarith
        have v2 := within_fl v1 hit (by norm_num) (by norm_num)
        norm_num at v2
        have v3 : Within 18 (half + fl ((i : ℚ) * fl (fl (half + delta) - half))) ((i + 1 / 2) * t) := by
          obtain ⟨a, b⟩ := w2
          obtain ⟨c, d⟩ := v2
          constructor <;> nlinarith
        have v4 := within_fl v3 (by nlinarith) (by norm_num) (by norm_num)
        norm_num at v4
        norm_num
        exact v4
  have hnear : ∀ i < gridLength s, |(arangeFloat half (fl (24 + half)) delta).2 i - (i + 1 / 2) * t| ≤ 1 / 10 ^ 13 := by
    intro i hi
    obtain ⟨a, b⟩ := hwithin i
    have hi' : (i : ℚ) * s < 86400 := by exact_mod_cast hlt i hi
    have hit : ((i : ℚ) + 1 / 2) * t ≤ 36 := by
      rw [ht]
      have : ((i : ℚ) + 1 / 2) * (s / 3600) = ((i : ℚ) * s + s / 2) / 3600 := by ring
      rw [this]
      linarith
    have : ((i : ℚ) + 1 / 2) * t * flUnit ≤ 36 * flUnit := mul_le_mul_of_nonneg_right hit hu.le
    rw [abs_le]
    constructor <;> nlinarith
  refine ⟨hnear, fun i j hij hj => ?_, fun hd i hi => ?_⟩
  · have a := (abs_le.1 (hnear i (hij.trans hj))).2
    have b := (abs_le.1 (hnear j hj)).1
    have hij' : (i : ℚ) + 1 ≤ j := by exact_mod_cast hij
    have : ((i : ℚ) + 1 / 2) * t + t ≤ ((j : ℚ) + 1 / 2) * t := by nlinarith
    have : (2 : ℚ) / 10 ^ 13 < 1 / 3600 := by norm_num
    linarith
  · obtain ⟨a, b⟩ := abs_le.1 (hnear i hi)
    have hi0 : (0 : ℚ) ≤ i := Nat.cast_nonneg i
    have small : (1 : ℚ) / 10 ^ 13 < 1 / 7200 := by norm_num
    constructor
    · have : (1 : ℚ) / 7200 ≤ ((i : ℚ) + 1 / 2) * t := by nlinarith
      linarith
    · obtain ⟨N, hN⟩ := hd
      have hiN : i + 1 ≤ N := by
        have := hlt i hi
        rw [hN, mul_comm s N] at this
        exact Nat.lt_of_mul_lt_mul_right this
      have hNt : (N : ℚ) * t = 24 := by
        have : (86400 : ℚ) = s * N := by exact_mod_cast hN
        rw [ht, mul_div_assoc', mul_comm, ← this]
        norm_num
      have hiN' : (i : ℚ) + 1 ≤ N := by exact_mod_cast hiN
      have : ((i : ℚ) + 1 / 2) * t + t / 2 ≤ N * t := by nlinarith
      rw [hNt] at this
      linarith

/-- **C179.** The grid of the model with exact numbers (`C35_time_grid`) and the one of the machine have the same number of points, which differ by
1e-13 hours at most. -/
theorem C179_exact (s : ℕ) (h1 : 1 ≤ s) (h2 : s ≤ 86400) :
    ∃ n g g', timeGridFloat s = .ok (n, g) ∧ timeGrid (s : ℚ) = .ok (n, g') ∧ ∀ i < n, |g i - g' i| ≤ 1 / 10 ^ 13 := by
  obtain ⟨n, g, e, hn1, hn2, hg, -⟩ := C179_time_grid s h1 h2
  obtain ⟨n', g', e', hg', hn1', hn2', -⟩ := (C35_time_grid (s : ℚ)).2 (by exact_mod_cast h1)
  have hnn : n' = n := by
    apply le_antisymm
    · exact hn2' n (by exact_mod_cast hn1)
    · exact hn2 n' (by exact_mod_cast hn1')
  subst hnn
  refine ⟨n', g, g', e, e', fun i hi => ?_⟩
  rw [hg']
  exact hg i hi

/-- Too small steps are refused. -/
theorem C179_refused (s : ℤ) (h : s < 1) : ∃ e, timeGridFloat s = .error e := ⟨_, if_pos h⟩

/-- The standard grid has 2880 points. The first one is not exactly the mid point of the step. -/
example : (timeGridFloat 30).toOption.map (fun g => (g.1, decide (g.2 0 = 1 / 240))) = some (2880, false) := by decide +kernel

/-- **C179.** The same grid after writing it to a file in 32 bits and reading it: every point is the mid point of its step up to 3e-6 hours (11 ms), points increase, and
all of them are inside the day if the step divides the day. -/
theorem C179_stored (s : ℕ) (h1 : 1 ≤ s) (h2 : s ≤ 86400) (masked : Bool) :
    ∃ n g, ∃ r : ℕ → ℚ, timeGridFloat s = .ok (n, g) ∧ (∀ i < n, Spec.ReadsBack masked .f4 (some (g i)) (some (r i))) ∧
      (∀ i < n, |r i - (i + 1 / 2) * (s / 3600)| ≤ 3 / 10 ^ 6) ∧ (∀ i j, i < j → j < n → r i < r j) ∧ (s ∣ 86400 → ∀ i < n, 0 < r i ∧ r i < 24) := by
  obtain ⟨n, g, e, hn1, hn2, hg, -, -⟩ := C179_time_grid s h1 h2
  have h1' : (1 : ℚ) ≤ s := by exact_mod_cast h1
  have h2' : (s : ℚ) ≤ 86400 := by exact_mod_cast h2
  have hlt : ∀ i < n, i * s < 86400 := by
    intro i hi
    by_contra hc
    exact absurd (hn2 i (not_lt.1 hc)) (not_le.2 hi)
  have hmid : ∀ i < n, (1 : ℚ) / 7200 ≤ ((i : ℚ) + 1 / 2) * (s / 3600) ∧ ((i : ℚ) + 1 / 2) * (s / 3600) ≤ 36 := by
    intro i hi
    have hi' : (i : ℚ) * s < 86400 := by exact_mod_cast hlt i hi
    have hi0 : (0 : ℚ) ≤ (i : ℚ) * s := by positivity
    have : ((i : ℚ) + 1 / 2) * (s / 3600) = ((i : ℚ) * s + s / 2) / 3600 := by ring
    rw [this]
    constructor <;> linarith
  have hsmall : (1 : ℚ) / 10 ^ 13 ≤ 1 / 14400 := by norm_num
  have hpos : ∀ i < n, 1 / 14400 ≤ g i ∧ g i ≤ 37 := by
    intro i hi
    obtain ⟨a, b⟩ := abs_le.1 (hg i hi)
    obtain ⟨c, d⟩ := hmid i hi
    constructor <;> linarith
  have hread : ∀ i, ∃ y : ℚ, i < n → Spec.ReadsBack masked .f4 (some (g i)) (some y) ∧ |y - g i| ≤ 37 / 2 ^ 24 := by
    intro i
    by_cases hi : i < n
    · obtain ⟨a, b⟩ := hpos i hi
      have habs : |g i| = g i := abs_of_nonneg (by linarith)
      have h122 : (37 : ℚ) ≤ 2 ^ (122 : ℤ) := by norm_num
      obtain ⟨⟨y, hy, -, -, herr, -⟩, -⟩ := C162_numbers .f4 masked (g i) (by rw [habs]; linarith)
      refine ⟨y, fun _ => ⟨hy, (herr ?_).trans ?_⟩⟩
      · rw [habs]
        refine le_trans ?_ a
        have : (2 : ℚ) ^ (NcType.f4.format.least + NcType.f4.format.digits - 1) ≤ 2 ^ (-14 : ℤ) :=
          zpow_le_zpow_right₀ (by norm_num) (by simp [NcType.format])
        refine this.trans ?_
        norm_num
      · rw [habs]
        exact div_le_div_of_nonneg_right b (by positivity)
    · exact ⟨0, fun h => absurd h hi⟩
  choose r hr using hread
  have hnear : ∀ i < n, |r i - (i + 1 / 2) * (s / 3600)| ≤ 3 / 10 ^ 6 := by
    intro i hi
    obtain ⟨a, b⟩ := abs_le.1 (hr i hi).2
    obtain ⟨c, d⟩ := abs_le.1 (hg i hi)
    have : (37 : ℚ) / 2 ^ 24 + 1 / 10 ^ 13 ≤ 3 / 10 ^ 6 := by norm_num
    rw [abs_le]
    constructor <;> linarith
  refine ⟨n, g, r, e, fun i hi => (hr i hi).1, hnear, fun i j hij hj => ?_, fun hd i hi => ?_⟩
  · obtain ⟨-, a⟩ := abs_le.1 (hnear i (hij.trans hj))
    obtain ⟨b, -⟩ := abs_le.1 (hnear j hj)
    have hij' : (i : ℚ) + 1 ≤ j := by exact_mod_cast hij
    have hs : (0 : ℚ) < s / 3600 := by positivity
    have : ((i : ℚ) + 1 / 2) * (s / 3600) + s / 3600 ≤ ((j : ℚ) + 1 / 2) * (s / 3600) := by nlinarith
    have : (6 : ℚ) / 10 ^ 6 < 1 / 3600 := by norm_num
    linarith
  · obtain ⟨a, b⟩ := abs_le.1 (hnear i hi)
    have small : (3 : ℚ) / 10 ^ 6 < 1 / 7200 := by norm_num
    refine ⟨by linarith [(hmid i hi).1], ?_⟩
    obtain ⟨N, hN⟩ := hd
    have hiN : i + 1 ≤ N := by
      have := hlt i hi
      rw [hN, mul_comm s N] at this
      exact Nat.lt_of_mul_lt_mul_right this
    have hiN' : (i : ℚ) + 1 ≤ N := by exact_mod_cast hiN
    have hN' : (86400 : ℚ) = s * N := by exact_mod_cast hN
    have : ((i : ℚ) + 1 / 2) * (s / 3600) ≤ (s * N) / 3600 - s / 7200 := by
      have : (s : ℚ) * (i + 1) ≤ s * N := mul_le_mul_of_nonneg_left hiN' (by linarith)
      have e2 : ((i : ℚ) + 1 / 2) * (s / 3600) = s * (i + 1) / 3600 - s / 7200 := by ring
      rw [e2]
      linarith
    rw [← hN'] at this
    linarith

example : ∃ n g, ∃ r : ℕ → ℚ, timeGridFloat ((30 : ℕ) : ℤ) = .ok (n, g) ∧ (∀ i < n, Spec.ReadsBack true .f4 (some (g i)) (some (r i))) ∧ ∀ i < n, 0 < r i ∧ r i < 24 := by
  obtain ⟨n, g, r, e, h, -, -, h24⟩ := C179_stored 30 (by norm_num) (by norm_num) true
  exact ⟨n, g, r, e, h, h24 (by norm_num)⟩

/-! ### Times of day -/

/-- Numbers of double precision. -/
def IsDouble (x : ℚ) : Prop := Spec.Representable NcType.f8.format x

/-- The remainder of a double that is not negative is a double. -/
theorem npMod_double (x : ℚ) (h : IsDouble x) (h0 : 0 ≤ x) : IsDouble (npMod x 86400) := by
  obtain ⟨m, e, hx, hm, he⟩ := h
  obtain ⟨r0, r1, k, hk⟩ := npMod_spec x 86400 (by norm_num)
  have hq : 0 ≤ ⌊x / 86400⌋ := Int.floor_nonneg.2 (by positivity)
  have hle : npMod x 86400 ≤ x := by
    unfold npMod
    have : (0 : ℚ) ≤ ((⌊x / 86400⌋ : ℤ) : ℚ) := by exact_mod_cast hq
    linarith
  by_cases hpos : 0 ≤ e
  · obtain ⟨E, rfl⟩ := Int.eq_ofNat_of_zero_le hpos
    refine ⟨m * 2 ^ E - 86400 * ⌊x / 86400⌋, 0, ?_, ?_, by simp [NcType.format]⟩
    · unfold npMod
      rw [zpow_zero, mul_one]
      push_cast
      rw [← hx.trans (by simp : (m : ℚ) * 2 ^ ((E : ℕ) : ℤ) = m * 2 ^ E)]
    · have e1 : npMod x 86400 = ((m * 2 ^ E - 86400 * ⌊x / 86400⌋ : ℤ) : ℚ) := by
        unfold npMod
        push_cast
        rw [← hx.trans (by simp : (m : ℚ) * 2 ^ ((E : ℕ) : ℤ) = m * 2 ^ E)]
      rw [e1] at r0 r1
      have r0' : 0 ≤ m * 2 ^ E - 86400 * ⌊x / 86400⌋ := by exact_mod_cast r0
      have r1' : m * 2 ^ E - 86400 * ⌊x / 86400⌋ < 86400 := by exact_mod_cast r1
      rw [abs_of_nonneg r0']
      refine r1'.trans ?_
      simp [NcType.format]
  · obtain ⟨E, hE⟩ := Int.eq_ofNat_of_zero_le (show 0 ≤ -e by omega)
    have h2 : (0 : ℚ) < 2 ^ e := two_zpow_pos e
    have hmul : (2 : ℚ) ^ E * 2 ^ e = 1 := by
      rw [← zpow_natCast, ← zpow_add₀ (by norm_num), ← hE]
      simp
    have e1 : npMod x 86400 = ((m - 86400 * ⌊x / 86400⌋ * 2 ^ E : ℤ) : ℚ) * 2 ^ e := by
      unfold npMod
      push_cast
      rw [sub_mul, ← hx, mul_assoc _ ((2 : ℚ) ^ E), hmul, mul_one]
    refine ⟨_, e, e1, ?_, he⟩
    rw [e1] at r0 hle
    have c0 : 0 ≤ m - 86400 * ⌊x / 86400⌋ * 2 ^ E := by
      have := nonneg_of_mul_nonneg_left r0 h2
      exact_mod_cast this
    have c1 : m - 86400 * ⌊x / 86400⌋ * 2 ^ E ≤ m := by
      have : (0 : ℤ) ≤ 86400 * ⌊x / 86400⌋ * 2 ^ E := by positivity
      omega
    rw [abs_of_nonneg c0]
    exact lt_of_le_of_lt (c1.trans (le_abs_self m)) hm

/-- The largest double below 86400. -/
theorem double_below_day (r : ℚ) (h : IsDouble r) (h1 : r < 86400) : r ≤ 86400 - 1 / 2 ^ 36 := by
  by_cases hs : r ≤ 65536
  · refine hs.trans ?_
    norm_num
  · push Not at hs
    obtain ⟨m, e, hr, hm, -⟩ := h
    have h2 : (0 : ℚ) < 2 ^ e := two_zpow_pos e
    have he : -36 ≤ e := by
      by_contra hc
      have hle : (2 : ℚ) ^ e ≤ 2 ^ (-37 : ℤ) := zpow_le_zpow_right₀ (by norm_num) (by omega)
      have hm' : (m : ℚ) ≤ 2 ^ 53 := by
        have := (le_abs_self m).trans hm.le
        simp only [NcType.format] at this
        exact_mod_cast this
      have : r ≤ 2 ^ 53 * 2 ^ (-37 : ℤ) := by
        rw [hr]
        exact mul_le_mul hm' hle h2.le (by positivity)
      have h3 : (2 : ℚ) ^ 53 * 2 ^ (-37 : ℤ) = 65536 := by norm_num
      linarith
    obtain ⟨k, hk⟩ := div_two_zpow hr he
    have hr' : r = (k : ℚ) * 2 ^ (-36 : ℤ) := by
      rw [← hk]
      field_simp
    have h36 : (2 : ℚ) ^ (-36 : ℤ) = 1 / 2 ^ 36 := by norm_num
    rw [h36] at hr'
    have hk1 : k < 86400 * 2 ^ 36 := by
      have : (k : ℚ) < 86400 * 2 ^ 36 := by
        rw [hr'] at h1
        have : (k : ℚ) = k * (1 / 2 ^ 36) * 2 ^ 36 := by ring
        rw [this]
        exact mul_lt_mul_of_pos_right h1 (by positivity)
      exact_mod_cast this
    have hk2 : (k : ℚ) ≤ 86400 * 2 ^ 36 - 1 := by exact_mod_cast (show k ≤ 86400 * 2 ^ 36 - 1 by omega)
    rw [hr']
    have : (k : ℚ) * (1 / 2 ^ 36) ≤ (86400 * 2 ^ 36 - 1) * (1 / 2 ^ 36) := mul_le_mul_of_nonneg_right hk2 (by positivity)
    refine this.trans (le_of_eq ?_)
    norm_num

theorem f8_digits : 1 ≤ NcType.f8.format.digits := by simp [NcType.format]

theorem fl_mono {x y : ℚ} (h : x ≤ y) : fl x ≤ fl y := roundFloat_mono _ f8_digits h

theorem fl_fixed {x : ℚ} (h : IsDouble x) : fl x = x := roundFloat_fixed _ x h

theorem fl_nonneg {x : ℚ} (h : 0 ≤ x) : 0 ≤ fl x := by
  have := fl_mono h
  rwa [show fl 0 = 0 from roundFloat_zero _] at this

theorem fl_hours_lt (r : ℚ) (h : IsDouble r) (h1 : r < 86400) : fl (r / 3600) < 24 := by
  have h2 := double_below_day r h h1
  have h3 : r / 3600 ≤ 24 - 1 / 2 ^ 48 := by
    rw [div_le_iff₀ (by norm_num)]
    refine h2.trans ?_
    norm_num
  have h4 : IsDouble (24 - 1 / 2 ^ 48) := ⟨24 * 2 ^ 48 - 1, -48, by norm_num, by norm_num [NcType.format], by simp [NcType.format]⟩
  have h5 := fl_mono h3
  rw [fl_fixed h4] at h5
  refine lt_of_le_of_lt h5 ?_
  norm_num

/-- The error of hours. -/
theorem fl_hours_error (x : ℚ) (h0 : 0 ≤ x) (h1 : x ≤ 24) : |fl x - x| ≤ 24 / 2 ^ 53 := by
  by_cases hx : 1 / 2 ^ 1000 ≤ x
  · have h := roundFloat_error NcType.f8.format x (by
      rw [abs_of_nonneg h0]
      refine le_trans ?_ hx
      have : (2 : ℚ) ^ (NcType.f8.format.least + NcType.f8.format.digits - 1) ≤ 2 ^ (-1000 : ℤ) :=
        zpow_le_zpow_right₀ (by norm_num) (by simp [NcType.format])
      refine this.trans (le_of_eq ?_)
      rw [zpow_neg, one_div]
      norm_cast)
    rw [abs_of_nonneg h0] at h
    exact h.trans (div_le_div_of_nonneg_right h1 (by positivity))
  · push Not at hx
    have h := roundFloat_nearest NcType.f8.format f8_digits x 0 ⟨0, 0, by simp, by simp [NcType.format], by simp [NcType.format]⟩
    rw [zero_sub, abs_neg, abs_of_nonneg h0] at h
    refine h.trans (hx.le.trans ?_)
    have : (1 : ℚ) / 2 ^ 1000 ≤ 1 / 2 ^ 53 := one_div_le_one_div_of_le (by positivity) (pow_le_pow_right₀ (by norm_num) (by norm_num))
    refine this.trans ?_
    exact div_le_div_of_nonneg_right (by norm_num) (by positivity)

namespace Spec

/-- Seconds since the last midnight. -/
def IsSecondOfDay (x r : ℚ) : Prop := 0 ≤ r ∧ r < 86400 ∧ ∃ day : ℤ, x = 86400 * day + r

end Spec

theorem isSecondOfDay_unique {x r : ℚ} (h : Spec.IsSecondOfDay x r) : npMod x 86400 = r := by
  obtain ⟨h0, h1, d, hd⟩ := h
  have : ⌊x / 86400⌋ = d := by
    rw [Int.floor_eq_iff, le_div_iff₀ (by norm_num), div_lt_iff₀ (by norm_num)]
    constructor <;> linarith
  unfold npMod
  rw [this]
  linarith

/-- **C180.** `seconds2hours` in double precision, for times from the epoch on: every time is the exact time of day up to 3e-15 hours (10 picoseconds). It is in the day and
less than 24, except that the last time is 24 if it is at midnight. Later times of a day are never before earlier ones. -/
theorem C180_hours (n : ℕ) (s : ℕ → ℚ) (hn : 0 < n) (hd : ∀ i < n, IsDouble (s i)) (h0 : ∀ i < n, 0 ≤ s i) :
    ∃ f, seconds2hoursFloat n s = .ok f ∧
      (∀ i < n, ∀ r, Spec.IsSecondOfDay (s i) r →
        (i = n - 1 ∧ f i = 24 ∧ r ≤ 1 / 10 ^ 9) ∨ (0 ≤ f i ∧ f i < 24 ∧ |f i - r / 3600| ≤ 3 / 10 ^ 15)) ∧
      (∀ r, Spec.IsSecondOfDay (s (n - 1)) r → 0 < f (n - 1) ∧ (r = 0 → f (n - 1) = 24) ∧ (1 / 10 ^ 9 < r → f (n - 1) < 24)) ∧
      (∀ i < n, ∀ j < n, i < j → ∀ r r', Spec.IsSecondOfDay (s i) r → Spec.IsSecondOfDay (s j) r' → r ≤ r' → f i ≤ f j) := by
  have hval : ∀ i < n, ∀ r, Spec.IsSecondOfDay (s i) r →
      fl (npMod (s i) 86400) = r ∧ 0 ≤ fl (r / 3600) ∧ fl (r / 3600) < 24 ∧ |fl (r / 3600) - r / 3600| ≤ 24 / 2 ^ 53 := by
    intro i hi r hr
    have hm := npMod_double (s i) (hd i hi) (h0 i hi)
    rw [isSecondOfDay_unique hr] at hm ⊢
    obtain ⟨r0, r1, -⟩ := hr
    refine ⟨fl_fixed hm, fl_nonneg (by positivity), fl_hours_lt r hm r1, fl_hours_error _ (by positivity) ?_⟩
    rw [div_le_iff₀ (by norm_num)]
    linarith
  refine ⟨_, by unfold seconds2hoursFloat; rw [if_neg (by omega)], ?_, ?_, ?_⟩
  · intro i hi r hr
    obtain ⟨e1, e2, e3, e4⟩ := hval i hi r hr
    dsimp only
    split
    · next hc =>
      obtain ⟨rfl, hz⟩ := hc
      rw [e1] at hz
      refine Or.inl ⟨rfl, rfl, ?_⟩
      rw [hz, zero_sub, abs_neg, abs_of_nonneg (div_nonneg hr.1 (by norm_num)), div_le_iff₀ (by norm_num)] at e4
      refine e4.trans ?_
      norm_num
    · rw [e1]
      refine Or.inr ⟨e2, e3, e4.trans ?_⟩
      norm_num
  · intro r hr
    obtain ⟨e1, e2, e3, e4⟩ := hval (n - 1) (by omega) r hr
    dsimp only
    split
    · next hc =>
      obtain ⟨-, hz⟩ := hc
      rw [e1] at hz
      refine ⟨by norm_num, fun _ => rfl, fun hb => ?_⟩
      rw [hz, zero_sub, abs_neg, abs_of_nonneg (div_nonneg hr.1 (by norm_num)), div_le_iff₀ (by norm_num)] at e4
      have : (24 : ℚ) / 2 ^ 53 * 3600 < 1 / 10 ^ 9 := by norm_num
      linarith
    · next hc =>
      have hne : fl (r / 3600) ≠ 0 := fun h => hc ⟨rfl, by rw [e1]; exact h⟩
      rw [e1]
      refine ⟨lt_of_le_of_ne e2 (Ne.symm hne), fun hr0 => ?_, fun _ => e3⟩
      exfalso
      apply hne
      rw [hr0, zero_div]
      exact roundFloat_zero _
  · intro i hi j hj hij r r' hr hr' hle
    obtain ⟨e1, e2, e3, -⟩ := hval i hi r hr
    obtain ⟨e1', -⟩ := hval j hj r' hr'
    dsimp only
    rw [if_neg (by omega), e1]
    split
    · exact e3.le
    · rw [e1']
      exact fl_mono (div_le_div_of_nonneg_right hle (by norm_num))

/-- **C180.** Whole seconds are not lost: times of day can be converted back to the exact second, and different seconds give different times. -/
theorem C180_whole_seconds (n : ℕ) (s : ℕ → ℚ) (hn : 0 < n) (hd : ∀ i < n, IsDouble (s i)) (h0 : ∀ i < n, 0 ≤ s i) :
    ∃ f, seconds2hoursFloat n s = .ok f ∧ ∀ i < n - 1, ∀ k : ℕ, Spec.IsSecondOfDay (s i) k →
      round (f i * 3600) = k ∧ ∀ j < n - 1, ∀ l : ℕ, Spec.IsSecondOfDay (s j) l → (f i < f j ↔ k < l) := by
  obtain ⟨f, e, h1, -, -⟩ := C180_hours n s hn hd h0
  have near : ∀ i < n - 1, ∀ k : ℕ, Spec.IsSecondOfDay (s i) k → |f i * 3600 - k| ≤ 1 / 10 ^ 9 := by
    intro i hi k hk
    rcases h1 i (by omega) k hk with ⟨hh, -⟩ | ⟨-, -, hh⟩
    · omega
    · have : f i * 3600 - k = (f i - k / 3600) * 3600 := by ring
      rw [this, abs_mul, abs_of_nonneg (by norm_num : (0 : ℚ) ≤ 3600)]
      calc |f i - k / 3600| * 3600 ≤ 3 / 10 ^ 15 * 3600 := mul_le_mul_of_nonneg_right hh (by norm_num)
        _ ≤ 1 / 10 ^ 9 := by norm_num
  have small : (1 : ℚ) / 10 ^ 9 < 1 / 4 := by norm_num
  refine ⟨f, e, fun i hi k hk => ⟨?_, fun j hj l hl => ⟨fun hlt => ?_, fun hlt => ?_⟩⟩⟩
  · obtain ⟨a, b⟩ := abs_le.1 (near i hi k hk)
    rw [round_eq, Int.floor_eq_iff]
    push_cast
    constructor <;> linarith
  · obtain ⟨a, b⟩ := abs_le.1 (near i hi k hk)
    obtain ⟨c, d⟩ := abs_le.1 (near j hj l hl)
    rcases lt_trichotomy k l with h | h | h
    · exact h
    · exfalso
      subst h
      have e1 : ∀ i < n - 1, ∀ f', seconds2hoursFloat n s = .ok f' → f' i = fl (fl (npMod (s i) 86400) / 3600) := by
        intro i hi f' hf'
        unfold seconds2hoursFloat at hf'
        rw [if_neg (by omega)] at hf'
        cases hf'
        dsimp only
        rw [if_neg (by omega)]
      rw [e1 i hi f e, e1 j hj f e, isSecondOfDay_unique hk, isSecondOfDay_unique hl] at hlt
      exact lt_irrefl _ hlt
    · exfalso
      have : (l : ℚ) + 1 ≤ k := by exact_mod_cast h
      linarith
  · obtain ⟨a, b⟩ := abs_le.1 (near i hi k hk)
    obtain ⟨c, d⟩ := abs_le.1 (near j hj l hl)
    have : (k : ℚ) + 1 ≤ l := by exact_mod_cast hlt
    linarith

/-- Times of a day: 00:00:00, 00:00:01 and midnight of the next day. -/
example : (seconds2hoursFloat 3 fun i => if i = 0 then 0 else if i = 1 then 1 else 86400).toOption.map (fun f => (f 0, decide (f 1 = 1 / 3600), f 2)) = some (0, false, 24) := by
  decide +kernel

/-- The hypotheses hold for times of some day. -/
example : IsDouble 1700000000 ∧ Spec.IsSecondOfDay 1700000000 80000 :=
  ⟨⟨1700000000, 0, by norm_num, by norm_num [NcType.format], by simp [NcType.format]⟩, by norm_num, by norm_num, 19675, by norm_num⟩

/-- **C180.** Not so for times before the epoch: one that is less than a few picoseconds before a midnight becomes 24, wherever it is. -/
theorem C180_negative : (seconds2hoursFloat 2 fun i => if i = 0 then -1 / 2 ^ 60 else 100).toOption.map (fun f => f 0) = some 24 := by
  decide +kernel

/-- No times are an error. -/
theorem C180_empty (s : ℕ → ℚ) : ∃ e, seconds2hoursFloat 0 s = .error e := ⟨_, if_pos rfl⟩

end Cloudnet
