import Verif.FloatBins.Model
import Verif.FloatGrid.Props
import Verif.Rebin.Props

/-!
C181: which profiles belong to a point of the time grid, in double precision.
-/

namespace Cloudnet

/-- The absolute error of one operation for numbers up to 64. -/
theorem fl_absolute (x : ℚ) (h : |x| ≤ 64) : |fl x - x| ≤ 1 / 10 ^ 14 := by
  by_cases hx : 1 / 2 ^ 1000 ≤ |x|
  · have h' := roundFloat_error NcType.f8.format x (by
      refine le_trans ?_ hx
      have : (2 : ℚ) ^ (NcType.f8.format.least + NcType.f8.format.digits - 1) ≤ 2 ^ (-1000 : ℤ) :=
        zpow_le_zpow_right₀ (by norm_num) (by simp [NcType.format])
      refine this.trans (le_of_eq ?_)
      rw [zpow_neg, one_div]
      norm_cast)
    refine h'.trans ((div_le_div_of_nonneg_right h (by positivity)).trans ?_)
    norm_num [NcType.format]
  · push Not at hx
    have h' := roundFloat_nearest NcType.f8.format f8_digits x 0 ⟨0, 0, by simp, by simp [NcType.format], by simp [NcType.format]⟩
    rw [zero_sub, abs_neg] at h'
    refine h'.trans (hx.le.trans ?_)
    have : (1 : ℚ) / 2 ^ 1000 ≤ 1 / 2 ^ 53 := one_div_le_one_div_of_le (by positivity) (pow_le_pow_right₀ (by norm_num) (by norm_num))
    refine this.trans ?_
    norm_num

theorem fl_near {x y a : ℚ} (h : |x - y| ≤ a) (ha : a ≤ 1) (hy : |y| ≤ 63) : |fl x - y| ≤ a + 1 / 10 ^ 14 := by
  have hx : |x| ≤ 64 := by
    have := abs_add_le (x - y) y
    rw [sub_add_cancel] at this
    linarith
  have h1 := fl_absolute x hx
  have := abs_add_le (fl x - x) (x - y)
  rw [sub_add_sub_cancel] at this
  linarith

theorem digitize_eq (m nEdges : ℕ) (e : ℕ → ℚ) (v : ℚ) (hm : m ≤ nEdges) (h : ∀ i < nEdges, e i ≤ v ↔ i < m) : digitize nEdges e v = m := by
  unfold digitize
  have key := filter_range_down (fun i => decide (e i ≤ v)) nEdges (by
    intro i j hij hj hle
    simp only [decide_eq_true_eq] at hle ⊢
    exact (h i (by omega)).2 (lt_of_le_of_lt hij ((h j hj).1 hle)))
  have hlen : ((List.range nEdges).filter fun i => decide (e i ≤ v)).length ≤ nEdges := by
    refine le_trans (List.length_filter_le _ _) (by simp)
  set c := ((List.range nEdges).filter fun i => decide (e i ≤ v)).length
  rcases lt_trichotomy c m with hlt | heq | hgt
  · have := (key c (by omega))
    simp only [decide_eq_true_eq] at this
    exact absurd (this.1 ((h c (by omega)).2 hlt)) (lt_irrefl _)
  · exact heq
  · have := (key m (by omega))
    simp only [decide_eq_true_eq] at this
    exact absurd ((h m (by omega)).1 (this.2 hgt)) (lt_irrefl _)

/-- **C181.** Edges of the bins of every time grid of whole seconds: edge `i` is `i` steps after midnight up to 1e-12 hours (4 nanoseconds). -/
theorem C181_edges (s : ℕ) (h1 : 1 ≤ s) (h2 : s < 86400) :
    ∃ n g e, timeGridFloat s = .ok (n, g) ∧ binvecFloat n g = .ok e ∧ 2 ≤ n ∧ 86400 ≤ n * s ∧ (∀ m, 86400 ≤ m * s → n ≤ m) ∧
      ∀ i ≤ n, |e i - i * (s / 3600)| ≤ 1 / 10 ^ 12 := by
  obtain ⟨n, g, hg, hn1, hn2, hmid, -, -⟩ := C179_time_grid s h1 h2.le
  have hn : 2 ≤ n := by
    by_contra hc
    have : n * s ≤ 1 * s := Nat.mul_le_mul_right s (by omega)
    omega
  have h1' : (1 : ℚ) ≤ s := by exact_mod_cast h1
  have h2' : (s : ℚ) ≤ 86400 := by exact_mod_cast h2.le
  set t : ℚ := (s : ℚ) / 3600 with ht
  have ht1 : 1 / 3600 ≤ t := by rw [ht]; linarith
  have ht24 : t ≤ 24 := by rw [ht]; linarith
  have hnt : (n : ℚ) * t ≤ 48 := by
    have : (n - 1) * s < 86400 := by
      by_contra hc
      have := hn2 (n - 1) (not_lt.1 hc)
      omega
    have h3 : n * s ≤ 86400 + s := by
      have : n * s = (n - 1) * s + s := by
        rw [← Nat.succ_mul]
        congr 1
        omega
      omega
    have h3' : (n : ℚ) * s ≤ 86400 + s := by exact_mod_cast h3
    have : (n : ℚ) * t = n * s / 3600 := by rw [ht]; ring
    rw [this]
    linarith
  have hn' : (2 : ℚ) ≤ n := by exact_mod_cast hn
  have hn0 : (0 : ℚ) < n := by linarith
  have hsmall : (1 : ℚ) / 10 ^ 12 ≤ 1 := by norm_num
  -- neighbours
  have hdiff : ∀ i, i + 1 < n → |fl (fl (g (i + 1) - g i) / 2) - t / 2| ≤ 3 / 2 * (1 / 10 ^ 14) + 1 / 10 ^ 13 := by
    intro i hi
    have a := hmid (i + 1) hi
    have b := hmid i (by omega)
    push_cast at a
    have c : |g (i + 1) - g i - t| ≤ 2 / 10 ^ 13 := by
      rw [abs_le] at a b ⊢
      constructor <;> linarith
    have d := fl_near c (by norm_num) (by rw [abs_of_nonneg (by linarith)]; linarith)
    have e : |fl (g (i + 1) - g i) / 2 - t / 2| ≤ 1 / 2 * (1 / 10 ^ 14) + 1 / 10 ^ 13 := by
      rw [abs_le] at d ⊢
      constructor <;> linarith
    have f := fl_near e (by norm_num) (by rw [abs_of_nonneg (by linarith)]; linarith)
    refine f.trans (le_of_eq ?_)
    ring
  set edge1 := fl (g 0 - fl (fl (g 1 - g 0) / 2)) with hedge1
  set edge2 := fl (g (n - 1) + fl (fl (g (n - 1) - g (n - 2)) / 2)) with hedge2
  have he1 : |edge1 - 0| ≤ 9 / 4 * (1 / 10 ^ 13) := by
    have a := hdiff 0 (by omega)
    have b := hmid 0 (by omega)
    push_cast at b
    rw [zero_add] at a
    have c : |g 0 - fl (fl (g 1 - g 0) / 2) - 0| ≤ 2 / 10 ^ 13 + 3 / 2 * (1 / 10 ^ 14) := by
      rw [abs_le] at a b ⊢
      constructor <;> linarith
    refine (fl_near c (by norm_num) (by norm_num)).trans ?_
    norm_num
  have he2 : |edge2 - n * t| ≤ 9 / 4 * (1 / 10 ^ 13) := by
    have a := hdiff (n - 2) (by omega)
    have b := hmid (n - 1) (by omega)
    have e1 : n - 2 + 1 = n - 1 := by omega
    have e2 : ((n - 1 : ℕ) : ℚ) = n - 1 := by
      push_cast [show 1 ≤ n by omega]
      ring
    rw [e1] at a
    rw [e2] at b
    have c : |g (n - 1) + fl (fl (g (n - 1) - g (n - 2)) / 2) - n * t| ≤ 2 / 10 ^ 13 + 3 / 2 * (1 / 10 ^ 14) := by
      have e3 : ((n : ℚ) - 1 + 1 / 2) * t = n * t - t / 2 := by ring
      rw [e3] at b
      rw [abs_le] at a b ⊢
      constructor <;> linarith
    refine (fl_near c (by norm_num) (by rw [abs_of_nonneg (by positivity)]; linarith)).trans ?_
    norm_num
  refine ⟨n, g, linspaceFloat edge1 edge2 n, hg, ?_, hn, hn1, hn2, ?_⟩
  · unfold binvecFloat
    rw [if_neg (by omega)]
  · intro i hi
    unfold linspaceFloat
    split
    · next hin =>
      rw [hin]
      refine he2.trans ?_
      norm_num
    · have hi' : (i : ℚ) ≤ n := by exact_mod_cast hi
      have hi0 : (0 : ℚ) ≤ i := Nat.cast_nonneg i
      have hit : (i : ℚ) * t ≤ 48 := le_trans (mul_le_mul_of_nonneg_right hi' (by linarith)) hnt
      have hit0 : 0 ≤ (i : ℚ) * t := by positivity
      -- the length of all bins
      have d1 : |fl (edge2 - edge1) - n * t| ≤ 46 / 10 ^ 14 := by
        have c : |edge2 - edge1 - n * t| ≤ 45 / 10 ^ 14 := by
          rw [abs_le] at he1 he2 ⊢
          constructor <;> linarith
        refine (fl_near c (by norm_num) (by rw [abs_of_nonneg (by positivity)]; linarith)).trans ?_
        norm_num
      set L := fl (edge2 - edge1) with hL
      -- the step
      have d2 : |L / n - t| ≤ 46 / 10 ^ 14 / n := by
        have : L / n - t = (L - n * t) / n := by field_simp
        rw [this, abs_div, abs_of_pos hn0]
        exact div_le_div_of_nonneg_right d1 hn0.le
      have d2' : |L / n - t| ≤ 23 / 10 ^ 14 := by
        refine d2.trans ?_
        rw [div_le_iff₀ hn0]
        linarith
      have hz := abs_le.1 d2'
      have hzp : 1 / 100000 ≤ L / n := by
        have : (23 : ℚ) / 10 ^ 14 ≤ 1 / 3600 - 1 / 100000 := by norm_num
        linarith
      have d3 := fl_error (L / n) hzp
      have hu := flUnit_pos
      have hu' : 50 * flUnit ≤ 1 / 10 ^ 14 := by unfold flUnit; norm_num
      have d4 : |(i : ℚ) * fl (L / n) - i * t| ≤ 47 / 10 ^ 14 := by
        have e1 : (i : ℚ) * fl (L / n) - i * t = i * (fl (L / n) - L / n) + i * (L / n - t) := by ring
        rw [e1]
        refine (abs_add_le _ _).trans ?_
        rw [abs_mul, abs_mul, abs_of_nonneg hi0]
        have a1 : (i : ℚ) * |fl (L / n) - L / n| ≤ i * (L / n * flUnit) := mul_le_mul_of_nonneg_left d3 hi0
        have a2 : (i : ℚ) * |L / n - t| ≤ n * (46 / 10 ^ 14 / n) := mul_le_mul hi' d2 (abs_nonneg _) hn0.le
        have a3 : (n : ℚ) * (46 / 10 ^ 14 / n) = 46 / 10 ^ 14 := by field_simp
        have a4 : (i : ℚ) * (L / n) ≤ 50 := by
          have : (i : ℚ) * (L / n) ≤ n * (L / n) := mul_le_mul_of_nonneg_right hi' (by linarith [show (0 : ℚ) < 1 / 100000 by norm_num])
          have e2 : (n : ℚ) * (L / n) = L := by field_simp
          have := (abs_le.1 d1).2
          linarith
        have a5 : (i : ℚ) * (L / n * flUnit) ≤ 50 * flUnit := by
          rw [← mul_assoc]
          exact mul_le_mul_of_nonneg_right a4 hu.le
        linarith
      have d5 := fl_near d4 (by norm_num) (by rw [abs_of_nonneg hit0]; linarith)
      have d6 : |fl ((i : ℚ) * fl (L / n)) + edge1 - i * t| ≤ 48 / 10 ^ 14 + 9 / 4 * (1 / 10 ^ 13) := by
        rw [abs_le] at d5 he1 ⊢
        constructor <;> linarith
      refine (fl_near d6 (by norm_num) (by rw [abs_of_nonneg hit0]; linarith)).trans ?_
      norm_num

/-- **C181.** Profiles on every time grid of whole seconds: a time that is 1e-12 hours or more away from the boundaries of its step belongs to the bin of this step. Times before
midnight, or after the last step, belong to none. -/
theorem C181_profiles (s : ℕ) (h1 : 1 ≤ s) (h2 : s < 86400) :
    ∃ n g e, timeGridFloat s = .ok (n, g) ∧ binvecFloat n g = .ok e ∧ ∀ v : ℚ,
      (∀ k < n, (k : ℚ) * (s / 3600) + 1 / 10 ^ 12 ≤ v → v < ((k : ℚ) + 1) * (s / 3600) - 1 / 10 ^ 12 → binNumber n e v = k) ∧
      (v < -1 / 10 ^ 12 → binNumber n e v = -1) ∧
      ((n : ℚ) * (s / 3600) + 1 / 10 ^ 12 ≤ v → binNumber n e v = n) := by
  obtain ⟨n, g, e, hg, he, hn, -, -, hedge⟩ := C181_edges s h1 h2
  have h1' : (1 : ℚ) ≤ s := by exact_mod_cast h1
  set t : ℚ := (s : ℚ) / 3600 with ht
  have ht0 : 0 ≤ t := by rw [ht]; positivity
  have mono : ∀ i j : ℕ, i ≤ j → (i : ℚ) * t ≤ j * t := fun i j hij => mul_le_mul_of_nonneg_right (by exact_mod_cast hij) ht0
  refine ⟨n, g, e, hg, he, fun v => ⟨fun k hk ha hb => ?_, fun ha => ?_, fun ha => ?_⟩⟩
  · unfold binNumber
    rw [digitize_eq (k + 1) (n + 1) e v (by omega)]
    · push_cast; ring
    · intro i hi
      obtain ⟨a, b⟩ := abs_le.1 (hedge i (by omega))
      constructor
      · intro hle
        by_contra hc
        have := mono (k + 1) i (by omega)
        push_cast at this
        linarith
      · intro hlt
        have := mono i k (by omega)
        linarith
  · unfold binNumber
    rw [digitize_eq 0 (n + 1) e v (by omega)]
    · simp
    · intro i hi
      obtain ⟨a, b⟩ := abs_le.1 (hedge i (by omega))
      constructor
      · intro hle
        have : 0 ≤ (i : ℚ) * t := by positivity
        linarith
      · omega
  · unfold binNumber
    rw [digitize_eq (n + 1) (n + 1) e v le_rfl]
    · push_cast; ring
    · intro i hi
      obtain ⟨a, b⟩ := abs_le.1 (hedge i (by omega))
      have := mono i n (by omega)
      exact ⟨fun _ => hi, fun _ => by linarith⟩

/-- A time of the second step of the standard grid. -/
example : ∃ n g e, timeGridFloat ((30 : ℕ) : ℤ) = .ok (n, g) ∧ binvecFloat n g = .ok e ∧ (1 < n → binNumber n e (1 / 100) = 1) := by
  obtain ⟨n, g, e, hg, he, h⟩ := C181_profiles 30 (by norm_num) (by norm_num)
  exact ⟨n, g, e, hg, he, fun hn => by exact_mod_cast (h (1 / 100)).1 1 hn (by norm_num) (by norm_num)⟩

/-- **C181.** A grid of ten seconds has no bin for a profile measured exactly at midnight: the first edge is rounded up. -/
theorem C181_midnight_lost : ∃ n g e, timeGridFloat ((10 : ℕ) : ℤ) = .ok (n, g) ∧ binvecFloat n g = .ok e ∧ binNumber n e 0 = -1 := by
  obtain ⟨n, g, e, hg, he, hn, -, -, hedge⟩ := C181_edges 10 (by norm_num) (by norm_num)
  refine ⟨n, g, e, hg, he, ?_⟩
  have hfirst : 0 < e 0 := by
    have k : (timeGridFloat 10).toOption.any (fun g => decide (0 < fl (fl (((0 : ℕ) : ℚ) * 0) + fl (g.2 0 - fl (fl (g.2 1 - g.2 0) / 2))))) = true := by decide +kernel
    have hg' : timeGridFloat 10 = .ok (n, g) := hg
    rw [hg'] at k
    unfold binvecFloat at he
    rw [if_neg (by omega)] at he
    cases he
    unfold linspaceFloat
    rw [if_neg (by omega)]
    simp only [Except.toOption, Option.any_some, decide_eq_true_eq, Nat.cast_zero, zero_mul] at k ⊢
    exact k
  unfold binNumber
  rw [digitize_eq 0 (n + 1) e 0 (by omega)]
  · simp
  · intro i hi
    refine ⟨fun hle => ?_, by omega⟩
    rcases Nat.eq_zero_or_pos i with h0 | h0
    · rw [h0] at hle
      exact absurd hle (not_le.2 hfirst)
    · obtain ⟨a, b⟩ := abs_le.1 (hedge i (by omega))
      have hi' : (1 : ℚ) ≤ i := by exact_mod_cast h0
      have : (1 : ℚ) / 10 ^ 12 < 1 * (10 / 3600) := by norm_num
      have h3 : 1 * (10 / 3600 : ℚ) ≤ i * (10 / 3600) := mul_le_mul_of_nonneg_right hi' (by norm_num)
      push_cast at a
      linarith

/-- **C181.** The standard grid of 30 seconds has the whole day: profiles at midnight, at the start and at the end of the day (0 and 24 hours), belong to the first and the last
bin. -/
theorem C181_standard : ∃ g e, timeGridFloat ((30 : ℕ) : ℤ) = .ok (2880, g) ∧ binvecFloat 2880 g = .ok e ∧ binNumber 2880 e 0 = 0 ∧ binNumber 2880 e 24 = 2879 := by
  obtain ⟨n, g, e, hg, he, hn, hn1, hn2, hedge⟩ := C181_edges 30 (by norm_num) (by norm_num)
  have hn3 : n = 2880 := by
    have := hn2 2880 (by norm_num)
    omega
  subst hn3
  have hg' : timeGridFloat 30 = .ok (2880, g) := hg
  have hfirst : e 0 ≤ 0 := by
    have k : (timeGridFloat 30).toOption.any (fun g => decide (fl (fl (((0 : ℕ) : ℚ) * 0) + fl (g.2 0 - fl (fl (g.2 1 - g.2 0) / 2))) ≤ 0)) = true := by decide +kernel
    rw [hg'] at k
    unfold binvecFloat at he
    rw [if_neg (by omega)] at he
    cases he
    unfold linspaceFloat
    rw [if_neg (by omega)]
    simp only [Except.toOption, Option.any_some, decide_eq_true_eq, Nat.cast_zero, zero_mul] at k ⊢
    exact k
  have hlast : 24 < e 2880 := by
    have k : (timeGridFloat 30).toOption.any (fun g => decide (24 < fl (g.2 2879 + fl (fl (g.2 2879 - g.2 2878) / 2)))) = true := by decide +kernel
    rw [hg'] at k
    unfold binvecFloat at he
    rw [if_neg (by omega)] at he
    cases he
    unfold linspaceFloat
    rw [if_pos rfl]
    simp only [Except.toOption, Option.any_some, decide_eq_true_eq] at k
    exact k
  refine ⟨g, e, hg, he, ?_, ?_⟩
  · unfold binNumber
    rw [digitize_eq 1 (2880 + 1) e 0 (by omega)]
    · norm_num
    · intro i hi
      obtain ⟨a, b⟩ := abs_le.1 (hedge i (by omega))
      constructor
      · intro hle
        by_contra hc
        have hi' : (1 : ℚ) ≤ i := by exact_mod_cast (show 1 ≤ i by omega)
        have : (1 : ℚ) / 10 ^ 12 < 1 * (30 / 3600) := by norm_num
        have h3 : 1 * (30 / 3600 : ℚ) ≤ i * (30 / 3600) := mul_le_mul_of_nonneg_right hi' (by norm_num)
        push_cast at a
        linarith
      · intro hlt
        rw [show i = 0 by omega]
        exact hfirst
  · unfold binNumber
    rw [digitize_eq 2880 (2880 + 1) e 24 (by omega)]
    · norm_num
    · intro i hi
      obtain ⟨a, b⟩ := abs_le.1 (hedge i (by omega))
      constructor
      · intro hle
        by_contra hc
        rw [show i = 2880 by omega] at hle
        exact absurd hle (not_le.2 hlast)
      · intro hlt
        have hi' : (i : ℚ) ≤ 2879 := by exact_mod_cast (show i ≤ 2879 by omega)
        have h3 : (i : ℚ) * (30 / 3600) ≤ 2879 * (30 / 3600) := mul_le_mul_of_nonneg_right hi' (by norm_num)
        have : (1 : ℚ) / 10 ^ 12 + 2879 * (30 / 3600) ≤ 24 := by norm_num
        push_cast at b
        linarith

/-- **C181.** From time stamps to the grid: a profile measured at `r` seconds after midnight, 1e-8 seconds or more away from the boundaries of step `k`, is rebinned to point `k` of
the grid, whatever the day, the other profiles and the step; so all profiles at whole seconds that are not at a boundary are. If the hours were written to a file in 32 bits and
read in between, this is true 10 milliseconds or more away from the boundaries. -/
theorem C181_time_stamps (s : ℕ) (h1 : 1 ≤ s) (h2 : s < 86400) (m : ℕ) (x : ℕ → ℚ) (hm : 0 < m) (hd : ∀ i < m, IsDouble (x i)) (h0 : ∀ i < m, 0 ≤ x i) :
    ∃ n g e f, timeGridFloat s = .ok (n, g) ∧ binvecFloat n g = .ok e ∧ seconds2hoursFloat m x = .ok f ∧
      ∀ i < m, ∀ r, Spec.IsSecondOfDay (x i) r → ∀ k < n,
        ((k : ℚ) * s + 1 / 10 ^ 8 ≤ r → r ≤ ((k : ℚ) + 1) * s - 1 / 10 ^ 8 → binNumber n e (f i) = k) ∧
        ((k : ℚ) * s + 1 / 100 ≤ r → r ≤ ((k : ℚ) + 1) * s - 1 / 100 →
          ∀ masked, ∃ y, Spec.ReadsBack masked .f4 (some (f i)) (some y) ∧ binNumber n e y = k) := by
  obtain ⟨n, g, e, hg, he, hbin⟩ := C181_profiles s h1 h2
  obtain ⟨f, hf, hval, -, -⟩ := C180_hours m x hm hd h0
  refine ⟨n, g, e, f, hg, he, hf, fun i hi r hr k hk => ?_⟩
  have e1 : (k : ℚ) * (s / 3600) = k * s / 3600 := by ring
  have e2 : ((k : ℚ) + 1) * (s / 3600) = ((k : ℚ) + 1) * s / 3600 := by ring
  have hks : (0 : ℚ) ≤ k * s := by positivity
  constructor
  · intro ha hb
    rcases hval i hi r hr with ⟨-, -, hc⟩ | ⟨-, -, hc⟩
    · have : (1 : ℚ) / 10 ^ 9 < 1 / 10 ^ 8 := by norm_num
      linarith
    · obtain ⟨c, d⟩ := abs_le.1 hc
      have s1 : (1 : ℚ) / 10 ^ 12 + 3 / 10 ^ 15 < 1 / 10 ^ 8 / 3600 := by norm_num
      refine (hbin (f i)).1 k hk ?_ ?_
      · rw [e1]
        linarith
      · rw [e2]
        linarith
  · intro ha hb masked
    rcases hval i hi r hr with ⟨-, -, hc⟩ | ⟨hf0, hf24, hc⟩
    · have : (1 : ℚ) / 10 ^ 9 < 1 / 100 := by norm_num
      linarith
    · obtain ⟨c, d⟩ := abs_le.1 hc
      have hfpos : 1 / 1000000 ≤ f i := by
        have : (1 : ℚ) / 1000000 + 3 / 10 ^ 15 ≤ 1 / 100 / 3600 := by norm_num
        linarith
      have habs : |f i| = f i := abs_of_nonneg hf0
      have h122 : (24 : ℚ) ≤ 2 ^ (122 : ℤ) := by norm_num
      obtain ⟨⟨y, hy, -, -, herr, -⟩, -⟩ := C162_numbers .f4 masked (f i) (by rw [habs]; linarith)
      have herr' : |y - f i| ≤ 24 / 2 ^ 24 := by
        refine (herr ?_).trans ?_
        · rw [habs]
          refine le_trans ?_ hfpos
          have : (2 : ℚ) ^ (NcType.f4.format.least + NcType.f4.format.digits - 1) ≤ 2 ^ (-20 : ℤ) :=
            zpow_le_zpow_right₀ (by norm_num) (by simp [NcType.format])
          refine this.trans ?_
          norm_num
        · rw [habs]
          exact div_le_div_of_nonneg_right hf24.le (by positivity)
      obtain ⟨a', b'⟩ := abs_le.1 herr'
      have s1 : (1 : ℚ) / 10 ^ 12 + 3 / 10 ^ 15 + 24 / 2 ^ 24 < 1 / 100 / 3600 := by norm_num
      refine ⟨y, hy, (hbin y).1 k hk ?_ ?_⟩
      · rw [e1]
        linarith
      · rw [e2]
        linarith

/-- A whole second of a day: 80000 seconds after midnight is in step 2666 of the standard grid. -/
example : IsDouble 1700000000 ∧ Spec.IsSecondOfDay 1700000000 80000 ∧ ((2666 : ℕ) : ℚ) * ((30 : ℕ) : ℚ) + 1 / 100 ≤ 80000 ∧ (80000 : ℚ) ≤ (((2666 : ℕ) : ℚ) + 1) * ((30 : ℕ) : ℚ) - 1 / 100 :=
  ⟨⟨1700000000, 0, by norm_num, by norm_num [NcType.format], by simp [NcType.format]⟩, ⟨by norm_num, by norm_num, 19675, by norm_num⟩, by norm_num, by norm_num⟩

/-- **C181.** Exact numbers and double precision agree: the grids have the same number of points, and if no profile is within 1e-12 hours of a boundary of a step, every point of the grid
gets the same profiles. So what is proved about rebinning with exact numbers is true of the profiles selected by the machine. -/
theorem C181_exact (s : ℕ) (h1 : 1 ≤ s) (h2 : s < 86400) (nIn : ℕ) (xIn : ℕ → ℚ) (hx : ∀ j < nIn, ∀ i : ℕ, 1 / 10 ^ 12 < |xIn j - i * (s / 3600)|) :
    ∃ n g e g' e', timeGridFloat s = .ok (n, g) ∧ binvecFloat n g = .ok e ∧ timeGrid (s : ℚ) = .ok (n, g') ∧ binvec n g' = .ok e' ∧
      (∀ j < nIn, binNumber n e (xIn j) = binNumber n e' (xIn j)) ∧ ∀ k, inBin nIn xIn n e k = inBin nIn xIn n e' k := by
  obtain ⟨n, g, e, hg, he, hn, hn1, hn2, hedge⟩ := C181_edges s h1 h2
  obtain ⟨n', g', hg', hval, hn1', hn2', -⟩ := (C35_time_grid (s : ℚ)).2 (by exact_mod_cast h1)
  have hnn : n' = n := by
    apply le_antisymm
    · exact hn2' n (by exact_mod_cast hn1)
    · exact hn2 n' (by exact_mod_cast hn1')
  subst hnn
  have hn0 : (0 : ℚ) < n' := by exact_mod_cast (show 0 < n' by omega)
  have hb : binvec n' g' = .ok fun i => (i : ℚ) * (s / 3600) := by
    unfold binvec
    rw [if_neg (by omega)]
    have e1 : ((n' - 1 : ℕ) : ℚ) = n' - 1 := by
      push_cast [show 1 ≤ n' by omega]
      ring
    have e2 : ((n' - 2 : ℕ) : ℚ) = n' - 2 := by
      push_cast [show 2 ≤ n' by omega]
      ring
    simp only [hval, e1, e2]
    congr 1
    funext i
    push_cast
    field_simp
    ring
  have hbin : ∀ j < nIn, binNumber n' e (xIn j) = binNumber n' (fun i : ℕ => (i : ℚ) * (s / 3600)) (xIn j) := by
    intro j hj
    unfold binNumber digitize
    congr 3
    apply List.filter_congr
    intro i hi
    rw [List.mem_range] at hi
    obtain ⟨a, b⟩ := abs_le.1 (hedge i (by omega))
    have c := hx j hj i
    apply decide_eq_decide.2
    rcases lt_abs.1 c with c | c
    · exact ⟨fun _ => by linarith, fun _ => by linarith⟩
    · exact ⟨fun _ => by linarith, fun _ => by linarith⟩
  refine ⟨n', g, e, g', _, hg, he, hg', hb, hbin, fun k => ?_⟩
  unfold inBin
  apply List.filter_congr
  intro j hj
  rw [List.mem_range] at hj
  rw [hbin j hj]

/-- Profiles at 10 and 40 seconds after midnight. -/
example : ∀ j < 2, ∀ i : ℕ, (1 : ℚ) / 10 ^ 12 < |(if j = 0 then 10 / 3600 else 40 / 3600) - i * (((30 : ℕ) : ℚ) / 3600)| := by
  intro j _ i
  have key : ∀ a : ℕ, a = 10 ∨ a = 40 → (1 : ℚ) / 10 ^ 12 < |(a : ℚ) / 3600 - i * (((30 : ℕ) : ℚ) / 3600)| := by
    intro a ha
    have e : (a : ℚ) / 3600 - i * (((30 : ℕ) : ℚ) / 3600) = (((a : ℤ) - 30 * i : ℤ) : ℚ) / 3600 := by push_cast; ring
    have h1 : (1 : ℚ) ≤ |(((a : ℤ) - 30 * i : ℤ) : ℚ)| := by
      rw [← Int.cast_abs]
      have hz : (a : ℤ) - 30 * i ≠ 0 := by omega
      exact_mod_cast Int.one_le_abs hz
    rw [e, abs_div, abs_of_pos (by norm_num : (0 : ℚ) < 3600), lt_div_iff₀ (by norm_num)]
    refine lt_of_lt_of_le ?_ h1
    norm_num
  split
  · exact_mod_cast key 10 (Or.inl rfl)
  · exact_mod_cast key 40 (Or.inr rfl)

end Cloudnet
