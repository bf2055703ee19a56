import Verif.Epsilon.Rate
import Mathlib.Algebra.Field.GeomSum

/-! C103: variance, offset and scale of a velocity series. -/

namespace Cloudnet

open Finset

/-- A factor of the transform. -/
noncomputable def twiddle (n j k : ℕ) : ℂ := Complex.exp (-(2 * Real.pi * Complex.I * (j * k) / n))

theorem rfft_def (n : ℕ) (vel : ℕ → ℝ) (k : ℕ) :
    rfft n vel k = ∑ j ∈ range n, (vel j : ℂ) * twiddle n j k := rfl

theorem twiddle_pow (n j k : ℕ) : twiddle n j k = twiddle n j 1 ^ k := by
  unfold twiddle
  rw [← Complex.exp_nat_mul]
  congr 1
  push_cast
  ring

theorem twiddle_comm (n j k : ℕ) : twiddle n j k = twiddle n k j := by
  unfold twiddle
  congr 1
  ring

theorem conj_twiddle (n j k : ℕ) :
    (starRingEnd ℂ) (twiddle n j k) = Complex.exp (2 * Real.pi * Complex.I * (j * k) / n) := by
  unfold twiddle
  rw [← Complex.exp_conj]
  congr 1
  simp only [map_neg, map_div₀, map_mul, Complex.conj_I, Complex.conj_ofReal, map_natCast, map_ofNat]
  ring

/-- Orthogonality. -/
theorem twiddle_orthogonal (n : ℕ) (j l : ℕ) (hj : j < n) (hl : l < n) :
    ∑ k ∈ range n, twiddle n j k * (starRingEnd ℂ) (twiddle n l k) = if j = l then (n : ℂ) else 0 := by
  have hn : (n : ℂ) ≠ 0 := by
    have : n ≠ 0 := by omega
    exact_mod_cast this
  set w : ℂ := Complex.exp (2 * Real.pi * Complex.I * (((l : ℤ) - (j : ℤ) : ℤ) : ℂ) / n) with hw
  have hterm : ∀ k, twiddle n j k * (starRingEnd ℂ) (twiddle n l k) = w ^ k := by
    intro k
    rw [conj_twiddle, hw, ← Complex.exp_nat_mul, twiddle, ← Complex.exp_add]
    congr 1
    push_cast
    ring
  rw [Finset.sum_congr rfl fun k _ => hterm k]
  by_cases h : j = l
  · have : w = 1 := by rw [hw, h]; simp
    rw [if_pos h, this]
    simp
  · rw [if_neg h]
    have hw1 : w ≠ 1 := by
      intro h1
      rw [hw, Complex.exp_eq_one_iff] at h1
      obtain ⟨m, hm⟩ := h1
      have hpi : (2 * Real.pi * Complex.I : ℂ) ≠ 0 := Complex.two_pi_I_ne_zero
      have h2 : (((l : ℤ) - (j : ℤ) : ℤ) : ℂ) = ((m * n : ℤ) : ℂ) := by
        have h3 : (2 * Real.pi * Complex.I : ℂ) * (((l : ℤ) - (j : ℤ) : ℤ) : ℂ) =
            (2 * Real.pi * Complex.I) * ((m * n : ℤ) : ℂ) := by
          rw [div_eq_iff hn] at hm
          rw [hm]
          push_cast
          ring
        exact mul_left_cancel₀ hpi h3
      have h4 : (l : ℤ) - j = m * n := by exact_mod_cast h2
      have hm0 : m = 0 := by
        by_contra hm0
        rcases lt_or_gt_of_ne hm0 with hlt | hgt
        · have : m * (n : ℤ) ≤ -1 * n := by
            apply mul_le_mul_of_nonneg_right (by omega) (by omega)
          omega
        · have : 1 * (n : ℤ) ≤ m * n := by
            apply mul_le_mul_of_nonneg_right (by omega) (by omega)
          omega
      rw [hm0] at h4
      omega
    have hwn : w ^ n = 1 := by
      rw [hw, ← Complex.exp_nat_mul, Complex.exp_eq_one_iff]
      refine ⟨(l : ℤ) - j, ?_⟩
      field_simp
    rw [geom_sum_eq hw1, hwn]
    simp

/-- Parseval's identity. -/
theorem parseval (n : ℕ) (vel : ℕ → ℝ) :
    ∑ k ∈ range n, ‖rfft n vel k‖ ^ 2 = n * ∑ j ∈ range n, vel j ^ 2 := by
  have h : ((∑ k ∈ range n, ‖rfft n vel k‖ ^ 2 : ℝ) : ℂ) = ((n * ∑ j ∈ range n, vel j ^ 2 : ℝ) : ℂ) := by
    push_cast
    have h1 : ∀ k ∈ range n, ((‖rfft n vel k‖ : ℂ)) ^ 2 =
        ∑ j ∈ range n, ∑ l ∈ range n, (vel j : ℂ) * vel l *
          (twiddle n j k * (starRingEnd ℂ) (twiddle n l k)) := by
      intro k _
      rw [← Complex.mul_conj', rfft_def, map_sum, Finset.sum_mul_sum]
      apply Finset.sum_congr rfl
      intro j _
      apply Finset.sum_congr rfl
      intro l _
      rw [map_mul, Complex.conj_ofReal]
      ring
    rw [Finset.sum_congr rfl h1, Finset.sum_comm, Finset.mul_sum]
    apply Finset.sum_congr rfl
    intro j hj
    rw [Finset.sum_comm]
    have h2 : ∀ l ∈ range n, ∑ k ∈ range n, (vel j : ℂ) * vel l *
        (twiddle n j k * (starRingEnd ℂ) (twiddle n l k)) =
        if j = l then (vel j : ℂ) * vel l * n else 0 := by
      intro l hl
      rw [← Finset.mul_sum, twiddle_orthogonal n j l (Finset.mem_range.1 hj) (Finset.mem_range.1 hl)]
      split <;> simp
    rw [Finset.sum_congr rfl h2, Finset.sum_ite_eq, if_pos hj]
    ring
  exact_mod_cast h

/-- The upper half of the transform of a real series mirrors the lower one. -/
theorem rfft_mirror (n : ℕ) (vel : ℕ → ℝ) (k : ℕ) (hk : k ≤ n) :
    ‖rfft n vel (n - k)‖ = ‖rfft n vel k‖ := by
  by_cases hn0 : n = 0
  · subst hn0; have : k = 0 := by omega
    subst this; rfl
  have hn : (n : ℂ) ≠ 0 := by exact_mod_cast hn0
  have : rfft n vel (n - k) = (starRingEnd ℂ) (rfft n vel k) := by
    rw [rfft_def, rfft_def, map_sum]
    apply Finset.sum_congr rfl
    intro j _
    rw [map_mul, Complex.conj_ofReal, conj_twiddle]
    congr 1
    unfold twiddle
    rw [Complex.exp_eq_exp_iff_exists_int]
    refine ⟨-j, ?_⟩
    push_cast [Nat.cast_sub hk]
    field_simp
    ring
  rw [this, Complex.norm_conj]

theorem rfft_zero (n : ℕ) (vel : ℕ → ℝ) : ‖rfft n vel 0‖ ^ 2 = (∑ j ∈ range n, vel j) ^ 2 := by
  have : rfft n vel 0 = ((∑ j ∈ range n, vel j : ℝ) : ℂ) := by
    rw [rfft_def]
    push_cast
    apply Finset.sum_congr rfl
    intro j _
    simp [twiddle]
  rw [this, Complex.norm_real, Real.norm_eq_abs, sq_abs]

/-- The variance of a series. -/
theorem variance_sum (n : ℕ) (hn : n ≠ 0) (vel : ℕ → ℝ) :
    n * ∑ j ∈ range n, (vel j - (∑ i ∈ range n, vel i) / n) ^ 2 =
      ∑ k ∈ Ico 1 n, ‖rfft n vel k‖ ^ 2 := by
  have hn' : (n : ℝ) ≠ 0 := by exact_mod_cast hn
  have h1 : ∑ k ∈ range n, ‖rfft n vel k‖ ^ 2 = ‖rfft n vel 0‖ ^ 2 + ∑ k ∈ Ico 1 n, ‖rfft n vel k‖ ^ 2 := by
    rw [Finset.range_eq_Ico, Finset.sum_eq_sum_Ico_succ_bot (by omega)]
  rw [parseval, rfft_zero] at h1
  set S := ∑ j ∈ range n, vel j with hS
  have h2 : ∑ j ∈ range n, (vel j - S / n) ^ 2 = ∑ j ∈ range n, vel j ^ 2 - 2 * (S / n) * S + n * (S / n) ^ 2 := by
    have : ∀ j ∈ range n, (vel j - S / n) ^ 2 = vel j ^ 2 - 2 * (S / n) * vel j + (S / n) ^ 2 := by
      intro j _; ring
    rw [Finset.sum_congr rfl this, Finset.sum_add_distrib, Finset.sum_sub_distrib, ← Finset.mul_sum, ← hS]
    simp
  rw [h2]
  have h3 : ∑ k ∈ Ico 1 n, ‖rfft n vel k‖ ^ 2 = n * ∑ j ∈ range n, vel j ^ 2 - S ^ 2 := by linarith
  rw [h3]
  field_simp
  ring

/-- Sum of the power over the wavenumbers of the periodogram. -/
theorem periodogram_sum (n : ℕ) (vel : ℕ → ℝ) (dt adv : ℝ) (hdx : 0 < dt * adv) :
    ((periodogram n vel dt adv).map (·.2)).sum * (2 * Real.pi / (n * (dt * adv))) =
      2 * (∑ k ∈ Ico 1 (n / 2 + 1), ‖rfft n vel k‖ ^ 2) / n ^ 2 := by
  have key : ∀ l : List (ℝ × ℝ), (∀ p ∈ l, 0 ≤ p.2) →
      ((l.filter fun fp => decide (0 < fp.2)).map (·.2)).sum = (l.map (·.2)).sum := by
    intro l hl
    induction l with
    | nil => rfl
    | cons p l ih =>
      have ih' := ih fun q hq => hl q (List.mem_cons_of_mem _ hq)
      rw [List.filter_cons]
      by_cases h : 0 < p.2
      · simp only [h, decide_true, if_true, List.map_cons, List.sum_cons, ih']
      · have : p.2 = 0 := le_antisymm (not_lt.1 h) (hl p (by simp))
        rw [if_neg (by simpa using h), List.map_cons, List.sum_cons, this, zero_add, ih']
  have hpi := Real.pi_pos
  unfold periodogram
  dsimp only
  rw [key]
  · rw [List.map_map]
    have e1 : ((List.range (n / 2)).map ((fun p : ℝ × ℝ => p.2) ∘ fun k : ℕ =>
        (((k + 1 : ℕ) : ℝ) / (n * (dt * adv)) * 2 * Real.pi,
          (dt * adv) / n * ‖rfft n vel (k + 1)‖ ^ 2 / Real.pi))).sum =
        ∑ k ∈ range (n / 2), (dt * adv) / n * ‖rfft n vel (k + 1)‖ ^ 2 / Real.pi := by
      rw [← List.sum_toFinset _ List.nodup_range, List.toFinset_range]
      rfl
    rw [e1]
    have e2 : ∑ k ∈ Ico 1 (n / 2 + 1), ‖rfft n vel k‖ ^ 2 = ∑ k ∈ range (n / 2), ‖rfft n vel (k + 1)‖ ^ 2 := by
      rw [Finset.sum_Ico_eq_sum_range]
      apply Finset.sum_congr (by simp)
      intro k _
      rw [add_comm]
    rw [e2, ← Finset.sum_div, ← Finset.mul_sum]
    by_cases hn : (n : ℝ) = 0
    · simp [hn]
    · field_simp
      exact mul_div_cancel_left₀ _ (ne_of_gt hdx)
  · intro p hp
    obtain ⟨k, -, rfl⟩ := List.mem_map.1 hp
    positivity

/-- C103. The spectrum holds the variance of the velocity: for an odd number of profiles power times the
wavenumber step adds up to the variance. -/
theorem C103_variance_odd (n : ℕ) (hn : n % 2 = 1) (vel : ℕ → ℝ) (dt adv : ℝ) (hdx : 0 < dt * adv) :
    ((periodogram n vel dt adv).map (·.2)).sum * (2 * Real.pi / (n * (dt * adv))) =
      (∑ j ∈ range n, (vel j - (∑ i ∈ range n, vel i) / n) ^ 2) / n := by
  rw [periodogram_sum n vel dt adv hdx]
  have hv := variance_sum n (by omega) vel
  have hsplit : ∑ k ∈ Ico 1 n, ‖rfft n vel k‖ ^ 2 = 2 * ∑ k ∈ Ico 1 (n / 2 + 1), ‖rfft n vel k‖ ^ 2 := by
    rw [← Finset.sum_Ico_consecutive _ (show 1 ≤ n / 2 + 1 by omega) (show n / 2 + 1 ≤ n by omega), two_mul]
    congr 1
    apply Finset.sum_nbij' (fun k => n - k) (fun k => n - k)
    · intro k hk; rw [Finset.mem_Ico] at hk ⊢; omega
    · intro k hk; rw [Finset.mem_Ico] at hk ⊢; omega
    · intro k hk; rw [Finset.mem_Ico] at hk; omega
    · intro k hk; rw [Finset.mem_Ico] at hk; omega
    · intro k hk
      rw [Finset.mem_Ico] at hk
      rw [rfft_mirror n vel k (by omega)]
  have hn' : (n : ℝ) ≠ 0 := by
    have : n ≠ 0 := by omega
    exact_mod_cast this
  rw [← hsplit, ← hv]
  field_simp

/-- C103. For an even number of profiles the sum exceeds the variance by the power of the highest
wavenumber, the square of the mean of the velocities with alternating signs. -/
theorem C103_variance_even (n : ℕ) (hn : n % 2 = 0) (hn0 : 0 < n) (vel : ℕ → ℝ) (dt adv : ℝ)
    (hdx : 0 < dt * adv) :
    ((periodogram n vel dt adv).map (·.2)).sum * (2 * Real.pi / (n * (dt * adv))) =
      (∑ j ∈ range n, (vel j - (∑ i ∈ range n, vel i) / n) ^ 2) / n +
        ((∑ j ∈ range n, (-1) ^ j * vel j) / n) ^ 2 := by
  rw [periodogram_sum n vel dt adv hdx]
  have hv := variance_sum n (by omega) vel
  have hn' : (n : ℝ) ≠ 0 := by
    have : n ≠ 0 := by omega
    exact_mod_cast this
  have hnC : (n : ℂ) ≠ 0 := by
    have : n ≠ 0 := by omega
    exact_mod_cast this
  have hmid : ‖rfft n vel (n / 2)‖ ^ 2 = (∑ j ∈ range n, (-1) ^ j * vel j) ^ 2 := by
    have : rfft n vel (n / 2) = ((∑ j ∈ range n, (-1) ^ j * vel j : ℝ) : ℂ) := by
      rw [rfft_def]
      push_cast
      apply Finset.sum_congr rfl
      intro j _
      rw [mul_comm]
      congr 1
      unfold twiddle
      have hcast : ((n / 2 : ℕ) : ℂ) = n / 2 := by
        rw [Nat.cast_div (by omega) (by norm_num)]
        norm_num
      rw [hcast]
      have : -(2 * (Real.pi : ℂ) * Complex.I * (j * (n / 2)) / n) = (j : ℂ) * (-(Real.pi * Complex.I)) := by
        field_simp
      rw [this, Complex.exp_nat_mul, Complex.exp_neg, Complex.exp_pi_mul_I]
      norm_num
    rw [this, Complex.norm_real, Real.norm_eq_abs, sq_abs]
  have hsplit : ∑ k ∈ Ico 1 n, ‖rfft n vel k‖ ^ 2 + ‖rfft n vel (n / 2)‖ ^ 2 =
      2 * ∑ k ∈ Ico 1 (n / 2 + 1), ‖rfft n vel k‖ ^ 2 := by
    rw [← Finset.sum_Ico_consecutive _ (show 1 ≤ n / 2 + 1 by omega) (show n / 2 + 1 ≤ n by omega), two_mul,
      add_assoc]
    congr 1
    rw [Finset.sum_Ico_succ_top (show 1 ≤ n / 2 by omega)]
    congr 1
    apply Finset.sum_nbij' (fun k => n - k) (fun k => n - k)
    · intro k hk; rw [Finset.mem_Ico] at hk ⊢; omega
    · intro k hk; rw [Finset.mem_Ico] at hk ⊢; omega
    · intro k hk; rw [Finset.mem_Ico] at hk; omega
    · intro k hk; rw [Finset.mem_Ico] at hk; omega
    · intro k hk
      rw [Finset.mem_Ico] at hk
      rw [rfft_mirror n vel k (by omega)]
  rw [← hsplit, ← hv, hmid]
  field_simp

/-- An offset does not change the transform, a factor multiplies it. -/
theorem rfft_affine (n : ℕ) (vel : ℕ → ℝ) (c d : ℝ) (k : ℕ) (h0 : 0 < k) (hk : k < n) :
    rfft n (fun j => c * vel j + d) k = c * rfft n vel k := by
  have hz : ∑ j ∈ range n, twiddle n j k = 0 := by
    have := twiddle_orthogonal n k 0 hk (by omega)
    rw [if_neg (by omega)] at this
    rw [← this]
    apply Finset.sum_congr rfl
    intro j _
    rw [twiddle_comm n j k, conj_twiddle]
    simp
  rw [rfft_def, rfft_def, Finset.mul_sum]
  have : ∀ j ∈ range n, ((c * vel j + d : ℝ) : ℂ) * twiddle n j k =
      c * (vel j * twiddle n j k) + d * twiddle n j k := by
    intro j _
    push_cast
    ring
  rw [Finset.sum_congr rfl this, Finset.sum_add_distrib, ← Finset.mul_sum _ _ (d : ℂ), hz]
  simp

theorem periodogram_affine (n : ℕ) (vel : ℕ → ℝ) (c d : ℝ) (hc : c ≠ 0) (dt adv : ℝ) :
    periodogram n (fun j => c * vel j + d) dt adv =
      (periodogram n vel dt adv).map fun p => (p.1, c ^ 2 * p.2) := by
  unfold periodogram
  dsimp only
  have hc2 : 0 < c ^ 2 := by positivity
  have hf : (fun fp : ℝ × ℝ => decide (0 < fp.2)) =
      (fun fp : ℝ × ℝ => decide (0 < fp.2)) ∘ fun p : ℝ × ℝ => (p.1, c ^ 2 * p.2) := by
    funext p
    simp only [Function.comp, decide_eq_decide]
    exact (mul_pos_iff_of_pos_left hc2).symm
  conv_rhs => rw [hf]
  rw [← List.filter_map, List.map_map]
  congr 1
  apply List.map_congr_left
  intro k hk
  rw [List.mem_range] at hk
  simp only [Function.comp, Prod.mk.injEq, true_and]
  rw [rfft_affine n vel c d (k + 1) (by omega) (by omega), norm_mul, Complex.norm_real, Real.norm_eq_abs,
    mul_pow, sq_abs]
  ring

theorem squaredError_shift (pts : List (ℝ × ℝ)) (k a b : ℝ) :
    Spec.squaredError (pts.map fun p => (p.1, k + p.2)) (k + a) b = Spec.squaredError pts a b := by
  unfold Spec.squaredError
  rw [List.map_map]
  congr 1
  apply List.map_congr_left
  intro p _
  simp only [Function.comp]
  ring

theorem lineFit_shift (pts : List (ℝ × ℝ)) (k a b : ℝ) :
    Spec.LineFit (pts.map fun p => (p.1, k + p.2)) (k + a) b ↔ Spec.LineFit pts a b := by
  unfold Spec.LineFit
  constructor
  · intro h a' b'
    have := h (k + a') b'
    rwa [squaredError_shift, squaredError_shift] at this
  · intro h a' b'
    have := h (a' - k) b'
    rw [squaredError_shift]
    have e : a' = k + (a' - k) := by ring
    rw [e, squaredError_shift]
    exact this

/-- Multiplying the power by a factor multiplies an estimate by its power 3/2. -/
theorem estimate_scale (sp : List (ℝ × ℝ)) (hs : Spec.IsSpectrum sp) (c : ℝ) (hc : 0 < c) (lo hi e : ℝ) :
    Spec.Estimate (sp.map fun p => (p.1, c ^ 2 * p.2)) lo hi (c ^ 3 * e) ↔ Spec.Estimate sp lo hi e := by
  have hpts : Spec.bandPoints (sp.map fun p => (p.1, c ^ 2 * p.2)) lo hi =
      (Spec.bandPoints sp lo hi).map fun p => (p.1, Real.logb 10 (c ^ 2) + p.2) := by
    unfold Spec.bandPoints
    rw [List.filter_map, List.map_map, List.map_map]
    apply List.map_congr_left
    intro p hp
    have hp' := (hs.2 p (List.mem_of_mem_filter hp)).2
    simp only [Function.comp, Prod.mk.injEq, true_and]
    rw [Real.logb_mul (by positivity) (ne_of_gt hp')]
  unfold Spec.Estimate
  rw [hpts, List.length_map]
  have h1 : 0 < c ^ 3 * e ↔ 0 < e := mul_pos_iff_of_pos_left (by positivity)
  rw [h1]
  have hpow : ∀ a, 0 < e → ((10 : ℝ) ^ (Real.logb 10 (c ^ 2) + a) = 0.5 * (c ^ 3 * e) ^ (2 / 3 : ℝ) ↔
      (10 : ℝ) ^ a = 0.5 * e ^ (2 / 3 : ℝ)) := by
    intro a he
    rw [Real.rpow_add (by norm_num), Real.rpow_logb (by norm_num) (by norm_num) (by positivity),
      Real.mul_rpow (by positivity) he.le]
    have : (c ^ 3 : ℝ) ^ (2 / 3 : ℝ) = c ^ 2 := by
      rw [← Real.rpow_natCast c 3, ← Real.rpow_mul hc.le, ← Real.rpow_natCast c 2]
      norm_num
    rw [this]
    have hc2 : (c ^ 2 : ℝ) ≠ 0 := by positivity
    constructor
    · intro h
      have : c ^ 2 * (10 : ℝ) ^ a = c ^ 2 * (0.5 * e ^ (2 / 3 : ℝ)) := by rw [h]; ring
      exact mul_left_cancel₀ hc2 this
    · intro h; rw [h]; ring
  constructor
  · rintro ⟨h2, he, a, b, hl, hb1, hb2, ha⟩
    refine ⟨h2, he, a - Real.logb 10 (c ^ 2), b, ?_, hb1, hb2, ?_⟩
    · rw [← lineFit_shift _ (Real.logb 10 (c ^ 2))]
      rwa [add_sub_cancel]
    · rw [← hpow _ he, add_sub_cancel]
      exact ha
  · rintro ⟨h2, he, a, b, hl, hb1, hb2, ha⟩
    exact ⟨h2, he, _, b, (lineFit_shift _ _ _ _).2 hl, hb1, hb2, (hpow a he).2 ha⟩

theorem epsilonFromSpectrum_scale (sp : List (ℝ × ℝ)) (hs : Spec.IsSpectrum sp) (c : ℝ) (hc : 0 < c) :
    epsilonFromSpectrum (sp.map fun p => (p.1, c ^ 2 * p.2)) =
      (epsilonFromSpectrum sp).map fun r => (c ^ 3 * r.1, r.2.map fun d => c ^ 3 * d) := by
  classical
  have hc3 : 0 < c ^ 3 := by positivity
  have hs' : Spec.IsSpectrum (sp.map fun p => (p.1, c ^ 2 * p.2)) := by
    refine ⟨List.pairwise_map.2 hs.1, ?_⟩
    intro p hp
    obtain ⟨q, hq, rfl⟩ := List.mem_map.1 hp
    obtain ⟨h1, h2⟩ := hs.2 q hq
    exact ⟨h1, by positivity⟩
  set sp' := sp.map fun p => (p.1, c ^ 2 * p.2) with hsp'
  have hval : ∀ band ∈ freqBands, ((bandFit sp' band).valid ↔ (bandFit sp band).valid) ∧
      ((bandFit sp band).valid → (bandFit sp' band).epsilon = c ^ 3 * (bandFit sp band).epsilon) := by
    intro band hb
    have hlt := freqBands_lt band hb
    have e1 := estimate_iff sp hs band hlt
    have e2 := estimate_iff sp' hs' band hlt
    constructor
    · constructor
      · intro h
        have h3 := (e2 (bandFit sp' band).epsilon).2 ⟨h, rfl⟩
        have h4 : (bandFit sp' band).epsilon = c ^ 3 * ((bandFit sp' band).epsilon / c ^ 3) := by
          field_simp
        rw [h4, estimate_scale sp hs c hc] at h3
        exact ((e1 _).1 h3).1
      · intro h
        have h3 := (e1 (bandFit sp band).epsilon).2 ⟨h, rfl⟩
        rw [← estimate_scale sp hs c hc] at h3
        exact ((e2 _).1 h3).1
    · intro h
      have h3 := (e1 (bandFit sp band).epsilon).2 ⟨h, rfl⟩
      rw [← estimate_scale sp hs c hc] at h3
      exact ((e2 _).1 h3).2.symm
  set acc := freqBands.filter fun band => decide (bandFit sp band).valid with hacc
  have hv1 : (freqBands.map (bandFit sp)).filter (fun f => decide f.valid) = acc.map (bandFit sp) := by
    rw [hacc, List.filter_map]
    rfl
  have hv2 : (freqBands.map (bandFit sp')).filter (fun f => decide f.valid) = acc.map (bandFit sp') := by
    rw [hacc, List.filter_map]
    congr 1
    apply List.filter_congr
    intro band hb
    simp only [Function.comp, decide_eq_decide]
    exact (hval band hb).1
  have heps : (acc.map (bandFit sp')).map BandFit.epsilon =
      ((acc.map (bandFit sp)).map BandFit.epsilon).map (c ^ 3 * ·) := by
    rw [List.map_map, List.map_map, List.map_map]
    apply List.map_congr_left
    intro band hb
    obtain ⟨h1, h2⟩ := List.mem_filter.1 hb
    exact (hval band h1).2 (of_decide_eq_true h2)
  unfold epsilonFromSpectrum
  dsimp only
  rw [hv1, hv2, heps]
  by_cases hne : acc = []
  · rw [if_pos (by simpa using hne), if_pos (by simpa using hne)]
    rfl
  · rw [if_neg (c := acc.map (bandFit sp') = []) (by simpa using hne),
      if_neg (c := acc.map (bandFit sp) = []) (by simpa using hne)]
    generalize (acc.map (bandFit sp)).map BandFit.epsilon = eps
    have hsum : (eps.map (c ^ 3 * ·)).sum = c ^ 3 * eps.sum := by
      simpa using List.sum_map_mul_left eps id (c ^ 3)
    simp only [Option.map_some, List.length_map, Option.some.injEq, Prod.mk.injEq]
    refine ⟨by rw [hsum]; ring, ?_⟩
    by_cases h2 : 2 ≤ eps.length
    · rw [if_pos h2, if_pos h2, Option.map_some, Option.some.injEq, hsum, List.map_map]
      have : (eps.map ((fun e => (e - c ^ 3 * eps.sum / eps.length) ^ 2) ∘ (c ^ 3 * ·))).sum =
          (c ^ 3) ^ 2 * (eps.map fun e => (e - eps.sum / eps.length) ^ 2).sum := by
        rw [← List.sum_map_mul_left eps (fun e => (e - eps.sum / eps.length) ^ 2) ((c ^ 3) ^ 2)]
        congr 1
        apply List.map_congr_left
        intro e _
        simp only [Function.comp]
        ring
      rw [this, mul_div_assoc, Real.sqrt_mul (by positivity), Real.sqrt_sq hc3.le]
    · rw [if_neg h2, if_neg h2]
      rfl

end Cloudnet
