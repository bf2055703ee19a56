import Verif.FloatMean.Model
import Verif.FloatGrid.Props

/-!
C185: how far rebinned means are from exact means.
-/

namespace Cloudnet

/-- The error of rounding: relative, or one unit of the smallest numbers. -/
theorem roundFloat_any (f : FloatFormat) (hp : 2 ≤ f.digits) (x : ℚ) : |roundFloat f x - x| ≤ |x| / 2 ^ f.digits + 2 ^ f.least := by
  have hl : (0 : ℚ) < 2 ^ f.least := two_zpow_pos _
  by_cases hx : (2 : ℚ) ^ (f.least + f.digits - 1) ≤ |x|
  · have := roundFloat_error f x hx
    linarith
  · push Not at hx
    set m := ⌊x / 2 ^ f.least⌋ with hm
    have a := Int.floor_le (x / 2 ^ f.least)
    have b := Int.lt_floor_add_one (x / 2 ^ f.least)
    rw [← hm, le_div_iff₀ hl] at a
    rw [← hm, div_lt_iff₀ hl] at b
    have hpow : (2 : ℚ) ^ (f.least + f.digits - 1) = 2 ^ (f.digits - 1) * 2 ^ f.least := by
      rw [← zpow_natCast, ← zpow_add₀ (by norm_num)]
      congr 1
      push_cast [show 1 ≤ f.digits by omega]
      ring
    rw [hpow] at hx
    obtain ⟨x1, x2⟩ := abs_lt.1 hx
    have m1 : m < 2 ^ (f.digits - 1) := by
      have : (m : ℚ) * 2 ^ f.least < 2 ^ (f.digits - 1) * 2 ^ f.least := by linarith
      exact_mod_cast lt_of_mul_lt_mul_right this hl.le
    have m2 : -(2 ^ (f.digits - 1)) - 1 < m := by
      have : (-(2 ^ (f.digits - 1)) : ℚ) * 2 ^ f.least < ((m : ℚ) + 1) * 2 ^ f.least := by linarith
      have h := lt_of_mul_lt_mul_right this hl.le
      have h' : (-(2 ^ (f.digits - 1)) : ℤ) < m + 1 := by exact_mod_cast h
      omega
    have hd : (2 : ℤ) ^ f.digits = 2 * 2 ^ (f.digits - 1) := by
      rw [← pow_succ']
      congr 1
      omega
    have hone : (2 : ℤ) ≤ 2 ^ (f.digits - 1) := by
      calc (2 : ℤ) = 2 ^ 1 := by norm_num
        _ ≤ 2 ^ (f.digits - 1) := pow_le_pow_right₀ (by norm_num) (by omega)
    have hrep : Spec.Representable f ((m : ℚ) * 2 ^ f.least) := ⟨m, f.least, rfl, by rw [abs_lt, hd]; constructor <;> omega, le_rfl⟩
    have h1 := roundFloat_nearest f (by omega) x _ hrep
    have h2 : |(m : ℚ) * 2 ^ f.least - x| ≤ 2 ^ f.least := by
      rw [abs_le]
      constructor <;> linarith
    have h3 : 0 ≤ |x| / 2 ^ f.digits := by positivity
    linarith

theorem fl4_any (x : ℚ) : |fl4 x - x| ≤ |x| / 2 ^ 24 + 1 / 2 ^ 149 := by
  have h := roundFloat_any NcType.f4.format (by simp [NcType.format]) x
  have e : (2 : ℚ) ^ NcType.f4.format.least = 1 / 2 ^ 149 := by
    simp only [NcType.format]
    rw [one_div, zpow_neg]
    norm_cast
  rw [e] at h
  exact h

theorem fl_any (x : ℚ) : |fl x - x| ≤ |x| / 2 ^ 53 + 1 / 2 ^ 1074 := by
  have h := roundFloat_any NcType.f8.format (by simp [NcType.format]) x
  have e : (2 : ℚ) ^ NcType.f8.format.least = 1 / 2 ^ 1074 := by
    simp only [NcType.format]
    rw [one_div, zpow_neg]
    norm_cast
  rw [e] at h
  exact h

/-- The error of a sum of any length. -/
theorem sumSingle_error (xs : List ℚ) :
    |sumSingle xs - xs.sum| ≤ ((1 + 1 / 2 ^ 24) ^ xs.length - 1) * ((xs.map abs).sum + 1 / 2 ^ 125) ∧ |xs.sum| ≤ (xs.map abs).sum := by
  induction xs using List.reverseRecOn with
  | nil =>
    unfold sumSingle
    simp
  | append_singleton l x ih =>
    obtain ⟨ih1, ih2⟩ := ih
    unfold sumSingle at ih1 ⊢
    rw [List.foldl_append, List.sum_append, List.length_append, List.map_append, List.sum_append]
    simp only [List.foldl_cons, List.foldl_nil, List.sum_cons, List.sum_nil, add_zero, List.length_cons, List.length_nil, zero_add, List.map_cons, List.map_nil]
    set S := l.foldl (fun s x => fl4 (s + x)) 0
    set T := l.sum
    set A := (l.map abs).sum
    have hA : |T + x| ≤ A + |x| := (abs_add_le T x).trans (by linarith)
    refine ⟨?_, hA⟩
    have hr := fl4_any (S + x)
    have h1 : |S + x| ≤ A + |x| + |S - T| := by
      have := abs_add_le (S - T) (T + x)
      rw [show S - T + (T + x) = S + x by ring] at this
      linarith
    have h2 : |fl4 (S + x) - (T + x)| ≤ |fl4 (S + x) - (S + x)| + |S - T| := by
      have := abs_add_le (fl4 (S + x) - (S + x)) (S - T)
      rw [show fl4 (S + x) - (S + x) + (S - T) = fl4 (S + x) - (T + x) by ring] at this
      exact this
    have hx := abs_nonneg x
    have hA0 : 0 ≤ A := (abs_nonneg T).trans ih2
    set P : ℚ := (1 + 1 / 2 ^ 24) ^ l.length
    have hP : 1 ≤ P := one_le_pow₀ (by norm_num)
    rw [pow_succ]
    have h3 : |S - T| ≤ (P - 1) * (A + |x| + 1 / 2 ^ 125) := by
      refine ih1.trans (mul_le_mul_of_nonneg_left (by linarith) (by linarith))
    have e1 : (1 : ℚ) / 2 ^ 149 = 1 / 2 ^ 125 / 2 ^ 24 := by norm_num
    rw [e1] at hr
    set c : ℚ := 1 / 2 ^ 125
    set B := A + |x| + c
    have h4 : |S + x| / 2 ^ 24 ≤ (A + |x| + |S - T|) / 2 ^ 24 := div_le_div_of_nonneg_right h1 (by positivity)
    have h5 : |fl4 (S + x) - (T + x)| ≤ (A + |x| + |S - T|) / 2 ^ 24 + c / 2 ^ 24 + |S - T| := by linarith
    have e2 : (A + |x| + |S - T|) / 2 ^ 24 + c / 2 ^ 24 + |S - T| = B / 2 ^ 24 + (1 + 1 / 2 ^ 24) * |S - T| := by
      simp only [B]
      ring
    rw [e2] at h5
    refine h5.trans ?_
    have h6 : (1 + 1 / 2 ^ 24) * |S - T| ≤ (1 + 1 / 2 ^ 24) * ((P - 1) * B) := mul_le_mul_of_nonneg_left h3 (by norm_num)
    have e3 : (P * (1 + 1 / 2 ^ 24) - 1) * B = B / 2 ^ 24 + (1 + 1 / 2 ^ 24) * ((P - 1) * B) := by ring
    rw [e3]
    linarith

theorem pow_small (n : ℕ) (h : n ≤ 2 ^ 23) : ((1 : ℚ) + 1 / 2 ^ 24) ^ n - 1 ≤ 2 * n / 2 ^ 24 := by
  induction n with
  | zero => simp
  | succ n ih =>
    have ih' := ih (by omega)
    rw [pow_succ]
    have hn : (n : ℚ) ≤ 2 ^ 23 := by exact_mod_cast (show n ≤ 2 ^ 23 by omega)
    have h1 : ((1 : ℚ) + 1 / 2 ^ 24) ^ n * (1 + 1 / 2 ^ 24) ≤ (1 + 2 * n / 2 ^ 24) * (1 + 1 / 2 ^ 24) :=
      mul_le_mul_of_nonneg_right (by linarith) (by norm_num)
    have h2 : (1 + 2 * (n : ℚ) / 2 ^ 24) * (1 + 1 / 2 ^ 24) ≤ 1 + 2 * (n + 1) / 2 ^ 24 := by
      have : 2 * (n : ℚ) / 2 ^ 24 * (1 / 2 ^ 24) ≤ 1 * (1 / 2 ^ 24) := by
        apply mul_le_mul_of_nonneg_right _ (by norm_num)
        rw [div_le_iff₀ (by norm_num), show (2 : ℚ) ^ 24 = 2 * 2 ^ 23 by norm_num]
        linarith
      have e : (1 + 2 * (n : ℚ) / 2 ^ 24) * (1 + 1 / 2 ^ 24) = 1 + 2 * n / 2 ^ 24 + 1 / 2 ^ 24 + 2 * n / 2 ^ 24 * (1 / 2 ^ 24) := by ring
      rw [e]
      have e' : 2 * ((n : ℚ) + 1) / 2 ^ 24 = 2 * n / 2 ^ 24 + 2 * (1 / 2 ^ 24) := by ring
      rw [e']
      linarith
    push_cast
    linarith

/-- **C185.** The mean of `n` values (up to eight million) in a bin, in single precision, differs from the exact mean by at most `(2n+4)/2²⁴` of the mean of the absolute values (and a
number below 10⁻³⁷ of it). -/
theorem C185_mean (xs : List ℚ) (hne : xs ≠ []) (hn : xs.length ≤ 2 ^ 23) :
    |meanSingle xs - xs.sum / xs.length| ≤ (2 * xs.length + 4) / 2 ^ 24 * ((xs.map abs).sum / xs.length + 1 / 2 ^ 125) := by
  obtain ⟨h1, h2⟩ := sumSingle_error xs
  have hpos : 0 < xs.length := List.length_pos_iff.2 hne
  have hn1 : (1 : ℚ) ≤ xs.length := by exact_mod_cast hpos
  have hn0 : (0 : ℚ) < xs.length := by linarith
  have hn2 : (xs.length : ℚ) ≤ 2 ^ 23 := by exact_mod_cast hn
  have hp := pow_small xs.length hn
  unfold meanSingle
  set n : ℚ := (xs.length : ℚ)
  set S := sumSingle xs
  set A := (xs.map abs).sum
  have hA : 0 ≤ A := (abs_nonneg _).trans h2
  set c : ℚ := 1 / 2 ^ 125 with hc
  have hc0 : 0 < c := by rw [hc]; positivity
  set M := A / n with hM
  have hM0 : 0 ≤ M := div_nonneg hA hn0.le
  have hAM : A = n * M := by rw [hM]; field_simp
  have e1 : |S - xs.sum| ≤ 2 * n / 2 ^ 24 * (A + c) := h1.trans (mul_le_mul_of_nonneg_right hp (by linarith))
  -- quotient
  have q1 : |S / n - xs.sum / n| ≤ 2 * n / 2 ^ 24 * (M + c) := by
    rw [← sub_div, abs_div, abs_of_pos hn0, div_le_iff₀ hn0]
    refine e1.trans ?_
    have : A + c ≤ (M + c) * n := by
      rw [hAM]
      have : c * 1 ≤ c * n := mul_le_mul_of_nonneg_left hn1 hc0.le
      linarith
    calc 2 * n / 2 ^ 24 * (A + c) ≤ 2 * n / 2 ^ 24 * ((M + c) * n) := mul_le_mul_of_nonneg_left this (by positivity)
      _ = 2 * n / 2 ^ 24 * (M + c) * n := by ring
  have hsmall : 2 * n / 2 ^ 24 ≤ 1 := by
    rw [div_le_iff₀ (by norm_num)]
    norm_num at hn2 ⊢
    linarith
  have q2 : |xs.sum / n| ≤ M := by
    rw [abs_div, abs_of_pos hn0, hM]
    exact div_le_div_of_nonneg_right h2 hn0.le
  have q3 : |S / n| ≤ 2 * M + c := by
    have := abs_add_le (S / n - xs.sum / n) (xs.sum / n)
    rw [sub_add_cancel] at this
    have h3 : 2 * n / 2 ^ 24 * (M + c) ≤ 1 * (M + c) := mul_le_mul_of_nonneg_right hsmall (by linarith)
    linarith
  have r1 := fl_any (S / n)
  have htiny : (1 : ℚ) / 2 ^ 1074 ≤ c / 2 ^ 40 := by
    rw [hc, div_div, ← pow_add]
    exact one_div_le_one_div_of_le (by positivity) (pow_le_pow_right₀ (by norm_num) (by norm_num))
  have r1' : |fl (S / n) - S / n| ≤ (M + c) / 2 ^ 30 := by
    have : |S / n| / 2 ^ 53 ≤ (2 * M + c) / 2 ^ 53 := div_le_div_of_nonneg_right q3 (by positivity)
    refine r1.trans ?_
    have ht : (2 * M + c) / 2 ^ 53 + c / 2 ^ 40 ≤ (M + c) / 2 ^ 30 := by
      norm_num
      linarith
    linarith
  have r2 := fl4_any (fl (S / n))
  have r3 : |fl (S / n)| ≤ 21 / 10 * M + 11 / 10 * c := by
    have := abs_add_le (fl (S / n) - S / n) (S / n)
    rw [sub_add_cancel] at this
    norm_num at r1' ⊢
    linarith
  have e2 : (1 : ℚ) / 2 ^ 149 = c / 2 ^ 24 := by rw [hc]; norm_num
  have r2' : |fl4 (fl (S / n)) - fl (S / n)| ≤ (21 / 10 * M + 11 / 10 * c) / 2 ^ 24 + c / 2 ^ 24 := by
    have : |fl (S / n)| / 2 ^ 24 ≤ (21 / 10 * M + 11 / 10 * c) / 2 ^ 24 := div_le_div_of_nonneg_right r3 (by positivity)
    linarith
  have t1 := abs_add_le (fl4 (fl (S / n)) - fl (S / n)) (fl (S / n) - S / n)
  have t2 := abs_add_le (fl4 (fl (S / n)) - fl (S / n) + (fl (S / n) - S / n)) (S / n - xs.sum / n)
  rw [show fl4 (fl (S / n)) - fl (S / n) + (fl (S / n) - S / n) + (S / n - xs.sum / n) = fl4 (fl (S / n)) - xs.sum / n by ring] at t2
  have e3 : (2 * n + 4) / 2 ^ 24 * (M + c) = 2 * n / 2 ^ 24 * (M + c) + 4 * (M + c) / 2 ^ 24 := by ring
  rw [e3]
  have : (21 / 10 * M + 11 / 10 * c) / 2 ^ 24 + c / 2 ^ 24 + (M + c) / 2 ^ 30 ≤ 4 * (M + c) / 2 ^ 24 := by
    norm_num
    linarith
  linarith

/-- **C185.** Values that are equal: the mean is this value up to `(2n+4)/2²⁴` of it. -/
theorem C185_constant (n : ℕ) (x : ℚ) (h0 : 0 < n) (hn : n ≤ 2 ^ 23) :
    |meanSingle (List.replicate n x) - x| ≤ (2 * n + 4) / 2 ^ 24 * (|x| + 1 / 2 ^ 125) := by
  have h := C185_mean (List.replicate n x) (by simp; omega) (by simpa using hn)
  have hn0 : (n : ℚ) ≠ 0 := by exact_mod_cast h0.ne'
  simp only [List.length_replicate, List.sum_replicate, List.map_replicate, nsmul_eq_mul] at h
  rwa [mul_div_cancel_left₀ _ hn0, mul_div_cancel_left₀ _ hn0] at h

/-- **C185.** One value in a bin is not changed. -/
theorem C185_single (x : ℚ) (h : Spec.Representable NcType.f4.format x) : meanSingle [x] = x := by
  have h8 : IsDouble x := by
    obtain ⟨m, e, hx, hm, he⟩ := h
    refine ⟨m, e, hx, hm.trans ?_, le_trans ?_ he⟩
    · simp [NcType.format]
    · simp [NcType.format]
  have h4 : fl4 x = x := roundFloat_fixed _ x h
  unfold meanSingle sumSingle
  simp only [List.foldl_cons, List.foldl_nil, zero_add, List.length_singleton, Nat.cast_one, div_one]
  rw [h4, fl_fixed h8, h4]

/-- **C185.** Larger values have a mean that is not smaller: rounding keeps the order. -/
theorem C185_mono {xs ys : List ℚ} (h : List.Forall₂ (· ≤ ·) xs ys) : meanSingle xs ≤ meanSingle ys := by
  have hs : ∀ (s t : ℚ), s ≤ t → xs.foldl (fun s x => fl4 (s + x)) s ≤ ys.foldl (fun s x => fl4 (s + x)) t := by
    induction h with
    | nil => exact fun s t hst => hst
    | cons hab _ ih => exact fun s t hst => ih _ _ (roundFloat_mono _ (by simp [NcType.format]) (add_le_add hst hab))
  unfold meanSingle sumSingle
  rw [h.length_eq]
  exact roundFloat_mono _ (by simp [NcType.format]) (fl_mono (div_le_div_of_nonneg_right (hs 0 0 le_rfl) (Nat.cast_nonneg _)))

example : List.Forall₂ (· ≤ ·) [(1 : ℚ), 2, 6] [1, 3, 7] ∧ meanSingle [1, 2, 6] < meanSingle [1, 3, 7] := by
  refine ⟨?_, by decide +kernel⟩
  norm_num

theorem meanSingle_zero (n : ℕ) : meanSingle (List.replicate n 0) = 0 := by
  have z4 : fl4 0 = 0 := by decide +kernel
  have z8 : fl 0 = 0 := by decide +kernel
  have hs : sumSingle (List.replicate n 0) = 0 := by
    unfold sumSingle
    induction n with
    | zero => rfl
    | succ n ih => rw [List.replicate_succ, List.foldl_cons, add_zero, z4, ih]
  unfold meanSingle
  rw [hs, zero_div, z8, z4]

/-- **C185.** The mean of values without negative ones is not negative. -/
theorem C185_nonneg (xs : List ℚ) (h : ∀ x ∈ xs, 0 ≤ x) : 0 ≤ meanSingle xs := by
  rw [← meanSingle_zero xs.length]
  apply C185_mono
  induction xs with
  | nil => simp
  | cons x l ih =>
    rw [List.length_cons, List.replicate_succ]
    exact List.Forall₂.cons (h x (by simp)) (ih fun y hy => h y (by simp [hy]))

/-- **C185.** The mean of values between two bounds is between them up to `(2n+4)/2²⁴` of the bounds. -/
theorem C185_range (xs : List ℚ) (hne : xs ≠ []) (hn : xs.length ≤ 2 ^ 23) (lo hi : ℚ) (h : ∀ x ∈ xs, lo ≤ x ∧ x ≤ hi) :
    lo - (2 * xs.length + 4) / 2 ^ 24 * (|lo| + 1 / 2 ^ 125) ≤ meanSingle xs ∧ meanSingle xs ≤ hi + (2 * xs.length + 4) / 2 ^ 24 * (|hi| + 1 / 2 ^ 125) := by
  have hpos : 0 < xs.length := List.length_pos_iff.2 hne
  have a : List.Forall₂ (· ≤ ·) (List.replicate xs.length lo) xs := by
    clear hne hn hpos
    induction xs with
    | nil => simp
    | cons x l ih =>
      rw [List.length_cons, List.replicate_succ]
      exact List.Forall₂.cons (h x (by simp)).1 (ih fun y hy => h y (by simp [hy]))
  have b : List.Forall₂ (· ≤ ·) xs (List.replicate xs.length hi) := by
    clear hne hn hpos a
    induction xs with
    | nil => simp
    | cons x l ih =>
      rw [List.length_cons, List.replicate_succ]
      exact List.Forall₂.cons (h x (by simp)).2 (ih fun y hy => h y (by simp [hy]))
  have c1 := (abs_le.1 (C185_constant xs.length lo hpos hn)).1
  have c2 := (abs_le.1 (C185_constant xs.length hi hpos hn)).2
  have m1 := C185_mono a
  have m2 := C185_mono b
  constructor <;> linarith

/-- **C185.** But a field without any change in time can be changed by rebinning: the mean of seven values 0.1 is larger than all of them, the mean of three values 0.9 smaller. -/
theorem C185_constant_changed : fl4 (1 / 10) < meanSingle (List.replicate 7 (fl4 (1 / 10))) ∧ meanSingle (List.replicate 3 (fl4 (9 / 10))) < fl4 (9 / 10) := by
  decide +kernel

example : meanSingle [1, 2, 6] = 3 := by decide +kernel

end Cloudnet
