import Verif.Epsilon.Fit
import Mathlib.Analysis.SpecialFunctions.Complex.Log
import Mathlib.Analysis.Complex.Trigonometric

/-! Properties C103 (dissipation rate from a spectrum), C104 (windows) and C105 (wind speed). -/

namespace Cloudnet

theorem logb_inj {x y : ℝ} (hx : 0 < x) (hy : 0 < y) (h : Real.logb 10 x = Real.logb 10 y) : x = y :=
  Real.logb_injOn_pos (by norm_num) (Set.mem_Ioi.2 hx) (Set.mem_Ioi.2 hy) h

/-- Two points of a band have different abscissas. -/
theorem bandPoints_distinct (sp : List (ℝ × ℝ)) (hs : Spec.IsSpectrum sp) (lo hi : ℝ)
    (h2 : 2 ≤ (Spec.bandPoints sp lo hi).length) :
    ∃ p ∈ Spec.bandPoints sp lo hi, ∃ q ∈ Spec.bandPoints sp lo hi, p.1 ≠ q.1 := by
  unfold Spec.bandPoints at h2 ⊢
  set l := sp.filter fun p => decide (lo < p.1 ∧ p.1 < hi) with hl
  rw [List.length_map] at h2
  have h0 : 0 < l.length := by omega
  have h1 : 1 < l.length := by omega
  have hpw : l.Pairwise (fun p q => p.1 < q.1) := List.Pairwise.filter _ hs.1
  have hlt := List.pairwise_iff_getElem.1 hpw 0 1 h0 h1 (by omega)
  have hm0 : l[0] ∈ sp := List.mem_of_mem_filter (List.getElem_mem h0)
  have hm1 : l[1] ∈ sp := List.mem_of_mem_filter (List.getElem_mem h1)
  refine ⟨_, List.mem_map_of_mem (List.getElem_mem h0), _, List.mem_map_of_mem (List.getElem_mem h1), ?_⟩
  intro h
  exact absurd (logb_inj (hs.2 _ hm0).1 (hs.2 _ hm1).1 h) (ne_of_lt hlt)

theorem slice_sum (sp : List (ℝ × ℝ)) (hs : Spec.IsSpectrum sp) (a b : ℝ) (hab : a < b)
    (g : ℝ × ℝ → ℝ) (l : List ℝ) (hl : l = sp.map g) :
    cumulative l (bisectLeft (fun i => (sp.getD i (0, 0)).1) b sp.length) -
      cumulative l (bisectRight (fun i => (sp.getD i (0, 0)).1) a sp.length) =
    ((sp.filter fun p => decide (a < p.1 ∧ p.1 < b)).map g).sum := by
  obtain ⟨h1, h2, h3⟩ := slice_eq_filter sp (fun p => p.1) (0, 0) a b hab hs.1
  rw [← h3, hl, cumulative_sub _ _ _ h1 (by rw [List.length_map]; exact h2), ← List.map_take,
    ← List.map_drop]

/-- The fit of a band is the line of least squares through its points. -/
theorem bandFit_spec (sp : List (ℝ × ℝ)) (hs : Spec.IsSpectrum sp) (band : ℚ × ℚ) (hb : band.1 < band.2) :
    (bandFit sp band).n = (Spec.bandPoints sp band.1 band.2).length ∧
    (2 ≤ (Spec.bandPoints sp band.1 band.2).length →
      ∃ b, (bandFit sp band).slope = some b ∧
        ∀ a' b', Spec.LineFit (Spec.bandPoints sp band.1 band.2) a' b' ↔
          b' = b ∧ a' = (bandFit sp band).intercept) := by
  have hab : ((band.1 : ℚ) : ℝ) < (band.2 : ℝ) := by exact_mod_cast hb
  obtain ⟨h1, h2, h3⟩ := slice_eq_filter sp (fun p => p.1) (0, 0) _ _ hab hs.1
  set fl := sp.filter fun p => decide (((band.1 : ℚ) : ℝ) < p.1 ∧ p.1 < (band.2 : ℝ)) with hfl
  have hpts : Spec.bandPoints sp band.1 band.2 =
      fl.map fun p => (Real.logb 10 p.1, Real.logb 10 p.2) := rfl
  have hn : bisectLeft (fun i => (sp.getD i (0, 0)).1) (band.2 : ℝ) sp.length -
      bisectRight (fun i => (sp.getD i (0, 0)).1) (band.1 : ℝ) sp.length = fl.length := by
    rw [← h3, List.length_drop, List.length_take, min_eq_left h2]
  have hx := slice_sum sp hs _ _ hab (fun p => Real.logb 10 p.1) _ rfl
  have hy := slice_sum sp hs _ _ hab (fun p => Real.logb 10 p.2) _ rfl
  have hxx := slice_sum sp hs _ _ hab (fun p => Real.logb 10 p.1 * Real.logb 10 p.1)
    (List.zipWith (· * ·) (sp.map fun fp => Real.logb 10 fp.1) (sp.map fun fp => Real.logb 10 fp.1))
    (by rw [List.zipWith_map, List.zipWith_self])
  have hxy := slice_sum sp hs _ _ hab (fun p => Real.logb 10 p.1 * Real.logb 10 p.2)
    (List.zipWith (· * ·) (sp.map fun fp => Real.logb 10 fp.1) (sp.map fun fp => Real.logb 10 fp.2))
    (by rw [List.zipWith_map, List.zipWith_self])
  rw [← hfl] at hx hy hxx hxy
  unfold bandFit
  dsimp only
  rw [hx, hy, hxx, hxy, hn]
  refine ⟨by rw [hpts, List.length_map], ?_⟩
  intro h2'
  obtain ⟨p, hp, q, hq, hne⟩ := bandPoints_distinct sp hs _ _ h2'
  have hdet := det_pos _ p q hp hq hne
  have hfit := lineFit_iff _ p q hp hq hne
  rw [hpts] at hdet hfit ⊢
  simp only [List.map_map, List.length_map, Function.comp_def] at hdet hfit ⊢
  rw [if_neg (ne_of_gt hdet)]
  refine ⟨_, rfl, ?_⟩
  intro a' b'
  rw [hfit]
  constructor
  · rintro ⟨e1, e2⟩
    refine ⟨e1, ?_⟩
    rw [Option.getD_some, e2, e1]
  · rintro ⟨e1, e2⟩
    refine ⟨e1, ?_⟩
    rw [e2, Option.getD_some, e1]

/-- The dissipation rate of an intercept. -/
theorem epsilon_iff (a e : ℝ) :
    (0 < e ∧ (10 : ℝ) ^ a = 0.5 * e ^ (2 / 3 : ℝ)) ↔ e = ((10 : ℝ) ^ a / (1 / 2)) ^ (3 / 2 : ℝ) := by
  have h10 : (0 : ℝ) < 10 ^ a := Real.rpow_pos_of_pos (by norm_num) a
  constructor
  · rintro ⟨he, h⟩
    rw [h]
    have : 0.5 * e ^ (2 / 3 : ℝ) / (1 / 2) = e ^ (2 / 3 : ℝ) := by norm_num
    rw [this, ← Real.rpow_mul he.le]
    norm_num
  · intro h
    have hpos : (0 : ℝ) < (10 : ℝ) ^ a / (1 / 2) := by positivity
    refine ⟨by rw [h]; positivity, ?_⟩
    rw [h, ← Real.rpow_mul hpos.le]
    norm_num
    ring

/-- A band is valid exactly if it accepts an estimate, which is the one of the model. -/
theorem estimate_iff (sp : List (ℝ × ℝ)) (hs : Spec.IsSpectrum sp) (band : ℚ × ℚ) (hb : band.1 < band.2)
    (e : ℝ) :
    Spec.Estimate sp band.1 band.2 e ↔ (bandFit sp band).valid ∧ e = (bandFit sp band).epsilon := by
  obtain ⟨hn, hfit⟩ := bandFit_spec sp hs band hb
  unfold Spec.Estimate BandFit.valid
  rw [hn]
  constructor
  · rintro ⟨h2, he, a, b, hl, hb1, hb2, ha⟩
    obtain ⟨b0, hslope, huniq⟩ := hfit h2
    obtain ⟨rfl, rfl⟩ := (huniq a b).1 hl
    refine ⟨⟨h2, b, hslope, hb1, ?_⟩, (epsilon_iff _ _).1 ⟨he, ha⟩⟩
    norm_num at hb2 ⊢
    exact hb2
  · rintro ⟨⟨h2, s, hslope, hs1, hs2⟩, he⟩
    obtain ⟨b0, hslope', huniq⟩ := hfit h2
    rw [hslope] at hslope'
    obtain rfl := Option.some.inj hslope'
    obtain ⟨he1, he2⟩ := (epsilon_iff _ _).2 he
    refine ⟨h2, he1, _, s, (huniq _ _).2 ⟨rfl, rfl⟩, hs1, ?_, he2⟩
    norm_num at hs2 ⊢
    exact hs2

theorem freqBands_lt : ∀ band ∈ freqBands, band.1 < band.2 := by decide +kernel

theorem freqBands_nodup : freqBands.Nodup := by decide +kernel

/-- C103. The bands of wavenumbers in use are exactly those of the specification. -/
theorem C103_bands (band : ℚ × ℚ) : band ∈ freqBands ↔ Spec.InertialBand band := by
  constructor
  · have h : ∀ band ∈ freqBands,
        (∃ p ∈ [((5 : ℚ), (15 : ℚ)), (5, 30), (5, 50), (8, 20), (8, 40), (8, 60)], ∃ k < 4,
          band = (p.1 / 10 ^ k, p.2 / 10 ^ k)) ∨
        (∃ p ∈ [((2 : ℚ), (7 : ℚ)), (2, 10), (2, 15), (3, 10), (3, 20), (3, 30)], ∃ k < 3,
          band = (p.1 / 10 ^ k, p.2 / 10 ^ k)) := by decide +kernel
    exact h band
  · have h1 : ∀ p ∈ [((5 : ℚ), (15 : ℚ)), (5, 30), (5, 50), (8, 20), (8, 40), (8, 60)], ∀ k < 4,
        ((p.1 / 10 ^ k, p.2 / 10 ^ k) : ℚ × ℚ) ∈ freqBands := by decide +kernel
    have h2 : ∀ p ∈ [((2 : ℚ), (7 : ℚ)), (2, 10), (2, 15), (3, 10), (3, 20), (3, 30)], ∀ k < 3,
        ((p.1 / 10 ^ k, p.2 / 10 ^ k) : ℚ × ℚ) ∈ freqBands := by decide +kernel
    rintro (⟨p, hp, k, hk, rfl⟩ | ⟨p, hp, k, hk, rfl⟩)
    · exact h1 p hp k hk
    · exact h2 p hp k hk

/-- C103. The dissipation rate of a spectrum: each band fits a line of least squares to the logarithms of
the points strictly inside; bands with two points or more and a slope within 20 % of -5/3 give an
estimate. The result is the mean of the estimates, its error their sample standard deviation (undefined
for one band); without such a band there is no result. -/
theorem C103_dissipation_rate (sp : List (ℝ × ℝ)) (hs : Spec.IsSpectrum sp) :
    ∃ (s : Finset (ℚ × ℚ)) (est : ℚ × ℚ → ℝ),
      (∀ band, band ∈ s ↔ Spec.InertialBand band ∧ ∃ e, Spec.Estimate sp band.1 band.2 e) ∧
      (∀ band ∈ s, ∀ e, Spec.Estimate sp band.1 band.2 e ↔ e = est band) ∧
      (epsilonFromSpectrum sp = none ↔ s = ∅) ∧
      ∀ mean err, epsilonFromSpectrum sp = some (mean, err) →
        mean * s.card = ∑ band ∈ s, est band ∧
        (err = none ↔ s.card = 1) ∧
        ∀ d, err = some d → 0 ≤ d ∧ d ^ 2 * (s.card - 1) = ∑ band ∈ s, (est band - mean) ^ 2 := by
  classical
  set acc := freqBands.filter fun band => decide (bandFit sp band).valid with hacc
  have hnd : acc.Nodup := freqBands_nodup.filter _
  have hvalid : (freqBands.map (bandFit sp)).filter (fun f => decide f.valid) = acc.map (bandFit sp) := by
    rw [hacc, List.filter_map]
    rfl
  have hmem : ∀ band, band ∈ acc.toFinset ↔ band ∈ freqBands ∧ (bandFit sp band).valid := by
    intro band
    rw [List.mem_toFinset, hacc, List.mem_filter, decide_eq_true_eq]
  have hcard : (acc.toFinset.card : ℝ) = (acc.length : ℝ) := by rw [List.toFinset_card_of_nodup hnd]
  refine ⟨acc.toFinset, fun band => (bandFit sp band).epsilon, ?_, ?_, ?_, ?_⟩
  · intro band
    rw [hmem, ← C103_bands]
    constructor
    · rintro ⟨h1, h2⟩
      exact ⟨h1, _, (estimate_iff sp hs band (freqBands_lt band h1) _).2 ⟨h2, rfl⟩⟩
    · rintro ⟨h1, e, h2⟩
      exact ⟨h1, ((estimate_iff sp hs band (freqBands_lt band h1) _).1 h2).1⟩
  · intro band hband e
    obtain ⟨h1, h2⟩ := (hmem band).1 hband
    rw [estimate_iff sp hs band (freqBands_lt band h1)]
    exact ⟨fun h => h.2, fun h => ⟨h2, h⟩⟩
  · unfold epsilonFromSpectrum
    dsimp only
    rw [hvalid]
    by_cases h : acc = []
    · simp [h]
    · rw [if_neg (by simpa using h)]
      simp [h]
  · intro mean err h
    unfold epsilonFromSpectrum at h
    dsimp only at h
    rw [hvalid] at h
    by_cases hne : acc = []
    · rw [if_pos (by simpa using hne)] at h; cases h
    rw [if_neg (by simpa using hne)] at h
    simp only [List.map_map, List.length_map, Option.some.injEq, Prod.mk.injEq] at h
    obtain ⟨hm, he⟩ := h
    have hpos : 0 < acc.length := List.length_pos_iff.2 hne
    have hpos' : (0 : ℝ) < acc.length := by exact_mod_cast hpos
    have hsum : (acc.map (BandFit.epsilon ∘ bandFit sp)).sum =
        ∑ band ∈ acc.toFinset, (bandFit sp band).epsilon := (List.sum_toFinset _ hnd).symm
    refine ⟨?_, ?_, ?_⟩
    · rw [hcard, ← hm, hsum]
      field_simp
    · rw [← he, List.toFinset_card_of_nodup hnd]
      by_cases h2 : 2 ≤ acc.length
      · rw [if_pos h2]; simp; omega
      · rw [if_neg h2]; simp; omega
    · intro d hd
      rw [← he] at hd
      by_cases h2 : 2 ≤ acc.length
      · rw [if_pos h2] at hd
        obtain rfl := Option.some.inj hd
        refine ⟨Real.sqrt_nonneg _, ?_⟩
        have h1 : (0 : ℝ) < acc.length - 1 := by
          have : (2 : ℝ) ≤ acc.length := by exact_mod_cast h2
          linarith
        rw [hm, Real.sq_sqrt, hcard, div_mul_cancel₀ _ (ne_of_gt h1)]
        · exact (List.sum_toFinset (fun band => ((bandFit sp band).epsilon - mean) ^ 2) hnd).symm
        · apply div_nonneg _ h1.le
          apply List.sum_nonneg
          intro x hx
          obtain ⟨y, -, rfl⟩ := List.mem_map.1 hx
          exact sq_nonneg _
      · rw [if_neg h2] at hd; cases hd

/-- C103. A spectrum of the inertial subrange, `0.5 e^(2/3) k^(-5/3)`, gives back exactly its dissipation
rate, with no error, as soon as a band has two points. -/
theorem C103_inertial_subrange (sp : List (ℝ × ℝ)) (hs : Spec.IsSpectrum sp) (eps : ℝ) (heps : 0 < eps)
    (hlaw : ∀ p ∈ sp, p.2 = 0.5 * eps ^ (2 / 3 : ℝ) * p.1 ^ (-5 / 3 : ℝ))
    (hband : ∃ band, Spec.InertialBand band ∧ 2 ≤ (Spec.bandPoints sp band.1 band.2).length) :
    epsilonFromSpectrum sp = some (eps, some 0) ∨ epsilonFromSpectrum sp = some (eps, none) := by
  have hest : ∀ band, Spec.InertialBand band → 2 ≤ (Spec.bandPoints sp band.1 band.2).length →
      Spec.Estimate sp band.1 band.2 eps := by
    intro band _ h2
    refine ⟨h2, heps, Real.logb 10 (0.5 * eps ^ (2 / 3 : ℝ)), -5 / 3, ?_, by norm_num, by norm_num, ?_⟩
    · intro a' b'
      have hzero : Spec.squaredError (Spec.bandPoints sp band.1 band.2)
          (Real.logb 10 (0.5 * eps ^ (2 / 3 : ℝ))) (-5 / 3) = 0 := by
        unfold Spec.squaredError
        apply List.sum_eq_zero
        intro x hx
        obtain ⟨p, hp, rfl⟩ := List.mem_map.1 hx
        obtain ⟨q, hq, rfl⟩ := List.mem_map.1 hp
        have hq' := List.mem_of_mem_filter hq
        have hq1 := (hs.2 q hq').1
        dsimp only
        rw [hlaw q hq', Real.logb_mul (by positivity) (by positivity), Real.logb_rpow_eq_mul_logb_of_pos hq1]
        ring
      rw [hzero]
      apply List.sum_nonneg
      intro x hx
      obtain ⟨p, -, rfl⟩ := List.mem_map.1 hx
      exact sq_nonneg _
    · exact Real.rpow_logb (by norm_num) (by norm_num) (by positivity)
  obtain ⟨s, est, hs1, hs2, hs3, hs4⟩ := C103_dissipation_rate sp hs
  have hest' : ∀ band ∈ s, est band = eps := by
    intro band hb
    obtain ⟨h1, e, he⟩ := (hs1 band).1 hb
    exact ((hs2 band hb eps).1 (hest band h1 he.1)).symm
  obtain ⟨band, hb1, hb2⟩ := hband
  have hmem : band ∈ s := (hs1 band).2 ⟨hb1, eps, hest band hb1 hb2⟩
  have hne : s ≠ ∅ := Finset.ne_empty_of_mem hmem
  cases h : epsilonFromSpectrum sp with
  | none => exact absurd (hs3.1 h) hne
  | some r =>
    obtain ⟨mean, err⟩ := r
    obtain ⟨h1, h2, h3⟩ := hs4 mean err h
    have hcard : (0 : ℝ) < s.card := by
      have := Finset.card_pos.2 ⟨band, hmem⟩
      exact_mod_cast this
    rw [Finset.sum_congr rfl hest', Finset.sum_const, nsmul_eq_mul, mul_comm] at h1
    have hm : mean = eps := mul_left_cancel₀ (ne_of_gt hcard) h1
    rw [hm]
    cases herr : err with
    | none => right; rfl
    | some d =>
      left
      obtain ⟨h4, h5⟩ := h3 d herr
      rw [Finset.sum_eq_zero (fun b hb => by rw [hest' b hb, hm]; ring)] at h5
      have h6 : s.card ≠ 1 := fun hc => by rw [h2.2 hc] at herr; cases herr
      have h7 : (s.card : ℝ) - 1 ≠ 0 := by
        intro hc
        apply h6
        have : (s.card : ℝ) = 1 := by linarith
        exact_mod_cast this
      rcases mul_eq_zero.1 h5 with h | h
      · rw [pow_eq_zero_iff two_ne_zero] at h
        rw [h]
      · exact absurd h h7

/-- C103. Every wavenumber between 0.005 and 60 rad/m lies in some band. -/
theorem C103_bands_cover (k : ℝ) (h1 : 0.005 < k) (h2 : k < 60) :
    ∃ band ∈ freqBands, (band.1 : ℝ) < k ∧ k < (band.2 : ℝ) := by
  norm_num at h1
  by_cases a1 : k < 5 / 100
  · exact ⟨(5 / 1000, 5 / 100), by decide +kernel, by norm_num; linarith, by norm_num; linarith⟩
  by_cases a2 : k < 3 / 10
  · exact ⟨(3 / 100, 3 / 10), by decide +kernel, by norm_num; linarith, by norm_num; linarith⟩
  by_cases a3 : k < 15 / 10
  · exact ⟨(2 / 10, 15 / 10), by decide +kernel, by norm_num; linarith, by norm_num; linarith⟩
  by_cases a4 : k < 5
  · exact ⟨(5 / 10, 5), by decide +kernel, by norm_num; linarith, by norm_num; linarith⟩
  by_cases a5 : k < 30
  · exact ⟨(3, 30), by decide +kernel, by norm_num; linarith, by norm_num; linarith⟩
  · exact ⟨(8, 60), by decide +kernel, by norm_num; linarith, by norm_num; linarith⟩

/-! ### The spectrum of a velocity series -/

/-- The wavenumbers and powers of a moving series form a spectrum. -/
theorem periodogram_isSpectrum (n : ℕ) (vel : ℕ → ℝ) (dt adv : ℝ) (hdx : 0 < dt * adv) :
    Spec.IsSpectrum (periodogram n vel dt adv) := by
  unfold periodogram
  dsimp only
  refine ⟨?_, ?_⟩
  · apply List.Pairwise.filter
    rw [List.pairwise_map]
    by_cases hn : n = 0
    · subst hn; simp
    have hn' : (0 : ℝ) < n := by exact_mod_cast Nat.pos_of_ne_zero hn
    apply List.Pairwise.imp _ List.pairwise_lt_range
    intro i j hij
    have hij' : ((i + 1 : ℕ) : ℝ) < ((j + 1 : ℕ) : ℝ) := by exact_mod_cast Nat.succ_lt_succ hij
    have hpi := Real.pi_pos
    have := div_lt_div_of_pos_right hij' (mul_pos hn' hdx)
    dsimp only
    nlinarith
  · intro p hp
    obtain ⟨h1, h2⟩ := List.mem_filter.1 hp
    obtain ⟨k, hk, rfl⟩ := List.mem_map.1 h1
    rw [List.mem_range] at hk
    have hn' : (0 : ℝ) < n := by
      have : 0 < n := by omega
      exact_mod_cast this
    have hpi := Real.pi_pos
    exact ⟨by positivity, by simpa using h2⟩

end Cloudnet
