import Verif.DrizzleFile.Model
import Verif.Drizzle.Props
import Verif.Chilbolton.Props
import Verif.IceFile.Props
import Mathlib.Tactic

/-! C143 (the drizzle file). -/

namespace Cloudnet

namespace Spec

/-- Frequencies with a scattering table: Ka and W band. -/
def DrizzleFrequency (x : ℝ) (table : String) : Prop := (27 < x ∧ x < 40 ∧ table = "35") ∨ (75 < x ∧ x < 110 ∧ table = "94")

/-- It rains in the profile `t`, or rain is not known. -/
def RainInProfile (f : DrizzleCategorize) (t : ℕ) : Prop := ∃ rain, getIsRain f.rain = .ok rain ∧ rain t = true

/-- The bits of a pixel are those of drizzle: warm falling particles without droplets, seen by radar and lidar, in a profile without rain. -/
def DrizzleBits (f : DrizzleCategorize) (t h : ℕ) : Prop :=
  let c := fun k => (f.categoryBits t h).testBit k
  let q := fun k => (f.qualityBits t h).testBit k
  ¬ RainInProfile f t ∧ c 1 = true ∧ c 0 = false ∧ c 2 = false ∧ c 3 = false ∧ c 5 = false ∧ q 0 = true ∧ q 1 = true ∧ q 2 = false ∧
    q 3 = false ∧ q 4 = false ∧ q 6 = false

/-- Drizzle that is hidden: warm falling particles with droplets, in a profile without rain. -/
def HiddenDrizzle (f : DrizzleCategorize) (t h : ℕ) : Prop :=
  let c := fun k => (f.categoryBits t h).testBit k
  let q := fun k => (f.qualityBits t h).testBit k
  ¬ RainInProfile f t ∧ c 0 = true ∧ c 2 = false ∧ c 1 = true ∧ c 3 = false ∧ c 5 = false ∧ q 0 = true ∧ q 2 = false ∧ q 3 = false

/-- Drizzle is retrieved: the bits are those of drizzle and the deviation of velocity is known. -/
def RetrievedPixel (f : DrizzleCategorize) (t h : ℕ) : Prop := DrizzleBits f t h ∧ ∃ s x, f.vSigma = some s ∧ s t h = some x

/-- A variable of the file by name, as an array. -/
def gridOf (out : DrizzleFile ℝ) (name : String) (t h : ℕ) : Option ℝ := match out.fields.lookup name with
  | some (.grid a) => a t h
  | _ => none

/-- A scalar of the file by name. -/
def scalarOf (out : DrizzleFile ℝ) (name : String) : Option ℝ := match out.fields.lookup name with
  | some (.scalar a) => a
  | _ => none

/-- A scattering table with positive entries. -/
structure GoodTable (m : MieTable) : Prop where
  widths : 0 < m.nWidths
  dia : 0 < m.nDia
  mu : ∀ i, -3 < m.mu i
  ray : ∀ i j, 0 < m.ray i j
  S : ∀ i j, 0 < m.S i j
  lwf : ∀ i j, 0 < m.lwf i j
  termv : ∀ j, 0 < m.termv j
  v : ∀ i j, m.v i j ≠ 0

end Spec

/-! ### Spectral width -/

/-- **C143.** The factor of the deviation of velocity for wind: it is positive, at least that without divergence of the beam, and decreases
with wind. Hence the corrected width is smaller than the measured one. -/
theorem C143_factor (wind divergence : ℝ) (hw : 0 < wind) (hd : 0 ≤ divergence) :
    ∃ k, vSigmaFactor wind divergence = some k ∧ 0 < k ∧ 1 / ((30 : ℝ) ^ (2 / 3 : ℝ) - 1) ≤ k ∧
      (divergence = 0 → k = 1 / ((30 : ℝ) ^ (2 / 3 : ℝ) - 1)) ∧
      k = 1 / (((30 * wind + divergence) / (wind + divergence)) ^ (2 / 3 : ℝ) - 1) := by
  have ha : 0 < wind + divergence := by linarith
  have hs : 0 < 30 * wind + divergence := by linarith
  have hlt : wind + divergence < 30 * wind + divergence := by linarith
  have hA : 0 < (wind + divergence) ^ (2 / 3 : ℝ) := Real.rpow_pos_of_pos ha _
  have hAS : (wind + divergence) ^ (2 / 3 : ℝ) < (30 * wind + divergence) ^ (2 / 3 : ℝ) :=
    Real.rpow_lt_rpow ha.le hlt (by norm_num)
  have hne : (30 * wind + divergence) ^ (2 / 3 : ℝ) - (wind + divergence) ^ (2 / 3 : ℝ) ≠ 0 := by linarith
  have hform : (wind + divergence) ^ (2 / 3 : ℝ) / ((30 * wind + divergence) ^ (2 / 3 : ℝ) - (wind + divergence) ^ (2 / 3 : ℝ)) =
      1 / (((30 * wind + divergence) / (wind + divergence)) ^ (2 / 3 : ℝ) - 1) := by
    rw [Real.div_rpow hs.le ha.le]
    field_simp
  have h30 : (1 : ℝ) < (30 : ℝ) ^ (2 / 3 : ℝ) := Real.one_lt_rpow (by norm_num) (by norm_num)
  refine ⟨_, by unfold vSigmaFactor; rw [if_neg hne], div_pos hA (by linarith), ?_, ?_, hform⟩
  · rw [hform]
    have hq1 : 1 < (30 * wind + divergence) / (wind + divergence) := by rw [one_lt_div ha]; exact hlt
    have hq : (30 * wind + divergence) / (wind + divergence) ≤ 30 := by rw [div_le_iff₀ ha]; nlinarith
    have h1 : 1 < ((30 * wind + divergence) / (wind + divergence)) ^ (2 / 3 : ℝ) := Real.one_lt_rpow hq1 (by norm_num)
    have h2 : ((30 * wind + divergence) / (wind + divergence)) ^ (2 / 3 : ℝ) ≤ (30 : ℝ) ^ (2 / 3 : ℝ) :=
      Real.rpow_le_rpow (by linarith) hq (by norm_num)
    exact one_div_le_one_div_of_le (by linarith) (by linarith)
  · rintro rfl
    rw [hform]
    congr 3
    rw [add_zero, add_zero, mul_div_assoc, div_self hw.ne', mul_one]

/-- **C143, finding.** Without wind the factor is unknown, whatever the height. -/
theorem C143_no_wind (divergence : ℝ) : vSigmaFactor 0 divergence = none := by
  unfold vSigmaFactor
  rw [mul_zero]
  simp

/-- **C143.** The spectral width with wind: what turbulence adds is removed. It is `s / (r^(2/3) - 1)` for the deviation of velocity `s` and the ratio
`r` of lengths seen in 30 s and 1 s, each the path of the wind plus the width of a beam of half a degree. A missing width counts as zero. -/
theorem C143_width (f : DrizzleCategorize) (vSigma : Grid (Option ℝ)) (t h : ℕ) (w s : ℝ)
    (hw : (f.width = none ∧ w = 0) ∨ ∃ g, f.width = some g ∧ g t h = some w) (hs : vSigma t h = some s) (hh : f.altitude ≤ f.height h)
    (u v : ℝ) (hu : interpolateModel f.nModelT f.modelTime f.nModelH f.modelHeight f.uwind f.time f.height t h = u)
    (hv : interpolateModel f.nModelT f.modelTime f.nModelH f.modelHeight f.vwind f.time f.height t h = v) (hwind : u ≠ 0 ∨ v ≠ 0) :
    let wind := Real.sqrt (u ^ 2 + v ^ 2)
    let beam := (f.height h - f.altitude) * (Real.pi / 360)
    spectralWidth f vSigma t h = some (w - s / (((30 * wind + beam) / (wind + beam)) ^ (2 / 3 : ℝ) - 1)) ∧
    (0 < s → ∃ y, spectralWidth f vSigma t h = some y ∧ y < w) := by
  intro wind beam
  have hpos : 0 < wind := by
    apply Real.sqrt_pos.2
    rcases hwind with h1 | h1 <;> positivity
  have hb : 0 ≤ beam := mul_nonneg (by linarith) (by positivity)
  obtain ⟨k, h1, h2, -, -, h3⟩ := C143_factor wind beam hpos hb
  have ewind : horizontalWind f t h = wind := by unfold horizontalWind; rw [hu, hv]
  have ebeam : beamDivergence f h = beam := by unfold beamDivergence; simp only [beam]; ring
  have e : spectralWidth f vSigma t h = some (w - k * s) := by
    unfold spectralWidth
    rw [ewind, ebeam, h1, hs]
    rcases hw with ⟨h4, rfl⟩ | ⟨g, h4, h5⟩
    · rw [h4]; rfl
    · rw [h4]; simp only [h5]; rfl
  refine ⟨?_, fun hs0 => ⟨_, e, by nlinarith⟩⟩
  rw [e, h3, div_mul_eq_mul_div, one_mul]

theorem width_le_aboveTable (m : MieTable) (i j : ℕ) (hi : i < m.nWidths) (hj : j < m.nDia) : m.width i j ≤ aboveTable m := by
  unfold aboveTable
  have h1 : |m.width i j| ≤ ∑ j ∈ Finset.range m.nDia, |m.width i j| :=
    Finset.single_le_sum (f := fun j => |m.width i j|) (fun _ _ => abs_nonneg _) (Finset.mem_range.2 hj)
  have h2 : ∑ j ∈ Finset.range m.nDia, |m.width i j| ≤ ∑ i ∈ Finset.range m.nWidths, ∑ j ∈ Finset.range m.nDia, |m.width i j| :=
    Finset.single_le_sum (f := fun i => ∑ j ∈ Finset.range m.nDia, |m.width i j|)
      (fun _ _ => Finset.sum_nonneg fun _ _ => abs_nonneg _) (Finset.mem_range.2 hi)
  linarith [le_abs_self (m.width i j)]

theorem bisectLeftLoop_never {α : Type*} [LT α] [DecidableLT α] (a : ℕ → α) (x : α) : ∀ fuel hi, (∀ i < hi, ¬ a i < x) →
    bisectLeftLoop a x fuel 0 hi = 0
  | 0, _, _ => rfl
  | fuel + 1, hi, h => by
    unfold bisectLeftLoop
    split
    · rename_i h0
      dsimp only
      rw [if_neg (h _ (by omega))]
      exact bisectLeftLoop_never a x fuel _ fun i hi' => h i (by omega)
    · rfl

/-- **C143, finding.** Where the corrected width is unknown (no wind, for example) the first shape parameter of the table is used, whatever
the measured width. -/
theorem C143_unknown_width (f : DrizzleCategorize) (mie : MieTable) (z beta v : Grid ℝ) (s : Grid (Option ℝ)) (m : DrizzleMasks) (t h : ℕ)
    (hw : spectralWidth f s t h = none) (hd : 0 < mie.nDia) (guess : ℝ) : (findLutIndices (drizzleInput f mie z beta v s m) t h guess).1 = 0 := by
  simp only [findLutIndices, drizzleInput, hw, Option.getD_none, bisectLeft]
  apply bisectLeftLoop_never
  intro i hi hc
  have hj : bisectLeftLoop mie.dia guess (mie.nDia - 1) 0 (mie.nDia - 1) ≤ mie.nDia - 1 :=
    (bisectLeftLoop_bounds mie.dia guess (mie.nDia - 1) 0 (mie.nDia - 1) (by omega)).2
  have := width_le_aboveTable mie i (bisectLeftLoop mie.dia guess (mie.nDia - 1) 0 (mie.nDia - 1)) (by omega) (by omega)
  linarith

/-! ### Biases -/

/-- A relative error below 10 that is converted once more is smaller. -/
theorem relativeError_lt (x : ℝ) (h0 : 0 < x) (h1 : x < 10) : Spec.relativeError x < x := by
  unfold Spec.relativeError
  rw [min_eq_left (by linarith)]
  have := Real.geom_mean_le_arith_mean2_weighted (w₁ := 1 - x / 10) (w₂ := x / 10) (p₁ := 1) (p₂ := 10) (by linarith) (by linarith)
    (by norm_num) (by norm_num) (by ring)
  rw [Real.one_rpow, one_mul] at this
  linarith

theorem relativeError_nonneg (x : ℝ) (h0 : 0 ≤ x) : 0 ≤ Spec.relativeError x := by
  unfold Spec.relativeError
  have : (1 : ℝ) ≤ 10 ^ (min x 100 / 10) := Real.one_le_rpow (by norm_num) (by
    have := le_min h0 (by norm_num : (0 : ℝ) ≤ 100); linarith)
  linarith

theorem weighted_eq (scale w1 w2 a b : ℝ) : l2normWeighted [some a, some b] scale [w1, w2] = some (Spec.weighted scale w1 w2 a b) := by
  have := (C69_l2norm_weighted scale).1 [(a, w1), (b, w2)]
  simp only [List.map_cons, List.map_nil, List.sum_cons, List.sum_nil, add_zero] at this
  rw [this]; rfl

/-- **C143.** The biases in dB: the biases of reflectivity and backscatter with the weights of the formulas. The relative bias of the diameter
is converted once more for the number. -/
theorem C143_biases (zDb bDb : ℝ) :
    let z := Spec.relativeError zDb
    let b := Spec.relativeError bDb
    let r := drizzleBiases zDb bDb
    r.Do = some (Spec.errorDb (Spec.weighted (2 / 7) 1 1 z b)) ∧
    r.lwc = some (Spec.errorDb (Spec.weighted (1 / 7) 1 6 z b)) ∧
    r.lwf = some (Spec.errorDb (Spec.weighted (1 / 7) 3 4 z b)) ∧
    r.N = some (Spec.errorDb (Spec.weighted 1 1 6 z (Spec.relativeError (Spec.weighted (2 / 7) 1 1 z b)))) ∧
    r.vDrizzle = r.Do := by
  intro z b r
  simp only [r, drizzleBiases, weighted_eq, errDb2lin_eq, Option.map_some]
  refine ⟨?_, ?_, ?_, ?_, trivial⟩ <;> rw [errLin2db_nonneg_eq (weighted_nonneg (by norm_num) _ _ _ _)]

theorem weighted_lt {scale w1 w2 z b b' : ℝ} (hs : 0 < scale) (hw : 0 < w2) (hb : 0 ≤ b) (hlt : b < b') :
    Spec.weighted scale w1 w2 z b < Spec.weighted scale w1 w2 z b' := by
  unfold Spec.weighted
  refine mul_lt_mul_of_pos_left (Real.sqrt_lt_sqrt (by positivity) ?_) hs
  have : (w2 * b) ^ 2 < (w2 * b') ^ 2 := pow_lt_pow_left₀ (mul_lt_mul_of_pos_left hlt hw) (by positivity) (by norm_num)
  linarith

theorem errorDb_lt {x y : ℝ} (hx : 0 ≤ x) (h : x < y) : Spec.errorDb x < Spec.errorDb y := by
  unfold Spec.errorDb
  have := Real.logb_lt_logb (b := 10) (x := 1 + x) (y := 1 + y) (by norm_num) (by linarith) (by linarith)
  linarith

/-- **C143, finding.** The bias of the number is too small: it is below the combination of the biases of reflectivity and of six times the
diameter whenever the relative bias of the diameter is positive and below 10. -/
theorem C143_number_bias (zDb bDb : ℝ) (h0 : 0 < Spec.weighted (2 / 7) 1 1 (Spec.relativeError zDb) (Spec.relativeError bDb))
    (h1 : Spec.weighted (2 / 7) 1 1 (Spec.relativeError zDb) (Spec.relativeError bDb) < 10) :
    ∃ x, (drizzleBiases zDb bDb).N = some x ∧ x < Spec.errorDb (Spec.weighted 1 1 6 (Spec.relativeError zDb)
      (Spec.weighted (2 / 7) 1 1 (Spec.relativeError zDb) (Spec.relativeError bDb))) := by
  refine ⟨_, (C143_biases zDb bDb).2.2.2.1, errorDb_lt (weighted_nonneg (by norm_num) _ _ _ _) ?_⟩
  exact weighted_lt (by norm_num) (by norm_num) (relativeError_nonneg _ h0.le) (relativeError_lt _ h0 h1)

/-- The hypotheses hold for a bias of 1 dB of both. -/
example : 0 < Spec.weighted (2 / 7) 1 1 (Spec.relativeError 1) (Spec.relativeError 1) ∧
    Spec.weighted (2 / 7) 1 1 (Spec.relativeError 1) (Spec.relativeError 1) < 10 := by
  have h1 : 0 < Spec.relativeError 1 := by
    unfold Spec.relativeError
    have : (1 : ℝ) < 10 ^ (min (1 : ℝ) 100 / 10) := Real.one_lt_rpow (by norm_num) (by norm_num)
    linarith
  have h2 : Spec.relativeError 1 < 1 := relativeError_lt 1 (by norm_num) (by norm_num)
  unfold Spec.weighted
  constructor
  · positivity
  · have : Real.sqrt ((1 * Spec.relativeError 1) ^ 2 + (1 * Spec.relativeError 1) ^ 2) ≤ 2 := by
      rw [Real.sqrt_le_left (by norm_num)]
      nlinarith
    linarith

/-! ### The file -/

theorem drizzleBand_iff (x : ℝ) (table : String) : drizzleBand x = .ok table ↔ Spec.DrizzleFrequency x table := by
  unfold drizzleBand getWlBand Spec.DrizzleFrequency
  constructor
  · intro h
    split_ifs at h with h1 h2 h3
    · simp [Except.bind] at h
    · simp [Except.bind] at h
      exact Or.inl ⟨h2.1, h2.2, h.symm⟩
    · simp [Except.bind] at h
      exact Or.inr ⟨h3.1, h3.2, h.symm⟩
    · simp [Except.bind] at h
  · rintro (⟨h1, h2, rfl⟩ | ⟨h1, h2, rfl⟩)
    · rw [if_neg (by rintro ⟨_, h⟩; linarith), if_pos ⟨h1, h2⟩]; rfl
    · rw [if_neg (by rintro ⟨_, h⟩; linarith), if_neg (by rintro ⟨_, h⟩; linarith), if_pos ⟨h1, h2⟩]; rfl

theorem generateDrizzle_ok (mie : String → MieTable) (f : DrizzleCategorize) (out : DrizzleFile ℝ) :
    generateDrizzle mie f = .ok out ↔ ∃ frequency band z beta v rain vSigma zError betaError zBias betaBias m all,
      f.frequency = some frequency ∧ Spec.DrizzleFrequency frequency band ∧ f.z = some z ∧ f.beta = some beta ∧ f.v = some v ∧
      getIsRain f.rain = .ok rain ∧ f.vSigma = some vSigma ∧ f.zError = some zError ∧ f.betaError = some betaError ∧
      f.zBias = some zBias ∧ f.betaBias = some betaBias ∧
      drizzleClassification f.nT f.nH ⟨fun t h => (f.categoryBits t h).testBit 0, fun t h => (f.categoryBits t h).testBit 1,
        fun t h => (f.categoryBits t h).testBit 2, fun t h => (f.categoryBits t h).testBit 3, fun t h => (f.categoryBits t h).testBit 4,
        fun t h => (f.categoryBits t h).testBit 5⟩ ⟨fun t h => (f.qualityBits t h).testBit 0, fun t h => (f.qualityBits t h).testBit 1,
        fun t h => (f.qualityBits t h).testBit 2, fun t h => (f.qualityBits t h).testBit 3, fun t h => (f.qualityBits t h).testBit 4,
        fun t h => (f.qualityBits t h).testBit 5, fun t h => (f.qualityBits t h).testBit 6, fun t h => (f.qualityBits t h).testBit 7,
        fun t h => (f.qualityBits t h).testBit 8, fun t h => (f.qualityBits t h).testBit 9⟩ (fun t h => (vSigma t h).isSome) rain = .ok m ∧
      drizzleClassification f.nT f.nH ⟨fun t h => (f.categoryBits t h).testBit 0, fun t h => (f.categoryBits t h).testBit 1,
        fun t h => (f.categoryBits t h).testBit 2, fun t h => (f.categoryBits t h).testBit 3, fun t h => (f.categoryBits t h).testBit 4,
        fun t h => (f.categoryBits t h).testBit 5⟩ ⟨fun t h => (f.qualityBits t h).testBit 0, fun t h => (f.qualityBits t h).testBit 1,
        fun t h => (f.qualityBits t h).testBit 2, fun t h => (f.qualityBits t h).testBit 3, fun t h => (f.qualityBits t h).testBit 4,
        fun t h => (f.qualityBits t h).testBit 5, fun t h => (f.qualityBits t h).testBit 6, fun t h => (f.qualityBits t h).testBit 7,
        fun t h => (f.qualityBits t h).testBit 8, fun t h => (f.qualityBits t h).testBit 9⟩ (fun _ _ => true) rain = .ok all ∧
      out.fields = (drizzleFile m (drizzleResults (drizzleInput f (mie band) z beta v vSigma m) (zErrorGrid zError) betaError zBias
        betaBias)).fields ∧
      out.status = drizzleStatusMasked all m := by
  unfold generateDrizzle
  rw [readCategoryBits_eq, readQualityBits_eq]
  have hread : ∀ {β : Type} (v : Option β) (x : β), readVar v = .ok x ↔ v = some x := by
    intro β v x
    cases v <;> simp [readVar]
  have hbind : ∀ {β γ : Type} (v : Except String β) (k : β → Except String γ) (r : γ), v.bind k = .ok r ↔ ∃ x, v = .ok x ∧ k x = .ok r := by
    intro β γ v k r
    cases v <;> simp [Except.bind]
  have hmap : ∀ {β γ : Type} (v : Option β) (k : β → γ) (r : γ), (readVar v).map k = .ok r ↔ ∃ x, v = some x ∧ k x = r := by
    intro β γ v k r
    cases v <;> simp [readVar, Except.map]
  simp only [hbind, hmap, hread, drizzleBand_iff]
  constructor
  · rintro ⟨frequency, hf, band, hb, z, hz, beta, hbeta, v, hv, c, hc, q, hq, rain, hr, s, hs, m, hm, all, hall, ze, hze, be, hbe, zb, hzb, bb, hbb, hout⟩
    cases hc
    cases hq
    exact ⟨frequency, band, z, beta, v, rain, s, ze, be, zb, bb, m, all, hf, hb, hz, hbeta, hv, hr, hs, hze, hbe, hzb, hbb, hm, hall,
      by rw [← hout], by rw [← hout]⟩
  · rintro ⟨frequency, band, z, beta, v, rain, s, ze, be, zb, bb, m, all, hf, hb, hz, hbeta, hv, hr, hs, hze, hbe, hzb, hbb, hm, hall, h1, h2⟩
    refine ⟨frequency, hf, band, hb, z, hz, beta, hbeta, v, hv, _, rfl, _, rfl, rain, hr, s, hs, m, hm, all, hall, ze, hze, be, hbe, zb, hzb, bb,
      hbb, ?_⟩
    cases out
    simp only at h1 h2
    rw [h1, h2]

/-- **C143.** The file is written if and only if the radar is a Ka or W band radar, the variables are there, rain is known and there are two
profiles. Spectral width is not needed. -/
theorem C143_written (mie : String → MieTable) (f : DrizzleCategorize) : (∃ out, generateDrizzle mie f = .ok out) ↔
    (∃ x table, f.frequency = some x ∧ Spec.DrizzleFrequency x table) ∧ f.z ≠ none ∧ f.beta ≠ none ∧ f.v ≠ none ∧ f.vSigma ≠ none ∧
    f.zError ≠ none ∧ f.betaError ≠ none ∧ f.zBias ≠ none ∧ f.betaBias ≠ none ∧
    (f.rain "rain_detected" ≠ none ∨ f.rain "rainfall_rate" ≠ none ∨ f.rain "rain_rate" ≠ none) ∧ 2 ≤ f.nT := by
  have hrain : (∃ rain, getIsRain f.rain = .ok rain) ↔
      (f.rain "rain_detected" ≠ none ∨ f.rain "rainfall_rate" ≠ none ∨ f.rain "rain_rate" ≠ none) := by
    unfold getIsRain
    cases h1 : f.rain "rain_detected" <;> cases h2 : f.rain "rainfall_rate" <;> cases h3 : f.rain "rain_rate" <;>
      simp [getIsRain.go, h1, h2, h3]
  have hclass : ∀ c q s rain, (∃ m, drizzleClassification f.nT f.nH c q s rain = .ok m) ↔ 2 ≤ f.nT := by
    intro c q s rain
    unfold drizzleClassification
    by_cases h : f.nT ≤ 1
    · rw [if_pos h]; simp; omega
    · rw [if_neg h]; simp; omega
  constructor
  · rintro ⟨out, hout⟩
    obtain ⟨x, band, z, beta, v, rain, s, ze, be, zb, bb, m, all, hf, hb, hz, hbeta, hv, hr, hs, hze, hbe, hzb, hbb, hm, hall, h1, h2⟩ :=
      (generateDrizzle_ok mie f out).1 hout
    exact ⟨⟨x, band, hf, hb⟩, by simp [hz], by simp [hbeta], by simp [hv], by simp [hs], by simp [hze], by simp [hbe], by simp [hzb], by simp [hbb],
      hrain.1 ⟨rain, hr⟩, (hclass _ _ _ _).1 ⟨m, hm⟩⟩
  · rintro ⟨⟨x, band, hf, hb⟩, hz, hbeta, hv, hs, hze, hbe, hzb, hbb, hr, hT⟩
    obtain ⟨z, hz⟩ := Option.ne_none_iff_exists'.1 hz
    obtain ⟨beta, hbeta⟩ := Option.ne_none_iff_exists'.1 hbeta
    obtain ⟨v, hv⟩ := Option.ne_none_iff_exists'.1 hv
    obtain ⟨s, hs⟩ := Option.ne_none_iff_exists'.1 hs
    obtain ⟨ze, hze⟩ := Option.ne_none_iff_exists'.1 hze
    obtain ⟨be, hbe⟩ := Option.ne_none_iff_exists'.1 hbe
    obtain ⟨zb, hzb⟩ := Option.ne_none_iff_exists'.1 hzb
    obtain ⟨bb, hbb⟩ := Option.ne_none_iff_exists'.1 hbb
    obtain ⟨rain, hr⟩ := hrain.2 hr
    obtain ⟨m, hm⟩ := (hclass _ _ (fun t h => (s t h).isSome) rain).2 hT
    obtain ⟨all, hall⟩ := (hclass _ _ (fun _ _ => true) rain).2 hT
    exact ⟨⟨(drizzleFile m (drizzleResults (drizzleInput f (mie band) z beta v s m) (zErrorGrid ze) be zb bb)).fields,
      drizzleStatusMasked all m⟩, (generateDrizzle_ok mie f _).2 ⟨x, band, z, beta, v, rain, s, ze, be, zb, bb, m, all, hf, hb, hz, hbeta, hv, hr, hs, hze, hbe, hzb,
      hbb, hm, hall, rfl, rfl⟩⟩

theorem classification_ok {nT nH : ℕ} {c : CategoryBits} {q : QualityBits} {s : Grid Bool} {rain : ℕ → Bool} {m : DrizzleMasks}
    (hm : drizzleClassification nT nH c q s rain = .ok m) :
    m.isRain = rain ∧ (∀ t h, m.drizzle t h = true ↔ Spec.Drizzle c q s rain t h) ∧
    (∀ t h, m.wouldBeDrizzle t h = true ↔ Spec.DrizzleInLiquid c q rain t h) ∧
    (∀ t, m.coldRain t = true ↔ ∃ k < nH, c.melting t k = true) ∧
    (∀ t h, m.warmLiquid t h = true ↔ c.droplet t h = true ∧ c.freezing t h = false) := by
  unfold drizzleClassification at hm
  dsimp only at hm
  split_ifs at hm with h
  cases hm
  refine ⟨rfl, fun t h => ?_, fun t h => ?_, fun t => ?_, fun t h => ?_⟩
  · simp only [gand_apply, gnot_apply, Bool.and_eq_true, Bool.not_eq_true', Spec.Drizzle, and_assoc]
  · simp only [gand_apply, gnot_apply, Bool.and_eq_true, Bool.not_eq_true', Spec.DrizzleInLiquid, and_assoc]
  · simp [List.any_eq_true]
  · simp only [gand_apply, gnot_apply, Bool.and_eq_true, Bool.not_eq_true']

theorem rainInProfile_iff {f : DrizzleCategorize} {rain : ℕ → Bool} (hr : getIsRain f.rain = .ok rain) (t : ℕ) :
    Spec.RainInProfile f t ↔ rain t = true := by
  constructor
  · rintro ⟨r, h1, h2⟩
    rw [hr] at h1
    cases h1
    exact h2
  · exact fun h => ⟨rain, hr, h⟩

theorem zeroMasked_iff (o : Option ℝ) [Decidable (o = some 0)] (y : ℝ) : (if o = some 0 then none else o) = some y ↔ y ≠ 0 ∧ o = some y := by
  by_cases h0 : o = some 0
  · rw [if_pos h0, h0]
    simp only [reduceCtorEq, false_iff, not_and, Option.some.injEq]
    exact fun h3 h4 => h3 h4.symm
  · rw [if_neg h0]
    exact ⟨fun h3 => ⟨by rintro rfl; exact h0 h3, h3⟩, fun h3 => h3.2⟩

/-- What is in a file: the pixels, the input of the solver and the variables. -/
theorem drizzle_decode {mie : String → MieTable} {f : DrizzleCategorize} {out : DrizzleFile ℝ} (hout : generateDrizzle mie f = .ok out) :
    ∃ frequency table z beta v vSigma zError betaError zBias betaBias m all, f.frequency = some frequency ∧
      Spec.DrizzleFrequency frequency table ∧ f.z = some z ∧
      f.beta = some beta ∧ f.v = some v ∧ f.vSigma = some vSigma ∧ f.zError = some zError ∧ f.betaError = some betaError ∧
      f.zBias = some zBias ∧ f.betaBias = some betaBias ∧ 2 ≤ f.nT ∧
      (∀ t, m.isRain t = true ↔ Spec.RainInProfile f t) ∧ (∀ t h, m.drizzle t h = true ↔ Spec.RetrievedPixel f t h) ∧
      (∀ t h, all.drizzle t h = true ↔ Spec.DrizzleBits f t h) ∧
      (∀ t h, m.wouldBeDrizzle t h = true ↔ Spec.HiddenDrizzle f t h) ∧
      (∀ t, m.coldRain t = true ↔ ∃ k < f.nH, (f.categoryBits t k).testBit 3 = true) ∧
      (∀ t h, m.warmLiquid t h = true ↔ (f.categoryBits t h).testBit 0 = true ∧ (f.categoryBits t h).testBit 2 = false) ∧
      out.status = drizzleStatusMasked all m ∧
      (∀ name a, (drizzleResults (drizzleInput f (mie table) z beta v vSigma m) (zErrorGrid zError) betaError zBias betaBias).lookup name =
        some (.grid a) → ∀ t h x, Spec.gridOf out name t h = some x ↔ ¬ Spec.RainInProfile f t ∧ x ≠ 0 ∧ a t h = some x) ∧
      (∀ name a, (drizzleResults (drizzleInput f (mie table) z beta v vSigma m) (zErrorGrid zError) betaError zBias betaBias).lookup name =
        some (.scalar a) → ∀ x, Spec.scalarOf out name = some x ↔ x ≠ 0 ∧ a = some x) := by
  obtain ⟨x, band, z, beta, v, rain, s, ze, be, zb, bb, m, all, hf, hb, hz, hbeta, hv, hr, hs, hze, hbe, hzb, hbb, hm, hall, h1, h2⟩ :=
    (generateDrizzle_ok mie f out).1 hout
  obtain ⟨m1, m2, m3, m4, m5⟩ := classification_ok hm
  obtain ⟨a1, a2, -⟩ := classification_ok hall
  have hT : 2 ≤ f.nT := ((C143_written mie f).1 ⟨out, hout⟩).2.2.2.2.2.2.2.2.2.2
  have hrain : ∀ t, rain t = false ↔ ¬ Spec.RainInProfile f t := by
    intro t
    rw [rainInProfile_iff hr, Bool.not_eq_true]
  have hbits : ∀ t h, all.drizzle t h = true ↔ Spec.DrizzleBits f t h := by
    intro t h
    rw [a2]
    simp only [Spec.Drizzle, Spec.DrizzleBits, hrain, and_true]
  refine ⟨x, band, z, beta, v, s, ze, be, zb, bb, m, all, hf, hb, hz, hbeta, hv, hs, hze, hbe, hzb, hbb, hT, ?_, ?_, hbits, ?_, m4, m5, h2, ?_, ?_⟩
  · intro t
    rw [m1, rainInProfile_iff hr]
  · intro t h
    rw [m2]
    simp only [Spec.Drizzle, Spec.RetrievedPixel, Spec.DrizzleBits, hrain, Option.isSome_iff_exists, hs, Option.some.injEq]
    constructor
    · rintro ⟨b1, b2, b3, b4, b5, b6, b7, b8, b9, b10, b11, b12, b13⟩
      exact ⟨⟨b1, b2, b3, b4, b5, b6, b7, b8, b9, b10, b11, b12⟩, s, b13.choose, rfl, b13.choose_spec⟩
    · rintro ⟨⟨b1, b2, b3, b4, b5, b6, b7, b8, b9, b10, b11, b12⟩, s', y, rfl, b13⟩
      exact ⟨b1, b2, b3, b4, b5, b6, b7, b8, b9, b10, b11, b12, y, b13⟩
  · intro t h
    rw [m3]
    simp only [Spec.DrizzleInLiquid, Spec.HiddenDrizzle, hrain]
  · intro name a ha t h y
    have hl : out.fields.lookup name = some (maskZeros (screenRain m.isRain (.grid a))) := by
      rw [h1]
      exact (lookup_map_val (fun r => maskZeros (screenRain m.isRain r)) _ name).trans (by rw [ha]; rfl)
    unfold Spec.gridOf
    rw [hl]
    simp only [screenRain, maskZeros]
    refine (zeroMasked_iff _ y).trans ?_
    rw [Grid.assign_apply, ← hrain, m1]
    cases rain t
    · simp
    · simp only [cond_true, Option.some.injEq, Bool.true_eq_false, false_and, iff_false, not_and]
      exact fun h3 h4 => h3 h4.symm
  · intro name a ha y
    have hl : out.fields.lookup name = some (maskZeros (screenRain m.isRain (.scalar a))) := by
      rw [h1]
      exact (lookup_map_val (fun r => maskZeros (screenRain m.isRain r)) _ name).trans (by rw [ha]; rfl)
    unfold Spec.scalarOf
    rw [hl]
    simp only [screenRain, maskZeros]
    exact zeroMasked_iff _ y

/-- Conditions on a categorize file: heights grow from the ground and backscatter is positive. -/
structure Spec.GoodCategorize (f : DrizzleCategorize) : Prop where
  ground : f.altitude ≤ f.height 0
  grows : ∀ h, f.height h ≤ f.height (h + 1)
  beta : ∀ b, f.beta = some b → ∀ t h, 0 < b t h

theorem convertZUnits_pos (z : ℝ) : 0 < convertZUnits z := Real.rpow_pos_of_pos (by norm_num) _

/-- Reflectivity in linear units: `10 ^ ((z - 180) / 10)`, at most 1. -/
theorem convertZUnits_eq (z : ℝ) : convertZUnits z = min 1 ((10 : ℝ) ^ ((z - 180) / 10)) := by
  unfold convertZUnits
  dsimp only
  split_ifs with h
  · rw [min_eq_left (Real.one_le_rpow (by norm_num) (by linarith))]
    norm_num
  · rw [min_eq_right (Real.rpow_le_one_of_one_le_of_nonpos (by norm_num) (by linarith))]

open Classical in
/-- **C143.** The retrieved variables are known exactly at pixels of drizzle with a known deviation of velocity. The correction of backscatter
is known in all profiles without rain, whatever the pixel is. -/
theorem C143_known (mie : String → MieTable) (f : DrizzleCategorize) (out : DrizzleFile ℝ) (hout : generateDrizzle mie f = .ok out)
    (hmie : ∀ name, Spec.GoodTable (mie name)) (hf : Spec.GoodCategorize f) (t h : ℕ) (ht : t < f.nT) (hh : h < f.nH) :
    (∀ name ∈ ["Do", "S", "drizzle_N", "drizzle_lwc", "drizzle_lwf"],
      ((∃ x, Spec.gridOf out name t h = some x) ↔ Spec.RetrievedPixel f t h) ∧ ∀ x, Spec.gridOf out name t h = some x → 0 < x) ∧
    ((∃ x, Spec.gridOf out "v_drizzle" t h = some x) ↔ Spec.RetrievedPixel f t h) ∧
    (∀ name ∈ ["mu", "v_air", "Do_error", "S_error", "drizzle_N_error", "drizzle_lwc_error", "drizzle_lwf_error", "v_drizzle_error"],
      (∃ x, Spec.gridOf out name t h = some x) → Spec.RetrievedPixel f t h) ∧
    ((∃ x, Spec.gridOf out "beta_corr" t h = some x) ↔ ¬ Spec.RainInProfile f t) ∧
    (∀ x, Spec.gridOf out "beta_corr" t h = some x → 1 ≤ x) := by
  obtain ⟨x, table, z, beta, v, s, ze, be, zb, bb, m, all, -, -, hz, hbeta, hv, hs, -, -, -, -, -, hrain, hdrizzle, -, -, -, -, -, hgrid, -⟩ :=
    drizzle_decode hout
  set d := drizzleInput f (mie table) z beta v s m with hd
  have hG := hmie table
  have hrp : Spec.RetrievedPixel f t h → ¬ Spec.RainInProfile f t := fun h' => h'.1.1
  have hgrows : ∀ h, f.altitude ≤ f.height h := by
    intro h
    induction h with
    | zero => exact hf.ground
    | succ h ih => exact ih.trans (hf.grows h)
  have hdepth : ∀ h < d.nH, 0 ≤ Spec.gateDepth d.heightAgl h := by
    intro h _
    unfold Spec.gateDepth
    cases h with
    | zero => simp only [hd, drizzleInput, if_true]; linarith [hf.ground]
    | succ h => simp only [hd, drizzleInput, Nat.succ_ne_zero, if_false, Nat.add_sub_cancel]; linarith [hf.grows h]
  have hb := hf.beta beta hbeta
  obtain ⟨p1, p2, -⟩ := C72_positive d hG.widths hG.dia hG.mu hG.ray hG.S hb (fun t h => convertZUnits_pos _) hdepth t ht h hh
  obtain ⟨k1, -, k3⟩ := C72_drizzle_retrieval d hG.widths hG.dia t ht h hh
  obtain ⟨c1, c2⟩ := C73_drizzle_products d (solveDrizzle d) hG.widths hG.dia t h
  have hdd : d.drizzle t h = true ↔ Spec.RetrievedPixel f t h := hdrizzle t h
  -- a variable with the value `a`
  have key : ∀ (name : String) (a : Grid ℝ), (drizzleResults d (zErrorGrid ze) be zb bb).lookup name = some (.grid fun t h => some (a t h)) →
      (d.drizzle t h = true → 0 < a t h) → (d.drizzle t h = false → a t h = 0) →
      ((∃ x, Spec.gridOf out name t h = some x) ↔ Spec.RetrievedPixel f t h) ∧ ∀ x, Spec.gridOf out name t h = some x → 0 < x := by
    intro name a hl hpos hzero
    have hg := hgrid name _ hl t h
    simp only [Option.some.injEq] at hg
    constructor
    · simp only [hg, ← hdd]
      constructor
      · rintro ⟨x, h1, h2, rfl⟩
        by_contra hc
        exact h2 (hzero (by simpa using hc))
      · intro h1
        exact ⟨_, hrp (hdd.1 h1), (hpos h1).ne', rfl⟩
    · intro x hx
      obtain ⟨_, h2, rfl⟩ := (hg x).1 hx
      apply hpos
      by_contra hc
      exact h2 (hzero (by simpa using hc))
  have hDpos : d.drizzle t h = true → 0 < (solveDrizzle d).Do t h := p1.2
  have hDzero : d.drizzle t h = false → (solveDrizzle d).Do t h = 0 := fun h1 => (k1 h1).1
  have hSpos : d.drizzle t h = true → 0 < (solveDrizzle d).S t h := by
    intro h1
    obtain ⟨i, j, _, _, _, _, _, e, _⟩ := k3 h1
    rw [e]
    exact hG.S i j
  have hzpos : 0 < d.z t h := convertZUnits_pos _
  have hNpos : d.drizzle t h = true → 0 < (drizzleProducts d (solveDrizzle d)).N t h := by
    intro h1
    obtain ⟨i, j, _, _, _, e, _⟩ := c1 (hDpos h1).ne'
    have := hDpos h1
    rw [e]
    positivity
  have hlwcpos : d.drizzle t h = true → 0 < (drizzleProducts d (solveDrizzle d)).lwc t h := by
    intro h1
    obtain ⟨i, j, _, _, _, _, e, _⟩ := c1 (hDpos h1).ne'
    obtain ⟨i', j', _, _, _, _, emu, _⟩ := k3 h1
    have hmu : -3 < (solveDrizzle d).mu t h := by rw [emu]; exact hG.mu i'
    have g3 : 0 < Real.Gamma (3 + (solveDrizzle d).mu t h) := Real.Gamma_pos_of_pos (by linarith)
    have g4 : 0 < Real.Gamma (4 + (solveDrizzle d).mu t h) := Real.Gamma_pos_of_pos (by linarith)
    have g5 : (0 : ℝ) < 3.67 + (solveDrizzle d).mu t h := by norm_num; linarith
    have := hDpos h1
    have := hSpos h1
    have := hb t h
    have hbd : 0 < d.beta t h := hb t h
    rw [e]
    positivity
  have hlwfpos : d.drizzle t h = true → 0 < (drizzleProducts d (solveDrizzle d)).lwf t h := by
    intro h1
    obtain ⟨i, j, _, _, _, _, _, e, _⟩ := c1 (hDpos h1).ne'
    rw [e]
    exact mul_pos (mul_pos (hlwcpos h1) (hG.lwf i j)) (hG.termv j)
  have hvdne : d.drizzle t h = true → (drizzleProducts d (solveDrizzle d)).vDrizzle t h ≠ 0 := by
    intro h1
    obtain ⟨i, j, _, _, _, _, _, _, e, _⟩ := c1 (hDpos h1).ne'
    rw [e]
    exact neg_ne_zero.2 (hG.v i j)
  have hzero : d.drizzle t h = false → (drizzleProducts d (solveDrizzle d)).N t h = 0 ∧ (drizzleProducts d (solveDrizzle d)).lwc t h = 0 ∧
      (drizzleProducts d (solveDrizzle d)).lwf t h = 0 ∧ (drizzleProducts d (solveDrizzle d)).vDrizzle t h = 0 ∧
      (drizzleProducts d (solveDrizzle d)).vAir t h = 0 := fun h1 => c2 (hDzero h1)
  -- zero outside drizzle
  have only : ∀ (name : String) (a : Grid (Option ℝ)), (drizzleResults d (zErrorGrid ze) be zb bb).lookup name = some (.grid a) →
      (d.drizzle t h = false → a t h = some 0) → (∃ x, Spec.gridOf out name t h = some x) → Spec.RetrievedPixel f t h := by
    rintro name a hl h0 ⟨x, hx⟩
    obtain ⟨_, h2, h3⟩ := (hgrid name _ hl t h x).1 hx
    rw [← hdd]
    by_contra hc
    rw [h0 (by simpa using hc)] at h3
    exact h2 (Option.some.inj h3).symm
  have herr : d.drizzle t h = false → (drizzleErrors (solveDrizzle d).Do (zErrorGrid ze) be).Do t h = some 0 ∧
      (drizzleErrors (solveDrizzle d).Do (zErrorGrid ze) be).lwc t h = some 0 ∧
      (drizzleErrors (solveDrizzle d).Do (zErrorGrid ze) be).lwf t h = some 0 ∧
      (drizzleErrors (solveDrizzle d).Do (zErrorGrid ze) be).S t h = some 0 ∧
      (drizzleErrors (solveDrizzle d).Do (zErrorGrid ze) be).N t h = some 0 ∧
      (drizzleErrors (solveDrizzle d).Do (zErrorGrid ze) be).vDrizzle t h = some 0 := by
    intro h1
    cases hx : zErrorGrid ze t h with
    | some y => exact (C18_error_classes (solveDrizzle d).Do (zErrorGrid ze) be t h y hx).1 (hDzero h1).le
    | none =>
      have := C18_masked (solveDrizzle d).Do (zErrorGrid ze) be t h hx
      dsimp only at this
      rw [if_neg (by rw [hDzero h1]; exact lt_irrefl _)] at this
      exact this
  refine ⟨?_, ?_, ?_, ?_, ?_⟩
  · intro name hname
    simp only [List.mem_cons, List.not_mem_nil, or_false] at hname
    rcases hname with rfl | rfl | rfl | rfl | rfl
    · exact key "Do" _ rfl hDpos hDzero
    · exact key "S" _ rfl hSpos fun h1 => (k1 h1).2.2
    · exact key "drizzle_N" _ rfl hNpos fun h1 => (hzero h1).1
    · exact key "drizzle_lwc" _ rfl hlwcpos fun h1 => (hzero h1).2.1
    · exact key "drizzle_lwf" _ rfl hlwfpos fun h1 => (hzero h1).2.2.1
  · have hg := hgrid "v_drizzle" _ rfl t h
    simp only [Option.some.injEq] at hg
    simp only [hg, ← hdd]
    constructor
    · rintro ⟨x, h1, h2, rfl⟩
      by_contra hc
      exact h2 (hzero (by simpa using hc)).2.2.2.1
    · intro h1
      exact ⟨_, hrp (hdd.1 h1), hvdne h1, rfl⟩
  · intro name hname
    simp only [List.mem_cons, List.not_mem_nil, or_false] at hname
    rcases hname with rfl | rfl | rfl | rfl | rfl | rfl | rfl | rfl
    · exact only "mu" _ rfl fun h1 => by rw [(k1 h1).2.1]
    · exact only "v_air" _ rfl fun h1 => by rw [(hzero h1).2.2.2.2]
    · exact only "Do_error" _ rfl fun h1 => (herr h1).1
    · exact only "S_error" _ rfl fun h1 => (herr h1).2.2.2.1
    · exact only "drizzle_N_error" _ rfl fun h1 => (herr h1).2.2.2.2.1
    · exact only "drizzle_lwc_error" _ rfl fun h1 => (herr h1).2.1
    · exact only "drizzle_lwf_error" _ rfl fun h1 => (herr h1).2.2.1
    · exact only "v_drizzle_error" _ rfl fun h1 => (herr h1).2.2.2.2.2
  · have hg := hgrid "beta_corr" _ rfl t h
    simp only [Option.some.injEq] at hg
    simp only [hg]
    exact ⟨fun ⟨_, h1, _⟩ => h1, fun h1 => ⟨_, h1, by linarith, rfl⟩⟩
  · intro y hy
    obtain ⟨_, _, h3⟩ := (hgrid "beta_corr" _ rfl t h y).1 hy
    rw [← Option.some.inj h3]
    exact p2

/-- **C143.** The variables of the file at a pixel of drizzle fit together. With the shape parameter and the lidar ratio of an entry of the table
of the radar's band, reflectivity is that of the distribution with the diameter of the file and the backscatter of the file corrected by
`beta_corr`, the number gives reflectivity with the sixth power of the diameter, and `beta_corr` is the attenuation by the drizzle of the file
below. -/
theorem C143_values (mie : String → MieTable) (f : DrizzleCategorize) (out : DrizzleFile ℝ) (hout : generateDrizzle mie f = .ok out)
    (hmie : ∀ name, Spec.GoodTable (mie name)) (hf : Spec.GoodCategorize f) (t h : ℕ) (ht : t < f.nT) (hh : h < f.nH) :
    ∃ frequency table z beta, f.frequency = some frequency ∧ Spec.DrizzleFrequency frequency table ∧ f.z = some z ∧ f.beta = some beta ∧
      (¬ Spec.RainInProfile f t → Spec.gridOf out "beta_corr" t h = some (Real.exp (2 * ∑ k ∈ Finset.range h,
        (Spec.gridOf out "S" t k).getD 0 * beta t k * Spec.gateDepth (fun h => f.height h - f.altitude) k))) ∧
      (Spec.RetrievedPixel f t h → ∃ D S bc i j, i < (mie table).nWidths ∧ j < (mie table).nDia ∧
        Spec.gridOf out "Do" t h = some D ∧ Spec.gridOf out "S" t h = some S ∧ Spec.gridOf out "beta_corr" t h = some bc ∧
        (Spec.gridOf out "mu" t h).getD 0 = (mie table).mu i ∧ S = (mie table).S i j ∧
        convertZUnits (z t h) = 2 / Real.pi * (Real.Gamma (7 + (mie table).mu i) / Real.Gamma (3 + (mie table).mu i)) *
          ((mie table).ray i j * S * (beta t h * bc)) / (3.67 + (mie table).mu i) ^ 4 * D ^ 4 ∧
        Spec.gridOf out "drizzle_N" t h = some (convertZUnits (z t h) * 3.67 ^ 6 / D ^ 6) ∧
        Spec.gridOf out "drizzle_lwc" t h = some (1000 / 3 * beta t h * S * D *
          (Real.Gamma (4 + (mie table).mu i) / Real.Gamma (3 + (mie table).mu i) / (3.67 + (mie table).mu i)))) := by
  obtain ⟨x, table, z, beta, v, s, ze, be, zb, bb, m, all, hx, hband, hz, hbeta, hv, hs, -, -, -, -, -, hrain, hdrizzle, -, -, -, -, -, hgrid, -⟩ :=
    drizzle_decode hout
  refine ⟨x, table, z, beta, hx, hband, hz, hbeta, ?_⟩
  set d := drizzleInput f (mie table) z beta v s m with hd
  have hG := hmie table
  have hk := C143_known mie f out hout hmie hf t h ht hh
  have hdd : ∀ h, d.drizzle t h = true ↔ Spec.RetrievedPixel f t h := hdrizzle t
  have hret := C72_drizzle_retrieval d hG.widths hG.dia t ht
  -- a known variable has the value of the solver
  have val : ∀ (name : String) (a : Grid ℝ) (k : ℕ) (y : ℝ),
      (drizzleResults d (zErrorGrid ze) be zb bb).lookup name = some (.grid fun t h => some (a t h)) →
      Spec.gridOf out name t k = some y → y = a t k := by
    intro name a k y hl hy
    exact (Option.some.inj ((hgrid name _ hl t k y).1 hy).2.2).symm
  have valD : ∀ (name : String) (a : Grid ℝ) (k : ℕ), ¬ Spec.RainInProfile f t →
      (drizzleResults d (zErrorGrid ze) be zb bb).lookup name = some (.grid fun t h => some (a t h)) →
      (Spec.gridOf out name t k).getD 0 = a t k := by
    intro name a k hr hl
    cases hy : Spec.gridOf out name t k with
    | some y => exact val name a k y hl hy
    | none =>
      by_contra hc
      have := (hgrid name _ hl t k (a t k)).2 ⟨hr, fun h0 => hc (by rw [h0]; rfl), rfl⟩
      rw [hy] at this
      cases this
  have hcorr : (solveDrizzle d).betaCorr t h = Real.exp (2 * ∑ k ∈ Finset.range h, if d.drizzle t k then (solveDrizzle d).S t k * d.beta t k *
      Spec.gateDepth d.heightAgl k else 0) := (hret h hh).2.1
  constructor
  · intro hr
    obtain ⟨y, hy⟩ := hk.2.2.2.1.2 hr
    rw [hy, val "beta_corr" _ h y rfl hy, hcorr]
    congr 3
    refine Finset.sum_congr rfl fun k hk' => ?_
    have hk'' : k < f.nH := (Finset.mem_range.1 hk').trans hh
    rw [valD "S" _ k hr rfl]
    split
    · rfl
    · rename_i hc
      rw [((hret k hk'').1 (by simpa using hc)).2.2]
      ring
  · intro hp
    have hr : ¬ Spec.RainInProfile f t := hp.1.1
    obtain ⟨i, j, g, hi, hj, -, e1, e2, e3, -⟩ := (hret h hh).2.2 ((hdd h).2 hp)
    obtain ⟨D, hD⟩ := (hk.1 "Do" (by simp)).1.2 hp
    obtain ⟨S, hS⟩ := (hk.1 "S" (by simp)).1.2 hp
    obtain ⟨N, hN⟩ := (hk.1 "drizzle_N" (by simp)).1.2 hp
    obtain ⟨lwc, hlwc⟩ := (hk.1 "drizzle_lwc" (by simp)).1.2 hp
    obtain ⟨bc, hbc⟩ := hk.2.2.2.1.2 hr
    have vD := val "Do" _ h D rfl hD
    have vS := val "S" _ h S rfl hS
    have vN := val "drizzle_N" _ h N rfl hN
    have vlwc := val "drizzle_lwc" _ h lwc rfl hlwc
    have vbc := val "beta_corr" _ h bc rfl hbc
    have hDpos := (hk.1 "Do" (by simp)).2 D hD
    have hbc1 := hk.2.2.2.2 bc hbc
    obtain ⟨i', j', -, -, -, c1, c2, -⟩ := (C73_drizzle_products d (solveDrizzle d) hG.widths hG.dia t h).1 (by rw [← vD]; exact hDpos.ne')
    refine ⟨D, S, bc, i, j, hi, hj, hD, hS, hbc, ?_, ?_, ?_, ?_, ?_⟩
    · rw [valD "mu" _ h hr rfl, e1]; rfl
    · rw [vS, e2]; rfl
    · have hmu := hG.mu i
      rw [← vD, ← vbc] at e3
      have e4 : D = calcDia (2 / Real.pi * (beta t h * bc) / convertZUnits (z t h)) ((mie table).mu i) ((mie table).ray i j)
          ((mie table).S i j) := by
        rw [e3]
        have : 2 / Real.pi * d.beta t h / d.z t h * bc = 2 / Real.pi * (beta t h * bc) / convertZUnits (z t h) := by
          have e5 : d.beta t h = beta t h := rfl
          have e6 : d.z t h = convertZUnits (z t h) := rfl
          rw [e5, e6]
          ring
        rw [this]
        rfl
      have hbpos := hf.beta beta hbeta t h
      rw [C72_diameter_equation _ _ _ _ _ _ (by positivity) (convertZUnits_pos _) hmu (hG.ray i j) (hG.S i j) hDpos] at e4
      rw [e4, vS, e2]
      rfl
    · rw [hN, vN, c1, ← vD]; rfl
    · rw [hlwc, vlwc, c2, ← vD, e1, vS]; rfl

open Classical in
/-- **C143.** The status of every pixel: as in `C16_drizzle_status`, except that pixels with the bits of drizzle but an unknown deviation of
velocity have status 1, even below a melting layer. -/
theorem C143_status (mie : String → MieTable) (f : DrizzleCategorize) (out : DrizzleFile ℝ) (hout : generateDrizzle mie f = .ok out) (t h : ℕ) :
    out.status t h = if Spec.RainInProfile f t then 5 else if Spec.HiddenDrizzle f t h then 3
      else if Spec.DrizzleBits f t h then
        if Spec.RetrievedPixel f t h ∧ ∃ k < f.nH, (f.categoryBits t k).testBit 3 = true then 2 else 1
      else if (f.categoryBits t h).testBit 0 = true ∧ (f.categoryBits t h).testBit 2 = false then 4 else 0 := by
  obtain ⟨x, table, z, beta, v, s, ze, be, zb, bb, m, all, -, -, -, -, -, -, -, -, -, -, -, hrain, hdrizzle, hbits, hhidden, hcold, hwarm, hstatus, -⟩ :=
    drizzle_decode hout
  have himp : m.drizzle t h = true → all.drizzle t h = true := by
    rw [hdrizzle, hbits]
    exact fun h => h.1
  rw [hstatus]
  simp only [← hrain, ← hhidden, ← hbits, ← hdrizzle, ← hcold, ← hwarm]
  unfold drizzleStatusMasked
  simp only [Grid.assign_apply]
  generalize m.isRain t = b1 at *
  generalize m.wouldBeDrizzle t h = b2 at *
  generalize all.drizzle t h = b3 at *
  generalize m.drizzle t h = b4 at *
  generalize m.coldRain t = b5 at *
  generalize m.warmLiquid t h = b6 at *
  cases b1 <;> cases b2 <;> cases b3 <;> cases b4 <;> cases b5 <;> cases b6 <;> simp at himp ⊢

/-- **C143, finding.** A pixel with the bits of drizzle and an unknown deviation of velocity: the status says that drizzle was retrieved, but
there is no diameter. -/
theorem C143_status_without_retrieval (mie : String → MieTable) (f : DrizzleCategorize) (out : DrizzleFile ℝ)
    (hout : generateDrizzle mie f = .ok out) (hmie : ∀ name, Spec.GoodTable (mie name)) (hf : Spec.GoodCategorize f) (t h : ℕ) (ht : t < f.nT)
    (hh : h < f.nH) (hb : Spec.DrizzleBits f t h) (hs : ∀ s, f.vSigma = some s → s t h = none) :
    out.status t h = 1 ∧ Spec.gridOf out "Do" t h = none := by
  have hn : ¬ Spec.RetrievedPixel f t h := by
    rintro ⟨-, s, x, h1, h2⟩
    rw [hs s h1] at h2
    cases h2
  constructor
  · rw [C143_status mie f out hout, if_neg hb.1, if_neg, if_pos hb, if_neg fun hc => hn hc.1]
    rintro ⟨-, h1, -⟩
    have := hb.2.2.1
    simp only at this h1
    rw [this] at h1
    cases h1
  · cases hD : Spec.gridOf out "Do" t h with
    | none => rfl
    | some x => exact absurd (((C143_known mie f out hout hmie hf t h ht hh).1 "Do" (by simp)).1.1 ⟨x, hD⟩) hn

/-- **C143.** The biases of the file are those of `drizzleBiases` (see `C143_biases`), and the error of the shape parameter is constant. -/
theorem C143_file_biases (mie : String → MieTable) (f : DrizzleCategorize) (out : DrizzleFile ℝ) (hout : generateDrizzle mie f = .ok out) :
    ∃ zBias betaBias, f.zBias = some zBias ∧ f.betaBias = some betaBias ∧
      ∀ x, x ≠ 0 →
        (Spec.scalarOf out "Do_bias" = some x ↔ (drizzleBiases zBias betaBias).Do = some x) ∧
        (Spec.scalarOf out "drizzle_lwc_bias" = some x ↔ (drizzleBiases zBias betaBias).lwc = some x) ∧
        (Spec.scalarOf out "drizzle_lwf_bias" = some x ↔ (drizzleBiases zBias betaBias).lwf = some x) ∧
        (Spec.scalarOf out "drizzle_N_bias" = some x ↔ (drizzleBiases zBias betaBias).N = some x) ∧
        (Spec.scalarOf out "v_drizzle_bias" = some x ↔ (drizzleBiases zBias betaBias).vDrizzle = some x) ∧
        (Spec.scalarOf out "mu_error" = some x ↔ x = Spec.errorDb 0.07) := by
  obtain ⟨x, table, z, beta, v, s, ze, be, zb, bb, m, all, -, -, -, -, -, -, -, -, hzb, hbb, -, -, -, -, -, -, -, -, -, hscalar⟩ := drizzle_decode hout
  refine ⟨zb, bb, hzb, hbb, fun x hx => ⟨?_, ?_, ?_, ?_, ?_, ?_⟩⟩
  · rw [hscalar "Do_bias" _ rfl]; exact and_iff_right hx
  · rw [hscalar "drizzle_lwc_bias" _ rfl]; exact and_iff_right hx
  · rw [hscalar "drizzle_lwf_bias" _ rfl]; exact and_iff_right hx
  · rw [hscalar "drizzle_N_bias" _ rfl]; exact and_iff_right hx
  · rw [hscalar "v_drizzle_bias" _ rfl]; exact and_iff_right hx
  · rw [hscalar "mu_error" _ rfl, and_iff_right hx, errLin2db_nonneg_eq (by norm_num), Option.some.injEq, eq_comm]

/-- **C143.** The errors in the file for drops larger than 0.1 mm (an error that is zero is written as unknown), from the errors of
reflectivity (a number or an array) and backscatter. -/
theorem C143_errors (mie : String → MieTable) (f : DrizzleCategorize) (out : DrizzleFile ℝ) (hout : generateDrizzle mie f = .ok out)
    (t h : ℕ) (D : ℝ) (hD : Spec.gridOf out "Do" t h = some D)
    (hbig : 0.0001 < D) (x : ℝ) (hx : ∃ e, f.zError = some e ∧ (e = .inl x ∨ ∃ a, e = .inr a ∧ a t h = some x)) :
    ∃ betaError, f.betaError = some betaError ∧
      let z := Spec.relativeError x
      let b := Spec.relativeError betaError
      let normal := Spec.quadrature (Spec.weighted (2 / 7) 1 1 z b) 0.07
      (Spec.gridOf out "Do_error" t h).getD 0 = Spec.errorDb normal ∧
      (Spec.gridOf out "drizzle_lwc_error" t h).getD 0 = Spec.errorDb (Spec.weighted (1 / 7) 1 6 z b) ∧
      (Spec.gridOf out "drizzle_lwf_error" t h).getD 0 = Spec.errorDb (Spec.quadrature (Spec.weighted (1 / 7) 3 4 z b) 0.07) ∧
      (Spec.gridOf out "S_error" t h).getD 0 = Spec.errorDb (Spec.weighted (1 / 2) 1 1 z b) ∧
      (Spec.gridOf out "drizzle_N_error" t h).getD 0 = Spec.errorDb (Spec.quadrature z (6 * Spec.relativeError normal)) ∧
      (Spec.gridOf out "v_drizzle_error" t h).getD 0 = Spec.errorDb normal := by
  obtain ⟨y, table, z, beta, v, s, ze, be, zb, bb, m, all, -, -, -, -, -, -, hze, hbe, -, -, -, -, -, -, -, -, -, -, hgrid, -⟩ := drizzle_decode hout
  refine ⟨be, hbe, ?_⟩
  set d := drizzleInput f (mie table) z beta v s m with hd
  have hr : ¬ Spec.RainInProfile f t := ((hgrid "Do" _ rfl t h D).1 hD).1
  have vD : (solveDrizzle d).Do t h = D := Option.some.inj ((hgrid "Do" _ rfl t h D).1 hD).2.2
  have hz : zErrorGrid ze t h = some x := by
    obtain ⟨e, he, h1⟩ := hx
    rw [hze] at he
    cases he
    rcases h1 with rfl | ⟨a, rfl, h2⟩
    · rfl
    · exact h2
  have val : ∀ (name : String) (a : Grid (Option ℝ)) (y : ℝ), (drizzleResults d (zErrorGrid ze) be zb bb).lookup name = some (.grid a) →
      a t h = some y → (Spec.gridOf out name t h).getD 0 = y := by
    intro name a y hl hy
    cases hg : Spec.gridOf out name t h with
    | some w =>
      have := ((hgrid name _ hl t h w).1 hg).2.2
      rw [hy] at this
      exact (Option.some.inj this).symm
    | none =>
      by_contra hc
      have := (hgrid name _ hl t h y).2 ⟨hr, fun h0 => hc (by rw [h0]; rfl), hy⟩
      rw [hg] at this
      cases this
  obtain ⟨e1, e2, e3, e4, e5, e6⟩ := (C18_error_classes (solveDrizzle d).Do (zErrorGrid ze) be t h x hz).2.1 (by rw [vD]; exact hbig)
  exact ⟨val "Do_error" _ _ rfl e1, val "drizzle_lwc_error" _ _ rfl e2, val "drizzle_lwf_error" _ _ rfl e3, val "S_error" _ _ rfl e4,
    val "drizzle_N_error" _ _ rfl e5, val "v_drizzle_error" _ _ rfl e6⟩

/-- **C143.** Velocities of the file at a pixel of drizzle: the fall velocity is one of the table with opposite sign, and the velocity of the air
is what remains of the measured velocity (unknown if zero). -/
theorem C143_velocity (mie : String → MieTable) (f : DrizzleCategorize) (out : DrizzleFile ℝ) (hout : generateDrizzle mie f = .ok out)
    (hmie : ∀ name, Spec.GoodTable (mie name)) (hf : Spec.GoodCategorize f) (t h : ℕ) (ht : t < f.nT) (hh : h < f.nH)
    (hp : Spec.RetrievedPixel f t h) : ∃ frequency table v fall i j, f.frequency = some frequency ∧ Spec.DrizzleFrequency frequency table ∧
      f.v = some v ∧ i < (mie table).nWidths ∧ j < (mie table).nDia ∧ Spec.gridOf out "v_drizzle" t h = some fall ∧
      fall = - (mie table).v i j ∧ (Spec.gridOf out "v_air" t h).getD 0 = v t h - fall ∧
      ∃ lwc, Spec.gridOf out "drizzle_lwc" t h = some lwc ∧
        Spec.gridOf out "drizzle_lwf" t h = some (lwc * (mie table).lwf i j * (mie table).termv j) := by
  obtain ⟨x, table, z, beta, v, s, ze, be, zb, bb, m, all, hx, hband, hz, hbeta, hv, hs, -, -, -, -, -, hrain, hdrizzle, -, -, -, -, -, hgrid, -⟩ :=
    drizzle_decode hout
  set d := drizzleInput f (mie table) z beta v s m with hd
  have hk := C143_known mie f out hout hmie hf t h ht hh
  have hr : ¬ Spec.RainInProfile f t := hp.1.1
  obtain ⟨D, hD⟩ := (hk.1 "Do" (by simp)).1.2 hp
  obtain ⟨lwc, hlwc⟩ := (hk.1 "drizzle_lwc" (by simp)).1.2 hp
  obtain ⟨lwf, hlwf⟩ := (hk.1 "drizzle_lwf" (by simp)).1.2 hp
  obtain ⟨fall, hfall⟩ := hk.2.1.2 hp
  have hDne : (solveDrizzle d).Do t h ≠ 0 := by
    have := ((hgrid "Do" _ rfl t h D).1 hD)
    rw [Option.some.inj this.2.2]
    exact this.2.1
  have vfall := Option.some.inj ((hgrid "v_drizzle" _ rfl t h fall).1 hfall).2.2
  have vlwc := Option.some.inj ((hgrid "drizzle_lwc" _ rfl t h lwc).1 hlwc).2.2
  have vlwf := Option.some.inj ((hgrid "drizzle_lwf" _ rfl t h lwf).1 hlwf).2.2
  obtain ⟨i, j, hi, hj, -, -, -, e1, e2, e3⟩ := (C73_drizzle_products d (solveDrizzle d) (hmie table).widths (hmie table).dia t h).1 hDne
  refine ⟨x, table, v, fall, i, j, hx, hband, hv, hi, hj, hfall, ?_, ?_, lwc, hlwc, ?_⟩
  · rw [← vfall, e2]; rfl
  · have e4 : (drizzleProducts d (solveDrizzle d)).vAir t h = v t h - fall := by
      rw [← vfall]
      have : d.v t h = v t h := rfl
      linarith
    cases hg : Spec.gridOf out "v_air" t h with
    | some w =>
      have := ((hgrid "v_air" _ rfl t h w).1 hg).2.2
      rw [← Option.some.inj this, e4]
      rfl
    | none =>
      by_contra hc
      have := (hgrid "v_air" _ rfl t h (v t h - fall)).2 ⟨hr, fun h0 => hc (by rw [h0]; rfl), by rw [e4]⟩
      rw [hg] at this
      cases this
  · rw [hlwf, ← vlwf, e1, vlwc]; rfl

/-! ### A case -/

/-- A table with one entry in every cell. -/
noncomputable def exampleMie : MieTable where
  nWidths := 2
  nDia := 2
  dia := fun j => j + 1
  mu := fun i => i
  S := fun _ _ => 10
  ray := fun _ _ => 1
  width := fun i _ => i
  lwf := fun _ _ => 1
  v := fun _ _ => -1
  termv := fun _ => 1

/-- Two profiles of drizzle with three gates and a melting layer above; the deviation of velocity is not known in the second gate. -/
noncomputable def exampleDrizzleCategorize : DrizzleCategorize where
  nT := 2
  time := fun t => t
  nH := 3
  height := fun h => 100 * h + 200
  altitude := 100
  nModelT := 2
  modelTime := fun t => t
  nModelH := 2
  modelHeight := fun h => 1000 * h
  uwind := fun _ _ => 3
  vwind := fun _ _ => 4
  frequency := some 35
  z := some fun _ _ => -10
  beta := some fun _ _ => 0.00001
  v := some fun _ _ => -1
  vSigma := some fun _ h => if h = 1 then none else some 0.1
  width := some fun _ _ => some 0.3
  zError := some (.inl 1)
  betaError := some 1
  zBias := some 1
  betaBias := some 1
  categoryBits := fun _ h => if h = 2 then 8 else 2
  qualityBits := fun _ _ => 3
  rain := fun name => if name = "rain_detected" then some fun t => some t else none

theorem exampleMie_good : Spec.GoodTable exampleMie where
  widths := by norm_num [exampleMie]
  dia := by norm_num [exampleMie]
  mu := fun i => by simp only [exampleMie]; linarith [(Nat.cast_nonneg i : (0 : ℝ) ≤ i)]
  ray := fun _ _ => by norm_num [exampleMie]
  S := fun _ _ => by norm_num [exampleMie]
  lwf := fun _ _ => by norm_num [exampleMie]
  termv := fun _ => by norm_num [exampleMie]
  v := fun _ _ => by norm_num [exampleMie]

theorem exampleDrizzle_good : Spec.GoodCategorize exampleDrizzleCategorize where
  ground := by norm_num [exampleDrizzleCategorize]
  grows := fun h => by simp only [exampleDrizzleCategorize]; push_cast; linarith
  beta := by
    intro b hb t h
    simp only [exampleDrizzleCategorize, Option.some.injEq] at hb
    subst hb
    norm_num

theorem exampleDrizzle_rain (t : ℕ) : Spec.RainInProfile exampleDrizzleCategorize t ↔ t ≠ 0 := by
  have h : getIsRain exampleDrizzleCategorize.rain = .ok fun t => decide (t ≠ 0) := by
    unfold getIsRain
    simp [getIsRain.go, exampleDrizzleCategorize]
  rw [rainInProfile_iff h]
  simp

/-- The file is written, drizzle is retrieved in the first gate, and the second gate has status 1 without retrieval. -/
theorem exampleDrizzle_case : (∃ out, generateDrizzle (fun _ => exampleMie) exampleDrizzleCategorize = .ok out) ∧
    Spec.RetrievedPixel exampleDrizzleCategorize 0 0 ∧
    Spec.DrizzleBits exampleDrizzleCategorize 0 1 ∧ (∀ s, exampleDrizzleCategorize.vSigma = some s → s 0 1 = none) := by
  refine ⟨(C143_written _ _).2 ⟨⟨35, "35", rfl, Or.inl ⟨by norm_num, by norm_num, rfl⟩⟩, ?_, ?_, ?_, ?_, ?_, ?_, ?_, ?_, ?_, ?_⟩,
    ⟨⟨?_, ?_⟩, _, 0.1, rfl, ?_⟩, ⟨?_, ?_⟩, ?_⟩
  all_goals try simp [exampleDrizzleCategorize]
  · exact fun h => (exampleDrizzle_rain 0).1 h rfl
  · exact ⟨by decide, by decide, by decide, by decide, by decide, by decide, by decide, by decide, by decide, by decide, by decide⟩
  · exact fun h => (exampleDrizzle_rain 0).1 h rfl
  · exact ⟨by decide, by decide, by decide, by decide, by decide, by decide, by decide, by decide, by decide, by decide, by decide⟩

/-- The wind of the case, for `C143_width`. -/
example : interpolateModel 2 exampleDrizzleCategorize.modelTime 2 exampleDrizzleCategorize.modelHeight exampleDrizzleCategorize.uwind
      exampleDrizzleCategorize.time exampleDrizzleCategorize.height 0 0 = 3 ∧
    interpolateModel 2 exampleDrizzleCategorize.modelTime 2 exampleDrizzleCategorize.modelHeight exampleDrizzleCategorize.vwind
      exampleDrizzleCategorize.time exampleDrizzleCategorize.height 0 0 = 4 := by
  simp [interpolateModel, interpolate2d, interpLinear, exampleDrizzleCategorize]

/-- Drops of the case are larger than 0.1 mm, so that `C143_errors` applies. -/
example : ∃ out D, generateDrizzle (fun _ => exampleMie) exampleDrizzleCategorize = .ok out ∧ Spec.gridOf out "Do" 0 0 = some D ∧ 0.0001 < D ∧
    ∃ e, exampleDrizzleCategorize.zError = some e ∧ (e = .inl 1 ∨ ∃ a, e = .inr a ∧ a 0 0 = some 1) := by
  obtain ⟨⟨out, hout⟩, hp, -⟩ := exampleDrizzle_case
  have hk := C143_known _ _ out hout (fun _ => exampleMie_good) exampleDrizzle_good 0 0 (by norm_num [exampleDrizzleCategorize])
    (by norm_num [exampleDrizzleCategorize])
  obtain ⟨x, table, z, beta, -, -, hz, hbeta, hcorr, hval⟩ := C143_values _ _ out hout (fun _ => exampleMie_good) exampleDrizzle_good 0 0
    (by norm_num [exampleDrizzleCategorize]) (by norm_num [exampleDrizzleCategorize])
  obtain ⟨D, S, bc, i, j, hi, hj, hD, hS, hbc, -, hS', heq, -⟩ := hval hp
  have hDpos := (hk.1 "Do" (by simp)).2 D hD
  rw [hcorr hp.1.1, Finset.sum_range_zero, mul_zero, Real.exp_zero] at hbc
  obtain rfl := Option.some.inj hbc
  simp only [exampleDrizzleCategorize, Option.some.injEq] at hz hbeta
  subst hz hbeta
  refine ⟨out, D, hout, hD, ?_, _, rfl, Or.inl rfl⟩
  have hZ : convertZUnits (-10) = (10 : ℝ) ^ (-19 : ℝ) := by unfold convertZUnits; norm_num
  have hZ' : (10 : ℝ) ^ (-19 : ℝ) = 1 / 10 ^ 19 := by
    rw [Real.rpow_neg (by norm_num), one_div]
    norm_cast
  have g3 : Real.Gamma 3 = 2 := by rw [show (3 : ℝ) = (2 : ℕ) + 1 by norm_num, Real.Gamma_nat_eq_factorial]; norm_num [Nat.factorial]
  have g4 : Real.Gamma 4 = 6 := by rw [show (4 : ℝ) = (3 : ℕ) + 1 by norm_num, Real.Gamma_nat_eq_factorial]; norm_num [Nat.factorial]
  have g7 : Real.Gamma 7 = 720 := by rw [show (7 : ℝ) = (6 : ℕ) + 1 by norm_num, Real.Gamma_nat_eq_factorial]; norm_num [Nat.factorial]
  have g8 : Real.Gamma 8 = 5040 := by rw [show (8 : ℝ) = (7 : ℕ) + 1 by norm_num, Real.Gamma_nat_eq_factorial]; norm_num [Nat.factorial]
  have hpi := Real.two_le_pi
  have hD4 : (0.0001 : ℝ) ^ 4 < D ^ 4 := by
    rw [hZ, hZ', hS'] at heq
    have hi' : i = 0 ∨ i = 1 := by simp only [exampleMie] at hi; omega
    rcases hi' with rfl | rfl
    · simp only [exampleMie, Nat.cast_zero, add_zero, g3, g7] at heq
      field_simp at heq
      norm_num at heq ⊢
      nlinarith
    · simp only [exampleMie, Nat.cast_one] at heq
      rw [show (7 : ℝ) + 1 = 8 by norm_num, show (3 : ℝ) + 1 = 4 by norm_num, g4, g8] at heq
      field_simp at heq
      norm_num at heq ⊢
      nlinarith
  exact lt_of_pow_lt_pow_left₀ 4 hDpos.le hD4

end Cloudnet
