import Verif.IceFile.Model
import Verif.Ice.Props
import Verif.Bits.Props
import Mathlib.Tactic

/-! Property C139 (files with ice water content and ice effective radius). -/

set_option linter.unusedSectionVars false
set_option linter.unusedVariables false
set_option linter.unusedSimpArgs false

namespace Cloudnet

namespace Spec

/-- Falling, freezing, no melting layer and no insects, in the bits of the file. -/
def IcePixel (f : IceInput) (t h : ℕ) : Prop :=
  (f.categoryBits t h).testBit 1 = true ∧ (f.categoryBits t h).testBit 2 = true ∧ (f.categoryBits t h).testBit 3 = false ∧
    (f.categoryBits t h).testBit 5 = false

/-- Attenuation by liquid, rain or the melting layer that was not corrected. -/
def UncorrectedPixel (f : IceInput) (t h : ℕ) : Prop :=
  ((f.qualityBits t h).testBit 4 = true ∧ (f.qualityBits t h).testBit 5 = false) ∨
  ((f.qualityBits t h).testBit 6 = true ∧ (f.qualityBits t h).testBit 7 = false) ∨
  ((f.qualityBits t h).testBit 8 = true ∧ (f.qualityBits t h).testBit 9 = false)

/-- Temperature in degrees Celsius: the model temperature, interpolated in time and height. -/
noncomputable def celsius (f : IceInput) (t h : ℕ) : ℝ :=
  interpolate2d f.nModelT f.modelTime f.nModelH f.modelHeight f.temperature (f.time t) (f.height h) - 273.15

/-- Coefficients of the products: constants, and factors of temperature, reflectivity and their product. -/
structure ZtLaw where
  dielectric : ℝ
  both : ℝ
  temperature : ℝ
  reflectivity : ℝ
  constant : ℝ

/-- Hogan et al. (2006) for ice water content at 35 and 94 GHz. -/
noncomputable def iwcLaw (frequency : ℝ) : ZtLaw :=
  if frequency < 50 then ⟨0.878, 0.000242, -0.0186, 0.0699, -1.63⟩ else ⟨0.669, 0.00058, -0.00706, 0.0923, -0.992⟩

/-- Griesche et al. (2020) for the effective radius. -/
noncomputable def ierLaw (frequency : ℝ) : ZtLaw :=
  if frequency < 50 then ⟨0.878, -0.000205, -0.0015, 0.0016, -1.52⟩ else ⟨0.669, -0.000296, -0.00193, 0, -1.502⟩

/-- The logarithm of the product for a reflectivity (dBZ) and a temperature (degrees Celsius). -/
noncomputable def ZtLaw.log (l : ZtLaw) (z temperature : ℝ) : ℝ :=
  let scaled := z + 10 * Real.logb 10 (l.dielectric / 0.93)
  l.both * scaled * temperature + l.temperature * temperature + l.reflectivity * scaled + l.constant

/-- The radar has a supported frequency. -/
def IceFrequency (frequency : ℝ) : Prop := (27 < frequency ∧ frequency < 40) ∨ (75 < frequency ∧ frequency < 110)

/-- A number in decibels. -/
noncomputable def decibel (x : ℝ) : ℝ := 10 * Real.logb 10 x

end Spec

/-- The coefficients of the model as a law. -/
def IceCoefficients.law (k : IceCoefficients) : Spec.ZtLaw := ⟨k.K2liquid0, k.ZT, k.T, k.Z, k.c⟩

theorem zToIwc_law (k : IceCoefficients) (z T : ℝ) : zToIwc k (z + getZFactor k) T = (10 : ℝ) ^ k.law.log z T := rfl

theorem readCategoryBits_eq (bits : Grid ℤ) : readCategoryBits bits = .ok ⟨fun t h => (bits t h).testBit 0, fun t h => (bits t h).testBit 1,
    fun t h => (bits t h).testBit 2, fun t h => (bits t h).testBit 3, fun t h => (bits t h).testBit 4, fun t h => (bits t h).testBit 5⟩ := by
  simp only [readCategoryBits]
  rw [show (0 : ℤ) = ((0 : ℕ) : ℤ) from rfl, show (1 : ℤ) = ((1 : ℕ) : ℤ) from rfl,
    show (2 : ℤ) = ((2 : ℕ) : ℤ) from rfl, show (3 : ℤ) = ((3 : ℕ) : ℤ) from rfl,
    show (4 : ℤ) = ((4 : ℕ) : ℤ) from rfl, show (5 : ℤ) = ((5 : ℕ) : ℤ) from rfl]
  simp only [isbitGrid_ok]
  rfl

theorem readQualityBits_eq (bits : Grid ℤ) : readQualityBits bits = .ok ⟨fun t h => (bits t h).testBit 0, fun t h => (bits t h).testBit 1,
    fun t h => (bits t h).testBit 2, fun t h => (bits t h).testBit 3, fun t h => (bits t h).testBit 4, fun t h => (bits t h).testBit 5,
    fun t h => (bits t h).testBit 6, fun t h => (bits t h).testBit 7, fun t h => (bits t h).testBit 8, fun t h => (bits t h).testBit 9⟩ := by
  simp only [readQualityBits]
  rw [show (0 : ℤ) = ((0 : ℕ) : ℤ) from rfl, show (1 : ℤ) = ((1 : ℕ) : ℤ) from rfl,
    show (2 : ℤ) = ((2 : ℕ) : ℤ) from rfl, show (3 : ℤ) = ((3 : ℕ) : ℤ) from rfl,
    show (4 : ℤ) = ((4 : ℕ) : ℤ) from rfl, show (5 : ℤ) = ((5 : ℕ) : ℤ) from rfl,
    show (6 : ℤ) = ((6 : ℕ) : ℤ) from rfl, show (7 : ℤ) = ((7 : ℕ) : ℤ) from rfl,
    show (8 : ℤ) = ((8 : ℕ) : ℤ) from rfl, show (9 : ℤ) = ((9 : ℕ) : ℤ) from rfl]
  simp only [isbitGrid_ok]
  rfl

/-- What is retrieved and the status, from the bits of the file. -/
theorem iceMasks_ok {α : Type} (f : IceInput) (m : IceMasks) (hm : iceMasks f = .ok m) :
    2 ≤ f.nT ∧ (∃ rain, getIsRain f.rain = .ok rain) ∧
    (∀ (z : Grid (Option α)) t h v, icyData m z t h = some v ↔ Spec.IcePixel f t h ∧ ¬ Spec.UncorrectedPixel f t h ∧ z t h = some v) ∧
    (∀ t h, (gor (gnot m.isIce) m.uncorrectedIce t h = false ↔ Spec.IcePixel f t h ∧ ¬ Spec.UncorrectedPixel f t h)) := by
  unfold iceMasks at hm
  rw [readCategoryBits_eq, readQualityBits_eq] at hm
  simp only [Except.bind] at hm
  cases hr : getIsRain f.rain with
  | error e => rw [hr] at hm; cases hm
  | ok rain =>
    rw [hr] at hm
    dsimp only at hm
    unfold iceClassification at hm
    by_cases hn : f.nT ≤ 1
    · rw [if_pos hn] at hm; cases hm
    · rw [if_neg hn] at hm
      cases hm
      have key : ∀ t h, (gor (gnot (gand (gand (gand (fun t h => (f.categoryBits t h).testBit 1) fun t h => (f.categoryBits t h).testBit 2)
          (gnot fun t h => (f.categoryBits t h).testBit 3)) (gnot fun t h => (f.categoryBits t h).testBit 5)))
          (gand (gand (gand (gand (gand (fun t h => (f.categoryBits t h).testBit 1) fun t h => (f.categoryBits t h).testBit 2)
          (gnot fun t h => (f.categoryBits t h).testBit 3)) (gnot fun t h => (f.categoryBits t h).testBit 5))
          (gor (gor (fun t h => (f.qualityBits t h).testBit 4) fun t h => (f.qualityBits t h).testBit 6) fun t h => (f.qualityBits t h).testBit 8))
          (gor (gor (gand (fun t h => (f.qualityBits t h).testBit 8) (gnot fun t h => (f.qualityBits t h).testBit 9))
            (gand (fun t h => (f.qualityBits t h).testBit 6) (gnot fun t h => (f.qualityBits t h).testBit 7)))
            (gand (fun t h => (f.qualityBits t h).testBit 4) (gnot fun t h => (f.qualityBits t h).testBit 5)))) t h = false ↔
          Spec.IcePixel f t h ∧ ¬ Spec.UncorrectedPixel f t h) := by
        intro t h
        unfold Spec.IcePixel Spec.UncorrectedPixel
        simp only [gor_apply, gand_apply, gnot_apply]
        generalize (f.categoryBits t h).testBit 1 = a1
        generalize (f.categoryBits t h).testBit 2 = a2
        generalize (f.categoryBits t h).testBit 3 = a3
        generalize (f.categoryBits t h).testBit 5 = a4
        generalize (f.qualityBits t h).testBit 4 = b1
        generalize (f.qualityBits t h).testBit 5 = b2
        generalize (f.qualityBits t h).testBit 6 = b3
        generalize (f.qualityBits t h).testBit 7 = b4
        generalize (f.qualityBits t h).testBit 8 = b5
        generalize (f.qualityBits t h).testBit 9 = b6
        revert a1 a2 a3 a4 b1 b2 b3 b4 b5 b6
        decide +kernel
      refine ⟨by omega, ⟨rain, rfl⟩, fun z t h v => ?_, key⟩
      simp only [icyData, Grid.assign_apply]
      rw [← and_assoc, ← key t h]
      generalize gor _ _ t h = b
      cases b <;> simp

/-- The band and coefficients of a frequency. -/
theorem iceSource_iff (product : String) (f : IceInput) (hp : product = "iwc" ∨ product = "ier") :
    (∀ s, iceSource product f = .ok s → ∃ frequency, f.frequency = some frequency ∧ Spec.IceFrequency frequency ∧
      s.2.law = (if product = "iwc" then Spec.iwcLaw frequency else Spec.ierLaw frequency)) ∧
    ((∃ e, iceSource product f = .error e) ↔ ∀ frequency, f.frequency = some frequency → ¬ Spec.IceFrequency frequency) := by
  unfold iceSource
  cases hf : f.frequency with
  | none => simp [readVar, Except.bind]
  | some x =>
    simp only [readVar, Except.bind]
    obtain ⟨bX, bK, bW, bE, bO⟩ := C63_wl_band x
    by_cases h1 : 27 < x ∧ x < 40
    · rw [bK.2 h1]
      have hlt : x < 50 := by linarith [h1.2]
      refine ⟨?_, ?_⟩
      · intro s hs
        refine ⟨x, rfl, Or.inl h1, ?_⟩
        rcases hp with rfl | rfl
        · simp only [getIceCoefficients, Except.map] at hs
          simp at hs
          subst hs
          simp [IceCoefficients.law, Spec.iwcLaw, hlt] <;> norm_num
        · simp only [getIceCoefficients, Except.map] at hs
          simp at hs
          subst hs
          simp [IceCoefficients.law, Spec.ierLaw, hlt] <;> norm_num
      · refine iff_of_false ?_ fun h => h x rfl (Or.inl h1)
        rintro ⟨e, he⟩
        obtain ⟨k, hk⟩ := (C14_supported_bands product "Ka").2 (Or.inl rfl)
        dsimp only at he
        rw [hk] at he
        cases he
    · by_cases h2 : 75 < x ∧ x < 110
      · rw [bW.2 h2]
        have hlt : ¬ x < 50 := by linarith [h2.1]
        refine ⟨?_, ?_⟩
        · intro s hs
          refine ⟨x, rfl, Or.inr h2, ?_⟩
          rcases hp with rfl | rfl
          · simp only [getIceCoefficients, Except.map] at hs
            simp at hs
            subst hs
            simp [IceCoefficients.law, Spec.iwcLaw, hlt] <;> norm_num
          · simp only [getIceCoefficients, Except.map] at hs
            simp at hs
            subst hs
            simp [IceCoefficients.law, Spec.ierLaw, hlt] <;> norm_num
        · refine iff_of_false ?_ fun h => h x rfl (Or.inr h2)
          rintro ⟨e, he⟩
          obtain ⟨k, hk⟩ := (C14_supported_bands product "W").2 (Or.inr rfl)
          dsimp only at he
          rw [hk] at he
          cases he
      · have hno : ¬ Spec.IceFrequency x := by rintro (h | h); exacts [h1 h, h2 h]
        have herr : ∃ e, ((getWlBand x).bind fun band => (getIceCoefficients product band).map fun k => (band, k)) = .error e := by
          cases hb : getWlBand x with
          | error e => exact ⟨e, rfl⟩
          | ok b =>
            rcases bO b hb with rfl | rfl | rfl
            · cases hc : getIceCoefficients product "X" with
              | error e => exact ⟨e, by simp [Except.bind, hc, Except.map]⟩
              | ok k =>
                have := (C14_supported_bands product "X").1 ⟨k, hc⟩
                exact absurd this (by decide)
            · exact absurd (bK.1 hb) h1
            · exact absurd (bW.1 hb) h2
        obtain ⟨e, he⟩ := herr
        refine ⟨fun s hs => ?_, iff_of_true ⟨e, he⟩ (by rintro y hy; cases hy; exact hno)⟩
        have he' := he
        simp only [Except.bind] at he'
        rw [he'] at hs
        cases hs

/-- The parts of a successful run. -/
theorem generateIwc_ok (f : IceInput) (out : IwcFile) (h : generateIwc f = .ok out) :
    ∃ band k m z bias sensitivity zError, iceSource "iwc" f = .ok (band, k) ∧ iceMasks f = .ok m ∧ f.z = some z ∧ f.zBias = some bias ∧
      f.zSensitivity = some sensitivity ∧ f.zError = some zError ∧
      out.iwc = icyData m (fun t h => convertIce "iwc" k (z t h) (iceTemperature f t h)) ∧
      out.bias = bias.map (fun b => b * k.Z * 10) ∧
      out.sensitivity = (fun h => convertIce "iwc" k (sensitivity h) (meanTemperature f.nT (iceTemperature f) h)) ∧
      out.error = iwcError band k m (iceTemperature f) zError ∧ out.status = iceStatus m out.iwc := by
  unfold generateIwc at h
  cases hs : iceSource "iwc" f with
  | error e => rw [hs] at h; cases h
  | ok s =>
  cases hm : iceMasks f with
  | error e => rw [hs, hm] at h; cases h
  | ok m =>
  cases hz : f.z with
  | none => rw [hs, hm, hz] at h; cases h
  | some z =>
  cases hb : f.zBias with
  | none => rw [hs, hm, hz, hb] at h; cases h
  | some b =>
  cases hq : f.zSensitivity with
  | none => rw [hs, hm, hz, hb, hq] at h; cases h
  | some q =>
  cases he : f.zError with
  | none => rw [hs, hm, hz, hb, hq, he] at h; cases h
  | some e =>
    rw [hs, hm, hz, hb, hq, he] at h
    cases h
    exact ⟨s.1, s.2, m, z, b, q, e, rfl, rfl, rfl, rfl, rfl, rfl, rfl, rfl, rfl, rfl, rfl⟩

/-- **C139.** Ice water content (kg m-3) is known exactly at ice pixels with an echo and without uncorrected attenuation; its value is that
of the law for the frequency of the radar. -/
theorem C139_iwc (f : IceInput) (out : IwcFile) (hout : generateIwc f = .ok out) :
    ∃ frequency z, f.frequency = some frequency ∧ f.z = some z ∧ ∀ t h v, out.iwc t h = some v ↔
      Spec.IcePixel f t h ∧ ¬ Spec.UncorrectedPixel f t h ∧
      ∃ x, z t h = some x ∧ v = (10 : ℝ) ^ (Spec.iwcLaw frequency).log x (Spec.celsius f t h) / 1000 := by
  obtain ⟨band, k, m, z, bias, sensitivity, zError, hs, hm, hz, hb, hq, he, e1, e2, e3, e4, e5⟩ := generateIwc_ok f out hout
  obtain ⟨frequency, hf, hfr, hlaw⟩ := (iceSource_iff "iwc" f (Or.inl rfl)).1 _ hs
  simp only [if_true] at hlaw
  refine ⟨frequency, z, hf, hz, fun t h v => ?_⟩
  rw [e1, (iceMasks_ok f m hm).2.2.1]
  have hT : iceTemperature f t h = Spec.celsius f t h := by
    unfold iceTemperature interpolateModel Spec.celsius
    norm_num
  unfold convertIce
  rw [hT]
  simp only [zToIwc_law, hlaw, iceScale, if_true, Option.map_eq_some_iff]
  constructor
  · rintro ⟨h1, h2, x, h3, rfl⟩
    exact ⟨h1, h2, x, h3, by norm_num; ring⟩
  · rintro ⟨h1, h2, x, h3, rfl⟩
    exact ⟨h1, h2, x, h3, by norm_num; ring⟩

theorem l2norm_pair (a : ℝ) (b : Option ℝ) (v : ℝ) : l2norm [some a, b] = some v ↔ ∃ x, b = some x ∧ v = Real.sqrt (a ^ 2 + x ^ 2) := by
  cases b with
  | none => simp [l2norm, madd]
  | some x => simp [l2norm, madd, eq_comm]

/-- The law is linear in the reflectivity. -/
theorem law_change (l : Spec.ZtLaw) (z d T : ℝ) : l.log (z + d) T = l.log z T + d * (l.both * T + l.reflectivity) := by
  unfold Spec.ZtLaw.log
  ring

theorem decibel_ratio (a b : ℝ) : Spec.decibel ((10 : ℝ) ^ a / 1000 / ((10 : ℝ) ^ b / 1000)) = 10 * (a - b) := by
  unfold Spec.decibel
  rw [div_div_div_cancel_right₀ (by norm_num), ← Real.rpow_sub (by norm_num), Real.logb_rpow (by norm_num) (by norm_num)]

/-- **C139.** The error (dB) is known exactly at ice pixels with known error of the reflectivity and without uncorrected attenuation; it
combines 1.7 dB with the change of the product (in dB) when the reflectivity changes by its error. -/
theorem C139_error (f : IceInput) (out : IwcFile) (hout : generateIwc f = .ok out) :
    ∃ frequency zError, f.frequency = some frequency ∧ f.zError = some zError ∧ ∀ t h v, out.error t h = some v ↔
      Spec.IcePixel f t h ∧ ¬ Spec.UncorrectedPixel f t h ∧ ∃ e, zError t h = some e ∧
        ∀ x, let iwc := fun x => (10 : ℝ) ^ (Spec.iwcLaw frequency).log x (Spec.celsius f t h) / 1000
          v = Real.sqrt (1.7 ^ 2 + Spec.decibel (iwc (x + e) / iwc x) ^ 2) := by
  obtain ⟨band, k, m, z, bias, sensitivity, zError, hs, hm, hz, hb, hq, he, e1, e2, e3, e4, e5⟩ := generateIwc_ok f out hout
  obtain ⟨frequency, hf, hfr, hlaw⟩ := (iceSource_iff "iwc" f (Or.inl rfl)).1 _ hs
  simp only [if_true] at hlaw
  refine ⟨frequency, zError, hf, he, fun t h v => ?_⟩
  have hT : iceTemperature f t h = Spec.celsius f t h := by
    unfold iceTemperature interpolateModel Spec.celsius
    norm_num
  have hk1 : k.ZT = (Spec.iwcLaw frequency).both := by rw [← hlaw]; rfl
  have hk2 : k.Z = (Spec.iwcLaw frequency).reflectivity := by rw [← hlaw]; rfl
  simp only [decibel_ratio, law_change]
  have hmask := (iceMasks_ok (α := ℝ) f m hm).2.2.2 t h
  rw [← and_assoc, ← hmask, e4]
  unfold iwcError
  simp only [Grid.assign_apply]
  cases hg : gor (gnot m.isIce) m.uncorrectedIce t h with
  | true => simp
  | false =>
    have hu : m.uncorrectedIce t h = false := by
      simp only [gor_apply, Bool.or_eq_false_iff] at hg
      exact hg.2
    simp only [hu, cond_false, true_and, l2norm_pair, Option.map_eq_some_iff]
    rw [hT, hk1, hk2]
    constructor
    · rintro ⟨x, ⟨e, h1, rfl⟩, rfl⟩
      exact ⟨e, h1, fun x => by congr 2; ring⟩
    · rintro ⟨e, h1, h2⟩
      refine ⟨_, ⟨e, h1, rfl⟩, ?_⟩
      rw [h2 0]
      congr 2; ring

/-- **C139, a finding.** Pixels with uncorrected attenuation (status 2) have neither a value nor an error; the error that is computed
for them from an assumed liquid water path is not in the file, although the comments of the variables speak of it. -/
theorem C139_uncorrected (f : IceInput) (out : IwcFile) (hout : generateIwc f = .ok out) (t h : ℕ) (hu : Spec.UncorrectedPixel f t h) :
    out.iwc t h = none ∧ out.error t h = none := by
  obtain ⟨frequency, z, _, _, h1⟩ := C139_iwc f out hout
  obtain ⟨frequency', zError, _, _, h2⟩ := C139_error f out hout
  constructor
  · cases hv : out.iwc t h with
    | none => rfl
    | some v => exact absurd hu ((h1 t h v).1 hv).2.1
  · cases hv : out.error t h with
    | none => rfl
    | some v => exact absurd hu ((h2 t h v).1 hv).2.1

/-- **C139.** The sensitivity is what the law gives for the sensitivity of the radar at the mean temperature. Where the temperature is the
mean and above -159 °C, ice water content is at least the sensitivity if and only if the echo is. -/
theorem C139_sensitivity (f : IceInput) (out : IwcFile) (hout : generateIwc f = .ok out) :
    ∃ frequency z sensitivity, f.frequency = some frequency ∧ f.z = some z ∧ f.zSensitivity = some sensitivity ∧
      (∀ h v, out.sensitivity h = some v ↔ ∃ s, sensitivity h = some s ∧ v = (10 : ℝ) ^ (Spec.iwcLaw frequency).log s
        (((List.range f.nT).map fun t => Spec.celsius f t h).sum / f.nT) / 1000) ∧
      ∀ t h v x m s, out.iwc t h = some v → z t h = some x → out.sensitivity h = some m → sensitivity h = some s →
        Spec.celsius f t h = ((List.range f.nT).map fun t => Spec.celsius f t h).sum / f.nT → -159 < Spec.celsius f t h →
        (m ≤ v ↔ s ≤ x) := by
  obtain ⟨frequency', z', hf', hz', hiwc⟩ := C139_iwc f out hout
  obtain ⟨band, k, m, z, bias, sensitivity, zError, hs, hm, hz, hb, hq, he, e1, e2, e3, e4, e5⟩ := generateIwc_ok f out hout
  obtain ⟨frequency, hf, hfr, hlaw⟩ := (iceSource_iff "iwc" f (Or.inl rfl)).1 _ hs
  simp only [if_true] at hlaw
  obtain rfl : frequency' = frequency := by rw [hf] at hf'; exact (Option.some.inj hf').symm
  obtain rfl : z' = z := by rw [hz] at hz'; exact (Option.some.inj hz').symm
  have hT : ∀ t h, iceTemperature f t h = Spec.celsius f t h := by
    intro t h
    unfold iceTemperature interpolateModel Spec.celsius
    norm_num
  have hsens : ∀ h v, out.sensitivity h = some v ↔ ∃ s, sensitivity h = some s ∧ v = (10 : ℝ) ^ (Spec.iwcLaw frequency').log s
        (((List.range f.nT).map fun t => Spec.celsius f t h).sum / f.nT) / 1000 := by
    intro h v
    rw [e3]
    unfold convertIce meanTemperature
    simp only [zToIwc_law, hlaw, iceScale, if_true, Option.map_eq_some_iff, hT]
    constructor
    · rintro ⟨x, h3, rfl⟩
      exact ⟨x, h3, by norm_num; ring⟩
    · rintro ⟨x, h3, rfl⟩
      exact ⟨x, h3, by norm_num; ring⟩
  refine ⟨frequency', z', sensitivity, hf, hz, hq, hsens, ?_⟩
  intro t h v x m' s hv hx hm' hs' hmean hcold
  obtain ⟨_, _, x', hx', rfl⟩ := (hiwc t h v).1 hv
  obtain ⟨s', hs'', rfl⟩ := (hsens h m').1 hm'
  rw [hx] at hx'
  rw [hs'] at hs''
  cases hx'
  cases hs''
  rw [← hmean]
  rw [div_le_div_iff_of_pos_right (by norm_num), Real.rpow_le_rpow_left_iff (by norm_num)]
  have hpos : 0 < (Spec.iwcLaw frequency').both * Spec.celsius f t h + (Spec.iwcLaw frequency').reflectivity := by
    unfold Spec.iwcLaw
    by_cases hl : frequency' < 50
    · rw [if_pos hl]; norm_num; linarith
    · rw [if_neg hl]; norm_num; linarith
  have := law_change (Spec.iwcLaw frequency') s (x - s) (Spec.celsius f t h)
  rw [show s + (x - s) = x by ring] at this
  rw [this]
  constructor
  · intro hle
    have : 0 ≤ (x - s) * ((Spec.iwcLaw frequency').both * Spec.celsius f t h + (Spec.iwcLaw frequency').reflectivity) := by linarith
    have := nonneg_of_mul_nonneg_left this hpos
    linarith
  · intro hle
    have : 0 ≤ (x - s) * ((Spec.iwcLaw frequency').both * Spec.celsius f t h + (Spec.iwcLaw frequency').reflectivity) :=
      mul_nonneg (by linarith) hpos.le
    linarith

/-- **C139, a finding.** The bias (dB) is meant to be the change of ice water content when the reflectivity changes by its bias. It is
so at 0 °C only: at another temperature a bias that is not zero gives a different change. -/
theorem C139_bias (f : IceInput) (out : IwcFile) (hout : generateIwc f = .ok out) :
    ∃ frequency bias, f.frequency = some frequency ∧ f.zBias = some bias ∧ (out.bias = none ↔ bias = none) ∧
      ∀ b v, bias = some b → out.bias = some v → ∀ t h x,
        let iwc := fun x => (10 : ℝ) ^ (Spec.iwcLaw frequency).log x (Spec.celsius f t h) / 1000
        v = Spec.decibel (iwc (x + b) / iwc x) ↔ b = 0 ∨ Spec.celsius f t h = 0 := by
  obtain ⟨band, k, m, z, bias, sensitivity, zError, hs, hm, hz, hb, hq, he, e1, e2, e3, e4, e5⟩ := generateIwc_ok f out hout
  obtain ⟨frequency, hf, hfr, hlaw⟩ := (iceSource_iff "iwc" f (Or.inl rfl)).1 _ hs
  simp only [if_true] at hlaw
  have hk2 : k.Z = (Spec.iwcLaw frequency).reflectivity := by rw [← hlaw]; rfl
  refine ⟨frequency, bias, hf, hb, by rw [e2]; simp, ?_⟩
  intro b v hbias hv t h x
  simp only [decibel_ratio, law_change]
  rw [e2, hbias] at hv
  simp only [Option.map_some, Option.some.injEq] at hv
  subst hv
  rw [hk2]
  have hne : (Spec.iwcLaw frequency).both ≠ 0 := by
    unfold Spec.iwcLaw
    split <;> norm_num
  constructor
  · intro heq
    have : b * ((Spec.iwcLaw frequency).both * Spec.celsius f t h) = 0 := by linarith
    rcases mul_eq_zero.1 this with h0 | h0
    · exact Or.inl h0
    · exact Or.inr ((mul_eq_zero.1 h0).resolve_left hne)
  · rintro (h0 | h0)
    · rw [h0]; ring
    · rw [h0]; ring

/-- **C139.** The file is written if and only if the frequency is supported, there are two profiles, the variables are there and rain is
known. -/
theorem C139_written (f : IceInput) : (∃ out, generateIwc f = .ok out) ↔
    (∃ frequency, f.frequency = some frequency ∧ Spec.IceFrequency frequency) ∧ 2 ≤ f.nT ∧ f.z ≠ none ∧ f.zBias ≠ none ∧
    f.zSensitivity ≠ none ∧ f.zError ≠ none ∧
    (f.rain "rain_detected" ≠ none ∨ f.rain "rainfall_rate" ≠ none ∨ f.rain "rain_rate" ≠ none) := by
  have hrain : (∃ rain, getIsRain f.rain = .ok rain) ↔
      (f.rain "rain_detected" ≠ none ∨ f.rain "rainfall_rate" ≠ none ∨ f.rain "rain_rate" ≠ none) := by
    unfold getIsRain
    cases h1 : f.rain "rain_detected" <;> cases h2 : f.rain "rainfall_rate" <;> cases h3 : f.rain "rain_rate" <;>
      simp [getIsRain.go, h1, h2, h3]
  constructor
  · rintro ⟨out, hout⟩
    obtain ⟨band, k, m, z, bias, sensitivity, zError, hs, hm, hz, hb, hq, he, _⟩ := generateIwc_ok f out hout
    obtain ⟨frequency, hf, hfr, _⟩ := (iceSource_iff "iwc" f (Or.inl rfl)).1 _ hs
    obtain ⟨h2, hr, _⟩ := iceMasks_ok (α := ℝ) f m hm
    exact ⟨⟨frequency, hf, hfr⟩, h2, by simp [hz], by simp [hb], by simp [hq], by simp [he], hrain.1 hr⟩
  · rintro ⟨⟨frequency, hf, hfr⟩, h2, hz, hb, hq, he, hr⟩
    obtain ⟨rain, hr⟩ := hrain.2 hr
    have hm : ∃ m, iceMasks f = .ok m := by
      unfold iceMasks
      rw [readCategoryBits_eq, readQualityBits_eq, hr]
      simp only [Except.bind, iceClassification]
      rw [if_neg (by omega)]
      exact ⟨_, rfl⟩
    obtain ⟨m, hm⟩ := hm
    have hs : ∃ s, iceSource "iwc" f = .ok s := by
      cases hc : iceSource "iwc" f with
      | ok s => exact ⟨s, rfl⟩
      | error e => exact absurd hfr ((iceSource_iff "iwc" f (Or.inl rfl)).2.1 ⟨e, hc⟩ frequency hf)
    obtain ⟨s, hs⟩ := hs
    obtain ⟨z, hz⟩ := Option.ne_none_iff_exists'.1 hz
    obtain ⟨b, hb⟩ := Option.ne_none_iff_exists'.1 hb
    obtain ⟨q, hq⟩ := Option.ne_none_iff_exists'.1 hq
    obtain ⟨e, he⟩ := Option.ne_none_iff_exists'.1 he
    unfold generateIwc
    rw [hs, hm, hz, hb, hq, he]
    exact ⟨_, rfl⟩

/-- **C139.** The status of the file and the data agree: 1 or 3 where there is a value, 2 at ice with uncorrected attenuation. -/
theorem C139_status (f : IceInput) (out : IwcFile) (hout : generateIwc f = .ok out) (t h : ℕ) :
    ((∃ v, out.iwc t h = some v) ↔ out.status t h = 1 ∨ out.status t h = 3) ∧
    (out.status t h = 2 ↔ Spec.IcePixel f t h ∧ Spec.UncorrectedPixel f t h) := by
  obtain ⟨band, k, m, z, bias, sensitivity, zError, hs, hm, hz, hb, hq, he, e1, e2, e3, e4, e5⟩ := generateIwc_ok f out hout
  unfold iceMasks at hm
  rw [readCategoryBits_eq, readQualityBits_eq] at hm
  simp only [Except.bind] at hm
  cases hr : getIsRain f.rain with
  | error e => rw [hr] at hm; cases hm
  | ok rain =>
    rw [hr] at hm
    dsimp only at hm
    rw [e5, e1]
    constructor
    · rw [← (C12_data_iff_status f.nT _ _ rain _ m hm t h).1, Option.isSome_iff_exists]
    · have hT : 2 ≤ f.nT := by
        by_contra hc
        unfold iceClassification at hm
        rw [if_pos (by omega)] at hm
        cases hm
      obtain ⟨m', hm', hst⟩ := C12_ice_status f.nT hT ⟨fun t h => (f.categoryBits t h).testBit 0, fun t h => (f.categoryBits t h).testBit 1,
        fun t h => (f.categoryBits t h).testBit 2, fun t h => (f.categoryBits t h).testBit 3, fun t h => (f.categoryBits t h).testBit 4,
        fun t h => (f.categoryBits t h).testBit 5⟩ ⟨fun t h => (f.qualityBits t h).testBit 0, fun t h => (f.qualityBits t h).testBit 1,
        fun t h => (f.qualityBits t h).testBit 2, fun t h => (f.qualityBits t h).testBit 3, fun t h => (f.qualityBits t h).testBit 4,
        fun t h => (f.qualityBits t h).testBit 5, fun t h => (f.qualityBits t h).testBit 6, fun t h => (f.qualityBits t h).testBit 7,
        fun t h => (f.qualityBits t h).testBit 8, fun t h => (f.qualityBits t h).testBit 9⟩ rain
        (fun t h => convertIce "iwc" k (z t h) (iceTemperature f t h))
      rw [hm] at hm'
      cases hm'
      rw [(hst t h).1]
      unfold Spec.IcePixel Spec.UncorrectedPixel
      dsimp only
      generalize (f.categoryBits t h).testBit 1 = a1
      generalize (f.categoryBits t h).testBit 2 = a2
      generalize (f.categoryBits t h).testBit 3 = a3
      generalize (f.categoryBits t h).testBit 5 = a4
      generalize (f.qualityBits t h).testBit 4 = b1
      generalize (f.qualityBits t h).testBit 5 = b2
      generalize (f.qualityBits t h).testBit 6 = b3
      generalize (f.qualityBits t h).testBit 7 = b4
      generalize (f.qualityBits t h).testBit 8 = b5
      generalize (f.qualityBits t h).testBit 9 = b6
      generalize rain t = r
      generalize Option.isSome _ = e
      clear hst
      have hu : ((b1 = true ∧ b2 = false) ∨ (b3 = true ∧ b4 = false) ∨ (b5 = true ∧ b6 = false)) ↔
          (b1 && !b2 || b3 && !b4 || b5 && !b6) = true := by
        revert b1 b2 b3 b4 b5 b6
        decide +kernel
      rw [hu]
      generalize (b1 && !b2 || b3 && !b4 || b5 && !b6) = u
      generalize (b1 || b3 || b5) = w
      clear hu
      revert a1 a2 a3 a4 r u w e
      decide +kernel

/-! ### Effective radius -/

/-- **C139.** Effective radius (m): known exactly where ice water content is, with the value of its own law times `3 / (2 · 917)`; the
error is `0.4 √2` of the value. -/
theorem C139_ier (f : IceInput) (out : IerFile) (hout : generateIer f = .ok out) :
    ∃ frequency z, f.frequency = some frequency ∧ Spec.IceFrequency frequency ∧ f.z = some z ∧
      (∀ t h v, out.ier t h = some v ↔ Spec.IcePixel f t h ∧ ¬ Spec.UncorrectedPixel f t h ∧
        ∃ x, z t h = some x ∧ v = 3 / (2 * 917) * (10 : ℝ) ^ (Spec.ierLaw frequency).log x (Spec.celsius f t h)) ∧
      ∀ t h e, out.error t h = some e ↔ ∃ v, out.ier t h = some v ∧ e = 0.4 * Real.sqrt 2 * v := by
  unfold generateIer at hout
  cases hs : iceSource "ier" f with
  | error e => rw [hs] at hout; cases hout
  | ok s =>
  cases hm : iceMasks f with
  | error e => rw [hs, hm] at hout; cases hout
  | ok m =>
  cases hz : f.z with
  | none => rw [hs, hm, hz] at hout; cases hout
  | some z =>
    rw [hs, hm, hz] at hout
    cases hout
    obtain ⟨frequency, hf, hfr, hlaw⟩ := (iceSource_iff "ier" f (Or.inr rfl)).1 _ hs
    simp only [show ¬ ("ier" = "iwc") by decide, if_false] at hlaw
    refine ⟨frequency, z, hf, hfr, rfl, fun t h v => ?_, fun t h e => ?_⟩
    · dsimp only
      have hT : iceTemperature f t h = Spec.celsius f t h := by
        unfold iceTemperature interpolateModel Spec.celsius
        norm_num
      rw [Option.map_eq_some_iff]
      simp only [(iceMasks_ok f m hm).2.2.1]
      unfold convertIce
      rw [hT]
      simp only [zToIwc_law, hlaw, iceScale, show ¬ ("ier" = "iwc") by decide, if_false, Option.map_eq_some_iff]
      constructor
      · rintro ⟨a, ⟨h1, h2, x, h3, rfl⟩, rfl⟩
        exact ⟨h1, h2, x, h3, by ring⟩
      · rintro ⟨h1, h2, x, h3, rfl⟩
        exact ⟨_, ⟨h1, h2, x, h3, rfl⟩, by ring⟩
    · dsimp only
      have hsq : Real.sqrt ((0.4 : ℝ) ^ 2 + 0.4 ^ 2) = 0.4 * Real.sqrt 2 := by
        rw [show ((0.4 : ℝ) ^ 2 + 0.4 ^ 2) = 0.4 ^ 2 * 2 by ring, Real.sqrt_mul (by positivity), Real.sqrt_sq (by norm_num)]
      rw [hsq]
      simp only [Option.map_eq_some_iff]
      constructor
      · rintro ⟨v, ⟨a, h1, rfl⟩, rfl⟩
        exact ⟨_, ⟨a, h1, rfl⟩, by ring⟩
      · rintro ⟨v, ⟨a, h1, rfl⟩, rfl⟩
        exact ⟨_, ⟨a, h1, rfl⟩, by ring⟩

/-- A file with two profiles of ice at 35 GHz. -/
def exampleIceInput : IceInput where
  nT := 2
  time := fun t => t
  height := fun h => 1000 * h
  nModelT := 2
  modelTime := fun t => 24 * t
  nModelH := 2
  modelHeight := fun h => 10000 * h
  temperature := fun _ _ => 253.15
  frequency := some 35
  z := some fun _ h => if h = 0 then none else some 10
  zError := some fun _ _ => some 1
  zBias := some (some 1)
  zSensitivity := some fun h => some (-40 + h)
  categoryBits := fun _ _ => 6
  qualityBits := fun t _ => if t = 0 then 1 else 17
  rain := fun n => if n = "rain_rate" then some fun _ => some 0 else none

example : ∃ out, generateIwc exampleIceInput = .ok out := by
  rw [C139_written]
  refine ⟨⟨35, rfl, Or.inl ⟨by norm_num, by norm_num⟩⟩, le_refl _, ?_, ?_, ?_, ?_, Or.inr (Or.inr ?_)⟩ <;> simp [exampleIceInput]

example : Spec.IcePixel exampleIceInput 0 1 ∧ ¬ Spec.UncorrectedPixel exampleIceInput 0 1 ∧ Spec.UncorrectedPixel exampleIceInput 1 1 := by
  refine ⟨⟨?_, ?_, ?_, ?_⟩, ?_, Or.inl ?_⟩
  · decide
  · decide
  · decide
  · decide
  · unfold Spec.UncorrectedPixel; decide
  · decide

end Cloudnet
