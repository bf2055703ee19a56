import Verif.Chain.Model
import Verif.Classify.Props
import Verif.ClassFile.Props
import Verif.Attenuation.Props
import Verif.LwcFile.Props
import Verif.DerFile.Props
import Verif.DrizzleFile.Props
import Mathlib.Tactic

/-!
C165: what the products say about a pixel, in terms of what was measured there.
-/

namespace Cloudnet

namespace Spec

/-- A velocity below 5 cm/s in the ten lowest gates. -/
def SlowLow (o : Observation) (t h : ℕ) : Prop := h < 10 ∧ ∃ v, o.v.get t h = some v ∧ |v| < 5 / 100

/-- The radar has an echo. -/
def HasEcho (o : Observation) (t h : ℕ) : Prop := o.z.mask t h = false

/-- The lidar has a signal. -/
def HasLidar (o : Observation) (t h : ℕ) : Prop := o.beta t h ≠ none

/-- The regions of the melting layer and of freezing, as estimated from the measurements (C82, C83). -/
def Regions (o : Observation) (melting freezing : Grid Bool) : Prop :=
  findMeltingLayer o.meltingInput true = .ok melting ∧ findFreezingRegion o.nT o.nH o.time o.height o.tw melting = .ok freezing

/-- The bits, the echo and the rain that a product reads are those of the categorize file. -/
structure ReadsBits (out : CategorizeFields) (categoryBits qualityBits : Grid ℤ) (rain : String → Option (ℕ → Option ℝ)) : Prop where
  category : categoryBits = out.categoryBits
  quality : qualityBits = out.qualityBits
  rain : rain "rain_detected" = some fun t => (out.rainDetected t).map fun x => (x : ℝ)

/-- A profile with rain: rain was detected, or it is unknown and the number below the mask is not zero. -/
def RainDetected (d : DayInput) (out : CategorizeFields) (t : ℕ) : Prop :=
  (∃ x, out.rainDetected t = some x ∧ x ≠ 0) ∨ (out.rainDetected t = none ∧ d.rainBelowMask t = true)

open Classical in
/-- What the attenuations are calculated from (C47, C48): the bits for droplets, freezing and melting and the rain of the file, heights above ground,
and the model, liquid water path and rain rate of the day. -/
noncomputable def attenuationOf (d : DayInput) (out : CategorizeFields) : AttenuationData ℝ where
  nT := d.obs.nT
  nH := d.obs.nH
  heightAgl := fun h => d.obs.height h - d.obs.altitude
  temperature := d.temperature
  pressure := d.pressure
  specificGas := d.specificGas
  specificSaturatedGas := d.specificSaturatedGas
  specificLiquid := d.specificLiquid
  droplet := fun t h => (out.categoryBits t h).testBit 0
  freezing := fun t h => (out.categoryBits t h).testBit 2
  melting := fun t h => (out.categoryBits t h).testBit 3
  isRain := fun t => decide (RainDetected d out t)
  lwp := d.lwp
  lwpError := d.lwpError
  rainRate := d.rainRate
  g := d.g
  kRain := d.kRain
  kMelt := d.kMelt

end Spec

theorem rainAt_iff (d : DayInput) (out : CategorizeFields) (t : ℕ) : d.rainAt out.rainDetected t = true ↔ Spec.RainDetected d out t := by
  unfold DayInput.rainAt Spec.RainDetected
  cases h : out.rainDetected t with
  | none => simp
  | some x => simp

/-- What a categorize file says about a pixel, and where it comes from. -/
theorem day_ok (d : DayInput) (out : CategorizeFields) (hout : categorizeDay d = .ok out) :
    ∃ r a, classifyMeasurements d.obs = .ok r ∧ getAttenuations (d.attenuationData r) d.meltingErrorFactor = .ok a ∧
      out = { categoryBits := classesToBits r.bits.fields
              qualityBits := classesToBits (fetchQuality (correctAtten d.obs.z.get a) d.obs.beta r.isClutter a).fields
              z := correctAtten d.obs.z.get a
              rainDetected := r.isRain
              insectProb := r.insectProb
              gasAtten := a.gas.amount
              liquidAtten := a.liquid.amount
              rainAtten := a.rain.amount
              meltingAtten := a.melting.amount } := by
  unfold categorizeDay at hout
  simp only [bind, Except.bind, pure, Except.pure] at hout
  rcases h1 : classifyMeasurements d.obs with e | r
  · simp only [h1, reduceCtorEq] at hout
  rcases h2 : getAttenuations (d.attenuationData r) d.meltingErrorFactor with e | a
  · simp only [h1, h2, reduceCtorEq] at hout
  simp only [h1, h2, Except.ok.injEq] at hout
  exact ⟨r, a, rfl, h2, hout.symm⟩

theorem gas_amount (d : AttenuationData ℝ) (e : ℝ) (a : RadarAttenuation ℝ) (ha : getAttenuations d e = .ok a) (t h : ℕ) :
    ∃ g, a.gas.amount t h = some g := by
  unfold getAttenuations at ha
  simp only [bind, Except.bind, pure, Except.pure] at ha
  rcases h1 : calcRainAttenuation d with _ | r
  · simp only [h1, reduceCtorEq] at ha
  rcases h2 : calcLiquidAttenuation d with _ | l
  · simp only [h1, h2, reduceCtorEq] at ha
  rcases h3 : calcMeltingAttenuation d e with _ | m
  · simp only [h1, h2, h3, reduceCtorEq] at ha
  simp only [h1, h2, h3, Except.ok.injEq] at ha
  obtain ⟨v, hv, -⟩ := C47_gas d t h
  exact ⟨v, by rw [← ha]; exact hv⟩

/-- The echo in the file is the measured one plus the attenuations. -/
theorem C165_echo (d : DayInput) (out : CategorizeFields) (hout : categorizeDay d = .ok out) (t h : ℕ) :
    ∃ g, out.gasAtten t h = some g ∧ out.z t h = (d.obs.z.get t h).map fun x =>
      x + g + (out.liquidAtten t h).getD 0 + (out.rainAtten t h).getD 0 + (out.meltingAtten t h).getD 0 := by
  obtain ⟨r, a, -, ha, rfl⟩ := day_ok d out hout
  obtain ⟨g, hg⟩ := gas_amount _ _ a ha t h
  exact ⟨g, hg, C49_correct_atten _ a t h g hg⟩

theorem echo_isSome (d : DayInput) (out : CategorizeFields) (hout : categorizeDay d = .ok out) (t h : ℕ) :
    (out.z t h).isSome = true ↔ Spec.HasEcho d.obs t h := by
  obtain ⟨g, -, hz⟩ := C165_echo d out hout t h
  rw [hz]
  unfold Spec.HasEcho Masked.get
  cases d.obs.z.mask t h <;> simp

/-- The bits of a pixel: what is known about them. -/
theorem bits_facts (d : DayInput) (out : CategorizeFields) (hout : categorizeDay d = .ok out) :
    ∃ melting freezing, Spec.Regions d.obs melting freezing ∧ ∀ t < d.obs.nT, ∀ h < d.obs.nH,
      ∃ droplet falling cold melt aerosol insect clutter : Bool,
      (out.categoryBits t h).testBit 0 = droplet ∧ (out.categoryBits t h).testBit 1 = falling ∧
      (out.categoryBits t h).testBit 2 = cold ∧ (out.categoryBits t h).testBit 3 = melt ∧
      (out.categoryBits t h).testBit 4 = aerosol ∧ (out.categoryBits t h).testBit 5 = insect ∧
      (out.qualityBits t h).testBit 2 = clutter ∧ (out.qualityBits t h).testBit 3 = false ∧
      ((out.qualityBits t h).testBit 0 = true ↔ Spec.HasEcho d.obs t h) ∧
      ((out.qualityBits t h).testBit 1 = true ↔ Spec.HasLidar d.obs t h) ∧
      cold = freezing t h ∧
      (droplet = true → 27316 / 100 - 38 ≤ d.obs.tw t h) ∧
      (aerosol = true → Spec.HasLidar d.obs t h) ∧
      (Spec.HasLidar d.obs t h → droplet = true ∨ falling = true ∨ aerosol = true) ∧
      (falling = true → insect = true ∨ aerosol = true → Spec.SlowLow d.obs t h ∧ clutter = false) ∧
      (Spec.HasEcho d.obs t h → droplet = true ∨ falling = true ∨ aerosol = true ∨ insect = true ∨ clutter = true ∨
        (cold = true ∧ ¬ Spec.HasLidar d.obs t h)) ∧
      (clutter = true → Spec.SlowLow d.obs t h ∧ falling = false ∧ droplet = false) ∧
      (melting t h = true → melt = true) ∧
      (melt = true → melting t h = true ∨ ((∃ i, i + 1 = h ∧ freezing t i = false) ∧ freezing t h = true)) := by
  obtain ⟨r, a, hr, ha, ho⟩ := day_ok d out hout
  obtain ⟨melting, hm, hf, hpix⟩ := C44_classify d.obs r hr
  refine ⟨melting, r.bits.freezing, ⟨hm, hf⟩, fun t ht h hh => ?_⟩
  obtain ⟨g1, g2, g3, g4, g5, g6, -, g8, g9⟩ := hpix t ht h hh
  obtain ⟨-, -, b0, b1, b2, b3, b4, b5⟩ := C01_category_bits_positions r.bits t h
  obtain ⟨-, -, q0, q1, q2, q3, -⟩ :=
    C02_quality_bits_positions (fetchQuality (correctAtten d.obs.z.get a) d.obs.beta r.isClutter a) t h
  have hz := echo_isSome d out hout t h
  have e1 : out.categoryBits = classesToBits r.bits.fields := by rw [ho]
  have e2 : out.qualityBits = classesToBits (fetchQuality (correctAtten d.obs.z.get a) d.obs.beta r.isClutter a).fields := by rw [ho]
  have e3 : out.z = correctAtten d.obs.z.get a := by rw [ho]
  rw [e1, e2]
  refine ⟨_, _, _, _, _, _, _, b0, b1, b2, b3, b4, b5, q2, q3, ?_, ?_, rfl, g1, g2, g3, ?_, ?_, ?_, g8, g9⟩
  · rw [q0, ← hz, e3]
    rfl
  · rw [q1]
    show (d.obs.beta t h).isSome = true ↔ d.obs.beta t h ≠ none
    exact Option.isSome_iff_ne_none
  · intro x y
    obtain ⟨u, v, w⟩ := g4 x y
    exact ⟨⟨u, v⟩, w⟩
  · intro x
    rcases g5 x with u | u | u | u | u | ⟨u, v⟩
    · exact Or.inl u
    · exact Or.inr (Or.inl u)
    · exact Or.inr (Or.inr (Or.inl u))
    · exact Or.inr (Or.inr (Or.inr (Or.inl u)))
    · exact Or.inr (Or.inr (Or.inr (Or.inr (Or.inl u))))
    · exact Or.inr (Or.inr (Or.inr (Or.inr (Or.inr ⟨u, fun w => w v⟩))))
  · intro x
    obtain ⟨u, v, w⟩ := g6 x
    exact ⟨u, v, (w (t, h) ht hh (by simp [Spec.Within])).1⟩

theorem class_file {α : Type} [Field α] [LinearOrder α] (nT nH : ℕ) (c q : Grid ℤ) (att : AttenuationInput α) (height : ℕ → α) (altitude : α)
    (file : ClassificationFile α) (hf : generateClassification nT nH c q att height altitude = .ok file) (t h : ℕ) :
    file.target t h = Spec.target ((c t h).testBit 0) ((c t h).testBit 1) ((c t h).testBit 2) ((c t h).testBit 3) ((c t h).testBit 4)
      ((c t h).testBit 5) ((q t h).testBit 2) ∧
    file.signalSource t h = Spec.signalSource ((q t h).testBit 0) ((q t h).testBit 1) ∧
    ((q t h).testBit 3 = false → (file.detection t h = 8 ↔ (q t h).testBit 2 = true)) := by
  unfold generateClassification at hf
  rw [readCategoryBits_eq, readQualityBits_eq] at hf
  simp only [bind, Except.bind, pure, Except.pure] at hf
  split at hf
  · cases hf
  · have hf := Except.ok.inj hf
    rw [← hf]
    refine ⟨C05_target_classification _ _ t h, C07_signal_source _ t h, fun h3 => ?_⟩
    dsimp only
    rw [C06_detection_status]
    dsimp only
    rw [h3]
    simp only [Spec.detection, Bool.false_and, Bool.false_eq_true, if_false]
    split
    · next hc => simp [hc]
    · next hc =>
      refine ⟨fun hd => ?_, fun hd => absurd hd hc⟩
      revert hd
      split_ifs <;> simp

/-- C165. The classification file in terms of the measurements, for every pixel.
1. Where the lidar has a signal it is not clear. 2. An echo is called clear only as clutter (a velocity below 5 cm/s in the ten lowest gates) or
as speckle of the freezing region without a lidar signal. 3. Droplets are not colder than -38 °C. 4. Aerosols are seen by the lidar.
5. Ice is in the freezing region; drizzle is not. 6. A melting class is in the melting layer or at the bottom of the freezing region, and the
melting layer is called melting unless aerosol, insects or clutter. 7. The source of signals is the one of the measurements. 8. Clutter is reported
only for low velocities in the ten lowest gates, and is clear or aerosol. -/
theorem C165_classes (d : DayInput) (out : CategorizeFields) (hout : categorizeDay d = .ok out) (att : AttenuationInput ℝ) (height : ℕ → ℝ)
    (altitude : ℝ) (file : ClassificationFile ℝ)
    (hf : generateClassification d.obs.nT d.obs.nH out.categoryBits out.qualityBits att height altitude = .ok file) :
    ∃ melting freezing, Spec.Regions d.obs melting freezing ∧ ∀ t < d.obs.nT, ∀ h < d.obs.nH,
      (Spec.HasLidar d.obs t h → file.target t h ≠ 0) ∧
      (Spec.HasEcho d.obs t h → file.target t h = 0 →
        Spec.SlowLow d.obs t h ∨ (freezing t h = true ∧ ¬ Spec.HasLidar d.obs t h)) ∧
      (file.target t h ∈ [1, 3, 5, 7] → 27316 / 100 - 38 ≤ d.obs.tw t h) ∧
      (file.target t h ∈ [8, 10] → Spec.HasLidar d.obs t h) ∧
      (file.target t h ∈ [4, 5] → freezing t h = true) ∧ (file.target t h ∈ [2, 3] → freezing t h = false) ∧
      (file.target t h ∈ [6, 7] → melting t h = true ∨ ((∃ i, i + 1 = h ∧ freezing t i = false) ∧ freezing t h = true)) ∧
      (melting t h = true → file.target t h ∈ [0, 6, 7, 8, 9, 10] ∧ (file.target t h = 0 → Spec.SlowLow d.obs t h)) ∧
      (file.signalSource t h = 0 ↔ ¬ Spec.HasEcho d.obs t h ∧ ¬ Spec.HasLidar d.obs t h) ∧
      (file.signalSource t h = 1 ↔ Spec.HasEcho d.obs t h ∧ Spec.HasLidar d.obs t h) ∧
      (file.signalSource t h = 2 ↔ Spec.HasEcho d.obs t h ∧ ¬ Spec.HasLidar d.obs t h) ∧
      (file.signalSource t h = 3 ↔ ¬ Spec.HasEcho d.obs t h ∧ Spec.HasLidar d.obs t h) ∧
      (file.detection t h = 8 → Spec.SlowLow d.obs t h ∧ file.target t h ∈ [0, 8]) := by
  obtain ⟨melting, freezing, hreg, hb⟩ := bits_facts d out hout
  refine ⟨melting, freezing, hreg, fun t ht h hh => ?_⟩
  obtain ⟨droplet, falling, cold, melt, aerosol, insect, clutter, b0, b1, b2, b3, b4, b5, q2, q3, q0, q1, k1, k2, k3, k4, k5, k6, k7, k8, k9⟩ :=
    hb t ht h hh
  obtain ⟨c1, c2, c3⟩ := class_file _ _ _ _ att height altitude file hf t h
  have c3 := c3 q3
  rw [b0, b1, b2, b3, b4, b5, q2] at c1
  rw [q2] at c3
  rw [c3, c1, c2]
  have s : ∀ r l : Bool, (r = true ↔ Spec.HasEcho d.obs t h) → (l = true ↔ Spec.HasLidar d.obs t h) →
      (Spec.signalSource r l = 0 ↔ ¬ Spec.HasEcho d.obs t h ∧ ¬ Spec.HasLidar d.obs t h) ∧
      (Spec.signalSource r l = 1 ↔ Spec.HasEcho d.obs t h ∧ Spec.HasLidar d.obs t h) ∧
      (Spec.signalSource r l = 2 ↔ Spec.HasEcho d.obs t h ∧ ¬ Spec.HasLidar d.obs t h) ∧
      (Spec.signalSource r l = 3 ↔ ¬ Spec.HasEcho d.obs t h ∧ Spec.HasLidar d.obs t h) := by
    intro r l hr hl
    rw [← hr, ← hl]
    revert r l
    intro r l _ _
    cases r <;> cases l <;> decide
  obtain ⟨s0, s1, s2, s3⟩ := s _ _ q0 q1
  rw [← k1]
  rw [← k1] at k9
  generalize melting t h = m at *
  generalize (∃ i, i + 1 = h ∧ freezing t i = false) = E at *
  clear hb c1 c2 c3 s hreg q0 q1 b0 b1 b2 b3 b4 b5 q2 q3 hf hout
  refine ⟨?_, ?_, ?_, ?_, ?_, ?_, ?_, ?_, s0, s1, s2, s3, ?_⟩ <;> clear s0 s1 s2 s3
  · intro hl
    have := k4 hl
    clear k1 k2 k3 k4 k5 k6 k8 k9
    revert this k7
    generalize Spec.SlowLow d.obs t h = S
    cases droplet <;> cases falling <;> cases cold <;> cases melt <;> cases aerosol <;> cases insect <;> cases clutter <;>
      simp [Spec.target]
  · intro he
    have := k6 he
    clear k1 k2 k3 k4 k5 k6 k8 k9
    revert this k7
    generalize Spec.SlowLow d.obs t h = S
    generalize Spec.HasLidar d.obs t h = L
    cases droplet <;> cases falling <;> cases cold <;> cases melt <;> cases aerosol <;> cases insect <;> cases clutter <;>
      simp [Spec.target] <;> tauto
  · intro hx
    apply k2
    revert hx
    clear * -
    revert droplet falling cold melt aerosol insect clutter
    decide
  · intro hx
    apply k3
    revert hx
    clear * -
    revert droplet falling cold melt aerosol insect clutter
    decide
  · clear * -
    revert droplet falling cold melt aerosol insect clutter
    decide
  · clear * -
    revert droplet falling cold melt aerosol insect clutter
    decide
  · intro hx
    apply k9
    revert hx
    clear * -
    revert droplet falling cold melt aerosol insect clutter
    decide
  · intro hm
    have := k8 hm
    subst this
    clear k1 k2 k3 k4 k5 k6 k8 k9
    revert k7
    generalize Spec.SlowLow d.obs t h = S
    cases droplet <;> cases falling <;> cases cold <;> cases aerosol <;> cases insect <;> cases clutter <;>
      simp [Spec.target]
  · intro hc
    obtain ⟨x, y, z⟩ := k7 hc
    subst y z hc
    refine ⟨x, ?_⟩
    clear * -
    revert cold melt aerosol insect
    decide

/-! ### Products -/

/-- C165. Ice water content in terms of the measurements and of the classification file. Where it is given there is an echo in the freezing region,
and the pixel is classified as ice, as ice with supercooled droplets, or as aerosol that the lidar sees in clutter that was given up. Its value is
the law (C139) of the measured echo plus the attenuations. In turn, where the class is ice or ice with droplets, an echo gives ice water content
unless an attenuation was not corrected. -/
theorem C165_ice (d : DayInput) (out : CategorizeFields) (hout : categorizeDay d = .ok out) (att : AttenuationInput ℝ) (height : ℕ → ℝ)
    (altitude : ℝ) (file : ClassificationFile ℝ)
    (hf : generateClassification d.obs.nT d.obs.nH out.categoryBits out.qualityBits att height altitude = .ok file)
    (f : IceInput) (hr : Spec.ReadsBits out f.categoryBits f.qualityBits f.rain) (hz : f.z = some out.z) (ice : IwcFile)
    (hice : generateIwc f = .ok ice) :
    ∃ melting freezing frequency, Spec.Regions d.obs melting freezing ∧ f.frequency = some frequency ∧ ∀ t < d.obs.nT, ∀ h < d.obs.nH,
      (∀ v, ice.iwc t h = some v →
        (freezing t h = true ∧ (file.target t h ∈ [4, 5] ∨ (file.target t h = 8 ∧ Spec.SlowLow d.obs t h ∧ Spec.HasLidar d.obs t h))) ∧
        ∃ x g, d.obs.z.get t h = some x ∧ out.gasAtten t h = some g ∧
          v = (10 : ℝ) ^ (Spec.iwcLaw frequency).log (x + g + (out.liquidAtten t h).getD 0 + (out.rainAtten t h).getD 0 +
            (out.meltingAtten t h).getD 0) (Spec.celsius f t h) / 1000) ∧
      (file.target t h ∈ [4, 5] → Spec.HasEcho d.obs t h → ¬ Spec.UncorrectedPixel f t h → ∃ v, ice.iwc t h = some v) := by
  obtain ⟨melting, freezing, hreg, hb⟩ := bits_facts d out hout
  obtain ⟨frequency, z, hfr, hz', hiwc⟩ := C139_iwc f ice hice
  rw [hz] at hz'
  obtain rfl := Option.some.inj hz'
  refine ⟨melting, freezing, frequency, hreg, hfr, fun t ht h hh => ?_⟩
  obtain ⟨droplet, falling, cold, melt, aerosol, insect, clutter, b0, b1, b2, b3, b4, b5, q2, q3, q0, q1, k1, k2, k3, k4, k5, k6, k7, k8, k9⟩ :=
    hb t ht h hh
  obtain ⟨c1, -, -⟩ := class_file _ _ _ _ att height altitude file hf t h
  rw [b0, b1, b2, b3, b4, b5, q2] at c1
  obtain ⟨g, hg, hzz⟩ := C165_echo d out hout t h
  have hpix : Spec.IcePixel f t h ↔ falling = true ∧ cold = true ∧ melt = false ∧ insect = false := by
    unfold Spec.IcePixel
    rw [hr.category, b1, b2, b3, b5]
  rw [c1]
  constructor
  · intro v hv
    obtain ⟨p1, p2, x, p3, p4⟩ := (hiwc t h v).1 hv
    rw [hzz] at p3
    obtain ⟨y, hy, hyx⟩ := Option.map_eq_some_iff.1 p3
    refine ⟨⟨?_, ?_⟩, y, g, hy, hg, by rw [p4, ← hyx]⟩
    · rw [← k1]
      exact (hpix.1 p1).2.1
    · obtain ⟨rfl, rfl, rfl, rfl⟩ := hpix.1 p1
      cases clutter with
      | true => exact absurd (k7 rfl).2.1 (by simp)
      | false =>
        cases aerosol with
        | false => left; cases droplet <;> simp [Spec.target]
        | true => exact Or.inr ⟨by cases droplet <;> rfl, (k5 rfl (Or.inr rfl)).1, k3 rfl⟩
  · intro hx he hu
    have hs := (echo_isSome d out hout t h).2 he
    obtain ⟨x, hx'⟩ := Option.isSome_iff_exists.1 hs
    refine ⟨_, (hiwc t h _).2 ⟨hpix.2 ?_, hu, x, hx', rfl⟩⟩
    revert hx
    clear * -
    revert droplet falling cold melt aerosol insect clutter
    decide

/-- C165. Effective radius of droplets: where it is given there are an echo and droplets, not colder than -38 °C, and the class is not one without
droplets: not clear, drizzle, ice or melting ice alone. In turn, with an echo every class with droplets has a radius. -/
theorem C165_droplet_radius (d : DayInput) (out : CategorizeFields) (hout : categorizeDay d = .ok out) (att : AttenuationInput ℝ) (height : ℕ → ℝ)
    (altitude : ℝ) (file : ClassificationFile ℝ)
    (hf : generateClassification d.obs.nT d.obs.nH out.categoryBits out.qualityBits att height altitude = .ok file)
    (p : Option DerParameters) (f : DerInput) (hc : f.categoryBits = out.categoryBits) (hz : f.z = some out.z) (hnT : f.nT = d.obs.nT)
    (hnH : f.nH = d.obs.nH) (hH : Spec.HeightsIncrease f) (hN : 0 < (p.getD defaultDerParameters).N) (der : DerFile)
    (hder : generateDer p f = .ok der) (t h : ℕ) (ht : t < d.obs.nT) (hh : h < d.obs.nH) :
    ((∃ v, der.der t h = some v) → Spec.HasEcho d.obs t h ∧ 27316 / 100 - 38 ≤ d.obs.tw t h ∧ file.target t h ∉ [0, 2, 4, 6]) ∧
    (Spec.HasEcho d.obs t h → file.target t h ∈ [1, 3, 5, 7] → ∃ v, der.der t h = some v) := by
  obtain ⟨melting, freezing, hreg, hb⟩ := bits_facts d out hout
  obtain ⟨droplet, falling, cold, melt, aerosol, insect, clutter, b0, b1, b2, b3, b4, b5, q2, q3, q0, q1, k1, k2, k3, k4, k5, k6, k7, k8, k9⟩ :=
    hb t ht h hh
  obtain ⟨c1, -, -⟩ := class_file _ _ _ _ att height altitude file hf t h
  rw [b0, b1, b2, b3, b4, b5, q2] at c1
  obtain ⟨z, lwp, hz', -, hk⟩ := C140_known p f der hder hH hN
  rw [hz] at hz'
  obtain rfl := Option.some.inj hz'
  have hk := (hk t (by omega) h (by omega)).1
  have hd : Spec.DropletPixel f t h ↔ droplet = true := by
    unfold Spec.DropletPixel
    rw [hc, b0]
  have he : (∃ x, out.z t h = some x) ↔ Spec.HasEcho d.obs t h := by
    rw [← echo_isSome d out hout t h, Option.isSome_iff_exists]
  rw [hd, he] at hk
  rw [hk, c1]
  constructor
  · rintro ⟨rfl, u⟩
    refine ⟨u, k2 rfl, ?_⟩
    cases clutter with
    | true => exact absurd (k7 rfl).2.2 (by simp)
    | false =>
      clear * -
      revert falling cold melt aerosol insect
      decide
  · intro u hx
    refine ⟨?_, u⟩
    revert hx
    clear * -
    revert droplet falling cold melt aerosol insect clutter
    decide

/-- C165. Liquid water content above zero: droplets not colder than -38 °C in a profile where rain is detected as absent, and the class is not one
without droplets. -/
theorem C165_liquid (d : DayInput) (out : CategorizeFields) (hout : categorizeDay d = .ok out) (att : AttenuationInput ℝ) (height : ℕ → ℝ)
    (altitude : ℝ) (file : ClassificationFile ℝ)
    (hf : generateClassification d.obs.nT d.obs.nH out.categoryBits out.qualityBits att height altitude = .ok file)
    (g : ℝ → ℝ → ℝ) (f : LwcInput) (hr : Spec.ReadsBits out f.categoryBits f.qualityBits f.rain) (hnT : f.nT = d.obs.nT)
    (hnH : f.nH = d.obs.nH) (hg : ∀ t h, 0 < g (f.temperatureAt t h) (f.pressureAt t h)) (hH : Spec.GoodHeights f) (lwc : LwcFile)
    (hlwc : generateLwc g f = .ok lwc) (t h : ℕ) (ht : t < d.obs.nT) (hh : h < d.obs.nH) (w : ℝ) (hw : lwc.lwc t h = some w) :
    out.rainDetected t = some 0 ∧ (w ≠ 0 → 27316 / 100 - 38 ≤ d.obs.tw t h ∧ file.target t h ∉ [0, 2, 4, 6]) := by
  obtain ⟨melting, freezing, hreg, hb⟩ := bits_facts d out hout
  obtain ⟨droplet, falling, cold, melt, aerosol, insect, clutter, b0, b1, b2, b3, b4, b5, q2, q3, q0, q1, k1, k2, k3, k4, k5, k6, k7, k8, k9⟩ :=
    hb t ht h hh
  obtain ⟨c1, -, -⟩ := class_file _ _ _ _ att height altitude file hf t h
  rw [b0, b1, b2, b3, b4, b5, q2] at c1
  have ha : ∀ t < f.nT, ∀ h < f.nH, Spec.AdiabaticContent g f t h (f.adiabatic g t h) := fun t ht h hhn =>
    (adiabatic_content g f hg hH t h ht hhn _).2 rfl
  obtain ⟨n1, n2⟩ := C142_content g f hg hH _ ha lwc hlwc t (by omega)
  obtain ⟨rain, hrain, hrain'⟩ := (C13_is_rain f.rain).1 _ hr.rain
  have hdry : ¬ Spec.RainyProfile f t := fun hc => by
    rw [n1 (Or.inl hc) h] at hw
    cases hw
  have hlw : Spec.lwpOf f t ≠ none := fun hc => by
    rw [n1 (Or.inr (Or.inl hc)) h] at hw
    cases hw
  have hdrop : ∃ h < f.nH, Spec.DropletGate f t h := by
    by_contra hc
    push Not at hc
    rw [n1 (Or.inr (Or.inr hc)) h] at hw
    cases hw
  constructor
  · have hnr : ¬ rain t = true := fun hc => hdry ⟨rain, hrain, hc⟩
    rw [hrain'] at hnr
    push Not at hnr
    obtain ⟨u1, u2⟩ := hnr
    cases hrd : out.rainDetected t with
    | none => rw [hrd] at u1; simp at u1
    | some x =>
      rw [hrd] at u2
      have := u2 x rfl
      rw [show x = 0 by exact_mod_cast this]
  · intro hw0
    obtain ⟨q, hq⟩ := Option.ne_none_iff_exists'.1 hlw
    obtain ⟨-, hval⟩ := n2 q hdry hq hdrop
    have hval := hval h (by omega)
    rw [hw] at hval
    have hd : droplet = true := by
      by_contra hc
      rcases ha t (by omega) h (by omega) with ⟨-, e⟩ | ⟨b, p, hl, hbh, hhp, -⟩
      · rw [e, zero_mul] at hval
        exact hw0 (Option.some.inj hval)
      · have := hl.full h hbh hhp
        simp only [hr.category, b0] at this
        exact hc this
    subst hd
    refine ⟨k2 rfl, ?_⟩
    rw [c1]
    cases clutter with
    | true => exact absurd (k7 rfl).2.2 (by simp)
    | false =>
      clear * -
      revert falling cold melt aerosol insect
      decide

/-- C165. Retrieved drizzle: both instruments see the pixel, which is warm and in a profile where rain is detected as absent, and it is classified as
drizzle or as aerosol in clutter that was given up. -/
theorem C165_drizzle (d : DayInput) (out : CategorizeFields) (hout : categorizeDay d = .ok out) (att : AttenuationInput ℝ) (height : ℕ → ℝ)
    (altitude : ℝ) (file : ClassificationFile ℝ)
    (hf : generateClassification d.obs.nT d.obs.nH out.categoryBits out.qualityBits att height altitude = .ok file)
    (mie : String → MieTable) (hmie : ∀ name, Spec.GoodTable (mie name)) (f : DrizzleCategorize) (hgood : Spec.GoodCategorize f)
    (hr : Spec.ReadsBits out f.categoryBits f.qualityBits f.rain) (hnT : f.nT = d.obs.nT) (hnH : f.nH = d.obs.nH) (driz : DrizzleFile ℝ)
    (hdriz : generateDrizzle mie f = .ok driz) :
    ∃ melting freezing, Spec.Regions d.obs melting freezing ∧ ∀ t < d.obs.nT, ∀ h < d.obs.nH, ∀ x, Spec.gridOf driz "Do" t h = some x →
      Spec.HasEcho d.obs t h ∧ Spec.HasLidar d.obs t h ∧ freezing t h = false ∧ melting t h = false ∧ out.rainDetected t = some 0 ∧
      (file.target t h = 2 ∨ (file.target t h = 8 ∧ Spec.SlowLow d.obs t h)) := by
  obtain ⟨melting, freezing, hreg, hb⟩ := bits_facts d out hout
  refine ⟨melting, freezing, hreg, fun t ht h hh x hx => ?_⟩
  obtain ⟨droplet, falling, cold, melt, aerosol, insect, clutter, b0, b1, b2, b3, b4, b5, q2, q3, q0, q1, k1, k2, k3, k4, k5, k6, k7, k8, k9⟩ :=
    hb t ht h hh
  obtain ⟨c1, -, -⟩ := class_file _ _ _ _ att height altitude file hf t h
  rw [b0, b1, b2, b3, b4, b5, q2] at c1
  have hret := ((C143_known mie f driz hdriz hmie hgood t h (by omega) (by omega)).1 "Do" (by simp)).1.1 ⟨x, hx⟩
  obtain ⟨⟨r0, r1, r2, r3, r4, r5, r6, r7, r8, -⟩, -⟩ := hret
  rw [hr.category] at r1 r2 r3 r4 r5
  rw [hr.quality] at r6 r7 r8
  dsimp only at r1 r2 r3 r4 r5 r6 r7 r8
  rw [b1] at r1
  rw [b0] at r2
  rw [b2] at r3
  rw [b3] at r4
  rw [b5] at r5
  rw [q2] at r8
  subst r1 r2 r3 r4 r5 r8
  obtain ⟨rain, hrain, hrain'⟩ := (C13_is_rain f.rain).1 _ hr.rain
  refine ⟨q0.1 r6, q1.1 r7, k1.symm, ?_, ?_, ?_⟩
  · by_contra hc
    have := k8 (by simpa using hc)
    cases this
  · have hnr : ¬ rain t = true := fun hc => r0 ⟨rain, hrain, hc⟩
    rw [hrain'] at hnr
    push Not at hnr
    obtain ⟨u1, u2⟩ := hnr
    cases hrd : out.rainDetected t with
    | none => rw [hrd] at u1; simp at u1
    | some x =>
      rw [hrd] at u2
      have := u2 x rfl
      rw [show x = 0 by exact_mod_cast this]
  · rw [c1]
    cases aerosol with
    | false => exact Or.inl rfl
    | true => exact Or.inr ⟨rfl, (k5 rfl (Or.inr rfl)).1⟩

/-- C165. Attenuations that were not corrected, in terms of the measurements: droplets at or below the gate in a profile without rain where no
liquid water path was measured; rain without a disdrometer; or, with a disdrometer, a gate of the freezing region in a profile with rain of
unknown rate. -/
theorem C165_uncorrected (d : DayInput) (out : CategorizeFields) (hout : categorizeDay d = .ok out)
    (hp : ∀ r, classifyMeasurements d.obs = .ok r → Spec.Physical (d.attenuationData r)) (f : IceInput) (hq : f.qualityBits = out.qualityBits) :
    ∃ melting freezing, Spec.Regions d.obs melting freezing ∧ ∀ t < d.obs.nT, ∀ h < d.obs.nH, Spec.UncorrectedPixel f t h ↔
      (¬ Spec.RainDetected d out t ∧ (∃ k ≤ h, (out.categoryBits t k).testBit 0 = true) ∧ (d.lwp.bind fun l => l t) = none) ∨
      (Spec.RainDetected d out t ∧ (d.rainRate = none ∨ ((d.rainRate.bind fun r => r t) = none ∧ freezing t h = true))) := by
  obtain ⟨r, a, hr, ha, ho⟩ := day_ok d out hout
  obtain ⟨melting, hm, hf, -⟩ := C44_classify d.obs r hr
  refine ⟨melting, r.bits.freezing, ⟨hm, hf⟩, fun t ht h hh => ?_⟩
  rw [← rainAt_iff, Bool.not_eq_true]
  obtain ⟨a', ha', hbook⟩ := C48_bookkeeping (d.attenuationData r) (hp r hr) d.meltingErrorFactor
  rw [ha] at ha'
  obtain rfl := Except.ok.inj ha'
  obtain ⟨m1, m2, -, m4, m5, -, m7, m8, m9⟩ := hbook t ht h hh
  obtain ⟨-, -, -, -, -, -, w4, w5, w6, w7, w8, w9⟩ :=
    C02_quality_bits_positions (fetchQuality (correctAtten d.obs.z.get a) d.obs.beta r.isClutter a) t h
  have hbit : ∀ k, (out.categoryBits t k).testBit 0 = r.bits.droplet t k := fun k => by
    rw [ho]
    exact (C01_category_bits_positions r.bits t k).2.2.1
  have e2 : f.qualityBits = classesToBits (fetchQuality (correctAtten d.obs.z.get a) d.obs.beta r.isClutter a).fields := by rw [hq, ho]
  have e3 : out.rainDetected = r.isRain := by rw [ho]
  have hl : (∃ k ≤ h, (out.categoryBits t k).testBit 0 = true) ↔ ∃ k ≤ h, r.bits.droplet t k = true := by simp only [hbit]
  rw [hl, e3]
  unfold Spec.UncorrectedPixel
  rw [e2, w4, w5, w6, w7, w8, w9]
  simp only [fetchQuality, gand_apply, gnot_apply]
  change (a.liquid.attenuated t h = true ↔ d.rainAt r.isRain t = false ∧ ∃ k ≤ h, r.bits.droplet t k = true) at m1
  change (a.liquid.uncorrected t h = true ↔ a.liquid.attenuated t h = true ∧ (d.lwp.bind fun l => l t) = none) at m2
  change (a.rain.attenuated t h = true ↔ d.rainAt r.isRain t = true) at m4
  change (a.rain.uncorrected t h = true ↔ d.rainAt r.isRain t = true ∧ d.rainRate = none) at m5
  have key : ∀ x u : Bool, (u = true → x = true) → ((x = true ∧ (x && !u) = false) ↔ u = true) := by decide
  rw [key _ _ fun hu => (m2.1 hu).1, key _ _ fun hu => m4.2 (m5.1 hu).1, key _ _ m7, m2, m1, m5]
  by_cases hrate : d.rainRate = none
  · obtain ⟨n1, -, -, n4⟩ := m8 hrate
    rw [n1, n4]
    change _ ∨ _ ∨ (r.bits.freezing t h = true ∧ d.rainAt r.isRain t = true ∧ _) ↔ _
    simp only [hrate, Option.bind_none, true_or, and_true]
    clear * -
    cases d.rainAt r.isRain t <;> simp
  · obtain ⟨-, n2⟩ := m9 hrate
    rw [n2]
    change _ ∨ _ ∨ (r.bits.freezing t h = true ∧ d.rainAt r.isRain t = true ∧ (d.rainRate.bind fun r => r t) = none) ↔ _
    simp only [hrate, false_or, and_false]
    clear * -
    cases d.rainAt r.isRain t <;> simp [and_comm]

/-- C165. The attenuations of a categorize file are those that C47 and C48 describe, for the droplets, the freezing and melting regions and the rain of the
same file and for heights above ground. For gas this is twice the sum of the specific attenuation times the depth of the gates up to the gate, with that of
saturated air at droplets. The bits for attenuation and correction agree with them. -/
theorem C165_attenuation (d : DayInput) (out : CategorizeFields) (hout : categorizeDay d = .ok out) :
    ∃ a, getAttenuations (Spec.attenuationOf d out) d.meltingErrorFactor = .ok a ∧ out.gasAtten = a.gas.amount ∧ out.liquidAtten = a.liquid.amount ∧
      out.rainAtten = a.rain.amount ∧ out.meltingAtten = a.melting.amount ∧ ∀ t h,
      out.gasAtten t h = some (2 * ∑ i ∈ Finset.range (h + 1),
        (if (out.categoryBits t i).testBit 0 then d.specificSaturatedGas t i else d.specificGas t i) *
          (Spec.gateDepth (fun h => d.obs.height h - d.obs.altitude) i / 1000)) ∧
      ((out.qualityBits t h).testBit 4 = true ↔ a.liquid.attenuated t h = true) ∧
      ((out.qualityBits t h).testBit 5 = true ↔ a.liquid.attenuated t h = true ∧ a.liquid.uncorrected t h = false) ∧
      ((out.qualityBits t h).testBit 6 = true ↔ a.rain.attenuated t h = true) ∧
      ((out.qualityBits t h).testBit 7 = true ↔ a.rain.attenuated t h = true ∧ a.rain.uncorrected t h = false) ∧
      ((out.qualityBits t h).testBit 8 = true ↔ a.melting.attenuated t h = true) ∧
      ((out.qualityBits t h).testBit 9 = true ↔ a.melting.attenuated t h = true ∧ a.melting.uncorrected t h = false) := by
  obtain ⟨r, a, hr, ha, ho⟩ := day_ok d out hout
  have hb : ∀ t h, (out.categoryBits t h).testBit 0 = r.bits.droplet t h ∧ (out.categoryBits t h).testBit 2 = r.bits.freezing t h ∧
      (out.categoryBits t h).testBit 3 = r.bits.melting t h := by
    intro t h
    rw [ho]
    obtain ⟨-, -, h0, -, h2, h3, -⟩ := C01_category_bits_positions r.bits t h
    exact ⟨h0, h2, h3⟩
  have e : Spec.attenuationOf d out = d.attenuationData r := by
    unfold Spec.attenuationOf DayInput.attenuationData
    congr 1
    · funext t h; exact (hb t h).1
    · funext t h; exact (hb t h).2.1
    · funext t h; exact (hb t h).2.2
    · funext t
      have h1 : out.rainDetected = r.isRain := by rw [ho]
      rw [← h1, Bool.eq_iff_iff, rainAt_iff]
      exact @decide_eq_true_iff _ (_)
  have hgas : out.gasAtten = a.gas.amount := by rw [ho]
  refine ⟨a, by rw [e]; exact ha, hgas, by rw [ho], by rw [ho], by rw [ho], fun t h => ⟨?_, ?_⟩⟩
  · have hcalc : a.gas = calcGasAttenuation (d.attenuationData r) := by
      unfold getAttenuations at ha
      simp only [bind, Except.bind, pure, Except.pure] at ha
      rcases h1 : calcRainAttenuation (d.attenuationData r) with _ | r'
      · simp only [h1, reduceCtorEq] at ha
      rcases h2 : calcLiquidAttenuation (d.attenuationData r) with _ | l
      · simp only [h1, h2, reduceCtorEq] at ha
      rcases h3 : calcMeltingAttenuation (d.attenuationData r) d.meltingErrorFactor with _ | m
      · simp only [h1, h2, h3, reduceCtorEq] at ha
      simp only [h1, h2, h3, Except.ok.injEq] at ha
      rw [← ha]
    obtain ⟨v, hv, hv', -⟩ := C47_gas (d.attenuationData r) t h
    rw [hgas, hcalc, hv, hv']
    congr 2
    refine Finset.sum_congr rfl fun i _ => ?_
    rw [(hb t i).1]
    rfl
  · obtain ⟨-, -, -, -, -, -, w4, w5, w6, w7, w8, w9⟩ :=
      C02_quality_bits_positions (fetchQuality (correctAtten d.obs.z.get a) d.obs.beta r.isClutter a) t h
    have e2 : out.qualityBits = classesToBits (fetchQuality (correctAtten d.obs.z.get a) d.obs.beta r.isClutter a).fields := by rw [ho]
    rw [e2, w4, w5, w6, w7, w8, w9]
    simp only [fetchQuality, gand_apply, gnot_apply, Bool.and_eq_true, Bool.not_eq_true', iff_self, and_self]

/-- C165. Measurements that can be classified (C44) with physical attenuations (C48) give a categorize file. -/
theorem C165_succeeds (d : DayInput) (hc : Spec.Classifiable d.obs)
    (hp : ∀ r, classifyMeasurements d.obs = .ok r → Spec.Physical (d.attenuationData r)) : ∃ out, categorizeDay d = .ok out := by
  obtain ⟨r, hr⟩ := C44_succeeds d.obs hc
  obtain ⟨a, ha, -⟩ := C48_bookkeeping (d.attenuationData r) (hp r hr) d.meltingErrorFactor
  unfold categorizeDay
  simp only [hr, ha, bind, Except.bind, pure, Except.pure]
  exact ⟨_, rfl⟩

/-- C165. No pixel has both ice water content and drizzle. -/
theorem C165_exclusive (d : DayInput) (out : CategorizeFields) (hout : categorizeDay d = .ok out) (f : IceInput)
    (hr : Spec.ReadsBits out f.categoryBits f.qualityBits f.rain) (ice : IwcFile) (hice : generateIwc f = .ok ice)
    (mie : String → MieTable) (hmie : ∀ name, Spec.GoodTable (mie name)) (f' : DrizzleCategorize) (hgood : Spec.GoodCategorize f')
    (hr' : Spec.ReadsBits out f'.categoryBits f'.qualityBits f'.rain) (driz : DrizzleFile ℝ) (hdriz : generateDrizzle mie f' = .ok driz)
    (t h : ℕ) (ht : t < f'.nT) (hh : h < f'.nH) (v : ℝ) (hv : ice.iwc t h = some v) : Spec.gridOf driz "Do" t h = none := by
  by_contra hc
  obtain ⟨x, hx⟩ := Option.ne_none_iff_exists'.1 hc
  obtain ⟨⟨-, -, -, r3, -⟩, -⟩ := ((C143_known mie f' driz hdriz hmie hgood t h ht hh).1 "Do" (by simp)).1.1 ⟨x, hx⟩
  obtain ⟨_, _, -, -, hiwc⟩ := C139_iwc f ice hice
  obtain ⟨⟨-, p2, -⟩, -⟩ := (hiwc t h v).1 hv
  dsimp only at r3
  rw [hr'.category] at r3
  rw [hr.category, r3] at p2
  cases p2

/-! ### A case -/

/-- The observed day of C44 with a radiometer and without a disdrometer. -/
noncomputable def exampleChainDay : DayInput where
  obs := Spec.observedDay
  temperature := fun _ _ => 270
  pressure := fun _ _ => 90000
  specificGas := fun _ _ => 1 / 10
  specificSaturatedGas := fun _ _ => 1 / 5
  specificLiquid := fun _ _ => 1
  lwp := some fun _ => some 0
  lwpError := some fun _ => some 0
  rainRate := none
  g := fun _ _ => 1 / 1000000
  kRain := fun r => r
  kMelt := fun r => r
  meltingErrorFactor := 1 / 5
  rainBelowMask := fun _ => false

theorem exampleChainDay_physical (r : ClassificationResult) : Spec.Physical (exampleChainDay.attenuationData r) where
  two_profiles := show 2 ≤ 3 by decide
  gradient := fun _ _ => by norm_num [DayInput.attenuationData, exampleChainDay]
  first_gate := by norm_num [DayInput.attenuationData, exampleChainDay, Spec.observedDay]
  increasing := fun h _ => by
    simp only [DayInput.attenuationData, exampleChainDay, Spec.observedDay]
    push_cast
    linarith
  gas := fun _ _ => by norm_num [DayInput.attenuationData, exampleChainDay]
  saturatedGas := fun _ _ => by norm_num [DayInput.attenuationData, exampleChainDay]
  liquid := fun _ _ => by norm_num [DayInput.attenuationData, exampleChainDay]
  rain_zero := rfl
  rain_pos := fun _ h => h
  melt_zero := rfl
  melt_pos := fun _ h => h
  rate_nonneg := fun f hf => by cases hf

/-- The day gives a categorize file; its echo is seen everywhere, and the lidar signal of the second gate is not called clear in any classification
file made from it. -/
example : ∃ out, categorizeDay exampleChainDay = .ok out ∧ (∀ t h, (out.z t h).isSome = true) ∧
    ∀ (att : AttenuationInput ℝ) (height : ℕ → ℝ) (altitude : ℝ) (file : ClassificationFile ℝ), generateClassification 3 6 out.categoryBits out.qualityBits att height altitude = .ok file →
      ∀ t < 3, file.target t 1 ≠ 0 ∧ file.signalSource t 1 = 1 := by
  obtain ⟨out, hout⟩ := C165_succeeds exampleChainDay (by
    refine ⟨?_, ?_, ?_, ⟨0, ?_, ⟨0, ?_, rfl⟩, fun h hh => by omega⟩, ?_, ?_, fun _ => rfl⟩
    · decide
    · intro t _
      simp only [exampleChainDay, Spec.observedDay]
      push_cast
      constructor <;> linarith
    · intro t _
      simp only [exampleChainDay, Spec.observedDay]
      push_cast
      constructor <;> linarith
    · decide
    · decide
    · intro t _
      refine ⟨5, by decide, ?_⟩
      simp only [exampleChainDay, Spec.observedDay]
      norm_num
    · intro h
      exact absurd rfl h) fun r _ => exampleChainDay_physical r
  refine ⟨out, hout, fun t h => (echo_isSome _ out hout t h).2 rfl, fun att height altitude file hf t ht => ?_⟩
  obtain ⟨melting, freezing, -, hall⟩ := C165_classes exampleChainDay out hout att height altitude file hf
  have hl : Spec.HasLidar exampleChainDay.obs t 1 := by simp [Spec.HasLidar, exampleChainDay, Spec.observedDay]
  obtain ⟨h1, -, -, -, -, -, -, -, -, h2, -⟩ := hall t ht 1 (by decide)
  exact ⟨h1 hl, h2.2 ⟨rfl, hl⟩⟩

end Cloudnet
