import Mathlib.Tactic
import Verif.Profiles.Props
import Verif.Attenuation.Props

/-!
C175: how far a value of the categorize file reaches. Ice products and classification use a pixel at that pixel only; drizzle and
attenuations use the gates from the ground to the pixel. What happens above a pixel or in other profiles does not matter.
-/

namespace Cloudnet

namespace Spec

/-- Two categorize files agree in everything an ice product reads that is not a pixel of another place: constants, model, and
profile `t`, gate `h`. -/
structure SameIcePixel (f g : IceInput) (t h : ℕ) : Prop where
  time : f.time t = g.time t
  height : f.height h = g.height h
  modelTimes : f.nModelT = g.nModelT ∧ f.modelTime = g.modelTime
  modelLevels : f.nModelH = g.nModelH ∧ f.modelHeight = g.modelHeight
  temperature : f.temperature = g.temperature
  frequency : f.frequency = g.frequency
  z : f.z.map (fun a => a t h) = g.z.map fun a => a t h
  zError : f.zError.map (fun a => a t h) = g.zError.map fun a => a t h
  category : f.categoryBits t h = g.categoryBits t h
  quality : f.qualityBits t h = g.qualityBits t h
  rain : ∀ name, (f.rain name).map (fun a => a t) = (g.rain name).map fun a => a t

/-- Two categorize files agree, as far as the drizzle product reads them, in constants, coordinates and model and in profile `t`
from the ground up to gate `h`. -/
structure SameDrizzleBelow (f g : DrizzleCategorize) (t h : ℕ) : Prop where
  sizes : f.nT = g.nT ∧ f.nH = g.nH
  time : f.time t = g.time t
  height : f.height = g.height ∧ f.altitude = g.altitude
  modelTimes : f.nModelT = g.nModelT ∧ f.modelTime = g.modelTime
  modelLevels : f.nModelH = g.nModelH ∧ f.modelHeight = g.modelHeight
  winds : f.uwind = g.uwind ∧ f.vwind = g.vwind
  frequency : f.frequency = g.frequency
  constants : f.betaError = g.betaError ∧ f.zBias = g.zBias ∧ f.betaBias = g.betaBias
  z : ∀ k ≤ h, f.z.map (fun a => a t k) = g.z.map fun a => a t k
  beta : ∀ k ≤ h, f.beta.map (fun a => a t k) = g.beta.map fun a => a t k
  v : ∀ k ≤ h, f.v.map (fun a => a t k) = g.v.map fun a => a t k
  vSigma : ∀ k ≤ h, f.vSigma.map (fun a => a t k) = g.vSigma.map fun a => a t k
  width : ∀ k ≤ h, f.width.map (fun a => a t k) = g.width.map fun a => a t k
  zError : ∀ k ≤ h, f.zError.map (Sum.elim some fun a => a t k) = g.zError.map (Sum.elim some fun a => a t k)
  category : ∀ k ≤ h, f.categoryBits t k = g.categoryBits t k
  quality : ∀ k ≤ h, f.qualityBits t k = g.qualityBits t k
  rain : ∀ name, (f.rain name).map (fun a => a t) = (g.rain name).map fun a => a t

end Spec

/-- The rain flag of a profile uses the profile only. -/
theorem getIsRain_at {nc nc' : String → Option (ℕ → Option ℝ)} {r r' : ℕ → Bool} {t : ℕ}
    (h : ∀ name, (nc name).map (fun a => a t) = (nc' name).map fun a => a t)
    (hr : getIsRain nc = .ok r) (hr' : getIsRain nc' = .ok r') : r t = r' t := by
  unfold getIsRain at hr hr'
  generalize ["rain_detected", "rainfall_rate", "rain_rate"] = names at hr hr'
  induction names with
  | nil => cases hr
  | cons n names ih =>
    have hn := h n
    unfold getIsRain.go at hr hr'
    cases h1 : nc n with
    | none =>
      cases h2 : nc' n with
      | none => rw [h1] at hr; rw [h2] at hr'; exact ih hr hr'
      | some b => rw [h1, h2] at hn; cases hn
    | some a =>
      cases h2 : nc' n with
      | none => rw [h1, h2] at hn; cases hn
      | some b =>
        rw [h1, h2] at hn
        rw [h1] at hr
        rw [h2] at hr'
        have hn : a t = b t := Option.some.inj hn
        rw [← Except.ok.inj hr, ← Except.ok.inj hr']
        dsimp only
        rw [hn]

/-! ### Ice -/

theorem iceMasks_at {f g : IceInput} {t h : ℕ} (s : Spec.SameIcePixel f g t h) {m m' : IceMasks} (hm : iceMasks f = .ok m)
    (hm' : iceMasks g = .ok m') : m.isIce t h = m'.isIce t h ∧ m.wouldBeIce t h = m'.wouldBeIce t h ∧
      m.correctedIce t h = m'.correctedIce t h ∧ m.uncorrectedIce t h = m'.uncorrectedIce t h ∧
      m.clearAboveRain t h = m'.clearAboveRain t h := by
  unfold iceMasks at hm hm'
  rw [readCategoryBits_eq, readQualityBits_eq] at hm hm'
  cases hr : getIsRain f.rain with
  | error e => rw [hr] at hm; cases hm
  | ok r =>
  cases hr' : getIsRain g.rain with
  | error e => rw [hr'] at hm'; cases hm'
  | ok r' =>
  have e := getIsRain_at s.rain hr hr'
  rw [hr] at hm
  rw [hr'] at hm'
  simp only [Except.bind] at hm hm'
  unfold iceClassification at hm hm'
  dsimp only at hm hm'
  split at hm
  · cases hm
  split at hm'
  · cases hm'
  rw [← Except.ok.inj hm, ← Except.ok.inj hm']
  simp only [gand, gor, gnot, s.category, s.quality, e, and_self]

theorem iceTemperature_at {f g : IceInput} {t h : ℕ} (s : Spec.SameIcePixel f g t h) : iceTemperature f t h = iceTemperature g t h := by
  unfold iceTemperature interpolateModel
  rw [s.modelTimes.1, s.modelTimes.2, s.modelLevels.1, s.modelLevels.2, s.temperature, s.time, s.height]

theorem iceStatus_at {m m' : IceMasks} {a b : Grid (Option ℝ)} {t h : ℕ} (hab : a t h = b t h)
    (hm : m.isIce t h = m'.isIce t h ∧ m.wouldBeIce t h = m'.wouldBeIce t h ∧
      m.correctedIce t h = m'.correctedIce t h ∧ m.uncorrectedIce t h = m'.uncorrectedIce t h ∧
      m.clearAboveRain t h = m'.clearAboveRain t h) : iceStatus m a t h = iceStatus m' b t h := by
  obtain ⟨h1, h2, h3, h4, h5⟩ := hm
  unfold iceStatus
  simp only [Grid.assign_apply, Grid.const_apply, gand, gor, gnot, h1, h2, h3, h4, h5, hab]

/-- **C175.** Ice water content, its error and its status at a pixel are determined by the values of this pixel (and the rain flag
of the profile): files that agree there have the same values, whatever is elsewhere. -/
theorem C175_iwc (f g : IceInput) (t h : ℕ) (s : Spec.SameIcePixel f g t h) (a b : IwcFile) (ha : generateIwc f = .ok a)
    (hb : generateIwc g = .ok b) : a.iwc t h = b.iwc t h ∧ a.error t h = b.error t h ∧ a.status t h = b.status t h := by
  obtain ⟨band, k, m, z, bias, sens, ze, f1, f2, f3, -, -, f6, e1, -, -, e4, e5⟩ := generateIwc_ok f a ha
  obtain ⟨band', k', m', z', bias', sens', ze', g1, g2, g3, -, -, g6, d1, -, -, d4, d5⟩ := generateIwc_ok g b hb
  have hsource : iceSource "iwc" f = iceSource "iwc" g := by unfold iceSource; rw [s.frequency]
  rw [f1, g1] at hsource
  obtain ⟨rfl, rfl⟩ := Prod.mk.inj (Except.ok.inj hsource)
  have hz : z t h = z' t h := by have := s.z; rw [f3, g3] at this; exact Option.some.inj this
  have hze : ze t h = ze' t h := by have := s.zError; rw [f6, g6] at this; exact Option.some.inj this
  have hm := iceMasks_at s f2 g2
  have hi : a.iwc t h = b.iwc t h := by
    rw [e1, d1]
    unfold icyData
    simp only [Grid.assign_apply, gor, gnot, hm.1, hm.2.2.2.1, hz, iceTemperature_at s]
  refine ⟨hi, ?_, ?_⟩
  · rw [e4, d4]
    unfold iwcError
    simp only [Grid.assign_apply, gor, gnot, hm.1, hm.2.2.2.1, hze, iceTemperature_at s]
  · rw [e5, d5]
    exact iceStatus_at hi hm

/-- **C175.** The same for the effective radius of ice. -/
theorem C175_ier (f g : IceInput) (t h : ℕ) (s : Spec.SameIcePixel f g t h) (a b : IerFile) (ha : generateIer f = .ok a)
    (hb : generateIer g = .ok b) : a.ier t h = b.ier t h ∧ a.error t h = b.error t h ∧ a.status t h = b.status t h := by
  have hsource : iceSource "ier" f = iceSource "ier" g := by unfold iceSource; rw [s.frequency]
  unfold generateIer at ha hb
  cases hs : iceSource "ier" f with
  | error e => rw [hs] at ha; cases ha
  | ok src =>
  rw [hs] at hsource ha
  rw [← hsource] at hb
  cases f2 : iceMasks f with
  | error e => rw [f2] at ha; cases ha
  | ok m =>
  cases g2 : iceMasks g with
  | error e => rw [g2] at hb; cases hb
  | ok m' =>
  cases f3 : f.z with
  | none => rw [f2, f3] at ha; cases ha
  | some z =>
  cases g3 : g.z with
  | none => rw [g2, g3] at hb; cases hb
  | some z' =>
  rw [f2, f3] at ha
  rw [g2, g3] at hb
  have hz : z t h = z' t h := by have := s.z; rw [f3, g3] at this; exact Option.some.inj this
  have hm := iceMasks_at s f2 g2
  rw [← Except.ok.inj ha, ← Except.ok.inj hb]
  have hi : icyData m (fun t h => convertIce "ier" src.2 (z t h) (iceTemperature f t h)) t h =
      icyData m' (fun t h => convertIce "ier" src.2 (z' t h) (iceTemperature g t h)) t h := by
    unfold icyData
    simp only [Grid.assign_apply, gor, gnot, hm.1, hm.2.2.2.1, hz, iceTemperature_at s]
  dsimp only
  refine ⟨by rw [hi], by rw [hi], iceStatus_at (by rw [hi]) hm⟩

/-! ### Classification -/

/-- **C175.** Target class, detection status and signal source of a pixel are determined by the bits of the pixel. -/
theorem C175_classification {α : Type} [Field α] [LinearOrder α] (nT nH : ℕ) (category category' quality quality' : Grid ℤ)
    (att att' : AttenuationInput α) (height : ℕ → α) (altitude : α) (a b : ClassificationFile α)
    (ha : generateClassification nT nH category quality att height altitude = .ok a)
    (hb : generateClassification nT nH category' quality' att' height altitude = .ok b) (t h : ℕ)
    (hc : category t h = category' t h) (hq : quality t h = quality' t h) :
    a.target t h = b.target t h ∧ a.detection t h = b.detection t h ∧ a.signalSource t h = b.signalSource t h := by
  unfold generateClassification at ha hb
  rw [readCategoryBits_eq, readQualityBits_eq] at ha hb
  simp only [bind, Except.bind, pure, Except.pure] at ha hb
  split at ha
  · cases ha
  split at hb
  · cases hb
  rw [← Except.ok.inj ha, ← Except.ok.inj hb]
  dsimp only
  unfold targetClassification detectionStatus signalSourceStatus
  simp only [isAttenuatedMask, isCorrectedMask, Grid.assign_apply, Grid.const_apply, gand, gor, gnot, hc, hq, and_self]

/-! ### From the ground up -/

theorem cumsum_below {α : Type} [Add α] (a b : ℕ → α) (h : ℕ) (hab : ∀ k ≤ h, a k = b k) : cumsum a h = cumsum b h := by
  induction h with
  | zero => exact hab 0 le_rfl
  | succ h ih =>
    unfold cumsum
    rw [ih fun k hk => hab k (by omega), hab (h + 1) le_rfl]

theorem ffill_below {α : Type} [DecidableEq α] (a b : ℕ → α) (v : α) (h : ℕ) (hab : ∀ k ≤ h, a k = b k) : ffill a v h = ffill b v h := by
  rcases C25_ffill_total a v h with ⟨k, hk, hne, hl, e⟩ | ⟨hall, e⟩
  · rw [e, hab k hk]
    refine ((C25_ffill b v h).1 k hk (by rw [← hab k hk]; exact hne) fun i h1 h2 => ?_).symm
    rw [← hab i h2]; exact hl i h1 h2
  · rw [e]
    exact ((C25_ffill b v h).2 fun k hk => by rw [← hab k hk]; exact hall k hk).symm

theorem pathLengths_below {α : Type} [Field α] (x y : ℕ → α) (h : ℕ) (hxy : ∀ k ≤ h, x k = y k) (k : ℕ) (hk : k ≤ h) :
    pathLengthsFromGround x k = pathLengthsFromGround y k := by
  cases k with
  | zero => unfold pathLengthsFromGround; rw [hxy 0 hk]
  | succ k => unfold pathLengthsFromGround; dsimp only; rw [hxy _ hk, hxy k (by omega)]

/-- **C175.** The radar attenuation status of a pixel is determined by the profile from the ground to the pixel. -/
theorem C175_attenuation_status {α : Type} [Field α] [LinearOrder α] (nT nH : ℕ) (category category' quality quality' : Grid ℤ)
    (att att' : AttenuationInput α) (height : ℕ → α) (altitude : α) (a b : ClassificationFile α)
    (ha : generateClassification nT nH category quality att height altitude = .ok a)
    (hb : generateClassification nT nH category' quality' att' height altitude = .ok b) (t h : ℕ)
    (hq : ∀ k ≤ h, quality t k = quality' t k) (h1 : ∀ k ≤ h, att.liquidAtten t k = att'.liquidAtten t k)
    (h2 : ∀ k ≤ h, att.rainAtten t k = att'.rainAtten t k) (h3 : ∀ k ≤ h, att.meltingAtten t k = att'.meltingAtten t k)
    (h4 : att.radarFrequency = att'.radarFrequency) (h5 : att.lwp.map (fun l => l t) = att'.lwp.map fun l => l t)
    (h6 : att.rainfallRate.map (fun l => l t) = att'.rainfallRate.map fun l => l t) :
    a.attenuation t h = b.attenuation t h := by
  unfold generateClassification at ha hb
  rw [readCategoryBits_eq, readQualityBits_eq] at ha hb
  simp only [bind, Except.bind, pure, Except.pure] at ha hb
  split at ha
  · cases ha
  split at hb
  · cases hb
  rw [← Except.ok.inj ha, ← Except.ok.inj hb]
  dsimp only
  have hclass : ∀ k ≤ h, (attenuationClasses att).small t k = (attenuationClasses att').small t k ∧
      (attenuationClasses att).moderate t k = (attenuationClasses att').moderate t k ∧
      (attenuationClasses att).severe t k = (attenuationClasses att').severe t k := by
    intro k hk
    unfold attenuationClasses
    dsimp only
    simp only [h1 k hk, h2 k hk, h3 k hk, h4]
    refine ⟨trivial, trivial, ?_⟩
    cases hl : att.lwp <;> cases hl' : att'.lwp <;> rw [hl, hl'] at h5 <;> simp only [Option.map_none, Option.map_some, reduceCtorEq, Option.some.injEq] at h5 <;>
    cases hr : att.rainfallRate <;> cases hr' : att'.rainfallRate <;> rw [hr, hr'] at h6 <;>
      simp only [Option.map_none, Option.map_some, reduceCtorEq, Option.some.injEq] at h6 <;>
    by_cases hw : att'.radarFrequency < 90 <;> simp [hw, h5, h6]
  unfold radarAttenuationStatus ffillGrid
  dsimp only
  simp only [isAttenuatedMask, isCorrectedMask, Grid.assign_apply, Grid.const_apply, gand, gor, gnot, hq h le_rfl, (hclass h le_rfl).1, (hclass h le_rfl).2.1,
    (hclass h le_rfl).2.2]
  congr 2
  refine ffill_below _ _ _ _ fun k hk => ?_
  simp only [hq k hk, (hclass k hk).1, (hclass k hk).2.1, (hclass k hk).2.2]

namespace Spec

/-- Two inputs of the attenuation step agree in profile `t` from the ground to gate `h`, as far as gases, rain and melting layers
are concerned. -/
structure SameAttenuationBelow {α : Type} (d e : AttenuationData α) (t h : ℕ) : Prop where
  height : ∀ k ≤ h, d.heightAgl k = e.heightAgl k
  gas : ∀ k ≤ h, d.specificGas t k = e.specificGas t k
  saturated : ∀ k ≤ h, d.specificSaturatedGas t k = e.specificSaturatedGas t k
  droplet : ∀ k ≤ h, d.droplet t k = e.droplet t k
  freezing : ∀ k ≤ h, d.freezing t k = e.freezing t k
  melting : ∀ k ≤ h, d.melting t k = e.melting t k
  isRain : d.isRain t = e.isRain t
  rate : d.rainRate.map (fun r => r t) = e.rainRate.map fun r => r t
  laws : d.kRain = e.kRain ∧ d.kMelt = e.kMelt

/-- Two attenuations agree at a pixel. -/
def SameAttenuationAt {α : Type} (a b : Attenuation α) (t h : ℕ) : Prop :=
  a.amount t h = b.amount t h ∧ a.error t h = b.error t h ∧ a.attenuated t h = b.attenuated t h ∧ a.uncorrected t h = b.uncorrected t h

end Spec

section
variable {α : Type} [Field α] [LinearOrder α]

theorem twoWay_below (x y : ℕ → α) (p q : Grid (Option α)) (t h : ℕ) (hxy : ∀ k ≤ h, x k = y k) (hpq : ∀ k ≤ h, p t k = q t k) :
    (calcTwoWayAttenuation x p).data t h = (calcTwoWayAttenuation y q).data t h ∧
    (calcTwoWayAttenuation x p).mask t h = (calcTwoWayAttenuation y q).mask t h := by
  unfold calcTwoWayAttenuation
  dsimp only
  rw [hpq h le_rfl]
  refine ⟨?_, rfl⟩
  congr 1
  refine cumsum_below _ _ _ fun k hk => ?_
  rw [hpq k hk, pathLengths_below x y h hxy k hk]

/-- **C175.** Attenuation by gases at a pixel is determined by the profile below it. -/
theorem C175_gas (d e : AttenuationData α) (t h : ℕ) (s : Spec.SameAttenuationBelow d e t h) :
    Spec.SameAttenuationAt (calcGasAttenuation d) (calcGasAttenuation e) t h := by
  have key := twoWay_below d.heightAgl e.heightAgl
    (fun t h => some (if d.droplet t h then d.specificSaturatedGas t h else d.specificGas t h))
    (fun t h => some (if e.droplet t h then e.specificSaturatedGas t h else e.specificGas t h)) t h s.height
    (fun k hk => by rw [s.droplet k hk, s.saturated k hk, s.gas k hk])
  unfold calcGasAttenuation Spec.SameAttenuationAt MaGrid.toOption
  dsimp only
  rw [key.1, key.2]
  exact ⟨rfl, rfl, rfl, rfl⟩

/-- **C175.** The same for rain. -/
theorem C175_rain (d e : AttenuationData α) (t h : ℕ) (s : Spec.SameAttenuationBelow d e t h) (a b : Attenuation α)
    (ha : calcRainAttenuation d = .ok a) (hb : calcRainAttenuation e = .ok b) : Spec.SameAttenuationAt a b t h := by
  have hrate := s.rate
  unfold calcRainAttenuation at ha hb
  dsimp only at ha hb
  split at ha
  · cases ha
  split at hb
  · cases hb
  cases h1 : d.rainRate with
  | none =>
    cases h2 : e.rainRate with
    | some r => rw [h1, h2] at hrate; cases hrate
    | none =>
      rw [h1] at ha
      rw [h2] at hb
      rw [← Except.ok.inj ha, ← Except.ok.inj hb]
      exact ⟨rfl, rfl, s.isRain, s.isRain⟩
  | some r =>
    cases h2 : e.rainRate with
    | none => rw [h1, h2] at hrate; cases hrate
    | some r' =>
      rw [h1] at ha
      rw [h2] at hb
      rw [h1, h2] at hrate
      have hr : r t = r' t := Option.some.inj hrate
      rw [← Except.ok.inj ha, ← Except.ok.inj hb]
      have hdata : ∀ k ≤ h, (calcTwoWayAttenuation d.heightAgl fun t _ => (if d.isRain t then r t else none).map d.kRain).data t k =
          (calcTwoWayAttenuation e.heightAgl fun t _ => (if e.isRain t then r' t else none).map e.kRain).data t k := by
        intro k hk
        refine (twoWay_below _ _ _ _ t k (fun i hi => s.height i (by omega)) fun i hi => ?_).1
        rw [s.isRain, hr, s.laws.1]
      have hf : ffillGrid (Grid.assign (calcTwoWayAttenuation d.heightAgl fun t _ => (if d.isRain t then r t else none).map d.kRain).data
            (gnot (gand (gnot d.freezing) fun t _ => d.isRain t)) 0) 0 t h =
          ffillGrid (Grid.assign (calcTwoWayAttenuation e.heightAgl fun t _ => (if e.isRain t then r' t else none).map e.kRain).data
            (gnot (gand (gnot e.freezing) fun t _ => e.isRain t)) 0) 0 t h := by
        unfold ffillGrid
        refine ffill_below _ _ _ _ fun k hk => ?_
        simp only [Grid.assign_apply, gnot, gand, s.freezing k hk, s.isRain, hdata k hk]
      refine ⟨?_, ?_, s.isRain, rfl⟩
      · simp only [hf]
      · simp only [hf]

/-- **C175.** The same for the melting layer. -/
theorem C175_melting (d e : AttenuationData α) (factor : α) (t h : ℕ) (s : Spec.SameAttenuationBelow d e t h) (a b : Attenuation α)
    (ha : calcMeltingAttenuation d factor = .ok a) (hb : calcMeltingAttenuation e factor = .ok b) : Spec.SameAttenuationAt a b t h := by
  have hrate := s.rate
  unfold calcMeltingAttenuation at ha hb
  cases h1 : d.rainRate with
  | none =>
    cases h2 : e.rainRate with
    | some r => rw [h1, h2] at hrate; cases hrate
    | none =>
      rw [h1] at ha
      rw [h2] at hb
      rw [← Except.ok.inj ha, ← Except.ok.inj hb]
      have hf : ffillGrid d.melting false t h = ffillGrid e.melting false t h := ffill_below _ _ _ _ s.melting
      refine ⟨rfl, rfl, ?_, ?_⟩ <;>
        simp only [Grid.assign_apply, gnot, hf, s.freezing h le_rfl, s.isRain]
  | some r =>
    cases h2 : e.rainRate with
    | none => rw [h1, h2] at hrate; cases hrate
    | some r' =>
      rw [h1] at ha
      rw [h2] at hb
      rw [h1, h2] at hrate
      have hr : r t = r' t := Option.some.inj hrate
      dsimp only at ha hb
      split at ha
      · cases ha
      split at hb
      · cases hb
      rw [← Except.ok.inj ha, ← Except.ok.inj hb]
      refine ⟨?_, ?_, ?_, ?_⟩ <;>
        simp only [Grid.assign_apply, gand, s.freezing h le_rfl, s.isRain, hr, s.laws.2]

end

/-! ### Drizzle -/

/-- Two retrievals agree in profile `t` up to gate `H`. -/
structure InputBelow (d' d : DrizzleInput) (t H : ℕ) : Prop where
  mie : d'.mie = d.mie
  nT : d'.nT = d.nT
  nH : d'.nH = d.nH
  heights : d'.heightAgl = d.heightAgl
  z : ∀ h ≤ H, d'.z t h = d.z t h
  beta : ∀ h ≤ H, d'.beta t h = d.beta t h
  v : ∀ h ≤ H, d'.v t h = d.v t h
  width : ∀ h ≤ H, d'.widthHt t h = d.widthHt t h
  drizzle : ∀ h ≤ H, d'.drizzle t h = d.drizzle t h

/-- Two solutions agree in profile `t` up to gate `H`. -/
structure RowBelow (p' p : DrizzleParams) (t H : ℕ) : Prop where
  Do : ∀ h ≤ H, p'.Do t h = p.Do t h
  mu : ∀ h ≤ H, p'.mu t h = p.mu t h
  S : ∀ h ≤ H, p'.S t h = p.S t h
  corr : ∀ h ≤ H, p'.betaCorr t h = p.betaCorr t h

/-- Gates above `H` do not matter. -/
theorem solveBelow (d : DrizzleInput) (t H : ℕ) : ∀ (l : List ℕ) (p' p : DrizzleParams), RowBelow p' p t H →
    RowBelow ((l.map fun k => (t, k)).foldl (solvePixel d) p')
      (((l.filter fun k => decide (k ≤ H)).map fun k => (t, k)).foldl (solvePixel d) p) t H := by
  intro l
  induction l with
  | nil => exact fun _ _ h => h
  | cons q l ih =>
    intro p' p h
    by_cases hq : q ≤ H
    · rw [List.filter_cons_of_pos (by simpa using hq), List.map_cons, List.map_cons, List.foldl_cons, List.foldl_cons]
      apply ih
      refine ⟨fun k hk => ?_, fun k hk => ?_, fun k hk => ?_, fun k hk => ?_⟩ <;>
        simp only [solvePixel, Grid.set_apply, h.corr q hq, h.corr k hk, h.Do k hk, h.mu k hk, h.S k hk]
    · rw [List.filter_cons_of_neg (by simpa using hq), List.map_cons, List.foldl_cons]
      apply ih
      refine ⟨fun k hk => ?_, fun k hk => ?_, fun k hk => ?_, fun k hk => ?_⟩
      · have hkq : ¬ k = q := by omega
        simp only [solvePixel, Grid.set_apply, hkq, and_false, if_false, h.Do k hk]
      · have hkq : ¬ k = q := by omega
        simp only [solvePixel, Grid.set_apply, hkq, and_false, if_false, h.mu k hk]
      · have hkq : ¬ k = q := by omega
        simp only [solvePixel, Grid.set_apply, hkq, and_false, if_false, h.S k hk]
      · have hkq : ¬ q + 1 ≤ k := by omega
        simp only [solvePixel, hkq, and_false, if_false, h.corr k hk]

theorem drizzleIterate_below {d' d : DrizzleInput} {t H : ℕ} (h : InputBelow d' d t H) (k : ℕ) (hk : k ≤ H) (corr : ℝ) : ∀ n x,
    drizzleIterate d' t k corr n x = drizzleIterate d t k corr n x := by
  have hstep : ∀ x, drizzleStep d' t k corr x = drizzleStep d t k corr x := by
    intro x
    unfold drizzleStep findLutIndices betaZRatio
    rw [h.mie, h.z k hk, h.beta k hk, h.width k hk]
  intro n
  induction n with
  | zero => exact hstep
  | succ n ih =>
    intro x
    unfold drizzleIterate
    simp only [hstep, ih]

theorem solveBelow_same {d' d : DrizzleInput} {t H : ℕ} (h : InputBelow d' d t H) : ∀ (l : List ℕ) (_ : ∀ k ∈ l, k ≤ H) (p' p : DrizzleParams),
    RowBelow p' p t H → RowBelow ((l.map fun k => (t, k)).foldl (solvePixel d') p') ((l.map fun k => (t, k)).foldl (solvePixel d) p) t H := by
  intro l
  induction l with
  | nil => exact fun _ _ _ h => h
  | cons j l ih =>
    intro hl p' p hp
    have hj := hl j (by simp)
    simp only [List.map_cons, List.foldl_cons]
    apply ih fun k hk => hl k (by simp [hk])
    refine ⟨fun k hk => ?_, fun k hk => ?_, fun k hk => ?_, fun k hk => ?_⟩ <;>
      simp only [solvePixel, Grid.set_apply, true_and, hp.corr j hj, hp.corr k hk, hp.Do k hk, hp.mu k hk, hp.S k hk, drizzleIterate_below h j hj,
        betaZRatio, h.z j hj, h.beta j hj, h.heights]

theorem solveDrizzle_below {d' d : DrizzleInput} {t H : ℕ} (h : InputBelow d' d t H) (ht : t < d.nT) :
    RowBelow (solveDrizzle d') (solveDrizzle d) t H := by
  have h0 : SameRow initDrizzleParams initDrizzleParams t t := ⟨fun _ => rfl, fun _ => rfl, fun _ => rfl, fun _ => rfl⟩
  have r0 : RowBelow initDrizzleParams initDrizzleParams t H := ⟨fun _ _ => rfl, fun _ _ => rfl, fun _ _ => rfl, fun _ _ => rfl⟩
  have h1 := solveRow d' t (whereGrid d'.nT d'.nH d'.drizzle) _ _ h0
  have h2 := solveRow d t (whereGrid d.nT d.nH d.drizzle) _ _ h0
  rw [whereGrid_row _ _ _ _ (by rw [h.nT]; exact ht)] at h1
  rw [whereGrid_row _ _ _ _ ht] at h2
  have b1 := solveBelow d' t H ((List.range d'.nH).filter (d'.drizzle t)) _ _ r0
  have b2 := solveBelow d t H ((List.range d.nH).filter (d.drizzle t)) _ _ r0
  have e : (((List.range d'.nH).filter (d'.drizzle t)).filter fun k => decide (k ≤ H)) =
      ((List.range d.nH).filter (d.drizzle t)).filter fun k => decide (k ≤ H) := by
    rw [h.nH, List.filter_filter, List.filter_filter]
    refine List.filter_congr fun k _ => ?_
    by_cases hk : k ≤ H
    · rw [h.drizzle k hk]
    · simp [hk]
  rw [e] at b1
  have b3 := solveBelow_same h (((List.range d.nH).filter (d.drizzle t)).filter fun k => decide (k ≤ H))
    (fun k hk => by simpa using (List.mem_filter.1 hk).2) _ _ r0
  unfold solveDrizzle
  exact ⟨fun k hk => (h1.Do k).trans ((b1.Do k hk).trans ((b3.Do k hk).trans ((b2.Do k hk).symm.trans (h2.Do k).symm))),
    fun k hk => (h1.mu k).trans ((b1.mu k hk).trans ((b3.mu k hk).trans ((b2.mu k hk).symm.trans (h2.mu k).symm))),
    fun k hk => (h1.S k).trans ((b1.S k hk).trans ((b3.S k hk).trans ((b2.S k hk).symm.trans (h2.S k).symm))),
    fun k hk => (h1.corr k).trans ((b1.corr k hk).trans ((b3.corr k hk).trans ((b2.corr k hk).symm.trans (h2.corr k).symm)))⟩

/-- Two results agree at a pixel. -/
def ResultAt (t h : ℕ) : DrizzleResult ℝ → DrizzleResult ℝ → Prop
  | .scalar x, .scalar y => x = y
  | .grid a, .grid b => a t h = b t h
  | _, _ => False

theorem resultAt_lookup {t h : ℕ} {l' l : List (String × DrizzleResult ℝ)}
    (hl : List.Forall₂ (fun a b => a.1 = b.1 ∧ ResultAt t h a.2 b.2) l' l) (name : String) :
    (l'.lookup name = none ∧ l.lookup name = none) ∨ ∃ a b, l'.lookup name = some a ∧ l.lookup name = some b ∧ ResultAt t h a b := by
  induction hl with
  | nil => exact .inl ⟨rfl, rfl⟩
  | @cons a b l' l hab _ ih =>
    rw [List.lookup_cons, List.lookup_cons, ← hab.1]
    by_cases hn : (name == a.1) = true
    · rw [hn]; exact .inr ⟨_, _, rfl, rfl, hab.2⟩
    · rw [Bool.not_eq_true] at hn; rw [hn]; exact ih

theorem drizzleResults_below {d' d : DrizzleInput} {t h : ℕ} (hd : InputBelow d' d t h) (ht : t < d.nT) {z' z : Grid (Option ℝ)}
    (hz : z' t h = z t h) (b zb bb : ℝ) :
    List.Forall₂ (fun a b => a.1 = b.1 ∧ ResultAt t h a.2 b.2) (drizzleResults d' z' b zb bb) (drizzleResults d z b zb bb) := by
  have hp := solveDrizzle_below hd ht
  have pD := hp.Do h le_rfl
  have pM := hp.mu h le_rfl
  have pS := hp.S h le_rfl
  have hr : (drizzleProducts d' (solveDrizzle d')).N t h = (drizzleProducts d (solveDrizzle d)).N t h ∧
      (drizzleProducts d' (solveDrizzle d')).lwc t h = (drizzleProducts d (solveDrizzle d)).lwc t h ∧
      (drizzleProducts d' (solveDrizzle d')).lwf t h = (drizzleProducts d (solveDrizzle d)).lwf t h ∧
      (drizzleProducts d' (solveDrizzle d')).vDrizzle t h = (drizzleProducts d (solveDrizzle d)).vDrizzle t h ∧
      (drizzleProducts d' (solveDrizzle d')).vAir t h = (drizzleProducts d (solveDrizzle d)).vAir t h := by
    unfold drizzleProducts productIndices
    simp only [pD, pM, pS, hd.z h le_rfl, hd.beta h le_rfl, hd.v h le_rfl, hd.mie, and_self]
  have he : (drizzleErrors (solveDrizzle d').Do z' b).Do t h = (drizzleErrors (solveDrizzle d).Do z b).Do t h ∧
      (drizzleErrors (solveDrizzle d').Do z' b).lwc t h = (drizzleErrors (solveDrizzle d).Do z b).lwc t h ∧
      (drizzleErrors (solveDrizzle d').Do z' b).lwf t h = (drizzleErrors (solveDrizzle d).Do z b).lwf t h ∧
      (drizzleErrors (solveDrizzle d').Do z' b).S t h = (drizzleErrors (solveDrizzle d).Do z b).S t h ∧
      (drizzleErrors (solveDrizzle d').Do z' b).N t h = (drizzleErrors (solveDrizzle d).Do z b).N t h ∧
      (drizzleErrors (solveDrizzle d').Do z' b).vDrizzle t h = (drizzleErrors (solveDrizzle d).Do z b).vDrizzle t h := by
    unfold drizzleErrors stackErrors getDrizzleIndices
    simp only [Grid.assignFrom, Grid.const_apply, pD, hz, and_self]
  unfold drizzleResults
  refine .cons ⟨rfl, congrArg some pD⟩ <| .cons ⟨rfl, congrArg some pM⟩ <| .cons ⟨rfl, congrArg some pS⟩ <|
    .cons ⟨rfl, congrArg some (hp.corr h le_rfl)⟩ <| .cons ⟨rfl, congrArg some hr.1⟩ <| .cons ⟨rfl, congrArg some hr.2.1⟩ <|
    .cons ⟨rfl, congrArg some hr.2.2.1⟩ <| .cons ⟨rfl, congrArg some hr.2.2.2.1⟩ <| .cons ⟨rfl, congrArg some hr.2.2.2.2⟩ <|
    .cons ⟨rfl, he.1⟩ <| .cons ⟨rfl, he.2.1⟩ <| .cons ⟨rfl, he.2.2.1⟩ <| .cons ⟨rfl, he.2.2.2.1⟩ <| .cons ⟨rfl, rfl⟩ <|
    .cons ⟨rfl, rfl⟩ <| .cons ⟨rfl, rfl⟩ <| .cons ⟨rfl, he.2.2.2.2.1⟩ <| .cons ⟨rfl, he.2.2.2.2.2⟩ <| .cons ⟨rfl, rfl⟩ <|
    .cons ⟨rfl, rfl⟩ <| .cons ⟨rfl, rfl⟩ .nil

theorem drizzleClassification_at {nT nH nT' nH' : ℕ} {c c' : CategoryBits} {q q' : QualityBits} {s s' : Grid Bool} {r r' : ℕ → Bool}
    {m m' : DrizzleMasks} {t h : ℕ} (hm : drizzleClassification nT nH c q s r = .ok m) (hm' : drizzleClassification nT' nH' c' q' s' r' = .ok m')
    (hc : c.droplet t h = c'.droplet t h ∧ c.falling t h = c'.falling t h ∧ c.freezing t h = c'.freezing t h ∧ c.melting t h = c'.melting t h ∧
      c.insect t h = c'.insect t h)
    (hq : q.radar t h = q'.radar t h ∧ q.lidar t h = q'.lidar t h ∧ q.clutter t h = q'.clutter t h ∧ q.molecular t h = q'.molecular t h ∧
      q.attenuatedLiquid t h = q'.attenuatedLiquid t h ∧ q.attenuatedRain t h = q'.attenuatedRain t h)
    (hs : s t h = s' t h) (hr : r t = r' t) : m.drizzle t h = m'.drizzle t h := by
  unfold drizzleClassification at hm hm'
  dsimp only at hm hm'
  split at hm
  · cases hm
  split at hm'
  · cases hm'
  rw [← Except.ok.inj hm, ← Except.ok.inj hm']
  obtain ⟨c1, c2, c3, c4, c5⟩ := hc
  obtain ⟨q1, q2, q3, q4, q5, q6⟩ := hq
  simp only [gand, gnot, c1, c2, c3, c4, c5, q1, q2, q3, q4, q5, q6, hs, hr]

theorem drizzleClassification_rain {nT nH : ℕ} {c : CategoryBits} {q : QualityBits} {s : Grid Bool} {r : ℕ → Bool} {m : DrizzleMasks}
    (hm : drizzleClassification nT nH c q s r = .ok m) : m.isRain = r := by
  unfold drizzleClassification at hm
  dsimp only at hm
  split at hm
  · cases hm
  · rw [← Except.ok.inj hm]

/-- **C175.** Drizzle: every variable of the file at a pixel (diameter, shape, lidar ratio, the derived quantities and their
errors) is determined by the profile from the ground to the pixel: what is above does not matter. The biases are constants of the file. -/
theorem C175_drizzle (mie : String → MieTable) (f g : DrizzleCategorize) (t h : ℕ) (ht : t < g.nT) (s : Spec.SameDrizzleBelow f g t h)
    (a b : DrizzleFile ℝ) (ha : generateDrizzle mie f = .ok a) (hb : generateDrizzle mie g = .ok b) (name : String) :
    Spec.gridOf a name t h = Spec.gridOf b name t h ∧ Spec.scalarOf a name = Spec.scalarOf b name := by
  obtain ⟨x, band, z, beta, v, rain, sg, ze, be, zb, bb, m, all, hx, hband, hz, hbeta, hv, hr, hs, hze, hbe, hzb, hbb, hm, -, h1, -⟩ :=
    (generateDrizzle_ok mie f a).1 ha
  obtain ⟨x', band', z', beta', v', rain', sg', ze', be', zb', bb', m', all', hx', hband', hz', hbeta', hv', hr', hs', hze', hbe', hzb', hbb',
    hm', -, h1', -⟩ := (generateDrizzle_ok mie g b).1 hb
  have ex : x = x' := by have := s.frequency; rw [hx, hx'] at this; exact Option.some.inj this
  subst ex
  have eband : band = band' := by
    have := (drizzleBand_iff x band).2 hband
    rw [(drizzleBand_iff x band').2 hband'] at this
    exact (Except.ok.inj this).symm
  subst eband
  have ebe : be = be' := by have := s.constants.1; rw [hbe, hbe'] at this; exact Option.some.inj this
  have ezb : zb = zb' := by have := s.constants.2.1; rw [hzb, hzb'] at this; exact Option.some.inj this
  have ebb : bb = bb' := by have := s.constants.2.2; rw [hbb, hbb'] at this; exact Option.some.inj this
  subst ebe ezb ebb
  have kz : ∀ k ≤ h, z t k = z' t k := fun k hk => by have := s.z k hk; rw [hz, hz'] at this; exact Option.some.inj this
  have kbeta : ∀ k ≤ h, beta t k = beta' t k := fun k hk => by have := s.beta k hk; rw [hbeta, hbeta'] at this; exact Option.some.inj this
  have kv : ∀ k ≤ h, v t k = v' t k := fun k hk => by have := s.v k hk; rw [hv, hv'] at this; exact Option.some.inj this
  have ks : ∀ k ≤ h, sg t k = sg' t k := fun k hk => by have := s.vSigma k hk; rw [hs, hs'] at this; exact Option.some.inj this
  have kze : zErrorGrid ze t h = zErrorGrid ze' t h := by
    have := s.zError h le_rfl
    rw [hze, hze'] at this
    have := Option.some.inj this
    cases ze <;> cases ze' <;> exact this
  have krain : rain t = rain' t := getIsRain_at s.rain hr hr'
  have kd : ∀ k ≤ h, m.drizzle t k = m'.drizzle t k := fun k hk => by
    refine drizzleClassification_at hm hm' ?_ ?_ ?_ krain
    · dsimp only; rw [s.category k hk]; exact ⟨rfl, rfl, rfl, rfl, rfl⟩
    · dsimp only; rw [s.quality k hk]; exact ⟨rfl, rfl, rfl, rfl, rfl, rfl⟩
    · rw [ks k hk]
  have hin : InputBelow (drizzleInput f (mie band) z beta v sg m) (drizzleInput g (mie band) z' beta' v' sg' m') t h := by
    refine ⟨rfl, s.sizes.1, s.sizes.2, ?_, fun k hk => ?_, kbeta, kv, fun k hk => ?_, kd⟩
    · unfold drizzleInput; dsimp only; rw [s.height.1, s.height.2]
    · show convertZUnits (z t k) = convertZUnits (z' t k); rw [kz k hk]
    · have : spectralWidth f sg t k = spectralWidth g sg' t k := by
        have hw := s.width k hk
        unfold spectralWidth horizontalWind beamDivergence interpolateModel
        rw [s.modelTimes.1, s.modelTimes.2, s.modelLevels.1, s.modelLevels.2, s.winds.1, s.winds.2, s.time, s.height.1, s.height.2, ks k hk]
        cases w1 : f.width <;> cases w2 : g.width <;> rw [w1, w2] at hw <;> simp only [Option.map_none, Option.map_some, reduceCtorEq, Option.some.injEq] at hw
        dsimp only; rw [hw]
      show (spectralWidth f sg t k).getD _ = (spectralWidth g sg' t k).getD _
      rw [this]
  have hrel : List.Forall₂ (fun a b => a.1 = b.1 ∧ ResultAt t h a.2 b.2) a.fields b.fields := by
    rw [h1, h1']
    unfold drizzleFile
    dsimp only
    rw [List.forall₂_map_left_iff, List.forall₂_map_right_iff]
    refine List.Forall₂.imp ?_ (drizzleResults_below hin (show t < g.nT from ht) kze be zb bb)
    rintro ⟨n, ra⟩ ⟨n', rb⟩ ⟨hab, hrr⟩
    refine ⟨hab, ?_⟩
    dsimp only at hrr ⊢
    rw [drizzleClassification_rain hm, drizzleClassification_rain hm']
    cases ra <;> cases rb
    · dsimp only [ResultAt, screenRain, maskZeros] at hrr ⊢
      rw [hrr]
    · exact hrr.elim
    · exact hrr.elim
    · dsimp only [ResultAt, screenRain, maskZeros] at hrr ⊢
      simp only [Grid.assign_apply, hrr, krain]
      congr
  unfold Spec.gridOf Spec.scalarOf
  rcases resultAt_lookup hrel name with ⟨u, w⟩ | ⟨u, w, hu, hw, huw⟩
  · rw [u, w]; exact ⟨rfl, rfl⟩
  · rw [hu, hw]
    cases u <;> cases w
    · exact ⟨rfl, huw⟩
    · exact huw.elim
    · exact huw.elim
    · exact ⟨huw, rfl⟩

/-! ### What does reach down -/

/-- Gates of 100 m and a measured liquid water path; a droplet cloud in the lowest gate and, if `above`, in the third one. -/
def layeredCloud (above : Bool) : AttenuationData ℚ where
  nT := 2
  nH := 4
  heightAgl := fun h => 100 * (h + 1)
  temperature := fun _ _ => 280
  pressure := fun _ _ => 90000
  specificGas := fun _ _ => 0
  specificSaturatedGas := fun _ _ => 0
  specificLiquid := fun _ _ => 1
  droplet := fun _ h => decide (h = 0) || (above && decide (h = 2))
  freezing := fun _ _ => false
  melting := fun _ _ => false
  isRain := fun _ => false
  lwp := some fun _ => some (1 / 10)
  lwpError := some fun _ => some (1 / 100)
  rainRate := none
  g := fun _ _ => 1
  kRain := id
  kMelt := id

/-- **C175, the exception.** Liquid water reaches down: the liquid water path is shared among the clouds of the profile, so a cloud above
a pixel changes the attenuation at the pixel although everything up to it is the same. -/
theorem C175_liquid : Spec.SameAttenuationBelow (layeredCloud true) (layeredCloud false) 0 1 ∧
    (match calcLiquidAttenuation (layeredCloud true), calcLiquidAttenuation (layeredCloud false) with
      | .ok a, .ok b => decide ((a.amount 0 0).isSome = true ∧ a.amount 0 0 ≠ b.amount 0 0)
      | _, _ => false) = true := by
  refine ⟨⟨fun _ _ => rfl, fun _ _ => rfl, fun _ _ => rfl, fun k hk => ?_, fun _ _ => rfl, fun _ _ => rfl, rfl, rfl, rfl, rfl⟩, by decide +kernel⟩
  have : ¬ k = 2 := by omega
  simp [layeredCloud, this]

/-- The example of ice, other pixels without echo: the two files agree at the pixel. -/
example : ∃ a b, generateIwc exampleIceInput = .ok a ∧
    generateIwc { exampleIceInput with
      z := some fun t h => if t = 0 ∧ h = 1 then some 10 else none
      categoryBits := fun t h => if t = 0 ∧ h = 1 then 6 else 0 } = .ok b ∧ a.iwc 0 1 = b.iwc 0 1 := by
  obtain ⟨a, ha⟩ : ∃ out, generateIwc exampleIceInput = .ok out := by
    rw [C139_written]
    refine ⟨⟨35, rfl, Or.inl ⟨by norm_num, by norm_num⟩⟩, le_refl _, ?_, ?_, ?_, ?_, Or.inr (Or.inr ?_)⟩ <;> simp [exampleIceInput]
  obtain ⟨b, hb⟩ : ∃ out, generateIwc { exampleIceInput with
      z := some fun t h => if t = 0 ∧ h = 1 then some 10 else none
      categoryBits := fun t h => if t = 0 ∧ h = 1 then 6 else 0 } = .ok out := by
    rw [C139_written]
    refine ⟨⟨35, rfl, Or.inl ⟨by norm_num, by norm_num⟩⟩, le_refl _, ?_, ?_, ?_, ?_, Or.inr (Or.inr ?_)⟩ <;> simp [exampleIceInput]
  exact ⟨a, b, ha, hb, (C175_iwc exampleIceInput { exampleIceInput with
      z := some fun t h => if t = 0 ∧ h = 1 then some 10 else none
      categoryBits := fun t h => if t = 0 ∧ h = 1 then 6 else 0 } 0 1
    ⟨rfl, rfl, ⟨rfl, rfl⟩, ⟨rfl, rfl⟩, rfl, rfl, rfl, rfl, rfl, rfl, fun _ => rfl⟩ a b ha hb).1⟩

/-- The example of drizzle with a different gate above. -/
example (b : DrizzleFile ℝ) (hb : generateDrizzle (fun _ => exampleMie) { exampleDrizzleCategorize with
      z := some fun _ h => if h = 2 then 40 else -10
      beta := some fun _ h => if h = 2 then 7 else 0.00001 } = .ok b) :
    ∃ a, generateDrizzle (fun _ => exampleMie) exampleDrizzleCategorize = .ok a ∧ Spec.gridOf a "Do" 0 1 = Spec.gridOf b "Do" 0 1 := by
  obtain ⟨a, ha⟩ := exampleDrizzle_case.1
  refine ⟨a, ha, (C175_drizzle _ _ _ 0 1 (by norm_num [exampleDrizzleCategorize]) ?_ a b ha hb "Do").1⟩
  refine ⟨⟨rfl, rfl⟩, rfl, ⟨rfl, rfl⟩, ⟨rfl, rfl⟩, ⟨rfl, rfl⟩, ⟨rfl, rfl⟩, rfl, ⟨rfl, rfl, rfl⟩, fun k hk => ?_, fun k hk => ?_, fun _ _ => rfl,
    fun _ _ => rfl, fun _ _ => rfl, fun _ _ => rfl, fun _ _ => rfl, fun _ _ => rfl, fun _ => rfl⟩ <;>
  · have : ¬ k = 2 := by omega
    simp [exampleDrizzleCategorize, this]

end Cloudnet
