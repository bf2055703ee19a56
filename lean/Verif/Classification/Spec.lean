import Verif.Classification.Model

/-!
Independent decision tables for the classification product, per pixel, highest priority first.
Nothing here refers to the functions of the model (only to its input types).
-/

namespace Cloudnet.Spec

/-- Target class of a pixel (codes of the `target_classification` variable):
0 clear, 1 droplets, 2 drizzle or rain, 3 drizzle and droplets, 4 ice, 5 ice and supercooled
droplets, 6 melting, 7 melting and droplets, 8 aerosol, 9 insects, 10 insects and aerosol. -/
def target (droplet falling freezing melting aerosol insect clutter : Bool) : ℕ :=
  match clutter, aerosol, insect, melting with
  -- radar clutter hides everything except aerosol (seen by the lidar)
  | true, false, _, _ => 0
  | true, true, _, _ => 8
  | false, true, true, _ => 10
  | false, false, true, _ => 9
  | false, true, false, _ => 8
  | false, false, false, true => if droplet then 7 else 6
  | false, false, false, false =>
    match falling, droplet, freezing with
    | false, false, _ => 0
    | false, true, _ => 1
    | true, false, false => 2
    | true, true, false => 3
    | true, false, true => 4
    | true, true, true => 5

/-- Detection status of a pixel (codes of the `detection_status` variable), given whether the radar
is attenuated at all and whether every attenuation present was corrected. -/
def detection (radar lidar clutter molecular attenuated allCorrected : Bool) : ℕ :=
  if molecular && !radar then 9
  else if clutter then 8
  else if radar then
    if attenuated then (if allCorrected then 7 else 2)
    else (if lidar then 3 else 5)
  else
    if attenuated then (if allCorrected then 6 else 4)
    else (if lidar then 1 else 0)

/-- Signal source of a pixel. -/
def signalSource (radar lidar : Bool) : ℕ :=
  match radar, lidar with
  | false, false => 0
  | true, true => 1
  | true, false => 2
  | false, true => 3

/-- Radar attenuation status of one pixel, before looking at the pixels below it.
`total` is the two-way attenuation by liquid, rain and melting layer together (dB), `strong` says
that the liquid water path or rain rate of the profile is too large for a W-band radar. -/
def attenuation {α : Type*} [Field α] [LinearOrder α] (radar uncorrected strong : Bool) (total : α) :
    ℕ :=
  if radar then
    if uncorrected then 5
    else if strong || decide (15 < total) then 4
    else if 10 ≤ total then 3
    else if 0 < total then 2
    else 1
  else 0

end Cloudnet.Spec

namespace Cloudnet

variable {α : Type*} [Field α] [LinearOrder α]

/-- The attenuation-relevant inputs of pixel `(t, h)` in the words of C10: some attenuation is
present that was not corrected. -/
def Spec.uncorrectedAt (q : QualityBits) (t h : ℕ) : Prop :=
  (q.attenuatedLiquid t h = true ∧ q.correctedLiquid t h = false) ∨
  (q.attenuatedRain t h = true ∧ q.correctedRain t h = false) ∨
  (q.attenuatedMelting t h = true ∧ q.correctedMelting t h = false)

instance (q : QualityBits) (t h : ℕ) : Decidable (Spec.uncorrectedAt q t h) := by
  unfold Spec.uncorrectedAt; infer_instance

/-- W-band radar (90 GHz or more) in a profile with measured liquid water path above 1 kg m-2 or
measured rain rate above 3 mm/h (the file stores m/s). -/
def Spec.strongAt (d : AttenuationInput α) (t : ℕ) : Prop :=
  90 ≤ d.radarFrequency ∧
    ((∃ f x, d.lwp = some f ∧ f t = some x ∧ 1 < x) ∨
     (∃ f x, d.rainfallRate = some f ∧ f t = some x ∧ 3 < x * 3600 * 1000))

/-- Total two-way attenuation at a pixel, missing contributions counting as zero. -/
def Spec.totalAt (d : AttenuationInput α) (t h : ℕ) : α :=
  (d.liquidAtten t h).elim 0 id + (d.rainAtten t h).elim 0 id + (d.meltingAtten t h).elim 0 id

open Classical in
/-- Status of a pixel without regard to the pixels below it. -/
noncomputable def Spec.ownStatus (d : AttenuationInput α) (q : QualityBits) (t h : ℕ) : ℕ :=
  Spec.attenuation (q.radar t h) (decide (Spec.uncorrectedAt q t h)) (decide (Spec.strongAt d t))
    (Spec.totalAt d t h)

end Cloudnet
