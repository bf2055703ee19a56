import Verif.Bits.Model
import Verif.Arrays.Model
import Mathlib.Algebra.Order.Field.Basic

namespace Cloudnet

/-! Model of `cloudnetpy/products/classification.py`. Status codes are the integer values of the
`IntEnum`s at lines 88-137. -/

/-- Elementwise `&` of boolean arrays. -/
def gand (a b : Grid Bool) : Grid Bool := fun t h => a t h && b t h
/-- Elementwise `|` of boolean arrays. -/
def gor (a b : Grid Bool) : Grid Bool := fun t h => a t h || b t h
/-- Elementwise `~` of a boolean array. -/
def gnot (a : Grid Bool) : Grid Bool := fun t h => !a t h

@[simp] theorem gand_apply (a b : Grid Bool) (t h : ℕ) : gand a b t h = (a t h && b t h) := rfl
@[simp] theorem gor_apply (a b : Grid Bool) (t h : ℕ) : gor a b t h = (a t h || b t h) := rfl
@[simp] theorem gnot_apply (a : Grid Bool) (t h : ℕ) : gnot a t h = !a t h := rfl

/-- `classification.py:283-284` `_get_is_attenuated_mask`. -/
def isAttenuatedMask (q : QualityBits) : Grid Bool :=
  gor (gor q.attenuatedLiquid q.attenuatedRain) q.attenuatedMelting

/-- `classification.py:273-280` `_get_is_corrected_mask`. -/
def isCorrectedMask (q : QualityBits) : Grid Bool :=
  gand (gand (gand (isAttenuatedMask q)
    (gor (gnot q.attenuatedLiquid) q.correctedLiquid))
    (gor (gnot q.attenuatedRain) q.correctedRain))
    (gor (gnot q.attenuatedMelting) q.correctedMelting)

/-- `classification.py:227-246` `_get_target_classification`: the eleven assignments in order. -/
def targetClassification (bits : CategoryBits) (clutter : Grid Bool) : Grid ℕ :=
  let c0 : Grid ℕ := Grid.const 0
  let c1 := c0.assign (gand bits.droplet (gnot bits.falling)) 1
  let c2 := c1.assign (gand (gnot bits.droplet) bits.falling) 2
  let c3 := c2.assign (gand bits.droplet bits.falling) 3
  let c4 := c3.assign (gand (gand (gnot bits.droplet) bits.falling) bits.freezing) 4
  let c5 := c4.assign (gand (gand bits.droplet bits.falling) bits.freezing) 5
  let c6 := c5.assign bits.melting 6
  let c7 := c6.assign (gand bits.melting bits.droplet) 7
  let c8 := c7.assign bits.aerosol 8
  let c9 := c8.assign (gand bits.insect (gnot clutter)) 9
  let c10 := c9.assign (gand (gand bits.aerosol bits.insect) (gnot clutter)) 10
  c10.assign (gand clutter (gnot bits.aerosol)) 0

/-- `classification.py:249-270` `_get_detection_status`: the nine assignments in order. -/
def detectionStatus (q : QualityBits) : Grid ℕ :=
  let att := isAttenuatedMask q
  let corr := isCorrectedMask q
  let s0 : Grid ℕ := Grid.const 0
  let s1 := s0.assign (gand q.lidar (gnot q.radar)) 1
  let s2 := s1.assign (gand q.radar q.lidar) 3
  let s3 := s2.assign (gand (gand (gnot q.radar) att) (gnot corr)) 4
  let s4 := s3.assign (gand (gand q.radar (gnot q.lidar)) (gnot att)) 5
  let s5 := s4.assign (gand (gand (gnot q.radar) att) corr) 6
  let s6 := s5.assign (gand q.radar corr) 7
  let s7 := s6.assign (gand (gand q.radar att) (gnot corr)) 2
  let s8 := s7.assign q.clutter 8
  s8.assign (gand q.molecular (gnot q.radar)) 9

/-- `classification.py:287-293` `_get_signal_source_status`. -/
def signalSourceStatus (q : QualityBits) : Grid ℕ :=
  let s0 : Grid ℕ := Grid.const 0
  let s1 := s0.assign (gand q.radar q.lidar) 1
  let s2 := s1.assign (gand q.radar (gnot q.lidar)) 2
  s2.assign (gand q.lidar (gnot q.radar)) 3

/-- The variables of the categorize file read by `_get_attenuation_classes`
(`classification.py:180-224`). `none` entries are masked values; `lwp`/`rainfallRate` are `none`
when the variable is missing. Simplification: the three attenuation variables are present (every
categorize file written by `categorize.py:134-137` has them; for a missing one line 183 makes a 1-D
zero array, which does not broadcast against the 2-D ones in general). -/
structure AttenuationInput (α : Type*) where
  liquidAtten : Grid (Option α)
  rainAtten : Grid (Option α)
  meltingAtten : Grid (Option α)
  radarFrequency : α
  lwp : Option (ℕ → Option α)
  rainfallRate : Option (ℕ → Option α)

/-- The three masks of `AttenuationClass` (`classification.py:140-143`). -/
structure AttenuationClasses where
  small : Grid Bool
  moderate : Grid Bool
  severe : Grid Bool

section
variable {α : Type*} [Field α] [LinearOrder α]

/-- `data.filled(0)` of a masked value (`classification.py:186, 199, 206`). -/
def filled0 (x : Option α) : α := x.getD 0

/-- `classification.py:180-224` `_get_attenuation_classes`; `M_S_TO_MM_H = 3600 / 0.001`
(`constants.py:37`). -/
def attenuationClasses (d : AttenuationInput α) : AttenuationClasses :=
  let notWBand : Bool := decide (d.radarFrequency < 90)
  let lwp : ℕ → α :=
    match d.lwp with
    | none => fun _ => 0
    | some x => if notWBand then fun _ => 0 else fun t => filled0 (x t)
  let rainRate : ℕ → α :=
    match d.rainfallRate with
    | none => fun _ => 0
    | some x => if notWBand then fun _ => 0 else fun t => filled0 ((x t).map (· * 3600000))
  let total : Grid α := fun t h =>
    filled0 (d.liquidAtten t h) + filled0 (d.rainAtten t h) + filled0 (d.meltingAtten t h)
  { small := fun t h => decide (total t h > 0)
    moderate := fun t h => decide (total t h ≥ 10)
    severe := fun t h =>
      decide (total t h > 15) || decide (lwp t > 1) || decide (rainRate t > 3) }

/-- `classification.py:161-177` `_get_radar_attenuation_status`. -/
def radarAttenuationStatus (d : AttenuationInput α) (q : QualityBits) : Grid ℕ :=
  let isAttenuated := isAttenuatedMask q
  let isCorrected := isCorrectedMask q
  let att := attenuationClasses d
  let s0 : Grid ℕ := Grid.const 0
  let s1 := s0.assign q.radar 1
  let s2 := s1.assign (gand att.small q.radar) 2
  let s3 := s2.assign (gand att.moderate q.radar) 3
  let s4 := s3.assign (gand att.severe q.radar) 4
  let s5 := s4.assign (gand (gand (gnot isCorrected) isAttenuated) q.radar) 5
  let isSevere : Grid Bool := fun t h => s5 t h == 4
  let aboveSevere := ffillGrid isSevere false
  s5.assign (gand aboveSevere (gnot isSevere)) 6

/-- `classification.py:146-158` `_get_cloud_top_height_status` for one profile with an unmasked cloud
top. `nH` is the number of range gates (positive), so that gate `nH - 1` is the last one.
For profiles without a cloud top the code compares the data below the mask; this is not modelled. -/
def cloudTopStatus (height : ℕ → α) (nH : ℕ) (top : α) (attStatus : ℕ → ℕ) : ℕ :=
  let heightInd := argmin (fun h => |height h - top|) (nH - 1)
  let attAtTop := attStatus heightInd
  let s0 := 0
  let s1 := if attAtTop == 3 then 1 else s0
  let s2 := if attAtTop == 4 then 3 else s1
  let s3 := if attAtTop == 5 then 2 else s2
  if top ≥ height (nH - 1) then 4 else s3

end

end Cloudnet
