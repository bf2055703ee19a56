import Verif.Classify.Model
import Verif.Attenuation.Model
import Verif.Bits.Model

/-!
From gridded measurements to the bits and the echo of a categorize file (`categorize/categorize.py:200-209`).
-/

namespace Cloudnet

/-- What the second half of `generate_categorize` works on: the observations on the common grid, the fields of the model on this grid, liquid
water path and its error, rain rate (`none` without the instrument), the functions of `atmoslib` (see `AttenuationData`), the factor of the error
of the melting layer and, for profiles where rain is masked, the number below the mask (which the attenuation uses). -/
structure DayInput where
  obs : Observation
  temperature : Grid ℝ
  pressure : Grid ℝ
  specificGas : Grid ℝ
  specificSaturatedGas : Grid ℝ
  specificLiquid : Grid ℝ
  lwp : Option (ℕ → Option ℝ)
  lwpError : Option (ℕ → Option ℝ)
  rainRate : Option (ℕ → Option ℝ)
  g : ℝ → ℝ → ℝ
  kRain : ℝ → ℝ
  kMelt : ℝ → ℝ
  meltingErrorFactor : ℝ
  rainBelowMask : ℕ → Bool

/-- `categorize/attenuations/rain_attenuation.py:60`: `is_rain` as a boolean. -/
def DayInput.rainAt (d : DayInput) (isRain : ℕ → Option ℤ) (t : ℕ) : Bool :=
  match isRain t with
  | some x => decide (x ≠ 0)
  | none => d.rainBelowMask t

/-- `categorize/attenuation.py:13-20`: the input of the attenuations from observations and classification; heights are above ground. -/
def DayInput.attenuationData (d : DayInput) (r : ClassificationResult) : AttenuationData ℝ :=
  { nT := d.obs.nT, nH := d.obs.nH, heightAgl := fun h => d.obs.height h - d.obs.altitude, temperature := d.temperature,
    pressure := d.pressure, specificGas := d.specificGas, specificSaturatedGas := d.specificSaturatedGas,
    specificLiquid := d.specificLiquid, droplet := r.bits.droplet, freezing := r.bits.freezing, melting := r.bits.melting,
    isRain := d.rainAt r.isRain, lwp := d.lwp, lwpError := d.lwpError, rainRate := d.rainRate, g := d.g, kRain := d.kRain,
    kMelt := d.kMelt }

/-- Variables of a categorize file (`categorize/categorize.py:126-158`). -/
structure CategorizeFields where
  categoryBits : Grid ℤ
  qualityBits : Grid ℤ
  z : Grid (Option ℝ)
  rainDetected : ℕ → Option ℤ
  insectProb : Grid (Option ℝ)
  gasAtten : Grid (Option ℝ)
  liquidAtten : Grid (Option ℝ)
  rainAtten : Grid (Option ℝ)
  meltingAtten : Grid (Option ℝ)

/-- `categorize/categorize.py:200-209` and `categorize/categorize.py:126-158`: classification, attenuations, corrected echo, quality and the
variables of the file. The errors and the other variables are left out. -/
noncomputable def categorizeDay (d : DayInput) : Except String CategorizeFields := do
  let r ← classifyMeasurements d.obs
  let a ← getAttenuations (d.attenuationData r) d.meltingErrorFactor
  let z := correctAtten d.obs.z.get a
  let quality := fetchQuality z d.obs.beta r.isClutter a
  return {
    categoryBits := classesToBits r.bits.fields
    qualityBits := classesToBits quality.fields
    z := z
    rainDetected := r.isRain
    insectProb := r.insectProb
    gasAtten := a.gas.amount
    liquidAtten := a.liquid.amount
    rainAtten := a.rain.amount
    meltingAtten := a.melting.amount }

end Cloudnet
