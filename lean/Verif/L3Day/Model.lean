import Verif.ModelEval.Model
import Verif.Ice.Model
import Mathlib.Analysis.SpecialFunctions.Gamma.Basic

/-! A Level 3 file of a day: `model_evaluation/products/product_resampling.py:19-91`, with the cirrus filter of `advance_methods.py` from winds and
radar sensitivity. -/

namespace Cloudnet

/-- Variables of a model file with `nT` times and `nL` levels that are used. `ice` are `qs` and `qg` if present. Winds have no missing values. -/
structure ModelRun where
  nT : ℕ
  nL : ℕ
  time : ℕ → ℝ
  height : Grid ℝ
  temperature : Grid (Option ℝ)
  pressure : Grid (Option ℝ)
  qi : Grid (Option ℝ)
  ql : Grid (Option ℝ)
  ice : List (Grid (Option ℝ))
  cf : Grid (Option ℝ)
  u : Grid ℝ
  v : Grid ℝ
  resolution : List (Option ℝ)

/-- The observed product: bits of a categorize file, ice water content with its status, or liquid water content. -/
inductive ObsField where
  | cf (droplet falling freezing aerosol insect : Grid Bool)
  | iwc (x : Grid (Option ℝ)) (status : Grid ℕ)
  | lwc (x : Grid (Option ℝ))

/-- An observation file; frequency and sensitivity are read if present (`observation_products.py:49-59`). -/
structure ObsDay where
  nT : ℕ
  nH : ℕ
  time : ℕ → ℝ
  height : ℕ → ℝ
  frequency : Option ℝ
  sensitivity : Option (ℕ → Option ℝ)
  field : ObsField

/-- `observation_products.py:61-112`. -/
def ObsField.data : ObsField → Grid (Option ℝ)
  | .cf droplet falling freezing aerosol insect => fun t h =>
    some (maskCloudBits (classifyBasicMask (droplet t h) (falling t h) (freezing t h) (aerosol t h) (insect t h)) : ℝ)
  | .iwc x status => fun t h => maskIwc (status t h) (x t h)
  | .lwc x => x

/-- `model_products.py:60-87` with `ALTITUDE_LIMIT` (`model_metadata.py:66`). -/
noncomputable def ModelRun.levels (m : ModelRun) : ℕ := numberOfLevels m.nT m.nL 22000 m.height

/-- `model_products.py:136-173` for `iwc`; `RS` is 287.058 (`constants.py:12`). -/
noncomputable def ModelRun.iwc (m : ModelRun) : Grid (Option ℝ) := fun t l =>
  waterContent (287058 / 1000) (m.qi t l) (m.ice.map fun q => q t l) (m.pressure t l) (m.temperature t l)

/-- The same for `lwc`. -/
noncomputable def ModelRun.lwc (m : ModelRun) : Grid (Option ℝ) := fun t l =>
  waterContent (287058 / 1000) (m.ql t l) [] (m.pressure t l) (m.temperature t l)

/-- `model_products.py:189-195` `_calculate_wind_speed`. -/
noncomputable def ModelRun.wind (m : ModelRun) : Grid ℝ := fun t l => Real.sqrt (m.u t l ^ 2 + m.v t l ^ 2)

/-- Division of masked arrays whose result is stored in an array without mask: where the denominator is zero the numerator is left. -/
noncomputable def unmaskedDivide (a b : ℝ) : ℝ := if b = 0 then a else a / b

/-- `advance_methods.py:181-186`, one wind; the first index of both arrays is the time. -/
noncomputable def windGradient (nT : ℕ) (w height : Grid ℝ) : Grid ℝ := fun t l =>
  if t = 0 then unmaskedDivide (w 1 l - w 0 l) (height 1 l - height 0 l)
  else if t = nT - 1 then unmaskedDivide (w (nT - 1) l - w (nT - 2) l) (height (nT - 1) l - height (nT - 2) l)
  else unmaskedDivide (w (t + 1) l - w (t - 1) l) (height (t + 1) l - height (t - 1) l)

/-- `advance_methods.py:172-189` `calculate_wind_shear`. -/
noncomputable def windShear (nT : ℕ) (wind u v height : Grid ℝ) : Grid ℝ := fun t l =>
  let shear := Real.sqrt (windGradient nT u height t l ^ 2 + windGradient nT v height t l ^ 2)
  if windGradient nT wind height t l < 0 then 0 - shear else shear

/-- `advance_methods.py:163-170` `calculate_variance_iwc`. -/
noncomputable def iwcVariance (resolution shear : ℝ) : ℝ := (10 : ℝ) ^ (3 / 10 * Real.logb 10 resolution - 4 / 100 * shear - 103 / 100)

/-- `np.arange(0, finish, finish / 249)`. -/
noncomputable def iwcSteps (finish : ℝ) : List ℝ := (List.range 249).map fun k : ℕ => (k : ℝ) * (finish / 249)

/-- `advance_methods.py:191-205` `calculate_iwc_distribution`. -/
noncomputable def iwcDistribution (c f : ℝ) : List ℝ :=
  let finish := c + 5 * (Real.sqrt f * c)
  if c < 2 * (finish / 249) then iwcSteps (c * 10) else iwcSteps finish

/-- `scipy.stats.gamma.pdf` at `x ≥ 0`. -/
noncomputable def gammaPdf (alpha theta x : ℝ) : WithTop ℝ :=
  if x = 0 then if alpha < 1 then ⊤ else if alpha = 1 then ((1 / theta : ℝ) : WithTop ℝ) else ((0 : ℝ) : WithTop ℝ)
  else ((x ^ (alpha - 1) * Real.exp (-(x / theta)) / (Real.Gamma alpha * theta ^ alpha) : ℝ) : WithTop ℝ)

/-- `advance_methods.py:207-213` `gamma_distribution`, with the values. -/
noncomputable def cirrusDistribution (c f : ℝ) : List (ℝ × WithTop ℝ) :=
  (iwcDistribution c f).map fun x => (x, gammaPdf (1 / f) (c / (1 / f)) x)

/-- `advance_methods.py:100-111` `fit_z_sensitivity`; `none` is NaN. -/
noncomputable def sensitivityOnLevels (o : ObsDay) (sensitivity : ℕ → Option ℝ) (n : ℕ) (height : Grid ℝ) : Grid (Option ℝ) := fun t l =>
  match rebin1d maMean o.nH o.height sensitivity n (height t) with
  | .ok r => r l
  | .error _ => none

/-- `advance_methods.py:48-84` `cf_cirrus_filter`. At ice pixels temperature is known. No value is above a NaN, which is like a smallest observable value above
all values of the distribution. -/
noncomputable def cirrusOfRun (m : ModelRun) (o : ObsDay) (resolution : ℝ) (cf : Grid (Option ℝ)) : Except String (Grid (Option ℝ)) :=
  match o.frequency, o.sensitivity with
  | some frequency, some sensitivity => do
    let band ← getWlBand frequency
    let k ← getIceCoefficients "iwc" band
    let z := sensitivityOnLevels o sensitivity m.levels m.height
    let shear := windShear m.nT m.wind m.u m.v m.height
    let inCloud : Grid ℝ := fun t l => (m.iwc t l).getD 0 / (cf t l).getD 0 * 1000
    let variance : Grid ℝ := fun t l => iwcVariance resolution (shear t l)
    let minIwc : Grid ℝ := fun t l => match z t l with
      | some z => zToIwc k z ((m.temperature t l).getD 0 - 27315 / 100)
      | none => inCloud t l * 10 + (inCloud t l + 5 * (Real.sqrt (variance t l) * inCloud t l))
    cirrusFilter m.nT m.levels cf m.iwc m.lwc minIwc fun t l => some (cirrusDistribution (inCloud t l) (variance t l))
  | _, _ => .error "ValueError"

/-- `product_resampling.py:19-91` `process_L3_day_product`: the fields of the file, by name. A `ValueError` of the cirrus filter is logged only
(lines 71-74); other errors of it (fewer than two times or levels) come again in the next step. -/
noncomputable def l3Day (m : ModelRun) (o : ObsDay) : Except String (List (String × Grid (Option ℝ))) := do
  let resolution ← horizontalResolution m.resolution
  let e : EvalInput ℝ :=
    { nT := o.nT, nH := o.nH, nM := m.nT, nL := m.levels, obsTime := o.time, obsHeight := o.height, obs := o.field.data, modelTime := m.time,
      modelHeight := m.height, adv := fun t l => advectionTime resolution 1 (some (m.wind t l)) }
  match o.field with
  | .cf .. =>
    let cf : Grid (Option ℝ) := fun t l => maskBelow (5 / 100) (m.cf t l)
    let s ← downsampleCf e
    let cirrus := match cirrusOfRun m o resolution cf with
      | .ok c => [("model_cf_cirrus", c)]
      | .error _ => []
    return [("model_cf", cf)] ++ cirrus ++ [("cf_V", s.v), ("cf_A", s.a), ("cf_V_adv", s.vAdv), ("cf_A_adv", s.aAdv)]
  | .iwc .. =>
    let s ← downsampleProduct e
    return [("model_iwc", fun t l => maskBelow (1 / 10000000) (m.iwc t l)), ("iwc", s.1), ("iwc_adv", s.2)]
  | .lwc .. =>
    let s ← downsampleProduct e
    return [("model_lwc", fun t l => maskBelow (1 / 100000) (m.lwc t l)), ("lwc", s.1), ("lwc_adv", s.2)]

end Cloudnet
