import Verif.Ice.Model
import Verif.Nwp.Model
import Verif.Attenuation.Model

/-!
The files of ice water content and ice effective radius (`products/iwc.py`, `products/ier.py`, `products/product_tools.py`).
-/

namespace Cloudnet

/-- The variables of a categorize file that are used; `none` is a missing variable (`KeyError`). `nT` times, `nModelT` times and
`nModelH` levels of the model; `temperature` are the numbers in the array in kelvin. The model variables are assumed to be present. -/
structure IceInput where
  nT : ℕ
  time : ℕ → ℝ
  height : ℕ → ℝ
  nModelT : ℕ
  modelTime : ℕ → ℝ
  nModelH : ℕ
  modelHeight : ℕ → ℝ
  temperature : Grid ℝ
  frequency : Option ℝ
  z : Option (Grid (Option ℝ))
  zError : Option (Grid (Option ℝ))
  zBias : Option (Option ℝ)
  zSensitivity : Option (ℕ → Option ℝ)
  categoryBits : Grid ℤ
  qualityBits : Grid ℤ
  rain : String → Option (ℕ → Option ℝ)

/-- `datasource.py:58-74` `getvar` for one name. -/
def readVar {β : Type} : Option β → Except String β
  | some v => .ok v
  | none => .error "KeyError: Missing variable"

/-- `products/product_tools.py:331-334` `_get_temperature`: degrees Celsius. -/
noncomputable def iceTemperature (f : IceInput) : Grid ℝ := fun t h =>
  interpolateModel f.nModelT f.modelTime f.nModelH f.modelHeight f.temperature f.time f.height t h - 27315 / 100

/-- `products/product_tools.py:222-228` `IceSource.__init__` and `products/product_tools.py:254-255`: band and coefficients. -/
noncomputable def iceSource (product : String) (f : IceInput) : Except String (String × IceCoefficients) :=
  (readVar f.frequency).bind fun frequency => (getWlBand frequency).bind fun band => (getIceCoefficients product band).map fun k => (band, k)

/-- `products/product_tools.py:82-149`: masks from the bits of the file. -/
noncomputable def iceMasks (f : IceInput) : Except String IceMasks :=
  (readCategoryBits f.categoryBits).bind fun c => (readQualityBits f.qualityBits).bind fun q =>
    (getIsRain f.rain).bind fun rain => iceClassification f.nT c q rain

/-- `products/product_tools.py:264-266`: mean over time. -/
noncomputable def meanTemperature (nT : ℕ) (temperature : Grid ℝ) (h : ℕ) : ℝ :=
  ((List.range nT).map fun t => temperature t h).sum / (nT : ℝ)

/-- `products/product_tools.py:267-274`: the scale of the product. -/
noncomputable def iceScale (product : String) : ℝ := if product = "iwc" then 0.001 else 3 / (2 * 917) * 1000000

/-- `products/product_tools.py:257-274` `_convert_z` for one value. -/
noncomputable def convertIce (product : String) (k : IceCoefficients) (z : Option ℝ) (temperature : ℝ) : Option ℝ :=
  z.map fun z => zToIwc k (z + getZFactor k) temperature * iceScale product

/-- The variables of the file with ice water content. -/
structure IwcFile where
  iwc : Grid (Option ℝ)
  bias : Option ℝ
  sensitivity : ℕ → Option ℝ
  error : Grid (Option ℝ)
  status : Grid ℕ

/-- `products/iwc.py:87-90` `_calc_error_in_uncorrected_ice`. -/
noncomputable def uncorrectedError (band : String) (k : IceCoefficients) : ℝ :=
  250 * 0.001 * ((if band = "Ka" then 1 else 4.5) * k.Z) * 2 * 10

/-- `products/iwc.py:77-105` `append_error`; the value for uncorrected ice is masked in the end. -/
noncomputable def iwcError (band : String) (k : IceCoefficients) (m : IceMasks) (temperature : Grid ℝ) (zError : Grid (Option ℝ)) :
    Grid (Option ℝ) :=
  let random : Grid (Option ℝ) := fun t h => (zError t h).map fun e => e * (k.ZT * temperature t h + k.Z) * 10
  let e0 : Grid (Option ℝ) := fun t h => l2norm [some 1.7, random t h]
  let e1 := e0.assign m.uncorrectedIce (l2norm [some 1.7, some (uncorrectedError band k)])
  e1.assign (gor (gnot m.isIce) m.uncorrectedIce) none

/-- `products/iwc.py:15-61` `generate_iwc` with `products/iwc.py:67-75` `append_sensitivity` and `append_bias`. -/
noncomputable def generateIwc (f : IceInput) : Except String IwcFile :=
  (iceSource "iwc" f).bind fun source => (iceMasks f).bind fun m => (readVar f.z).bind fun z => (readVar f.zBias).bind fun bias =>
    (readVar f.zSensitivity).bind fun sensitivity => (readVar f.zError).map fun zError =>
      let temperature := iceTemperature f
      let iwc := icyData m fun t h => convertIce "iwc" source.2 (z t h) (temperature t h)
      { iwc := iwc
        bias := bias.map fun b => b * source.2.Z * 10
        sensitivity := fun h => convertIce "iwc" source.2 (sensitivity h) (meanTemperature f.nT temperature h)
        error := iwcError source.1 source.2 m temperature zError
        status := iceStatus m iwc }

/-- The variables of the file with ice effective radius. -/
structure IerFile where
  ier : Grid (Option ℝ)
  status : Grid ℕ
  error : Grid (Option ℝ)

/-- `products/ier.py:16-75` `generate_ier` with `products/ier.py:81-88` `convert_units` and `append_ier_error`. -/
noncomputable def generateIer (f : IceInput) : Except String IerFile :=
  (iceSource "ier" f).bind fun source => (iceMasks f).bind fun m => (readVar f.z).map fun z =>
    let temperature := iceTemperature f
    let ier := icyData m fun t h => convertIce "ier" source.2 (z t h) (temperature t h)
    let metres : Grid (Option ℝ) := fun t h => (ier t h).map fun x => x / 1000000
    { ier := metres
      status := iceStatus m metres
      error := fun t h => (metres t h).map fun x => x * Real.sqrt (0.4 ^ 2 + 0.4 ^ 2) }

end Cloudnet
