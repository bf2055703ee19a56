import Verif.Classification.Model
import Verif.Atmos.Model
import Mathlib.Analysis.SpecialFunctions.Pow.Real
import Mathlib.Analysis.SpecialFunctions.Log.Base

namespace Cloudnet

/-! The ice products (`products/product_tools.py`, `products/iwc.py`, `products/ier.py`) and the droplet
effective radius product (`products/der.py`). -/

/-- `utils.py:778-795` `get_wl_band`. -/
noncomputable def getWlBand (f : ℝ) : Except String String :=
  if 8 < f ∧ f < 12 then .ok "X"
  else if 27 < f ∧ f < 40 then .ok "Ka"
  else if 75 < f ∧ f < 110 then .ok "W"
  else .error "ValueError: Unknown band"

/-- `products/product_tools.py:18-25` `IceCoefficients`. -/
structure IceCoefficients where
  K2liquid0 : ℝ
  ZT : ℝ
  T : ℝ
  Z : ℝ
  c : ℝ

/-- `products/product_tools.py:28-45` `get_ice_coefficients`. -/
noncomputable def getIceCoefficients (product wlBand : String) : Except String IceCoefficients :=
  if product = "ier" then
    if wlBand = "Ka" then .ok ⟨0.878, -0.000205, -0.0015, 0.0016, -1.52⟩
    else if wlBand = "W" then .ok ⟨0.669, -0.000296, -0.00193, -0.000, -1.502⟩
    else .error "ValueError: Unsupported band"
  else if wlBand = "Ka" then .ok ⟨0.878, 0.000242, -0.0186, 0.0699, -1.63⟩
  else if wlBand = "W" then .ok ⟨0.669, 0.000580, -0.00706, 0.0923, -0.992⟩
  else .error "ValueError: Unsupported band"

/-- `products/product_tools.py:48-63` `z_to_iwc` for one pixel. -/
noncomputable def zToIwc (k : IceCoefficients) (z temperature : ℝ) : ℝ :=
  (10 : ℝ) ^ (k.ZT * z * temperature + k.T * temperature + k.Z * z + k.c)

/-- `products/product_tools.py:276-279` `_get_z_factor`: `lin2db(K2liquid0 / 0.93)`. -/
noncomputable def getZFactor (k : IceCoefficients) : ℝ := 10 * Real.logb 10 (k.K2liquid0 / 0.93)

/-- `products/product_tools.py:257-274` `_convert_z` for one pixel (`Z` masked gives a masked result;
the interpolated temperature is never masked). `RHO_ICE` is 917 (`constants.py`). -/
noncomputable def convertZ (product : String) (k : IceCoefficients) (z : Option ℝ) (temperature : ℝ) :
    Except String (Option ℝ) :=
  if product ≠ "iwc" ∧ product ≠ "ier" then .error "ValueError: Invalid product"
  else
    let scale : ℝ := if product = "iwc" then 0.001 else 3 / (2 * 917) * 1000000
    .ok (z.map fun z => zToIwc k (z + getZFactor k) temperature * scale)

/-- `products/product_tools.py:142-216` `IceClassification`: the masks used by the ice products. -/
structure IceMasks where
  isIce : Grid Bool
  wouldBeIce : Grid Bool
  correctedIce : Grid Bool
  uncorrectedIce : Grid Bool
  clearAboveRain : Grid Bool

/-- `products/product_tools.py:147-212`. `utils.transpose` at line 160 needs two profiles. -/
def iceClassification (nT : ℕ) (c : CategoryBits) (q : QualityBits) (isRain : ℕ → Bool) :
    Except String IceMasks :=
  let isAttenuated := gor (gor q.attenuatedLiquid q.attenuatedRain) q.attenuatedMelting
  let isCorrected := gor (gor q.correctedLiquid q.correctedRain) q.correctedMelting
  let isIce := gand (gand (gand c.falling c.freezing) (gnot c.melting)) (gnot c.insect)
  let warmFalling := gand (gand c.falling (gnot c.freezing)) (gnot c.insect)
  let uncorrectedMelting := gand q.attenuatedMelting (gnot q.correctedMelting)
  let uncorrectedRain := gand q.attenuatedRain (gnot q.correctedRain)
  let uncorrectedLiquid := gand q.attenuatedLiquid (gnot q.correctedLiquid)
  let rain2d : Grid Bool := fun t _ => isRain t
  if nT ≤ 1 then .error "ValueError: Invalid input array shape"
  else .ok {
    isIce := isIce
    wouldBeIce := gor warmFalling c.melting
    correctedIce := gand (gand isIce isAttenuated) isCorrected
    uncorrectedIce := gand (gand isIce isAttenuated)
      (gor (gor uncorrectedMelting uncorrectedRain) uncorrectedLiquid)
    clearAboveRain := gand (gand (gand rain2d (gnot isIce)) c.freezing) (gnot c.melting) }

/-- `products/product_tools.py:230-239` `append_icy_data`: mask everything that is not retrievable
ice. -/
def icyData {α : Type*} (m : IceMasks) (data : Grid (Option α)) : Grid (Option α) :=
  data.assign (gor (gnot m.isIce) m.uncorrectedIce) none

/-- `products/product_tools.py:241-252` `append_status`: seven assignments in order. -/
def iceStatus {α : Type*} (m : IceMasks) (data : Grid (Option α)) : Grid ℕ :=
  let isData : Grid Bool := fun t h => (data t h).isSome
  let s0 : Grid ℕ := Grid.const 0
  let s1 := s0.assign isData 1
  let s2 := s1.assign (gand isData m.correctedIce) 3
  let s3 := s2.assign (gand (gnot isData) m.isIce) 4
  let s4 := s3.assign m.uncorrectedIce 2
  let s5 := s4.assign m.clearAboveRain 6
  s5.assign (gand m.wouldBeIce (fun t h => s5 t h == 0)) 7

/-- `products/product_tools.py:282-292` `get_is_rain`. A file is a partial map from variable names to
1-D masked arrays. `data != 0` keeps the mask, and `data[data.mask] = True` makes masked entries
rainy. -/
def getIsRain {α : Type*} [Zero α] [DecidableEq α] (nc : String → Option (ℕ → Option α)) :
    Except String (ℕ → Bool) :=
  let rec go : List String → Except String (ℕ → Bool)
    | [] => .error "ValueError: No rain data found."
    | name :: names =>
      match nc name with
      | some data => .ok fun t =>
          match data t with
          | some x => decide (x ≠ 0)
          | none => true
      | none => go names
  go ["rain_detected", "rainfall_rate", "rain_rate"]

/-- One iteration of the loop `products/der.py:158-175`, restricted to the variable `der`: the layer
from `base` to `top` of profile `indT`. `z` is the linear reflectivity. `Z[..].mask.all()` of the
selected (unmasked) gates is true only if none is left, and then nothing would be written. -/
noncomputable def derLayer (N sigmaX : ℝ) (z : Grid (Option ℝ)) (der : Grid ℝ) (q : Pixel × Pixel) :
    Grid ℝ :=
  fun t h =>
    if t = q.1.1 ∧ q.1.2 ≤ h ∧ h < q.2.2 + 1 then
      match z q.1.1 h with
      | some zv => 0.5 * (zv / N) ^ (1 / 6 : ℝ) * Real.exp (-0.5 * (sigmaX * sigmaX))
      | none => der t h
    else der t h

/-- `products/der.py:132-175, 205`: droplet effective radius `der` (m) from reflectivity in dB. Values
that are not positive are masked. -/
noncomputable def appendDer (N sigmaX : ℝ) (nT nH : ℕ) (droplet : Grid Bool) (Z : Grid (Option ℝ)) :
    Except String (Grid (Option ℝ)) := do
  let zlin : Grid (Option ℝ) := fun t h => (Z t h).map fun x => (10 : ℝ) ^ (x / 10)
  let pairs ← cloudBaseTopPairs nT nH droplet
  let der := pairs.foldl (derLayer N sigmaX zlin) (Grid.const 0)
  return fun t h => if der t h ≤ 0 then none else some (der t h * 0.001)

/-- `products/der.py:221-236` `append_retrieval_status` with the masks of `products/der.py:97-110`. -/
def derStatus {α : Type*} (c : CategoryBits) (isRain : ℕ → Bool) (der : Grid (Option α)) : Grid ℕ :=
  let isRetrieved : Grid Bool := fun t h => (der t h).isSome
  let isMixed := gand c.falling c.droplet
  let isIce := gand (gand (gand (gand c.falling c.freezing) (gnot c.melting)) (gnot c.droplet))
    (gnot c.insect)
  let rain2d : Grid Bool := fun t _ => isRain t
  ((((Grid.const 0 : Grid ℕ).assign isIce 4).assign isRetrieved 1).assign
    (gand isMixed isRetrieved) 2).assign (gand rain2d isRetrieved) 3

end Cloudnet
