import Verif.Atmos.Model
import Verif.Classification.Model
import Verif.Ice.Model

namespace Cloudnet

/-! Radar attenuation (`categorize/attenuations/*`, `categorize/attenuation.py`), its use in the radar
echo (`categorize/radar.py`) and in the quality bits (`categorize/classify.py`).

Masked arrays are `Grid (Option α)`. Where the code looks at the data under a mask (`.data`), data and
mask are modelled separately (`MaGrid`). The model fields (temperature, pressure, specific
attenuations) are taken to be unmasked: profiles without model data are removed earlier
(`categorize/categorize.py:91-102`). -/

variable {α : Type*}

/-- A NumPy masked array with its underlying data. -/
structure MaGrid (α : Type*) where
  data : Grid α
  mask : Grid Bool

/-- The values a reader of a masked array sees. -/
def MaGrid.toOption (m : MaGrid α) : Grid (Option α) :=
  fun t h => if m.mask t h then none else some (m.data t h)

/-- `categorize/attenuations/__init__.py:12-17` `Attenuation`. -/
structure Attenuation (α : Type*) where
  amount : Grid (Option α)
  error : Grid (Option α)
  attenuated : Grid Bool
  uncorrected : Grid Bool

/-- `categorize/attenuations/__init__.py:20-25` `RadarAttenuation`. -/
structure RadarAttenuation (α : Type*) where
  gas : Attenuation α
  liquid : Attenuation α
  rain : Attenuation α
  melting : Attenuation α

/-- Inputs of the attenuation step. `g`, `kRain` are the `atmoslib` functions
`adiabatic_lwc_gradient` and `rain_specific_attenuation` (the latter with the unit conversion of
`rain_attenuation.py:34` and the radar frequency applied), `kMelt` the melting layer formula. `lwp` and
`rainRate` are `none` without a microwave radiometer or disdrometer. -/
structure AttenuationData (α : Type*) where
  nT : ℕ
  nH : ℕ
  heightAgl : ℕ → α
  temperature : Grid α
  pressure : Grid α
  specificGas : Grid α
  specificSaturatedGas : Grid α
  specificLiquid : Grid α
  droplet : Grid Bool
  freezing : Grid Bool
  melting : Grid Bool
  isRain : ℕ → Bool
  lwp : Option (ℕ → Option α)
  lwpError : Option (ℕ → Option α)
  rainRate : Option (ℕ → Option α)
  g : α → α → α
  kRain : α → α
  kMelt : α → α

section
variable [Field α] [LinearOrder α]

/-- `categorize/attenuations/__init__.py:28-37` `calc_two_way_attenuation`. `ma.cumsum` takes masked
elements as zero and keeps the mask. -/
def calcTwoWayAttenuation (heightAgl : ℕ → α) (specific : Grid (Option α)) : MaGrid α where
  data := fun t h => cumsum (fun i =>
    match specific t i with
    | some s => s * (pathLengthsFromGround heightAgl i * (1 / 1000))
    | none => 0) h * 2
  mask := fun t h => (specific t h).isNone

/-- `categorize/attenuations/gas_attenuation.py:10-30` `calc_gas_attenuation`. -/
def calcGasAttenuation (d : AttenuationData α) : Attenuation α :=
  let specific : Grid α := fun t h =>
    if d.droplet t h then d.specificSaturatedGas t h else d.specificGas t h
  let twoWay := (calcTwoWayAttenuation d.heightAgl (fun t h => some (specific t h))).toOption
  { amount := twoWay
    error := fun t h => (twoWay t h).map (· * (1 / 10))
    attenuated := Grid.const true
    uncorrected := Grid.const false }

/-- `categorize/attenuations/liquid_attenuation.py:75-84` `_calc_two_way_attenuation`. -/
def liquidTwoWay (d : AttenuationData α) (lwcScaled : Grid (Option α)) : Grid (Option α) :=
  (calcTwoWayAttenuation d.heightAgl
    (fun t h => (lwcScaled t h).map fun x => d.specificLiquid t h * x * 1000)).toOption

/-- `categorize/attenuations/liquid_attenuation.py:19-73` `LiquidAttenuation`. -/
def calcLiquidAttenuation (d : AttenuationData α) : Except String (Attenuation α) := do
  let lwp : ℕ → Option α := d.lwp.getD fun _ => none
  let lwpError : ℕ → Option α := d.lwpError.getD fun _ => none
  let lwcDz := fillCloudsWithLwcDz d.g d.nT d.nH d.temperature d.pressure d.droplet
  let lwcScaled ← normalizeLwcByLwp d.nT d.nH (calcAdiabaticLwc lwcDz d.heightAgl) (clipLwp lwp)
    d.heightAgl
  let lwcErrScaled ← normalizeLwcByLwp d.nT d.nH lwcDz lwpError d.heightAgl
  let attenuated := ffillGrid d.droplet false
  let amount := (liquidTwoWay d lwcScaled).assign (gnot attenuated) none
  let error := (liquidTwoWay d lwcErrScaled).assign (gnot attenuated) none
  return {
    amount := amount
    error := error
    attenuated := attenuated
    uncorrected := gand attenuated (fun t h => (amount t h).isNone) }

/-- `categorize/attenuations/rain_attenuation.py:15-63` `calc_rain_attenuation`. `utils.transpose` at
lines 37 and 60 needs two profiles. -/
def calcRainAttenuation (d : AttenuationData α) : Except String (Attenuation α) :=
  let warm := gnot d.freezing
  let rain2d : Grid Bool := fun t _ => d.isRain t
  let affected := rain2d
  let inducing := gand warm rain2d
  if d.nT ≤ 1 then .error "ValueError: Invalid input array shape"
  else match d.rainRate with
  | none => .ok { amount := Grid.const none, error := Grid.const none,
                  attenuated := affected, uncorrected := affected }
  | some rate =>
    let rate' : ℕ → Option α := fun t => if d.isRain t then rate t else none
    let specific : Grid (Option α) := fun t _ => (rate' t).map d.kRain
    let twoWay := calcTwoWayAttenuation d.heightAgl specific
    let data0 := twoWay.data.assign (gnot inducing) 0
    let data1 := ffillGrid data0 0
    let amount : Grid (Option α) := fun t h => if data1 t h = 0 then none else some (data1 t h)
    .ok { amount := amount
          error := fun t h => (amount t h).map (· * (2 / 10))
          attenuated := affected
          uncorrected := Grid.const false }

/-- `categorize/attenuations/melting_attenuation.py:12-55` `calc_melting_attenuation` (the band lookup,
which raises outside the Ka and W bands, is done by the caller that builds `kMelt`). The comparison
`amount == 0` is false at masked elements. `errorFactor` is 0.2 (Ka) or 0.1 (W). -/
def calcMeltingAttenuation (d : AttenuationData α) (errorFactor : α) :
    Except String (Attenuation α) :=
  match d.rainRate with
  | none =>
    let above := ffillGrid d.melting false
    let a1 := d.freezing.assign (gnot above) false
    let a2 := a1.assign (fun t _ => !d.isRain t) false
    .ok { amount := Grid.const none, error := Grid.const none, attenuated := a2, uncorrected := a2 }
  | some rate =>
    if d.nT ≤ 1 then .error "ValueError: Invalid input array shape"
    else
      let rate' : ℕ → Option α := fun t => if d.isRain t then rate t else some 0
      let atten : ℕ → Option α := fun t => (rate' t).map d.kMelt
      let amount : Grid (Option α) := fun t h =>
        (atten t).map fun a => (if d.freezing t h then 1 else 0) * a
      let noAttenuation : Grid Bool := fun t h => decide (amount t h = some 0)
      let affected := d.freezing.assign noAttenuation false
      let amount' := amount.assign noAttenuation none
      .ok { amount := amount'
            error := fun t h => (amount' t h).map (· * errorFactor)
            attenuated := affected
            uncorrected := gand affected (fun t h => (amount' t h).isNone) }

/-- `categorize/attenuation.py:13-31` `get_attenuations`. -/
def getAttenuations (d : AttenuationData α) (errorFactor : α) :
    Except String (RadarAttenuation α) := do
  let rain ← calcRainAttenuation d
  let gas := calcGasAttenuation d
  let liquid ← calcLiquidAttenuation d
  let melting ← calcMeltingAttenuation d errorFactor
  return {
    gas := gas
    liquid := {
      amount := liquid.amount.assign rain.attenuated none
      error := liquid.error.assign rain.attenuated none
      attenuated := liquid.attenuated.assign rain.attenuated false
      uncorrected := liquid.uncorrected.assign rain.attenuated false }
    rain := rain
    melting := melting }

/-- Masked addition. -/
def madd (x y : Option α) : Option α :=
  match x, y with
  | some a, some b => some (a + b)
  | _, _ => none

/-- `z[ind] += amount[ind]` with `ind = ma.where(amount)`: unmasked non-zero amounts
(`categorize/radar.py:222-227`). -/
def addWhere (z amount : Grid (Option α)) : Grid (Option α) :=
  fun t h => match amount t h with
    | some a => if a ≠ 0 then madd (z t h) (some a) else z t h
    | none => z t h

/-- `categorize/radar.py:210-228` `correct_atten`. -/
def correctAtten (z : Grid (Option α)) (a : RadarAttenuation α) : Grid (Option α) :=
  let z0 : Grid (Option α) := fun t h => madd (z t h) (a.gas.amount t h)
  addWhere (addWhere (addWhere z0 a.liquid.amount) a.rain.amount) a.melting.amount

end

/-- `utils.py:559-579` `l2norm` for one element: `none` is a masked element; sums of masked arrays are
masked where any term is. -/
noncomputable def l2norm (args : List (Option ℝ)) : Option ℝ :=
  (args.foldl (fun ss arg => madd ss (arg.map (· ^ 2))) (some 0)).map Real.sqrt

/-- `categorize/radar.py:274-287`: the radar echo error of a pixel from the radar precision and the
three attenuation errors. -/
noncomputable def zError (zPrecision : Grid (Option ℝ)) (a : RadarAttenuation ℝ) : Grid (Option ℝ) :=
  let e : Grid (Option ℝ) := fun t h =>
    l2norm [zPrecision t h, some ((a.liquid.error t h).getD 0), some ((a.rain.error t h).getD 0),
      some ((a.melting.error t h).getD 0)]
  e.assign (gor (gor a.liquid.uncorrected a.rain.uncorrected) a.melting.uncorrected) none

/-- `categorize/classify.py:108-126` `fetch_quality`. -/
def fetchQuality {β γ : Type*} (z : Grid (Option β)) (beta : Grid (Option γ)) (isClutter : Grid Bool)
    (a : RadarAttenuation α) : QualityBits where
  radar := fun t h => (z t h).isSome
  lidar := fun t h => (beta t h).isSome
  clutter := isClutter
  molecular := Grid.const false
  attenuatedLiquid := a.liquid.attenuated
  correctedLiquid := gand a.liquid.attenuated (gnot a.liquid.uncorrected)
  attenuatedRain := a.rain.attenuated
  correctedRain := gand a.rain.attenuated (gnot a.rain.uncorrected)
  attenuatedMelting := a.melting.attenuated
  correctedMelting := gand a.melting.attenuated (gnot a.melting.uncorrected)

/-- `categorize/attenuations/melting_attenuation.py:58-78` `_calc_melting_attenuation` for one rain
rate (m s-1); `M_S_TO_MM_H` is 3600000. -/
noncomputable def meltingFormula (frequency : ℝ) (rate : ℝ) : Except String ℝ := do
  let band ← getWlBand frequency
  if band = "Ka" then return 0.97 * (rate * 3600000) ^ (0.61 : ℝ)
  else if band = "W" then return 2.9 * (rate * 3600000) ^ (0.42 : ℝ)
  else throw "ValueError: Radar frequency not supported"

end Cloudnet
