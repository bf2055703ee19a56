import Mathlib.Algebra.Order.Field.Basic
import Mathlib.Order.WithBot
import Verif.Basic
import Verif.Arrays.Model
import Verif.Droplet.Model
import Verif.NcRadar.Model
import Verif.Cli.Model

namespace Cloudnet

/-! Noise screening of ceilometers: `instruments/ceilometer.py`. The input is unmasked; a gate at range zero is masked
by the range correction and is assumed to be one of the five lowest gates. -/

section
variable {α : Type} [Field α] [LinearOrder α]

/-- `ceilometer.py:291-303` `_get_altitude_ind`: the limit of the ranges where the range correction is applied. -/
def altLimit (rangeCorrected : Bool) (model : Option String) : α :=
  if rangeCorrected then 1000000000000
  else
    match model with
    | none => 1000000000000
    | some model =>
      let model := pyLower model
      if model = "ct25k".toList then 0
      else if model = "cl31".toList ∨ model = "cl51".toList then 2400 else 1000000000000

/-- `ceilometer.py:305-308` `_get_range_squared`. -/
def rangeSquared (r : α) : α := (r * (1 / 1000)) ^ 2

/-- `ceilometer.py:283-285` `_calc_range_uncorrected`, one value. Division by zero is masked. -/
def rangeUncorrect (limit r x : α) : Option α :=
  if r < limit then (if rangeSquared r = 0 then none else some (x / rangeSquared r)) else some x

/-- `ceilometer.py:287-289` `_calc_range_corrected`, one value. -/
def rangeCorrect (limit r : α) (x : Option α) : Option α := if r < limit then x.map fun x => x * rangeSquared r else x

/-- `round(n * 0.1)` (`ceilometer.py:330`). -/
def tenth (n : ℕ) : ℕ := if n % 10 < 5 then n / 10 else if 5 < n % 10 then n / 10 + 1 else n / 10 + n / 10 % 2

/-- `data[:, -n_gates:]`, one profile. -/
def topGates {β : Type} (nH : ℕ) (x : ℕ → β) : List β :=
  let n := if tenth nH = 0 then nH else tenth nH
  (List.range n).map fun k => x (nH - n + k)

/-- `ma.var`; masked if there are no valid values. -/
def maskedVar (l : List (Option α)) : Option α :=
  (maskedMean l).map fun m =>
    let v := l.filterMap id
    (v.map fun x => (x - m) ^ 2).sum / (v.length : α)

/-- `profile[ind:][profile[ind:] < threshold] = ma.masked` -/
def maskLowFrom (threshold : α) (ind : ℕ) (x : ℕ → Option α) : ℕ → Option α :=
  fun h => if ind ≤ h then (x h).bind fun v => if v < threshold then none else some v else x h

/-- `ceilometer.py:233-236`: the gates where a run of more than `n` negative values has been counted. -/
def negativeRuns (nH n : ℕ) (x : ℕ → Option α) : List ℕ :=
  (List.range nH).filter fun k => decide (5 ≤ k ∧ k < 95 + 5 ∧
    (n : α) < cumsumr (fun i => if (x (i + 5)).elim false (fun v => decide (v < 0)) then (1 : α) else 0) (k - 5))

/-- `ceilometer.py:225-244` `_mask_low_values_above_consequent_negatives`, one profile. -/
def filterNegatives (nH n : ℕ) (x : ℕ → Option α) : ℕ → Option α :=
  (negativeRuns nH n x).foldl (fun x k => maskLowFrom (8 / 1000000) k x) x

/-- `ceilometer.py:246-260` `_find_fog_profiles`, one profile of `beta_raw`. -/
def isFog (nH : ℕ) (betaRaw : ℕ → α) : Bool :=
  let signal := ((List.range (min 20 nH)).map fun k => |betaRaw k|).sum
  decide (1 / 1000 < signal) ||
    decide ((maskedVar (topGates nH fun h => some (betaRaw h))).getD 0 < 1 / 1000000000000000)

/-- `ceilometer.py:310-320` `_clean_fog_profiles`, one profile. `np.argmax` ignores masked values. -/
def cleanFog (nH : ℕ) (x : ℕ → Option α) : ℕ → Option α :=
  maskLowFrom (2 / 1000000) (argmax (fun h => ((x h).elim ⊥ fun v => (v : WithBot α))) (nH - 1)) x

/-- `ceilometer.py:262-281` `_remove_noise`, one value. -/
def removeNoise (rangeCorrected keepNegative : Bool) (limit r noise snrLimit : α) (x : Option α) : Option α :=
  x.bind fun v =>
    let snr := v / noise
    let snr := if rangeCorrected = false ∧ r < limit then snr * 6 else snr
    let snr := if keepNegative then |snr| else snr
    if snr < snrLimit then none else some v

/-- Options of `screen_data`. -/
structure ScreenOptions where
  keepNegative : Bool := false
  filterFog : Bool := true
  filterNegatives : Bool := true
  filterSnr : Bool := true

/-- `ceilometer.py:192-200`: the background noise of a profile. `ceilometer.py:210-223` `_adjust_noise` raises it to
`noiseMin`. If no gate used for the noise is valid, zero is used (in NumPy it is masked). -/
def profileNoise (sqrt : α → α) (o : ScreenOptions) (noiseMin : α) (nH n : ℕ) (betaRaw : ℕ → α) (x : ℕ → Option α) : α :=
  let noise := sqrt ((maskedVar (topGates nH x)).getD 0)
  let noise := if noise < noiseMin then noiseMin else noise
  let noise := if o.filterNegatives && !(negativeRuns nH n x).isEmpty then 1 / 1000000000000 else noise
  if o.filterFog && isFog nH betaRaw then 1 / 1000000000000 else noise

/-- `ceilometer.py:174-208` `screen_data`, one profile; `sqrt` is the square root. -/
def screenProfile (sqrt : α → α) (o : ScreenOptions) (rangeCorrected : Bool) (limit noiseMin snrLimit : α) (nH n : ℕ)
    (range betaRaw x : ℕ → α) : ℕ → Option α :=
  let d : ℕ → Option α := fun h => rangeUncorrect limit (range h) (x h)
  let noise := profileNoise sqrt o noiseMin nH n betaRaw d
  let d := if o.filterNegatives then filterNegatives nH n d else d
  let d := if o.filterFog && isFog nH betaRaw then cleanFog nH d else d
  let d := if o.filterSnr then fun h => removeNoise rangeCorrected o.keepNegative limit (range h) noise snrLimit (d h) else d
  fun h => rangeCorrect limit (range h) (d h)

/-- `ceilometer.py:57-82` `calc_beta_smooth`; `beta` is the screened backscatter, `under` the data under its
mask (which are searched for clouds, too), `filter` the Gaussian filter. -/
def betaSmooth (sqrt : α → α) (filter : Grid α → Grid α) (rangeCorrected : Bool) (limit noiseSmoothMin snrLimit : α)
    (nH n : ℕ) (range : ℕ → α) (betaRaw under : Grid α) (beta : Grid (Option α)) : Grid (Option α) :=
  let cloud : Grid Bool := fun t h => decide (1 / 1000000 < (beta t h).getD (under t h))
  let raw : Grid α := fun t h => if cloud t h then 1 / 1000000 else betaRaw t h
  let smooth := filter raw
  let smooth : Grid α := fun t h => if cloud t h then (beta t h).getD (under t h) else smooth t h
  fun t => screenProfile sqrt {} rangeCorrected limit noiseSmoothMin snrLimit nH n range (betaRaw t) (smooth t)

/-- `ceilometer.py:117-121` `screen_depol`, one value. -/
def screenDepol (x : Option α) : Option α :=
  let x := x.bind fun v => if v ≤ 0 then none else some v
  x.bind fun v => if 1 < v then none else some v

/-- `ceilometer.py:141-157` `screen_sunbeam`: is the profile kept? -/
def keepSunbeam (nH : ℕ) (range : ℕ → α) (beta : ℕ → Option α) : Bool :=
  let high := (List.range nH).filter fun h => decide (10000 < range h)
  if high = [] then true
  else
    let isData := high.map fun h => (beta h).isSome
    let binSize := isData.length / 20
    let bins := (List.range 20).map fun b => ((isData.drop (b * binSize)).take binSize).any id
    decide ((bins.filter id).length < 15)

/-- `ceilometer.py:334-364` `calc_sigma_units`, for `nT` times and `nH` ranges. -/
def calcSigmaUnits (sigmaMinutes sigmaMetres : α) (nT : ℕ) (time : ℕ → α) (nH : ℕ) (range : ℕ → α) : Except String (α × α) :=
  if nT = 0 ∨ ((List.range nT).any fun i => decide (24 < time i)) then .error "ValueError: Invalid time vector"
  else .ok (sigmaMinutes / (mdiff nT time * 60), sigmaMetres / mdiff nH range)

end

end Cloudnet
