import Mathlib.Algebra.Order.Field.Basic
import Mathlib.Analysis.SpecialFunctions.Trigonometric.Basic
import Verif.Basic
import Verif.Droplet.Model
import Verif.Categorize.Model

namespace Cloudnet

/-! Cloud radars with netCDF files: `instruments/nc_radar.py`, `instruments/mira.py` and
`instruments/cloudnet_instrument.py`. -/

/-! ## Pointing -/

section
variable {α : Type} [Field α] [LinearOrder α]

/-- `ma.diff(x, prepend=x[1])` (`nc_radar.py:127`, `nc_radar.py:132`). If `x[1]` is masked, its mask is lost and some number
`junk` is used instead. -/
def prependedDiff (junk : α) (x : ℕ → Option α) : ℕ → Option α
  | 0 => (x 0).map fun v => v - (x 1).getD junk
  | i + 1 => (x (i + 1)).bind fun v => (x i).map fun w => v - w

/-- `nc_radar.py:133-134`: differences of azimuth angles, one value. -/
def wrapDiff (d : α) : α :=
  let d := if 180 < d then d - 360 else d
  if d < -180 then d + 360 else d

/-- `a & b` of masked arrays. -/
def maskedAnd (a b : Option Bool) : Option Bool := a.bind fun a => b.map fun b => a && b

/-- `nc_radar.py:127-139`: is the profile kept? Masked results are replaced by `True`. -/
def stableProfile (n : ℕ) (elThr elDiffThr azDiffThr junk : α) (el az : ℕ → Option α) (i : ℕ) : Bool :=
  let stable := (el i).map fun e => decide (|e - 90| < elThr)
  let stable := maskedAnd stable ((prependedDiff junk el i).map fun d => decide (|d| < elDiffThr))
  let stable :=
    if (List.range n).all fun k => (az k).isNone then stable
    else maskedAnd stable ((prependedDiff junk az i).map fun d => decide (|wrapDiff d| < azDiffThr))
  stable.getD true

/-- The result of `add_zenith_and_azimuth_angles`. -/
structure Pointing (α : Type) where
  zenith : ℕ → Option α
  azimuth : ℕ → Option α
  stable : ℕ → Bool

/-- `nc_radar.py:100-154` `add_zenith_and_azimuth_angles` for `n` profiles. -/
def addAngles (n : ℕ) (elThr elDiffThr azDiffThr junk : α) (zenithOffset azimuthOffset : Option α)
    (el az : ℕ → Option α) : Except String (Pointing α) :=
  let el := fun i => (el i).map fun e => zenithOffset.elim e fun o => e - o
  let az := fun i => (az i).map fun a => azimuthOffset.elim a fun o => a + o
  if n < 2 then .error "ValidTimeStampError"
  else
    let stable := stableProfile n elThr elDiffThr azDiffThr junk el az
    let removed := ((List.range n).filter fun i => !stable i).length
    if n - 1 ≤ removed then .error "ValidTimeStampError"
    else .ok ⟨fun i => (el i).map fun e => 90 - e, az, stable⟩

end

/-! ## Masks -/

section
variable {α : Type} [Field α] [LinearOrder α]

/-- A variable of the instrument: a time-height field or something else (scalars and vectors). -/
inductive NcField (α : Type) where
  | grid (x : Grid (Option α))
  | other (x : List (Option α))

/-- `CloudnetArray.mask_indices` (`cloudnetarray.py:57-59`) of the 2-D variables. -/
def NcField.maskWhere (bad : ℕ → ℕ → Bool) : NcField α → NcField α
  | .grid x => .grid fun t h => if bad t h then none else x t h
  | .other x => .other x

/-- `nc_radar.py:65-71` `screen_by_snr` for the 2-D variables of `data`; `under` is the data under the mask of the SNR. (The
scalar `snr_limit` is added to the data.) -/
def screenBySnr (limit : α) (under : Grid α) (data : List (String × NcField α)) : Except String (List (String × NcField α)) :=
  match data.lookup "SNR" with
  | some (.grid snr) =>
    .ok (dictSet (data.map fun p => (p.1, p.2.maskWhere fun t h => decide ((snr t h).getD (under t h) < limit)))
      "snr_limit" (.other [some limit]))
  | _ => .error "KeyError"

/-- The mean of the valid values; masked if there are none. -/
def maskedMean (l : List (Option α)) : Option α :=
  let v := l.filterMap id
  if v = [] then none else some (v.sum / (v.length : α))

/-- `nc_radar.py:73-81` `screen_using_top_gates_snr` for `nH` gates; pixels with masked SNR or in profiles without a mean
are masked or not depending on `junk`. -/
def screenTopGates (nH : ℕ) (limit : α) (junk : ℕ → ℕ → Bool) (snr zh : Grid (Option α)) : Grid (Option α) := fun t h =>
  let top := (List.range (min 50 nH)).map fun k => snr t (nH - 1 - k)
  let bad := match snr t h, maskedMean top with
    | some s, some m => decide (s < m + limit)
    | _, _ => junk t h
  if bad then none else zh t h

/-- `nc_radar.py:83-90` `mask_invalid_data`. (The masks are views that grow while they are used; this cannot change the
result because every 2-D variable gets both.) -/
def maskInvalidData (data : List (String × NcField α)) : Except String (List (String × NcField α)) :=
  match data.lookup "Zh", data.lookup "v" with
  | some (.grid z), some (.grid v) =>
    .ok (data.map fun p => (p.1, (p.2.maskWhere fun t h => (z t h).isNone).maskWhere fun t h => (v t h).isNone))
  | _, _ => .error "KeyError"

/-- `nc_radar.py:92-98` `mask_first_range_gates` for the variable `v`. -/
def maskFirstGates (limit : α) (range : ℕ → α) (v : Grid (Option α)) : Grid (Option α) :=
  fun t h => if range h < limit then none else v t h

/-- `mira.py:262-272` `mask_bad_angles`, one value of a variable with the given limits. -/
def maskBadAngle (lower upper : α) (x : Option α) : Option α :=
  let margin := (upper - lower) * (5 / 100)
  let x := x.bind fun v => if v < lower - margin then none else some v
  x.bind fun v => if v > upper + margin then none else some v

/-- `mira.py:188-224` `screen_low_power`: the profiles that are kept, for valid powers. `fzk` tells whether the
powers have to be multiplied by 100 (`mira.py:226-241`). -/
def keptPower (isMira35c fzk : Bool) (tpow : List α) : List Bool :=
  let tpow := if fzk then tpow.map fun p => p * 100 else tpow
  let threshold : α := if isMira35c then 5 / 10 else 5
  tpow.map fun p => !decide (p < threshold)

/-- `mira.py:243-260` `screen_invalid_ldr`: `none` if the variable is deleted. -/
def screenLdr (nT nH : ℕ) (pol : String) (ldr : Grid (Option α)) : Option (Grid (Option α)) :=
  if pol = "0" then none
  else
    match maskedMean ((List.range nT).flatMap fun t => (List.range nH).map fun h => ldr t h) with
    | some m => if 0 < m then some fun _ _ => none else some ldr
    | none => some ldr

end

/-! ## Height -/

/-- `cloudnet_instrument.py:89-95` `_get_zenith_angle`; an absent variable is the empty list. -/
noncomputable def getZenithAngle (zenith : List (Option ℝ)) : Option ℝ :=
  let v := zenith.filterMap id
  if v = [] then none else some (median v)

/-- `utils.py:856-870` `range_to_height`; the angle is in degrees. -/
noncomputable def rangeToHeight (range tilt : ℝ) : ℝ := range * Real.cos (tilt * (Real.pi / 180))

/-- `cloudnet_instrument.py:35-42` `add_height`, one gate. -/
noncomputable def addHeight (zenith : List (Option ℝ)) (altitude range : ℝ) : ℝ :=
  rangeToHeight range ((getZenithAngle zenith).getD 0) + altitude

end Cloudnet
