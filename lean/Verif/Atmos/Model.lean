import Verif.Arrays.Model
import Verif.Components.Model
import Mathlib.Algebra.Order.Field.Basic
import Mathlib.Algebra.BigOperators.Group.Finset.Basic

namespace Cloudnet

/-! Cloud bases and tops, adiabatic liquid water content (`categorize/atmos_utils.py`), and the part of
the LWC product that is written to file (`products/lwc.py:76-177`).

Real numbers: `α` is any linear ordered field. Masked values are `none`. -/

variable {α : Type*}

/-- `np.diff(np.insert(array, 0, 0, axis=1).astype(int)) == 1` on one row; `categorize/atmos_utils.py:9-21`
`find_cloud_bases`. -/
def findCloudBasesRow (a : ℕ → Bool) : ℕ → Bool :=
  let padded : ℕ → ℤ := fun i => match i with
    | 0 => 0
    | i + 1 => if a i then 1 else 0
  fun j => padded (j + 1) - padded j == 1

/-- `np.fliplr` on one row of `n` elements. -/
def fliplr (n : ℕ) (a : ℕ → α) : ℕ → α := fun j => a (n - 1 - j)

/-- `categorize/atmos_utils.py:24-36` `find_cloud_tops` on one row of `n` gates. -/
def findCloudTopsRow (n : ℕ) (a : ℕ → Bool) : ℕ → Bool :=
  fliplr n (findCloudBasesRow (fliplr n a))

/-- `find_cloud_bases` on a whole array. -/
def findCloudBases (a : Grid Bool) : Grid Bool := fun t => findCloudBasesRow (a t)

/-- `find_cloud_tops` on a whole array with `nH` gates. -/
def findCloudTops (nH : ℕ) (a : Grid Bool) : Grid Bool := fun t => findCloudTopsRow nH (a t)

/-- `np.where(mask)` for a 2-D array: the set positions in row-major order. -/
def whereGrid (nT nH : ℕ) (m : Grid Bool) : List Pixel :=
  (List.range nT).flatMap fun t => ((List.range nH).filter (m t)).map fun h => (t, h)

/-- The pairing of bases and tops in `products/der.py:153-162` and `categorize/falling.py:100-109`:
`zip(zip(*np.where(bases)), zip(*np.where(tops)), strict=True)`; `strict=True` raises when the lengths
differ. -/
def cloudBaseTopPairs (nT nH : ℕ) (a : Grid Bool) : Except String (List (Pixel × Pixel)) :=
  let bases := whereGrid nT nH (findCloudBases a)
  let tops := whereGrid nT nH (findCloudTops nH a)
  if bases.length = tops.length then .ok (bases.zip tops) else .error "ValueError: zip() strict"

/-- `np.argmax` of a boolean row of `n` elements: the first `True`, or 0 if there is none. -/
def argmaxBool (n : ℕ) (b : ℕ → Bool) : ℕ := ((List.range n).find? b).getD 0

section
variable [Field α] [LinearOrder α]

/-- `categorize/atmos_utils.py:58-61` `_find_lowest_heights` for one profile of `n` gates: value at the
first non-zero gate, with 0.0 as the mask sentinel. -/
def findLowestHeight (n : ℕ) (cloudHeights : ℕ → α) : Option α :=
  let ind := argmaxBool n (fun h => decide (cloudHeights h ≠ 0))
  let v := cloudHeights ind
  if v = 0 then none else some v

/-- `cloud_mask * height` with the integer mask of `products/classification.py:324`. -/
def maskTimesHeight (mask : ℕ → Bool) (height : ℕ → α) : ℕ → α :=
  fun h => (if mask h then 1 else 0) * height h

/-- `categorize/atmos_utils.py:39-45` `find_lowest_cloud_bases` for one profile. -/
def findLowestCloudBase (n : ℕ) (mask : ℕ → Bool) (height : ℕ → α) : Option α :=
  findLowestHeight n (maskTimesHeight mask height)

/-- `categorize/atmos_utils.py:48-55` `find_highest_cloud_tops` for one profile. -/
def findHighestCloudTop (n : ℕ) (mask : ℕ → Bool) (height : ℕ → α) : Option α :=
  findLowestHeight n (fliplr n (maskTimesHeight mask height))

/-- Masked subtraction. -/
def msub (x y : Option α) : Option α :=
  match x, y with
  | some a, some b => some (a - b)
  | _, _ => none

/-- `products/classification.py:296-308` `_get_cloud_base_and_top_heights`, from the cloud mask on.
`ma.all` skips masked values and is falsy when everything is masked. -/
def getCloudBaseAndTopHeights (nT nH : ℕ) (mask : Grid Bool) (height : ℕ → α) :
    Except String ((ℕ → Option α) × (ℕ → Option α)) :=
  if (whereGrid nT nH mask).isEmpty then .ok (fun _ => none, fun _ => none)
  else
    let bases : ℕ → Option α := fun t => findLowestCloudBase nH (mask t) height
    let tops : ℕ → Option α := fun t => findHighestCloudTop nH (mask t) height
    let diffs := (List.range nT).filterMap (fun t => msub (tops t) (bases t))
    if diffs.isEmpty || !(diffs.all fun d => decide (0 ≤ d)) then
      .error "ValueError: Cloud base higher than cloud top!"
    else .ok (bases, tops)

/-- `products/classification.py:62-71`: the AGL variables are the AMSL ones minus the site altitude. -/
def heightAgl (altitude : α) (h : ℕ → Option α) : ℕ → Option α := fun t => (h t).map (· - altitude)

/-- `utils.py:1103-1104` `path_lengths_from_ground`: `np.diff(height_agl, prepend=0)`. -/
def pathLengthsFromGround (heightAgl : ℕ → α) : ℕ → α
  | 0 => heightAgl 0 - 0
  | h + 1 => heightAgl (h + 1) - heightAgl h

/-- `categorize/atmos_utils.py:85-108` `get_lwc_change_rate_at_bases`. The thermodynamic function
`atmoslib.adiabatic_lwc_gradient` is the parameter `g`. -/
def getLwcChangeRateAtBases (g : α → α → α) (temperature pressure : Grid α) (isLiquid : Grid Bool) :
    Grid α :=
  fun t h => if findCloudBases isLiquid t h then g (temperature t h) (pressure t h) else 0

/-- `categorize/atmos_utils.py:64-82` `fill_clouds_with_lwc_dz`:
`filled[is_liquid] = ffill(lwc_dz[is_liquid])`. Boolean indexing flattens row by row, so the forward
fill runs over the list of liquid positions of the *whole* array. -/
def fillCloudsWithLwcDz (g : α → α → α) (nT nH : ℕ) (temperature pressure : Grid α)
    (isLiquid : Grid Bool) : Grid α :=
  let lwcDz := getLwcChangeRateAtBases g temperature pressure isLiquid
  let positions := whereGrid nT nH isLiquid
  let flat : ℕ → α := fun i => ((positions[i]?).map fun p => lwcDz p.1 p.2).getD 0
  fun t h => if isLiquid t h then ffill flat 0 (positions.idxOf (t, h)) else 0

/-- `categorize/atmos_utils.py:111-127` `calc_adiabatic_lwc`. -/
def calcAdiabaticLwc (lwcDz : Grid α) (heightAgl : ℕ → α) : Grid α :=
  fun t h =>
    let isCloud : ℕ → ℤ := fun j => if lwcDz t j ≠ 0 then 1 else 0
    let cloudIndices := cumsumr isCloud
    let dz : ℕ → α := fun j => if cloudIndices j < 1 then 0 else pathLengthsFromGround heightAgl j
    cumsumr dz h * lwcDz t h

/-- Masked division: a zero divisor masks the result. -/
def mdiv (x : Option α) (y : α) : Option α :=
  match x with
  | some a => if y = 0 then none else some (a / y)
  | none => none

/-- `categorize/atmos_utils.py:130-151` `normalize_lwc_by_lwp` for `nT` profiles. `utils.transpose`
(`utils.py:798-803`) rejects vectors of length at most one. -/
def normalizeLwcByLwp (nT nH : ℕ) (lwcAdiabatic : Grid α) (lwp : ℕ → Option α) (heightAgl : ℕ → α) :
    Except String (Grid (Option α)) :=
  let pathLengths := pathLengthsFromGround heightAgl
  let theoreticalLwp : ℕ → α := fun t => ∑ h ∈ Finset.range nH, lwcAdiabatic t h * pathLengths h
  let scalingFactors : ℕ → Option α := fun t => mdiv (lwp t) (theoreticalLwp t)
  if nT ≤ 1 then .error "ValueError: Invalid input array shape"
  else .ok fun t h => (scalingFactors t).map fun s => lwcAdiabatic t h * s

/-- `products/lwc.py:102` `lwp[lwp < 0] = 0`. Simplification: the comparison skips masked values. -/
def clipLwp (lwp : ℕ → Option α) : ℕ → Option α :=
  fun t => (lwp t).map fun x => if x < 0 then 0 else x

/-- `products/lwc.py:129-176` class `Lwc`: the liquid water content written to file. -/
def lwcProduct (g : α → α → α) (nT nH : ℕ) (temperature pressure : Grid α) (isLiquid : Grid Bool)
    (lwp : ℕ → Option α) (isRain : ℕ → Bool) (heightAgl : ℕ → α) :
    Except String (Grid (Option α)) := do
  let lwcDz := fillCloudsWithLwcDz g nT nH temperature pressure isLiquid
  let lwcAdiabatic := calcAdiabaticLwc lwcDz heightAgl
  let lwc ← normalizeLwcByLwp nT nH lwcAdiabatic (clipLwp lwp) heightAgl
  return fun t h => if isRain t then none else lwc t h

end

end Cloudnet
