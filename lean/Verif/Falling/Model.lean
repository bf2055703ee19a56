import Verif.Atmos.Model
import Mathlib.Algebra.Order.Field.Basic

namespace Cloudnet

/-! Falling hydrometeors: `categorize/falling.py`. -/

section
variable {α : Type} [Field α] [LinearOrder α]

/-- The fields of `ClassData` used by `falling.py`. -/
structure FallingInput (α : Type) where
  nT : ℕ
  nH : ℕ
  z : Grid (Option α)
  beta : Grid (Option α)
  tw : Grid α
  height : ℕ → α
  altitude : α
  clutter : Grid Bool

/-- `falling.py:47-51` `_find_falling_from_radar`. -/
def findFallingFromRadar (o : FallingInput α) (insects : Grid Bool) : Grid Bool :=
  fun t h => (o.z t h).isSome && !o.clutter t h && !insects t h

/-- `falling.py:54-89` `_find_cold_aerosols` (`T0` is 273.16). Every pixel is visited once and depends on
itself and the lidar only, so the loop is a map. -/
def findColdAerosols (o : FallingInput α) (liquid : Grid Bool) : Grid Bool :=
  let lidarRange : ℕ → α := fun h => o.height h - o.altitude
  let isBeta : Grid Bool := fun t h => (o.beta t h).isSome
  let cold : Grid Bool := fun _ _ => false
  let cold := cold.assign (fun t h => decide (o.tw t h < 27316 / 100 - 15) && isBeta t h && !liquid t h) true
  let cold := cold.assign (fun _ h => decide (lidarRange h < 2000)) false
  fun t h =>
    if cold t h && decide (lidarRange h < 4000) then
      let startInd := h + 1 - 6
      let nBetaBelow := ((List.range (h + 1 - startInd)).filter fun i => isBeta t (startInd + i)).length
      if 2 < nBetaBelow then false else cold t h
    else cold t h

/-- `falling.py:117-122` `_is_z_missing_above_liquid` for a profile of `n` gates. -/
def isZMissingAboveLiquid (n : ℕ) (z : ℕ → Option α) (top : ℕ) : Bool :=
  if top = n - 1 then false else (z (top + 1)).isNone

/-- `falling.py:125-130` `_is_z_increasing`. -/
def isZIncreasing (z : ℕ → Option α) (base top : ℕ) : Bool :=
  let zValid := (List.range (top + 1 - base)).filterMap fun i => z (base + i)
  if 1 < zValid.length then decide (zValid.headD 0 < zValid.getLastD 0) else false

/-- `falling.py:92-114` `_fix_liquid_dominated_radar`. -/
def fixLiquidDominatedRadar (o : FallingInput α) (falling liquid : Grid Bool) : Except String (Grid Bool) := do
  let pairs ← cloudBaseTopPairs o.nT o.nH liquid
  return pairs.foldl (fun (falling : Grid Bool) q =>
    if isZMissingAboveLiquid o.nH (o.z q.1.1) q.2.2 && isZIncreasing (o.z q.1.1) q.1.2 q.2.2 then
      fun t h => if t = q.1.1 ∧ q.1.2 ≤ h ∧ h ≤ q.2.2 then false else falling t h
    else falling) falling

/-- `falling.py:12-44` `find_falling_hydrometeors`. -/
def findFallingHydrometeors (o : FallingInput α) (liquid insects : Grid Bool) : Except String (Grid Bool) := do
  let fromRadar := findFallingFromRadar o insects
  let fixed ← fixLiquidDominatedRadar o fromRadar liquid
  let cold := findColdAerosols o liquid
  return fun t h => fixed t h || cold t h

end

end Cloudnet
