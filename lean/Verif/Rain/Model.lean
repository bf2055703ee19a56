import Verif.Atmos.Model
import Mathlib.Algebra.Order.Field.Basic
import Mathlib.Algebra.Order.Group.Unbundled.Abs
import Mathlib.Algebra.Order.Ring.Rat

namespace Cloudnet

/-! Rain and clutter: `categorize/containers.py`. -/

section
variable {α : Type} [Field α] [LinearOrder α]

/-- A NumPy masked array: the mask and the data, which exist under the mask too. -/
structure Masked (α : Type) where
  data : Grid α
  mask : Grid Bool

/-- The value of a pixel, `none` if masked. -/
def Masked.get {α : Type} (a : Masked α) (t h : ℕ) : Option α := if a.mask t h then none else some (a.data t h)

/-- The disdrometer variables (`categorize/disdrometer.py:30-38`), on the time grid. -/
structure DisdrometerData (α : Type) where
  rainfallRate : ℕ → Option α
  nParticles : ℕ → Option α
  synop : Option (ℕ → Option α)

/-- The fields of `ClassData` used to find rain and clutter; `nT` profiles of `nH` gates. -/
structure RainInput (α : Type) where
  nT : ℕ
  nH : ℕ
  z : Masked α
  v : Masked α
  ldr : Option (Masked α)
  sldr : Option (Masked α)
  tw : Grid (Option α)
  disdrometer : Option (DisdrometerData α)

/-- `containers.py:109`: `np.argmin(z.mask.all(axis=0))`, the first gate with data, 0 if there is none. -/
def RainInput.firstGateWithData (o : RainInput α) : ℕ :=
  ((List.range o.nH).find? fun h => !(List.range o.nT).all fun t => o.z.mask t h).getD 0

/-- `containers.py:108-128` `_find_rain_from_radar_echo`. `np.where` looks at the data of the masked condition,
so the data under the mask of `v` and `ldr` count. Without depolarisation the threshold minus one is used. -/
def RainInput.rainFromRadarEcho (o : RainInput α) : Except String (ℕ → ℤ) :=
  let gate := o.firstGateWithData + 3
  if o.nH ≤ gate then .error "IndexError"
  else
    let ldr : ℕ → α := fun t => (o.ldr.or o.sldr).elim (-15 - 1) fun a => a.data t gate
    .ok fun t =>
      if !o.z.mask t gate && decide (3 < o.z.data t gate) && decide (o.v.data t gate < 0) && decide (ldr t < -15)
        then 1 else 0

/-- `containers.py:130-141` `_find_rain_from_disdrometer`; the limit is 0.25 mm/h in m/s and 30 particles. -/
def RainInput.rainFromDisdrometer (o : RainInput α) : ℕ → Option ℤ :=
  match o.disdrometer with
  | none => fun _ => none
  | some d => fun t =>
    match d.rainfallRate t, d.nParticles t with
    | some rate, some n => some (if 25 / 100 * (1 / (3600 / (1 / 1000))) < rate ∧ 30 < n then 1 else 0)
    | _, _ => none

/-- `containers.py:90-106` `_find_profiles_with_rain`: 1 or 0, `none` where the weather code is masked. -/
def RainInput.profilesWithRain (o : RainInput α) : Except String (ℕ → Option ℤ) := do
  let echo ← o.rainFromRadarEcho
  let isRain : ℕ → ℤ := fun t => (o.rainFromDisdrometer t).getD (echo t)
  match o.disdrometer.bind (·.synop) with
  | some wawa =>
    return fun t => (wawa t).map fun w => if 57 ≤ w ∧ w ≤ 68 then isRain t else 0
  | none =>
    match (List.range o.nH).find? fun h => (List.range o.nT).all fun t => (o.tw t h).isSome with
    | none => throw "IndexError"
    | some first =>
      return fun t => some (if 27316 / 100 + 5 < (o.tw t first).getD 0 then isRain t else 0)

/-- Python's `~` of an integer. -/
def bitInvert (x : ℤ) : ℤ := -x - 1

/-- `containers.py:144-168` `_find_clutter` as called in line 85, with the rain flag the integer array computed
above: `~` is the bitwise complement and the product is cast to `bool`. Where the flag is masked the product
keeps its left operand. A single profile is rejected by `utils.transpose`. -/
def findClutter (nT nGates : ℕ) (vLim : α) (v : Masked α) (isRain : ℕ → Option ℤ) : Except String (Grid Bool) :=
  if nT ≤ 1 then .error "ValueError: Invalid input array shape"
  else .ok fun t h =>
    if h < nGates then
      let tiny : ℤ := if !v.mask t h && decide (|v.data t h| < vLim) then 1 else 0
      decide ((match isRain t with | none => tiny | some r => tiny * bitInvert r) ≠ 0)
    else false

/-- `containers.py:84-85`: the rain flag and the clutter of an observation. -/
def RainInput.rainAndClutter (o : RainInput α) : Except String ((ℕ → Option ℤ) × Grid Bool) := do
  let isRain ← o.profilesWithRain
  let clutter ← findClutter o.nT 10 (5 / 100) o.v isRain
  return (isRain, clutter)

end

end Cloudnet
