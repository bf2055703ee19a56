import Verif.Search.Model
import Verif.Arrays.Model
import Mathlib.Algebra.Order.Field.Basic
import Mathlib.Algebra.Order.Group.Unbundled.Abs
import Mathlib.Algebra.Order.Floor.Ring
import Mathlib.Data.List.Sort
import Mathlib.Order.WithBot

namespace Cloudnet

/-! Interpolation and time vectors of `cloudnetpy/utils.py`. Vectors are functions on `ℕ` with a length;
`none` is a masked value. -/

variable {α : Type} [Field α] [LinearOrder α]

/-- `y.min()` of a vector of length `m + 1`. -/
def vmin (y : ℕ → α) (m : ℕ) : α := y (argmin y m)

/-- `y.max()` of a vector of length `m + 1`. -/
def vmax (y : ℕ → α) (m : ℕ) : α := y (argmax y m)

/-- `utils.py:462-468`: index of the gate chosen for the new coordinate `v`. -/
def nearestIndex (m : ℕ) (y : ℕ → α) (v : α) : ℕ :=
  let idx := min (bisectLeft y v m) (m - 1)
  let left := idx - 1
  if idx = 0 ∨ (idx < m ∧ |y idx - v| < |v - y left|) then idx else left

/-- `utils.py:444-473` `interpolate_2D_along_y` for a height vector of length `m ≥ 1`: value at time `t`
and new height `v`. -/
def interpolateAlongY (m : ℕ) (y : ℕ → α) (z : Grid (Option α)) (t : ℕ) (v : α) : Option α :=
  if v < vmin y (m - 1) ∨ vmax y (m - 1) < v then none else z t (nearestIndex m y v)

/-- `utils.py:515-529` `get_gap_ind`; `⊤` is `np.inf`. -/
def getGapInd (g : ℕ) (grid : ℕ → α) (n : ℕ) (newGrid : ℕ → α) (threshold : α) : List ℕ :=
  if g = 0 then List.range n
  else (List.range n).filter fun k =>
    let idx := bisectLeft grid (newGrid k) g
    let leftDist : WithTop α := if 0 < idx then ((|newGrid k - grid (idx - 1)| : α) : WithTop α) else ⊤
    let rightDist : WithTop α :=
      if idx < g then ((|newGrid k - grid (min idx (g - 1))| : α) : WithTop α) else ⊤
    decide ((threshold : WithTop α) < min leftDist rightDist)

/-- `np.unique(x, return_index=True)[1]` for a vector of length `n`: the first positions of the distinct
values, in the order of the values. -/
def uniqueIndex (n : ℕ) (x : ℕ → α) : List ℕ :=
  ((List.range n).filter fun i => decide (∀ j < i, x j ≠ x i)).insertionSort fun i j => x i ≤ x j

/-- `interp1d(x, y, kind="linear", fill_value=(y[0], y[-1]), bounds_error=False)` for a strictly
increasing vector of length `m ≥ 1` (SciPy delegates to `np.interp`; for a single point the function is
constant). -/
def interpLinear (m : ℕ) (x y : ℕ → α) (v : α) : α :=
  if v < x 0 then y 0
  else if x (m - 1) < v then y (m - 1)
  else if m = 1 then y 0
  else
    let hi := min (max (bisectLeft x v m) 1) (m - 1)
    let lo := hi - 1
    (y hi - y lo) / (x hi - x lo) * (v - x lo) + y lo

/-- `interp1d(x, y, kind="nearest", fill_value=(y[0], y[-1]), bounds_error=False)`: search among the mid
points, `side="left"`. -/
def interpNearest (m : ℕ) (x y : ℕ → α) (v : α) : α :=
  if v < x 0 then y 0
  else if x (m - 1) < v then y (m - 1)
  else y (min (bisectLeft (fun i => x i / 2 + x (i + 1) / 2) v (m - 1)) (m - 1))

/-- `utils.py:476-512` `interpolate_1d`: `n` samples `y` at `time`, `nNew` new times; `nearest` chooses
the method. An empty time vector makes `np.max` fail. -/
def interpolate1d (n : ℕ) (time : ℕ → α) (y : ℕ → Option α) (nNew : ℕ) (timeNew : ℕ → α) (maxTime : α)
    (nearest : Bool) : Except String (ℕ → Option α) :=
  if n = 0 then .error "ValueError: zero-size array"
  else if vmax time (n - 1) > 24 ∨ vmin time (n - 1) < 0 then
    .error "ValueError: Time vector must be in fraction hours between 0 and 24"
  else
    let valid := (List.range n).filter fun i => (y i).isSome
    if valid = [] then .ok fun _ => none
    else
      let time1 : ℕ → α := fun i => time (valid.getD i 0)
      let y1 : ℕ → α := fun i => (y (valid.getD i 0)).getD 0
      let u := uniqueIndex valid.length time1
      let time2 : ℕ → α := fun i => time1 (u.getD i 0)
      let y2 : ℕ → α := fun i => y1 (u.getD i 0)
      let f := if nearest then interpNearest u.length time2 y2 else interpLinear u.length time2 y2
      let bad := getGapInd u.length time2 nNew timeNew (maxTime / 60)
      .ok fun k => if k ∈ bad then none else some (f (timeNew k))

/-- `utils.py:81-101` `time_grid`: `np.arange(start, stop, step)` has `ceil((stop - start) / step)`
elements `start + i step`. Returns length and elements. -/
def timeGrid [FloorRing α] (timeStep : α) : Except String (ℕ × (ℕ → α)) :=
  if timeStep < 1 then .error "ValueError: Time resolution should be >= 1 seconds"
  else
    let halfStep := timeStep / 3600 / 2
    .ok (⌈(24 + halfStep - halfStep) / (halfStep * 2)⌉₊, fun i => halfStep + i * (halfStep * 2))

/-- `np.mod(x, m)` for positive `m`. -/
def npMod [FloorRing α] (x m : α) : α := x - m * ⌊x / m⌋

/-- `utils.py:32-49` `seconds2hours` for a vector of length `n` (`IndexError` if empty). -/
def seconds2hours [FloorRing α] (n : ℕ) (seconds : ℕ → α) : Except String (ℕ → α) :=
  if n = 0 then .error "IndexError"
  else
    let fractionHour : ℕ → α := fun i => npMod (seconds i) 86400 / 3600
    .ok fun i => if i = n - 1 ∧ fractionHour (n - 1) = 0 then 24 else fractionHour i

/-- The time of day of a Python `datetime`. -/
structure ClockTime where
  hour : ℕ
  minute : ℕ
  second : ℕ
  microsecond : ℕ

/-- `utils.py:71-78` `datetime2decimal_hours`, one time stamp. -/
def datetime2decimalHours (t : ClockTime) : α := t.hour + t.minute / 60 + t.second / 3600

/-- `utils.py:1037-1053` `edges2mid` for a vector of length `n` (`lower` says whether the reference is
"lower"); one element has no gap and raises `IndexError`. -/
def edges2mid (n : ℕ) (data : ℕ → α) (lower : Bool) : Except String (ℕ → α) :=
  if n < 2 then .error "IndexError"
  else
    let gaps : ℕ → α := fun i => (data (i + 1) - data i) / 2
    if lower then .ok fun i => data i + if i = n - 1 then gaps (n - 2) else gaps i
    else .ok fun i => data i - if i = 0 then gaps 0 else gaps (i - 1)

end Cloudnet
