import Mathlib.Data.Rat.Floor
import Verif.Stored.Model
import Verif.Interp.Model

/-! `time_grid` with the floating point numbers of the machine instead of exact numbers. -/

namespace Cloudnet

/-- The result of an operation in double precision (IEEE 754, rounding to nearest) for the exact result `x`. -/
def fl (x : ℚ) : ℚ := roundFloat NcType.f8.format x

/-- `numpy.arange(start, stop, step)` for doubles: the length is `ceil((stop - start) / step)`; the array is filled from its first two elements. -/
def arangeFloat (start stop step : ℚ) : ℕ × (ℕ → ℚ) :=
  let second := fl (start + step)
  let delta := fl (second - start)
  (⌈fl (fl (stop - start) / step)⌉₊, fun i => if i = 0 then start else if i = 1 then second else fl (start + fl (i * delta)))

/-- `utils.py:81-101` `time_grid` for an integer number of seconds, in double precision. -/
def timeGridFloat (timeStep : ℤ) : Except String (ℕ × (ℕ → ℚ)) :=
  if timeStep < 1 then .error "Time resolution should be >= 1 seconds"
  else
    let halfStep := fl (fl (timeStep / 3600) / 2)
    .ok (arangeFloat halfStep (fl (24 + halfStep)) (fl (halfStep * 2)))

/-- `utils.py:32-49` `seconds2hours` in double precision. `numpy.mod` is the exact remainder of C's `fmod`, to which the divisor is added if it is negative; only this sum
is rounded. -/
def seconds2hoursFloat (n : ℕ) (seconds : ℕ → ℚ) : Except String (ℕ → ℚ) :=
  if n = 0 then .error "IndexError"
  else
    let fractionHour : ℕ → ℚ := fun i => fl (fl (npMod (seconds i) 86400) / 3600)
    .ok fun i => if i = n - 1 ∧ fractionHour (n - 1) = 0 then 24 else fractionHour i

end Cloudnet
