import Verif.FloatGrid.Model

/-!
`seconds2date` with double precision numbers and microseconds.
-/

namespace Cloudnet

/-- The part of a number before the point (`modf` of C). -/
def wholePart (x : ℚ) : ℤ := if 0 ≤ x then ⌊x⌋ else ⌈x⌉

/-- `datetime.timedelta(seconds=x)` for a double, in microseconds: whole seconds are exact, the rest is multiplied by a million in double precision and rounded to the nearest whole
number, half-way cases to the even one (`accum` and `delta_new` in `_datetimemodule.c`). Simplification: there is no largest duration. -/
def timedeltaSeconds (x : ℚ) : ℤ := wholePart x * 1000000 + halfEven (fl (1000000 * (x - wholePart x)))

/-- `utils.py:52-68` `seconds2date`, in microseconds since day 0; `epoch` in seconds since day 0. Simplification: there is no first and no last year. -/
def seconds2dateMicros (epoch : ℤ) (x : ℚ) : ℤ := epoch * 1000000 + timedeltaSeconds x

/-- `seconds2date(x, epoch).date()` as a day number. -/
def dateMicros (epoch : ℤ) (x : ℚ) : ℤ := seconds2dateMicros epoch x / 86400000000

/-- `utils.py:71-79` `datetime2decimal_hours`, one time stamp, in double precision. -/
def clockHoursFloat (t : ClockTime) : ℚ := fl (fl (t.hour + fl (t.minute / 60)) + fl (t.second / 3600))

end Cloudnet
