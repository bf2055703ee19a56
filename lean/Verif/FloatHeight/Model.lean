import Verif.FloatMean.Model

/-!
Heights of gates in the numbers of the computer.
-/

namespace Cloudnet

/-- `instruments/cloudnet_instrument.py:40-42` with `utils.py:870` and `instruments/ceilometer.py:87-91`, one gate: the range times the cosine plus the altitude, computed with the type
`t` of the ranges (or in double precision, if the cosine makes all numbers so) and stored in single precision. The computed cosine is a parameter. (Ranges of integer types are not modelled.) -/
def gateHeight (t : NcType) (altitude cosine range : ℚ) : ℚ := fl4 (roundFloat t.format (roundFloat t.format (range * cosine) + altitude))

end Cloudnet
