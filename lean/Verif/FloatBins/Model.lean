import Verif.FloatGrid.Model
import Verif.Rebin.Model

/-!
`binvec` with double precision numbers.
-/

namespace Cloudnet

/-- `numpy.linspace(start, stop, n + 1)` for doubles and `n > 0`: multiples of the rounded step are added to the start; the last element is `stop`. Simplification: steps that are
rounded to zero are not treated separately. -/
def linspaceFloat (start stop : ℚ) (n : ℕ) : ℕ → ℚ :=
  let step := fl (fl (stop - start) / n)
  fun i => if i = n then stop else fl (fl (i * step) + start)

/-- `utils.py:104-120` `binvec` in double precision, for `n` points. -/
def binvecFloat (n : ℕ) (x : ℕ → ℚ) : Except String (ℕ → ℚ) :=
  if n < 2 then .error "IndexError"
  else
    let edge1 := fl (x 0 - fl (fl (x 1 - x 0) / 2))
    let edge2 := fl (x (n - 1) + fl (fl (x (n - 1) - x (n - 2)) / 2))
    .ok (linspaceFloat edge1 edge2 n)

end Cloudnet
