import Verif.FloatGrid.Model
import Verif.Droplet.Model

/-!
`n_elements` for times, with double precision numbers.
-/

namespace Cloudnet

/-- `numpy.ma.median` of a list that is not empty, in double precision. -/
def medianFloat (l : List ℚ) : ℚ :=
  let s := l.insertionSort (· ≤ ·)
  if l.length % 2 = 1 then s.getD (l.length / 2) 0
  else fl (fl (s.getD (l.length / 2 - 1) 0 + s.getD (l.length / 2) 0) / 2)

/-- `utils.py:694-730` `n_elements` for `n` times (hours) and a distance in minutes, `utils.py:554-556` `mdiff`, in double precision. -/
def nElementsTimeFloat (n : ℕ) (x : ℕ → ℚ) (minutes : ℚ) : ℤ :=
  let resolution := medianFloat ((List.range (n - 1)).map fun i => fl (x (i + 1) - x i))
  npRound (fl (fl (minutes / resolution) / 60))

end Cloudnet
