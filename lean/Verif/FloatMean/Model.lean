import Verif.FloatGrid.Model

/-!
The mean of a block of profiles in single precision: `rebin_2d` for data of files, which have 32 bits.
-/

namespace Cloudnet

/-- The result of an operation in single precision for the exact result `x`, without a limit of size. -/
def fl4 (x : ℚ) : ℚ := roundFloat NcType.f4.format x

/-- The sum over profiles (`utils.py:157`, inside `ma.mean` along the first axis): row after row, in single precision. Masked values are added as zeros. -/
def sumSingle (xs : List ℚ) : ℚ := xs.foldl (fun s x => fl4 (s + x)) 0

/-- `utils.py:157` with `ma.mean`, one height: the values of the profiles of a bin that are not masked. The sum is divided by their number in double precision, and stored in single
precision. -/
def meanSingle (xs : List ℚ) : ℚ := fl4 (fl (sumSingle xs / xs.length))

end Cloudnet
