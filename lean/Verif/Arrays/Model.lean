import Verif.Basic
import Mathlib.Algebra.Order.Ring.Defs

namespace Cloudnet

variable {α : Type*}

/-- `np.maximum.accumulate` along one row: running maximum. -/
def runMax [LinearOrder α] (f : ℕ → α) : ℕ → α
  | 0 => f 0
  | n + 1 => max (runMax f n) (f (n + 1))

/-- `array.cumsum` along one row. -/
def cumsum [Add α] (a : ℕ → α) : ℕ → α
  | 0 => a 0
  | n + 1 => cumsum a n + a (n + 1)

/-- `cloudnetpy/utils.py:630-655` `ffill` for a 1-D array (or one row of a 2-D array, lines 653-654):
`idx = where(array != value, arange, 0)`, running maximum of `idx`, then `array[idx]`. -/
def ffill [DecidableEq α] (a : ℕ → α) (value : α) : ℕ → α :=
  fun j => a (runMax (fun i => if a i ≠ value then i else 0) j)

/-- `cloudnetpy/utils.py:653-654`: the 2-D case works row by row (`axis=1`). -/
def ffillGrid [DecidableEq α] (a : Grid α) (value : α) : Grid α :=
  fun t => ffill (a t) value

/-- `cloudnetpy/utils.py:610-627` `cumsumr` along one row:
`cums - maximum.accumulate(cums * (array == 0))`. -/
def cumsumr [Ring α] [LinearOrder α] (a : ℕ → α) : ℕ → α :=
  fun j => cumsum a j - runMax (fun i => cumsum a i * (if a i = 0 then 1 else 0)) j

/-- `np.argmin` over the indices `0..n` of a row (`n + 1` elements): the first index with the smallest
value. -/
def argmin [LinearOrder α] (f : ℕ → α) : ℕ → ℕ
  | 0 => 0
  | n + 1 => if f (n + 1) < f (argmin f n) then n + 1 else argmin f n

/-- `np.argmax` over the indices `0..n` of a row (`n + 1` elements): the first index with the largest
value. -/
def argmax [LinearOrder α] (f : ℕ → α) : ℕ → ℕ
  | 0 => 0
  | n + 1 => if f (argmax f n) < f (n + 1) then n + 1 else argmax f n

end Cloudnet
