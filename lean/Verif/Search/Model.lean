import Verif.Basic
import Mathlib.Algebra.Order.Ring.Nat

namespace Cloudnet

/-! Binary search, as in Python's `bisect` and NumPy's `searchsorted`. -/

/-- The loop of Python's `bisect_left` (`while lo < hi`); `fuel` bounds the number of rounds, and
`hi - lo` rounds always suffice. -/
def bisectLeftLoop {α : Type*} [LT α] [DecidableLT α] (a : ℕ → α) (x : α) : ℕ → ℕ → ℕ → ℕ
  | 0, lo, _ => lo
  | fuel + 1, lo, hi =>
    if lo < hi then
      let mid := (lo + hi) / 2
      if a mid < x then bisectLeftLoop a x fuel (mid + 1) hi else bisectLeftLoop a x fuel lo mid
    else lo

/-- `bisect_left(a, x, hi=hi)` (`products/drizzle_tools.py:251-256`) and `np.searchsorted(a, x)` with
`hi = len(a)` (`products/drizzle.py:96-97`). -/
def bisectLeft {α : Type*} [LT α] [DecidableLT α] (a : ℕ → α) (x : α) (hi : ℕ) : ℕ :=
  bisectLeftLoop a x hi 0 hi

end Cloudnet
