import Verif.Basic
import Mathlib.Algebra.Field.Basic
import Mathlib.Algebra.Order.Field.Basic
import Mathlib.Data.Real.Sqrt

namespace Cloudnet

/-! Rebinning: `binvec`, `rebin_2d`, `rebin_1d` of `cloudnetpy/utils.py`. Arrays are functions on `ℕ`
with the length given separately; `none` is a masked (or NaN) value. -/

section
variable {α : Type} [Field α] [LinearOrder α]

/-- `utils.py:104-120` `binvec` for a vector `x` of length `n`; `np.linspace(a, b, n + 1)` is
`a + i (b - a) / n`. With fewer than two points the index `x[1]` (or `x[0]`) is out of range. -/
def binvec (n : ℕ) (x : ℕ → α) : Except String (ℕ → α) :=
  if n < 2 then .error "IndexError"
  else
    let edge1 := x 0 - (x 1 - x 0) / 2
    let edge2 := x (n - 1) + (x (n - 1) - x (n - 2)) / 2
    .ok fun i => edge1 + i * ((edge2 - edge1) / n)

/-- `np.digitize(v, edges)` for increasing edges: the number of edges that are not above `v`. -/
def digitize (nEdges : ℕ) (edges : ℕ → α) (v : α) : ℕ :=
  ((List.range nEdges).filter fun i => decide (edges i ≤ v)).length

/-- `binn = np.digitize(x_in, edges) - 1` (`utils.py:142`). -/
def binNumber (n : ℕ) (edges : ℕ → α) (v : α) : ℤ := (digitize (n + 1) edges v : ℤ) - 1

/-- Indices of the input profiles with a given bin number: `binn == bin_ind` (`utils.py:154`). -/
def inBin (nIn : ℕ) (xIn : ℕ → α) (n : ℕ) (edges : ℕ → α) (k : ℕ) : List ℕ :=
  (List.range nIn).filter fun i => decide (binNumber n edges (xIn i) = k)

/-- `len(counts)` for `counts = np.bincount(binn[binn >= 0], minlength=n_bins)` (`utils.py:144`): one
more than the largest bin number, at least `n`. -/
def nCounts (nIn : ℕ) (xIn : ℕ → α) (n : ℕ) (edges : ℕ → α) : ℕ :=
  (List.range nIn).foldl (fun m i => max m (binNumber n edges (xIn i) + 1).toNat) n

/-- `ma.mean` of the values of one column of a block (`utils.py:125`). -/
def maMean (xs : List (Option α)) : Option α :=
  let v := xs.filterMap id
  if v = [] then none else some (v.sum / v.length)

/-- `ma.max` (`utils.py:127`). -/
def maMax (xs : List (Option α)) : Option α :=
  match xs.filterMap id with
  | [] => none
  | v :: vs => some (vs.foldl max v)

/-- Result of `rebin_2d`: the array and `empty_bins`. -/
structure Rebinned (α : Type) where
  result : Grid (Option α)
  emptyBins : List ℕ

/-- `utils.py:131-164` `rebin_2d` with `keepdim = False` and at least one profile required per bin
(`n_min ≥ 1`). `statFn` is applied to each column of the block. Rounding to float32 is not modelled. -/
def rebin2d (statFn : List (Option α) → Option α) (nIn : ℕ) (xIn : ℕ → α) (array : Grid (Option α))
    (n : ℕ) (xNew : ℕ → α) (nMin : ℕ) (maskZeros : Bool) : Except String (Rebinned α) := do
  let edges ← binvec n xNew
  let counts : ℕ → ℕ := fun k => (inBin nIn xIn n edges k).length
  let result : Grid (Option α) := fun k h =>
    if counts k < nMin then none
    else statFn ((inBin nIn xIn n edges k).map fun i => array i h)
  let emptyBins := (List.range (nCounts nIn xIn n edges)).filter fun k => decide (counts k < nMin)
  let result := if maskZeros then
      (fun k h => if result k h = some 0 then none else result k h : Grid (Option α))
    else result
  pure { result := result, emptyBins := emptyBins }

/-- `utils.py:131-164` `rebin_2d` with `keepdim = True`: each input profile gets the statistic of the bin
it lies in. -/
def rebin2dKeepdim (statFn : List (Option α) → Option α) (nIn : ℕ) (xIn : ℕ → α)
    (array : Grid (Option α)) (n : ℕ) (xNew : ℕ → α) (nMin : ℕ) : Except String (Grid (Option α)) := do
  let edges ← binvec n xNew
  -- the loop over `bin_ind` assigns the rows of one bin after another
  pure ((List.range n).foldl (fun (res : Grid (Option α)) k =>
      if (inBin nIn xIn n edges k).length < nMin then res
      else fun i h => if i ∈ inBin nIn xIn n edges k then
          statFn ((inBin nIn xIn n edges k).map fun i => array i h)
        else res i h) (Grid.const none))

/-- Bin of a value in `scipy.stats.binned_statistic`: as `digitize`, but a value at the last edge belongs
to the last bin. -/
def binNumber1d (n : ℕ) (edges : ℕ → α) (v : α) : ℤ :=
  if v = edges n then (n : ℤ) - 1 else binNumber n edges v

/-- `utils.py:167-197` `rebin_1d` with a statistic ("mean", "std", "max"): SciPy gives NaN (then masked)
for empty bins; if no sample is valid and non-zero the result stays all zeros. -/
def rebin1d (statFn : List (Option α) → Option α) (nIn : ℕ) (xIn : ℕ → α) (array : ℕ → Option α) (n : ℕ) (xNew : ℕ → α) :
    Except String (ℕ → Option α) := do
  let edges ← binvec n xNew
  if (List.range nIn).any fun i => decide ((array i).getD 0 ≠ 0) then
    pure fun k => statFn (((List.range nIn).filter fun i => (array i).isSome &&
      decide (binNumber1d n edges (xIn i) = k)).map array)
  else
    pure fun _ => some 0

end

/-- `ma.std` (`utils.py:126`): population standard deviation of the unmasked values. -/
noncomputable def maStd (xs : List (Option ℝ)) : Option ℝ :=
  let v := xs.filterMap id
  if v = [] then none
  else some (Real.sqrt ((v.map fun x => (x - v.sum / v.length) ^ 2).sum / v.length))

end Cloudnet
