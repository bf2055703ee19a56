import Verif.Atmos.Model
import Verif.Interp.Model
import Mathlib.Algebra.Order.Round

namespace Cloudnet

/-! Liquid layers from lidar data: `categorize/droplet.py`. `nH` gates; masked values are `none`. -/

section
variable {α : Type} [Field α] [LinearOrder α]

/-- `np.median` of a non-empty list. -/
def median (l : List α) : α :=
  let s := l.insertionSort (· ≤ ·)
  if l.length % 2 = 1 then s.getD (l.length / 2) 0
  else (s.getD (l.length / 2 - 1) 0 + s.getD (l.length / 2) 0) / 2

/-- `utils.py:554-556` `mdiff` for a vector of length `n`. -/
def mdiff (n : ℕ) (x : ℕ → α) : α := median ((List.range (n - 1)).map fun i => x (i + 1) - x i)

/-- `np.round` of a number: the nearest integer, half-way cases to the even one. -/
def npRound [FloorRing α] (x : α) : ℤ :=
  let f := ⌊x⌋
  if x - f < 1 / 2 then f
  else if 1 / 2 < x - f then f + 1
  else if f % 2 = 0 then f else f + 1

/-- `utils.py:694-730` `n_elements` for a vector of length `n` (without the "time" option). -/
def nElements [FloorRing α] (n : ℕ) (x : ℕ → α) (dist : α) : ℤ := npRound (dist / mdiff n x)

/-- `categorize/droplet.py:125-187` `ind_base` for a difference profile of length `m`. An empty window makes
`argmax` raise `ValueError`; a window without a large enough value raises `IndexError`. -/
def indBase (m : ℕ) (dprof : ℕ → α) (peak dist : ℕ) (lim : α) : Except String ℕ :=
  let start := peak - dist
  let len := min peak m - start
  if len = 0 then .error "ValueError"
  else
    let diffs : ℕ → α := fun i => dprof (start + i)
    let mind := argmax diffs (len - 1)
    match (List.range len).find? fun i => decide (diffs mind / lim < diffs i) with
    | none => .error "IndexError"
    | some i => .ok (start + i)

/-- `categorize/droplet.py:190-225` `ind_top` for a difference profile of length `m`. -/
def indTop (m : ℕ) (dprof : ℕ → α) (peak nprof dist : ℕ) (lim : α) : Except String ℕ :=
  let stop := min (min (peak + dist) nprof) m
  let len := stop - peak
  if len = 0 then .error "ValueError"
  else
    let diffs : ℕ → α := fun i => dprof (peak + i)
    let mind := argmin diffs (len - 1)
    match ((List.range len).filter fun i => decide (diffs i < diffs mind / lim)).getLast? with
    | none => .error "IndexError"
    | some i => .ok (peak + i + 1)

/-- `scipy.signal.argrelextrema(data, np.greater, order=4)` on a profile of `nH` gates (mode "clip"). -/
def isLocalMax (nH : ℕ) (x : ℕ → α) (i : ℕ) : Bool :=
  (List.range 4).all fun k => decide (x (min (i + (k + 1)) (nH - 1)) < x i) && decide (x (i - (k + 1)) < x i)

/-- `categorize/droplet.py:244-248` `_find_strong_peaks`, positions in row-major order. -/
def findStrongPeaks (nT nH : ℕ) (data : Grid α) (threshold : α) : List Pixel :=
  whereGrid nT nH fun t h => isLocalMax nH (data t) h && decide (threshold < data t h)

/-- `categorize/droplet.py:228-241` `interpolate_lwp` for `nT` profiles; `np.interp` at the profiles with a
non-zero value. -/
def interpolateLwp (nT : ℕ) (time : ℕ → α) (lwp : ℕ → Option α) : ℕ → α :=
  if (∀ t < nT, lwp t = none) ∨ ∑ t ∈ Finset.range nT, (lwp t).getD 0 = 0 then fun _ => 0
  else
    let ind := (List.range nT).filter fun t => decide ((lwp t).getD 0 ≠ 0)
    fun t => interpLinear ind.length (fun i => time (ind.getD i 0)) (fun i => (lwp (ind.getD i 0)).getD 0)
      (time t)

/-- The parameters of `find_liquid` (`categorize/droplet.py:53-61`) and the fixed numbers of its body. -/
structure LiquidParameters (α : Type) where
  peakAmp : α
  maxWidth : α
  minPoints : ℕ
  minTopDer : α
  minLwp : α
  minAlt : α
  baseDistance : α
  topDistance : α
  lim : α

/-- The default values: 1e-6, 300, 3, 1e-7, 0, 100, and 200, 150, 4 in the body. -/
def defaultLiquidParameters : LiquidParameters α :=
  { peakAmp := 1 / 1000000, maxWidth := 300, minPoints := 3, minTopDer := 1 / 10000000, minLwp := 0,
    minAlt := 100, baseDistance := 200, topDistance := 150, lim := 4 }

/-- `categorize/droplet.py:101-102`: differences of neighbouring gates, 0 if one of them is masked. -/
def betaDiff (beta : Grid (Option α)) : Grid α :=
  fun t h => match beta t (h + 1), beta t h with
    | some b, some a => b - a
    | _, _ => 0

/-- `categorize/droplet.py:106-120`, one peak: the layer to be set, `none` if rejected. A base or top that
cannot be found (`IndexError`) skips the peak; other errors propagate. -/
def peakLayer (p : LiquidParameters α) (nH : ℕ) (height : ℕ → α) (lprof dprof : ℕ → α) (lwpInt : α)
    (baseBelow topAbove : ℕ) (peak : ℕ) : Except String (Option (ℕ × ℕ)) :=
  match indBase (nH - 1) dprof peak baseBelow p.lim with
  | .error e => if e = "IndexError" then .ok none else .error e
  | .ok base =>
    match indTop (nH - 1) dprof peak nH topAbove p.lim with
    | .error e => if e = "IndexError" then .ok none else .error e
    | .ok top =>
      let npoints := ((List.range (top + 1 - base)).filter fun i => decide (lprof (base + i) ≠ 0)).length
      let peakWidth := height top - height base
      let peakAlt := height peak - height 0
      let topDer := (lprof peak - lprof top) / (height top - height peak)
      if p.minPoints ≤ npoints ∧ peakWidth < p.maxWidth ∧ p.minTopDer < topDer ∧ p.minLwp ≤ lwpInt ∧
          p.minAlt < peakAlt then .ok (some (base, top)) else .ok none

/-- `categorize/droplet.py:53-122` `find_liquid` for `nT` profiles of `nH` gates. Negative element numbers
(decreasing heights) are not modelled: they are cut at 0. -/
def findLiquid [FloorRing α] (p : LiquidParameters α) (nT nH : ℕ) (time height : ℕ → α)
    (beta : Grid (Option α)) (lwp : ℕ → Option α) : Except String (Grid Bool) :=
  let lwpInt := interpolateLwp nT time lwp
  let baseBelow := (nElements nH height p.baseDistance).toNat
  let topAbove := (nElements nH height p.topDistance).toNat
  let dprof := betaDiff beta
  let filled : Grid α := fun t h => (beta t h).getD 0
  (findStrongPeaks nT nH filled p.peakAmp).foldlM (fun (isLiquid : Grid Bool) (px : Pixel) => do
    let layer ← peakLayer p nH height (filled px.1) (dprof px.1) (lwpInt px.1) baseBelow topAbove px.2
    return match layer with
      | none => isLiquid
      | some (base, top) => fun t h => if t = px.1 ∧ base ≤ h ∧ h ≤ top then true else isLiquid t h)
    (fun _ _ => false)

/-- `categorize/droplet.py:47-50` `_find_ind_above_top`: `isFreezing` is the profile of `nH` gates. -/
def findIndAboveTop (nH : ℕ) (isFreezing : ℕ → Bool) (top topAbove : ℕ) : Except String ℕ :=
  match (List.range (nH - top)).find? fun i => isFreezing (top + i) with
  | none => .error "IndexError"
  | some first => .ok (min (nH - top - 1) (first + topAbove))

/-- `categorize/droplet.py:13-44` `correct_liquid_top`, with `topAbove = n_elements(height, limit)`. -/
def correctLiquidTop {β : Type} (nT nH : ℕ) (z : Grid (Option β)) (topAbove : ℕ)
    (isLiquid isFreezing : Grid Bool) : Except String (Grid Bool) :=
  (whereGrid nT nH (findCloudTops nH isLiquid)).foldlM (fun (corrected : Grid Bool) (px : Pixel) => do
    let ind ← findIndAboveTop nH (isFreezing px.1) px.2 topAbove
    let masked := (List.range (ind + 1)).filter fun i => (z px.1 (px.2 + i)).isNone
    return if masked.length = ind + 1 ∨ masked.length = 0 then corrected
      else fun t h => if t = px.1 ∧ px.2 ≤ h ∧ h < px.2 + masked.headD 0 then true else corrected t h)
    isLiquid

end

end Cloudnet
