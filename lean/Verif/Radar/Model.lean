import Verif.Rebin.Model
import Verif.Droplet.Model
import Mathlib.Analysis.SpecialFunctions.Complex.Arg
import Mathlib.Analysis.SpecialFunctions.Log.Base

namespace Cloudnet

/-! Radar data before classification: `cloudnetpy/categorize/radar.py`. -/

/-- The data of a variable of a radar file: a scalar, a vector along one dimension or a field. -/
inductive RadarArray (α : Type) where
  | scalar (x : Option α)
  | vector (x : ℕ → Option α)
  | field (x : Grid (Option α))

/-- The mask of a field; `Z` and `v` are fields in every radar file. -/
def RadarArray.missing {α : Type} : RadarArray α → Grid Bool
  | .scalar x => fun _ _ => x.isNone
  | .vector x => fun t _ => (x t).isNone
  | .field x => fun t h => (x t h).isNone

/-- `radar.py:99-101`, one variable: `array.data.ndim == 2`, then `mask_indices`. -/
def RadarArray.maskField {α : Type} (bad : Grid Bool) : RadarArray α → RadarArray α
  | .scalar x => .scalar x
  | .vector x => .vector x
  | .field x => .field (x.assign bad none)

/-- `radar.py:84-101` `remove_incomplete_pixels`, on the variables in the order of the dictionary. `Z` or `v`
missing from it is a `KeyError`. -/
def removeIncompletePixels {α : Type} (data : List (String × RadarArray α)) :
    Except String (List (String × RadarArray α)) :=
  match data.lookup "Z", data.lookup "v" with
  | some z, some v =>
    let good : Grid Bool := fun t h => !z.missing t h && !v.missing t h
    let good : Grid Bool := match data.lookup "width" with
      | some w => fun t h => good t h && !w.missing t h
      | none => good
    .ok (data.map fun p => (p.1, p.2.maskField fun t h => !good t h))
  | _, _ => .error "KeyError"

section
variable {α : Type} [Field α] [LinearOrder α]

/-- `radar.py:115-119` `filter_1st_gate_artifact` on the velocity. -/
def filterFirstGate (v : Grid (Option α)) : Grid (Option α) :=
  v.assign (fun t h => decide (h = 0) && (v t 0).elim false fun x => decide (4 < x)) none

/-- `np.percentile(l, q)` with linear interpolation between the order statistics. -/
def percentile [FloorRing α] (l : List α) (q : α) : α :=
  let s := l.insertionSort (· ≤ ·)
  let pos := q / 100 * ((l.length - 1 : ℕ) : α)
  let i := ⌊pos⌋.toNat
  s.getD i 0 + (pos - i) * (s.getD (min (i + 1) (l.length - 1)) 0 - s.getD i 0)

end

/-- `radar.py:153`: the counts of the five rows on each side. -/
def stripeWindow (counts : ℕ → ℕ) (i : ℕ) : List ℚ :=
  ((List.range 11).filter (· ≠ 5)).map fun j => (counts (i + j - 5) : ℚ)

/-- `radar.py:153-160`: row `i` is a spike. -/
def isSpike (counts : ℕ → ℕ) (i : ℕ) : Bool :=
  let q1 := percentile (stripeWindow counts i) 25
  let q3 := percentile (stripeWindow counts i) 75
  let iqr := q3 - q1
  if iqr = 0 ∧ 0 < q3 then false
  else decide (max (q3 + 3 * max iqr 1) 20 < counts i)

/-- `radar.py:151-160`: the set of spikes among `n` rows. -/
def spikeAt (n : ℕ) (counts : ℕ → ℕ) (i : ℕ) : Bool := decide (5 ≤ i ∧ i + 5 < n) && isSpike counts i

/-- `radar.py:163-165`: the next row below that is no spike; `none` stands for -1. -/
def nextBelow (spike : ℕ → Bool) : ℕ → Option ℕ
  | 0 => none
  | k + 1 => if spike k then nextBelow spike k else some k

/-- `radar.py:166-168`: the next row above that is no spike; `none` stands for `n`. -/
def nextAbove (spike : ℕ → Bool) (n ind : ℕ) : Option ℕ :=
  (List.range n).find? fun j => decide (ind < j) && !spike j

/-- A field seen along one axis: row `i` is profile `i` for `axis = 1` (`vertical`), gate `i` for `axis = 0`. -/
def Grid.along {β : Type} (g : Grid β) (vertical : Bool) : Grid β := fun i k => if vertical then g i k else g k i

/-- `radar.py:186-208` `_mask_isolated`, with the missing data `mask` of the source. -/
def maskIsolated {β : Type} (mask : Grid Bool) (target : Grid (Option β)) (vertical : Bool) (ind : ℕ)
    (below above : Option ℕ) : Grid (Option β) :=
  let m := mask.along vertical
  let isolated : ℕ → Bool := fun k =>
    !m ind k && (below.elim true fun b => m b k) && (above.elim true fun a => m a k)
  if vertical then fun t h => if t = ind ∧ isolated h then none else target t h
  else fun t h => if h = ind ∧ isolated t then none else target t h

/-- The fields the stripe filter reads and writes: `Z`, `v` and the variable used to find the stripes; `other` is
`none` if that variable is `v` itself. -/
structure StripeState (β : Type) where
  z : Grid (Option β)
  v : Grid (Option β)
  other : Option (Grid (Option β))

def missingOf {β : Type} (x : Grid (Option β)) : Grid Bool := fun t h => (x t h).isNone

/-- `radar.py:173-184` `_mask_stripe_pixels`. -/
def maskStripePixels {β : Type} (s : StripeState β) (vertical : Bool) (ind : ℕ) (below above : Option ℕ) :
    StripeState β :=
  let s := { s with v := maskIsolated (missingOf s.z) s.v vertical ind below above }
  { s with other := s.other.map fun x => maskIsolated (missingOf x) x vertical ind below above }

/-- `radar.py:147`: number of values in row `i` of `n` values. -/
def rowCount {β : Type} (data : Grid (Option β)) (vertical : Bool) (n i : ℕ) : ℕ :=
  ((List.range n).filter fun k => (data.along vertical i k).isSome).length

/-- `radar.py:141-171` `_filter_stripes_axis`; `data` is the copy of the variable made before filtering. -/
def filterStripesAxis {β : Type} (nT nH : ℕ) (data : Grid (Option β)) (vertical : Bool) (s : StripeState β) :
    StripeState β :=
  let n := if vertical then nT else nH
  let spike := spikeAt n (rowCount data vertical (if vertical then nH else nT))
  ((List.range n).filter spike).foldl (fun s ind =>
    maskStripePixels s vertical ind (nextBelow spike ind) (nextAbove spike n ind)) s

/-- `radar.py:121-131` `filter_stripes` for a variable in the file. -/
def filterStripes {β : Type} (nT nH : ℕ) (s : StripeState β) : StripeState β :=
  let data := s.other.getD s.v
  let nWithData := ((List.range nT).filter fun t => decide (rowCount data true nH t ≠ 0)).length
  if nWithData < 300 then s
  else filterStripesAxis nT nH data false (filterStripesAxis nT nH data true s)

/-! Doppler velocity. -/

/-- `correction_bits` of the file: absent, all, none or some pixels dealiased. -/
inductive Dealiased where
  | absent | every | no | partly

/-- `ma` division of a constant: masked where the divisor is masked or zero. -/
noncomputable def maDivide (c : ℝ) (x : Option ℝ) : Option ℝ := x.bind fun x => if x = 0 then none else some (c / x)

/-- `ma` operation on two fields. -/
def maMap2 {β γ δ : Type} (f : β → γ → δ) (a : Option β) (b : Option γ) : Option δ := a.bind fun a => b.map (f a)

/-- `radar.py:350-391` `_rebin_velocity` for the expanded folding velocity. `arctan2(y, x)` is the argument of
`x + i y`. -/
noncomputable def rebinVelocity (nIn : ℕ) (xIn : ℕ → ℝ) (data folding : Grid (Option ℝ)) (n : ℕ) (xNew : ℕ → ℝ)
    (dealiased : Dealiased) : Except String (Grid (Option ℝ)) := do
  let maxBinned ← rebin2d maMax nIn xIn folding n xNew 1 false
  match dealiased with
  | .every => return (← rebin2d maMean nIn xIn data n xNew 1 false).result
  | .partly => .error "NotImplementedError"
  | _ =>
    let maxFull ← rebin2dKeepdim maMax nIn xIn folding n xNew 1
    let scaled : Grid (Option ℝ) := fun t h => maMap2 (· * ·) (data t h) (maDivide Real.pi (maxFull t h))
    let x ← rebin2d maMean nIn xIn (fun t h => (scaled t h).map Real.cos) n xNew 1 false
    let y ← rebin2d maMean nIn xIn (fun t h => (scaled t h).map Real.sin) n xNew 1 false
    let angle : Grid (Option ℝ) := fun k h => maMap2 (fun x y => Complex.arg ⟨x, y⟩) (x.result k h) (y.result k h)
    return fun k h => (maMap2 (fun a b => (a, b)) (angle k h) (maDivide Real.pi (maxBinned.result k h))).bind
      fun p => if p.2 = 0 then none else some (p.1 / p.2)

/-- `radar.py:413-430`: the folding velocity of the chirp segments expanded to all gates. `starts t s` and `fvel t s` for
`nSeg` segments; `np.repeat` with a negative count raises. The sizes of a profile add up to `nH` because the first
start is 0, so `reshape` succeeds and row `t` is the list of its segments. -/
def expandFolding {β : Type} (nT nH nSeg : ℕ) (starts : ℕ → ℕ → ℤ) (fvel : ℕ → ℕ → β) (default : β) :
    Except String (Grid β) :=
  if (List.range nT).any fun t => decide (starts t 0 ≠ 0 ∧ starts t 0 ≠ 1) then .error "ValueError: First value"
  else
    let start : ℕ → ℕ → ℤ := fun t s => starts t s - starts t 0
    let size : ℕ → ℕ → ℤ := fun t s => (if s + 1 < nSeg then start t (s + 1) else (nH : ℤ)) - start t s
    if (List.range nT).any fun t => (List.range nSeg).any fun s => decide (size t s < 0) then
      .error "ValueError: counts cannot be negative"
    else .ok fun t h =>
      ((List.range nSeg).flatMap fun s => List.replicate (size t s).toNat (fvel t s)).getD h default

/-! Echo uncertainties. -/

/-- `utils.py:548-552` `lin2db` of a positive number. -/
noncomputable def lin2db (x scale : ℝ) : ℝ := scale * Real.logb 10 x

/-- The unmasked values of a field (`compressed`). -/
def compressed {β : Type} (nT nH : ℕ) (z : Grid (Option β)) : List β :=
  (List.range nT).flatMap fun t => (List.range nH).filterMap fun h => z t h

/-- `radar.py:307-316`: the echo power corrected for range and its 0.1 percentile. -/
noncomputable def zPower (z : Grid (Option ℝ)) (range : ℕ → ℝ) : Grid (Option ℝ) :=
  fun t h => (z t h).map fun x => x - lin2db (range h) 20

noncomputable def zPowerMin (nT nH : ℕ) (z : Grid (Option ℝ)) (range : ℕ → ℝ) : ℝ :=
  if compressed nT nH (zPower z range) = [] then 0 else percentile (compressed nT nH (zPower z range)) (1 / 10)

/-- `radar.py:250-257` `_calc_sensitivity`; `gas` is the gas attenuation, which is not masked. -/
noncomputable def zSensitivity (nT nH : ℕ) (z : Grid (Option ℝ)) (range : ℕ → ℝ) (gas : Grid ℝ)
    (clutter : Grid Bool) (h : ℕ) : ℝ :=
  let meanGas := ((List.range nT).map fun t => gas t h).sum / nT
  let cluttered := (List.range nT).filterMap fun t => if clutter t h then z t h else none
  if cluttered = [] then zPowerMin nT nH z range + lin2db (range h) 20 + meanGas else median cluttered

/-- `radar.py:259-272,289-305`: the precision of the echo. A width of zero makes the division masked. -/
noncomputable def zPrecision (nT nH : ℕ) (z : Grid (Option ℝ)) (range : ℕ → ℝ) (width : Option (Grid (Option ℝ)))
    (time : ℕ → ℝ) (frequency : ℝ) : Grid (Option ℝ) := fun t h =>
  let w : Option ℝ := match width with
    | none => (z t h).map fun _ => 3 / 10
    | some w => w t h
  let dwell := mdiff nT time * 3600
  let wl := 300000000 / (frequency * 1000000000)
  let nPulses := w.map fun w => 4 * Real.sqrt Real.pi * dwell * w / wl
  let factor := maDivide (10 / Real.log 10) (nPulses.map Real.sqrt)
  maMap2 (fun f p => f * (1 + (10 : ℝ) ^ ((zPowerMin nT nH z range - p) / 10) / 3)) factor (zPower z range t h)

/-! Location. -/

section
variable {α : Type} [Field α] [LinearOrder α]

/-- `radar.py:328-333`: the index of the time stamp closest to `x` among `n` (left neighbour only if strictly
closer). `np.searchsorted` of a sorted vector is the number of elements below `x`. -/
def closestIndex (n : ℕ) (time : ℕ → α) (x : α) : ℕ :=
  let idx := ((List.range n).filter fun i => decide (time i < x)).length
  let left := min (idx - 1) (n - 1)
  let right := min idx (n - 1)
  if |x - time left| < |x - time right| then left else right

end

end Cloudnet
