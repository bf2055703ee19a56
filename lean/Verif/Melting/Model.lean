import Verif.Droplet.Model
import Verif.Freezing.Model
import Verif.Rain.Model
import Mathlib.Order.WithBot
import Mathlib.Analysis.SpecialFunctions.Exp

namespace Cloudnet

/-! Melting layer: `categorize/melting.py`. The temperature field is taken as unmasked. -/

section
variable {α : Type} [Field α] [LinearOrder α]

/-- `melting.py:175-179` `_find_model_temperature_range`; `gdas` tells whether the model type contains "gdas1". -/
def temperatureRange (gdas : Bool) : α × α := if gdas then (-8, 6) else (-4, 3)

/-- `melting.py:169-172` `_get_temp_indices` of a profile of `nH` gates: the first and the last gate, `none` for an
empty range. -/
def tempIndices (nH : ℕ) (prof : ℕ → α) (range : α × α) : Option (ℕ × ℕ) :=
  let ind := (List.range nH).filter fun h =>
    decide (range.1 + zeroCelsius < prof h) && decide (prof h < range.2 + zeroCelsius)
  match ind.head?, ind.getLast? with
  | some lo, some hi => some (lo, hi)
  | _, _ => none

/-- `a - b > lim` of masked values: a masked result counts as false in `all`. -/
def diffExceeds (a b : Option α) (lim : α) : Bool :=
  match a, b with
  | some a, some b => decide (lim < a - b)
  | _, _ => false

/-- `melting.py:107-125` `_find_melting_layer_from_ldr` (and `:162-166` `_basetop`) on profiles of `n` gates:
the half-open range of gates, `none` if the conditions fail. `np.argmax` ignores masked values. -/
def meltingFromLdr (n : ℕ) (ldr : ℕ → Option α) (dprof : ℕ → α) (v z : ℕ → Option α) :
    Except String (Option (ℕ × ℕ)) := do
  let peak := argmax (fun i => ((ldr i).elim ⊥ fun x => (x : WithBot α))) (n - 1)
  let top ← indTop n dprof peak n 10 2
  let base ← indBase n dprof peak 10 2
  if diffExceeds (ldr peak) (ldr base) 4 && ((ldr peak).elim false fun x => decide (-30 < x)) &&
      ((z base).elim false fun x => decide (-25 < x)) && ((v base).elim false fun x => decide (x < -15 / 10)) then
    return some (base + (peak - base) / 2, top)
  else return none

/-- `round(s / 2)` of a natural number: half-way cases to the even one. -/
def roundHalf (s : ℕ) : ℕ := if s % 2 = 0 then s / 2 else if (s / 2) % 2 = 0 then s / 2 else s / 2 + 1

/-- `melting.py:128-159` `_find_melting_layer_from_v` on profiles of `n` gates. `np.copy` and the indexing with
masked conditions work on the data under the mask, `vData`; the conditions see the masked values. -/
def meltingFromV (n : ℕ) (vData : ℕ → α) (v : ℕ → Option α) (width : Option (ℕ → Option α)) (height : ℕ → α) :
    Option (ℕ × ℕ) :=
  let vDiff : ℕ → α := fun i => vData (i + 1) - vData i
  let increasing : ℕ → α := fun i => if 0 < vDiff i then 1 else if vDiff i < 0 then 0 else vData i
  let nIncreasing := cumsumr increasing
  let top := argmax nIncreasing (n - 2)
  match ((List.range top).filter fun i => decide (nIncreasing i = 0)).getLast? with
  | none => none
  | some base =>
    let thick := decide (50 < height top - height base) && decide (height top - height base < 1000)
    let falling := (v base).elim false fun x => decide (x < -2)
    let conditions :=
      match width with
      | some w => diffExceeds (w base) (w top) (2 / 10) && diffExceeds (v top) (v base) (5 / 10) && thick && falling
      | none => diffExceeds (v top) (v base) 2 && thick && falling
    if conditions then some (roundHalf (top + base), top) else none

/-- The fields of `ClassData` used by `melting.py`. -/
structure MeltingInput (α : Type) where
  nT : ℕ
  nH : ℕ
  tw : Grid α
  z : Masked α
  v : Masked α
  ldr : Option (Masked α)
  width : Option (Masked α)
  height : ℕ → α
  gdas : Bool

/-- `melting.py:60-61`: differences of neighbouring gates, 0 if one of them is masked. -/
def Masked.diffFilled (a : Masked α) : Grid α := fun t h =>
  if a.mask t h || a.mask t (h + 1) then 0 else a.data t (h + 1) - a.data t h

/-- `ma.count` of `n` values. -/
def countValid (n : ℕ) (x : ℕ → Option α) : ℕ := ((List.range n).filter fun i => (x i).isSome).length

/-- `melting.py:65-98`, one profile: the half-open range of melting gates. The difference array is one gate
shorter than the profile, and is indexed outside of the `try`. -/
def MeltingInput.profile (o : MeltingInput α) (t : ℕ) : Except String (Option (ℕ × ℕ)) :=
  match tempIndices o.nH (o.tw t) (temperatureRange o.gdas) with
  | none => .ok none
  | some (lo, hi) =>
    let n := hi + 1 - lo
    if n ≤ 1 then .ok none
    else if o.ldr.isSome ∧ o.nH ≤ hi + 1 then .error "IndexError"
    else
      let z : ℕ → Option α := fun i => o.z.get t (lo + i)
      let v : ℕ → Option α := fun i => o.v.get t (lo + i)
      let fromV := meltingFromV n (fun i => o.v.data t (lo + i)) v (o.width.map fun w i => w.get t (lo + i))
        (fun i => o.height (lo + i))
      let indices :=
        match o.ldr with
        | none => if 3 < countValid n v then fromV else none
        | some l =>
          let ldr : ℕ → Option α := fun i => l.get t (lo + i)
          if 3 < countValid n ldr ∨ 3 < countValid n v then
            match meltingFromLdr n ldr (fun i => l.diffFilled t (lo + i)) v z with
            | .ok r => r
            | .error _ => fromV
          else none
      .ok (indices.map fun r => (lo + r.1, lo + r.2))

/-- `melting.py:14-98` `find_melting_layer` without the smoothing. -/
def MeltingInput.layer (o : MeltingInput α) : Except String (Grid Bool) := do
  let ranges ← (List.range o.nT).mapM o.profile
  return fun t h => (ranges.getD t none).elim false fun r => decide (r.1 ≤ h) && decide (h < r.2)

end

/-- `scipy.ndimage` mode "reflect": the index of element `i - 8` of an array of `n` elements extended by
`(d c b a | a b c d | d c b a)`. -/
def reflectIndex (n i : ℕ) : ℕ :=
  let m := (i + 2 * n * 8 - 8) % (2 * n)
  if m < n then m else 2 * n - 1 - m

/-- `melting.py:101`: the weights of a Gaussian of standard deviation 2, cut at 8 elements (`truncate=4`). The
standard deviation 0.1 in height gives a single weight, so gates do not mix. -/
noncomputable def gaussWeight (k : ℕ) : ℝ :=
  Real.exp (-((k : ℝ) - 8) ^ 2 / 8) / ∑ j ∈ Finset.range 17, Real.exp (-((j : ℝ) - 8) ^ 2 / 8)

/-- `melting.py:100-102`: the smoothed melting layer. -/
noncomputable def smoothLayer (nT : ℕ) (layer : Grid Bool) : Grid Bool := fun t h =>
  decide (0.2 < ∑ k ∈ Finset.range 17, gaussWeight k * (if layer (reflectIndex nT (t + k)) h then 1 else 0))

/-- `melting.py:14-104` `find_melting_layer`. -/
noncomputable def findMeltingLayer (o : MeltingInput ℝ) (smooth : Bool) : Except String (Grid Bool) := do
  let layer ← o.layer
  return if smooth then smoothLayer o.nT layer else layer

end Cloudnet
