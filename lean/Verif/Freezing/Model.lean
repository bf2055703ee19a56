import Verif.Droplet.Model

namespace Cloudnet

/-! Freezing region: `categorize/freezing.py`. The temperature field is taken as unmasked. -/

section
variable {α : Type} [Field α] [LinearOrder α]

/-- `constants.py` `T0`: 273.16 K. -/
def zeroCelsius : α := 27316 / 100

/-- `categorize/freezing.py:96-109`, one profile of `nH` gates. The first gate below zero is colder than the
gate under it, so sorting the two pairs by temperature swaps them. -/
def t0Alt (nH : ℕ) (height prof : ℕ → α) : Except String α :=
  match (List.range nH).find? fun h => decide (prof h < zeroCelsius) with
  | none => .error "IndexError"
  | some ind =>
    if ind = 0 then .ok (height 0)
    else .ok (interpLinear 2 (fun i => prof (ind - i)) (fun i => height (ind - i)) zeroCelsius)

/-- `categorize/freezing.py:84-110` `find_t0_alt`: the profiles in their order, one altitude each. -/
def findT0Alt (nT nH : ℕ) (height : ℕ → α) (temperature : Grid α) : Except String (List α) :=
  (List.range nT).mapM fun t => t0Alt nH height (temperature t)

/-- `categorize/freezing.py:73-81` `_find_mean_melting_alt`: the median altitude of the melting gates, masked
(`none`) in a profile without. -/
def meanMeltingAlt (nH : ℕ) (height : ℕ → α) (melting : Grid Bool) (t : ℕ) : Option α :=
  let alts := ((List.range nH).filter fun h => melting t h).map height
  if alts = [] then none else some (median alts)

/-- `categorize/freezing.py:63-70` `_is_all_freezing`. -/
def isAllFreezing (nT : ℕ) (melt : ℕ → Option α) (t0 : ℕ → α) (h0 : α) : Bool :=
  (List.range nT).all (fun t => (melt t).isNone) && (List.range nT).all (fun t => decide (t0 t ≤ h0))

/-- `categorize/freezing.py:46-54`: the altitudes of the profiles where they are set. `a or b` takes `b` if
`a` is masked or zero. `win` is the number of profiles in four hours. -/
def freezingAlt (nT : ℕ) (melt : ℕ → Option α) (t0 : ℕ → α) (win : ℕ) : ℕ → Option α :=
  let orT0 : ℕ → Option α := fun t => if (melt t).getD 0 = 0 then some (t0 t) else melt t
  let alt := melt
  let alt : ℕ → Option α := fun t => if t = 0 then orT0 0 else alt t
  let alt : ℕ → Option α := fun t => if t = nT - 1 then orT0 (nT - 1) else alt t
  (List.range (nT - win)).foldl (fun (alt : ℕ → Option α) n =>
    if (List.range win).all fun i => (melt (n + i)).isNone then
      fun t => if t = n + win / 2 then some (t0 t) else alt t
    else alt) alt

/-- `categorize/freezing.py:15-60` `find_freezing_region` for `nT` profiles of `nH` gates. With a single
profile the window length (median of an empty vector) cannot be computed. -/
def findFreezingRegion [FloorRing α] (nT nH : ℕ) (time height : ℕ → α) (tw : Grid α) (melting : Grid Bool) :
    Except String (Grid Bool) := do
  let t0s ← findT0Alt nT nH height tw
  let t0 : ℕ → α := fun t => t0s.getD t 0
  let melt := meanMeltingAlt nH height melting
  if isAllFreezing nT melt t0 (height 0) then return fun _ _ => true
  if nT ≤ 1 then throw "ValueError: cannot convert float NaN to integer"
  let win := (npRound (240 / mdiff nT time / 60)).toNat
  let alt := freezingAlt nT melt t0 win
  let valid := (List.range nT).filter fun t => (alt t).isSome
  let interpolated : ℕ → α := fun t =>
    interpLinear valid.length (fun i => time (valid.getD i 0)) (fun i => (alt (valid.getD i 0)).getD 0) (time t)
      - 1
  return fun t h => decide (interpolated t < height h)

end

end Cloudnet
