import Verif.Atmos.Model
import Verif.Attenuation.Model

namespace Cloudnet

/-! `products/lwc.py`: retrieval status (`CloudAdjustor`) and error (`LwcError`). All loops of
`CloudAdjustor` treat one profile at a time; the model does the same. -/

section
variable {α : Type} [Field α] [LinearOrder α]

/-- `products/lwc.py:257-263` `_find_topmost_clouds`, one profile of `nH` gates. -/
def topmostCloudRow (nH : ℕ) (liq : ℕ → Bool) : ℕ → Bool :=
  let cloudEdges : ℕ → Bool := fun j => !liq (nH - 2 - j) && liq (nH - 1 - j)
  let base := nH - 1 - argmaxBool (nH - 1) cloudEdges
  fun h => if h < base then false else liq h

/-- `products/lwc.py:265-269` and `:252`: detection type of the pixels of the topmost cloud. -/
def detectionRow (topCloud liq radar lidar : ℕ → Bool) (h : ℕ) : ℕ :=
  if topCloud h then (if liq h && lidar h then 1 else 0) + (if liq h && radar h then 1 else 0) * 2 else 0

/-- `products/lwc.py:271-284` `_find_lidar_only_clouds`: the quotient is 1 iff both sums agree and are not
zero (0/0 is not equal to 1). -/
def lidarOnlyRow (nH : ℕ) (detection : ℕ → ℕ) : Bool :=
  let pixels := ∑ h ∈ Finset.range nH, if 0 < detection h then 1 else 0
  let types := ∑ h ∈ Finset.range nH, detection h
  types ≠ 0 && pixels = types

/-- `products/lwc.py:249-255`, `:286-300` `_find_adjustable_clouds`. A masked liquid water path gives no
adjustable cloud. -/
def adjustableRow (nH : ℕ) (liq radar lidar : ℕ → Bool) (isRain : Bool) (lwcAdiabatic path : ℕ → α)
    (lwp : Option α) : ℕ → Bool :=
  let topCloud := topmostCloudRow nH liq
  let lidarOnly := lidarOnlyRow nH (detectionRow topCloud liq radar lidar)
  let dubious := match lwp with
    | none => false
    | some l => decide ((∑ h ∈ Finset.range nH, lwcAdiabatic h * path h) - l < 0) && !isRain
  fun h => topCloud h && lidarOnly && dubious

/-- `products/lwc.py:229-240` `_adjust_lwc`: the loop from the distance `d` on, `k` gates being left above
`base + d`. The state is the adiabatic liquid water content and the status of the profile. -/
def adjustLoop (nH : ℕ) (path : ℕ → α) (lwp lwcBase : α) (base : ℕ) :
    ℕ → ℕ → (ℕ → α) × (ℕ → ℕ) → (ℕ → α) × (ℕ → ℕ)
  | k, d, (lwc, status) =>
    let top := base + d
    let lwc := fun j => if j = top then lwcBase * (d + 1) else lwc j
    let status := if status top = 0 then (fun j => if j = top then 3 else status j) else status
    if lwp < ∑ h ∈ Finset.range nH, lwc h * path h then (lwc, status)
    else match k with
      | 0 => (lwc, status)
      | k + 1 => adjustLoop nH path lwp lwcBase base k (d + 1) (lwc, status)

/-- `products/lwc.py:196-247`, `:302-308` class `CloudAdjustor`, one profile: the retrieval status. The
write above the last gate (`top_ind = nH`) raises `IndexError`, and so does `argmax` without edges. -/
def cloudAdjustorRow (nH : ℕ) (liq radar lidar : ℕ → Bool) (isRain : Bool) (lwcAdiabatic path : ℕ → α)
    (lwp : Option α) : Except String (ℕ → ℕ) := do
  if nH ≤ 1 then throw "ValueError: attempt to get argmax of an empty sequence"
  let status0 : ℕ → ℕ := fun h => if liq h then 1 else 0
  let adjustable := adjustableRow nH liq radar lidar isRain lwcAdiabatic path lwp
  let status ← match (List.range nH).find? adjustable, lwp with
    | some base, some l =>
      if nH ≤ base + 1 then throw "IndexError"
      else
        let status1 : ℕ → ℕ := fun h => if liq h then 2 else status0 h
        pure (adjustLoop nH path l (lwcAdiabatic base) base (nH - 1 - (base + 1)) 1
          (lwcAdiabatic, status1)).2
    | _, _ => pure status0
  return fun h => if isRain || lwp.isNone then 4 else status h

/-- `products/lwc.py:179-308` class `CloudAdjustor`: `lwc_retrieval_status` for all profiles. -/
def cloudAdjustor (nT nH : ℕ) (liq radar lidar : Grid Bool) (isRain : ℕ → Bool) (lwcAdiabatic : Grid α)
    (path : ℕ → α) (lwp : ℕ → Option α) : Except String (Grid ℕ) := do
  let rows ← (List.range nT).mapM fun t =>
    cloudAdjustorRow nH (liq t) (radar t) (lidar t) (isRain t) (lwcAdiabatic t) path (lwp t)
  return fun t => rows.getD t (fun _ => 0)

end

/-! ### Error -/

/-- `np.gradient` of a vector of length `n` with unit spacing. -/
noncomputable def gradient1 (n : ℕ) (f : ℕ → ℝ) (i : ℕ) : ℝ :=
  if i = 0 then f 1 - f 0
  else if i = n - 1 then f i - f (i - 1)
  else (f (i + 1) - f (i - 1)) / 2

/-- `products/lwc.py:357-360` `_limit_error`. -/
noncomputable def limitError (error : Option ℝ) (maxValue : ℝ) : Option ℝ :=
  error.map fun e => if maxValue < e then maxValue else e

/-- `products/lwc.py:311-377` class `LwcError`; `lwc` is the liquid water content with rainy profiles
masked, `lwp` the clipped liquid water path. Masked divisions mask the result. -/
noncomputable def lwcError (nT nH : ℕ) (lwc : Grid (Option ℝ)) (lwp lwpError : ℕ → Option ℝ)
    (isRain : ℕ → Bool) : Except String (Grid (Option ℝ)) :=
  if nT ≤ 1 ∨ nH ≤ 1 then .error "ValueError"
  else
    let filled : Grid ℝ := fun t h => (lwc t h).getD 0
    let lwcGradient : Grid (Option ℝ) := fun t h =>
      l2norm [some (gradient1 nT (fun t' => filled t' h) t), some (gradient1 nH (filled t) h)]
    let lwcRelativeError : Grid (Option ℝ) := fun t h =>
      limitError ((lwcGradient t h).bind fun g => (lwc t h).bind fun w =>
        if w = 0 then none else some (g / w / 2)) 5
    let lwpRelativeError : ℕ → Option ℝ := fun t =>
      limitError ((lwpError t).bind fun e => (lwp t).map fun v => if v ≠ 0 then e / v else 0) 10
    let combined : Grid (Option ℝ) := fun t h => l2norm [lwcRelativeError t h, lwpRelativeError t]
    .ok fun t h =>
      let filledError := match lwc t h with
        | none => none
        | some w => if w = 0 then none else combined t h
      if isRain t then none else filledError

end Cloudnet
