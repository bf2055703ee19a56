import Verif.Droplet.Model
import Mathlib.Probability.CDF
import Mathlib.Probability.Distributions.Gaussian.Real

namespace Cloudnet

/-! Insects: `categorize/insects.py`. -/

/-- `scipy.stats.norm.cdf(x)`. -/
noncomputable def normCdf (x : ℝ) : ℝ := ProbabilityTheory.cdf (ProbabilityTheory.gaussianReal 0 1) x

/-- `utils.py:824-853` `array_to_probability`, one element. -/
noncomputable def arrayToProbability (x : Option ℝ) (loc scale : ℝ) (invert : Bool) : ℝ :=
  match x with
  | none => 0
  | some x => if invert then normCdf ((-1 * x - -1 * loc) / scale) else normCdf ((x - loc) / scale)

/-- The fields of `ClassData` used by `insects.py`; fields that may be missing are optional. `smoothV` is what
`scipy.ndimage.gaussian_filter` made of `v.filled(0)` (line 100), not modelled; `mira` tells whether the
radar type contains "mira". -/
structure InsectInput where
  nT : ℕ
  time : ℕ → ℝ
  z : Grid (Option ℝ)
  v : Grid (Option ℝ)
  vSigma : Grid (Option ℝ)
  width : Option (Grid (Option ℝ))
  ldr : Option (Grid (Option ℝ))
  sldr : Option (Grid (Option ℝ))
  tw : Grid (Option ℝ)
  lwp : ℕ → Option ℝ
  isRain : ℕ → Bool
  smoothV : Grid ℝ
  mira : Bool

/-- `insects.py:70` and `:84-86`: probability from the width, 1 if there is no such field. -/
noncomputable def InsectInput.probWidth (o : InsectInput) (loc scale : ℝ) : Grid ℝ :=
  match o.width with
  | none => fun _ _ => 1
  | some w => fun t h => arrayToProbability (w t h) loc scale true

/-- `insects.py:104-128` `_calc_prob_from_ldr` with the probabilities of `:69-92`. -/
noncomputable def InsectInput.probFromLdr (o : InsectInput) : Grid ℝ :=
  match o.ldr, o.sldr with
  | some ldr, _ => fun t h =>
      arrayToProbability (ldr t h) (-25) 5 false * arrayToProbability (o.tw t h) 268 2 false
  | none, some sldr => fun t h =>
      let pSldr := arrayToProbability (sldr t h) (-25) 5 false
      let pVsig := arrayToProbability (o.vSigma t h) 0.2 0.15 false
      let pWn := o.probWidth 0.3 0.1 t h
      let pZi := arrayToProbability (o.z t h) (-30) 5 true
      let pEcho := if (o.vSigma t h).isNone then pZi else 0
      let pProxy := max pSldr (max pVsig pEcho)
      let pTotal := pProxy * pWn * arrayToProbability (o.tw t h) 265 3 false
      let pHigh := pSldr * arrayToProbability (o.tw t h) 268 2 false
      if 0.9 < pHigh then pHigh else pTotal
  | none, none => fun _ _ => 0

/-- `insects.py:131-147` `_calc_prob_from_all` and `_adjust_for_radar`. -/
noncomputable def InsectInput.probFromOthers (o : InsectInput) : Grid ℝ := fun t h =>
  let smooth : Option ℝ := (o.v t h).map fun _ => o.smoothV t h
  let p := arrayToProbability (o.z t h) (-20) 8 true * arrayToProbability (o.tw t h) 274 1 false *
    o.probWidth 1 0.3 t h * arrayToProbability smooth (-3.5) 2 false
  if o.mira then p * arrayToProbability (some (interpolateLwp o.nT o.time o.lwp t)) 0.15 0.05 true else p

/-- `insects.py:157-183` `_screen_insects`, the assignments in their order. -/
noncomputable def screenInsects (insectProb insectProbNoLdr : Grid ℝ) (melting liquid : Grid Bool)
    (isRain : ℕ → Bool) : Grid ℝ :=
  let prob := insectProb
  let prob := prob.assign liquid 0
  let prob := prob.assign (ffillGrid melting false) 0
  let prob := prob.assign (fun t h => ffillGrid liquid false t h && decide (0 < insectProbNoLdr t h)) 0
  prob.assign (fun t _ => isRain t) 0

/-- `insects.py:13-53` `find_insects`: the insect flag and the (masked) probability. The transposition of the
liquid water path (line 78) fails for a single profile. -/
noncomputable def findInsects (o : InsectInput) (melting liquid : Grid Bool) :
    Except String (Grid Bool × Grid (Option ℝ)) :=
  if o.nT ≤ 1 then .error "ValueError: Invalid input array shape"
  else
    let probFromOthers := o.probFromOthers
    let probCombined : Grid ℝ := fun t h => max (o.probFromLdr t h) (probFromOthers t h)
    let prob := screenInsects probCombined probFromOthers melting liquid o.isRain
    .ok (fun t h => decide (0.8 < prob t h), fun t h => if prob t h = 0 then none else some (prob t h))

end Cloudnet
