import Verif.Ice.Model
import Verif.IceFile.Model
import Verif.Atmos.Model
import Mathlib.Analysis.SpecialFunctions.Trigonometric.Basic

/-!
The file with droplet effective radius (`products/der.py`): all five retrieved variables.
-/

namespace Cloudnet

/-- `products/der.py:25-31` `Parameters`. -/
structure DerParameters where
  ddBZ : ℝ
  N : ℝ
  dN : ℝ
  sigmaX : ℝ
  dsigmaX : ℝ
  dQ : ℝ

/-- `products/der.py:126-128`: the default parameters. -/
noncomputable def defaultDerParameters : DerParameters := ⟨2, 200000000, 200000000, 0.35, 0.1, 0.005⟩

/-- The numbers in the arrays `der`, `der_error`, `der_scaled`, `der_scaled_error` (mm) and `N_scaled` for one pixel. -/
structure DerPixel where
  der : ℝ
  error : ℝ
  scaled : ℝ
  scaledError : ℝ
  n : ℝ

/-- `products/der.py:143-147` -/
def DerPixel.zero : DerPixel := ⟨0, 0, 0, 0, 0⟩

/-- `products/der.py:170-203`: formulas of Frisch et al. for a gate with linear reflectivity `z`, path length `dz`, the sum `s` of the
square roots of `z` in the layer and the liquid water path. For `lwp = 0` the division by a masked array gives masked values; assigned to
a plain array they are the numbers below the mask, which numpy takes from the first operand: `1.0e-3` for `der_scaled`, and `der_scaled`
for its error. -/
noncomputable def derPixel (p : DerParameters) (z dz s lwp : ℝ) : DerPixel :=
  let varX := p.sigmaX * p.sigmaX
  let dZ := |(10 : ℝ) ^ (p.ddBZ / 10)| * z
  let integral := s * dz
  let der := 0.5 * (z / p.N) ^ (1 / 6 : ℝ) * Real.exp (-0.5 * varX)
  let a := p.dN / (6 * p.N)
  let b := p.sigmaX * p.dsigmaX
  let c := dZ / (6 * z)
  let scaled := if lwp = 0 then 0.001 else
    0.001 * (z ^ (1 / 6 : ℝ) / (2 * lwp ^ (1 / 3 : ℝ))) * (Real.pi * 1000 / 6) ^ (1 / 3 : ℝ) * (integral ^ (1 / 3 : ℝ) * Real.exp (-2 * varX))
  let c' := p.dQ / (3 * lwp)
  { der := der
    error := der * Real.sqrt (a * a + b * b + c * c)
    scaled := scaled
    scaledError := if lwp = 0 then scaled else scaled * Real.sqrt (c * c + (4 * p.sigmaX * p.dsigmaX) * (4 * p.sigmaX * p.dsigmaX) + c' * c')
    n := z / ((2 * scaled) / Real.exp (-0.5 * varX)) ^ 6 }

/-- `products/der.py:163-168`: the gates of a layer with an echo and the sum of the roots. -/
noncomputable def layerSum (z : ℕ → Option ℝ) (base top : ℕ) : ℝ :=
  (((List.range (top + 1)).filter fun h => decide (base ≤ h)).map fun h => match z h with
    | some x => Real.sqrt x
    | none => 0).sum

/-- `products/der.py:158-203`: one layer. Rows with masked liquid water path are masked in the end, here their numbers are those of 0. -/
noncomputable def derLayerAll (p : DerParameters) (z : Grid (Option ℝ)) (dz : ℕ → ℝ) (lwp : ℕ → Option ℝ) (d : Grid DerPixel)
    (q : Pixel × Pixel) : Grid DerPixel := fun t h =>
  if t = q.1.1 ∧ q.1.2 ≤ h ∧ h < q.2.2 + 1 then
    match z q.1.1 h with
    | some x => derPixel p x (dz h) (layerSum (z q.1.1) q.1.2 q.2.2) ((lwp q.1.1).getD 0)
    | none => d t h
  else d t h

/-- `ma.masked_less_equal(array, 0.0)`; all numbers are finite in the model. -/
noncomputable def maskedPositive (x : ℝ) : Option ℝ := if x ≤ 0 then none else some x

/-- The variables of the file. -/
structure DerFile where
  der : Grid (Option ℝ)
  error : Grid (Option ℝ)
  scaled : Grid (Option ℝ)
  scaledError : Grid (Option ℝ)
  n : Grid (Option ℝ)
  status : Grid ℕ

/-- The variables of a categorize file that are used; `none` is a missing variable. -/
structure DerInput where
  nT : ℕ
  nH : ℕ
  heightAgl : ℕ → ℝ
  z : Option (Grid (Option ℝ))
  lwp : Option (ℕ → Option ℝ)
  categoryBits : Grid ℤ
  rain : String → Option (ℕ → Option ℝ)

/-- `products/der.py:205-213` for the variables that use the liquid water path. -/
noncomputable def maskedByLwp (lwp : ℕ → Option ℝ) (scale : ℝ) (x : Grid ℝ) : Grid (Option ℝ) := fun t h =>
  match lwp t with
  | none => none
  | some _ => (maskedPositive (x t h)).map fun v => v * scale

/-- `products/der.py:34-83` `generate_der`, `products/der.py:116-130` `DerSource.__init__` and `products/der.py:132-219` `append_der`.
`clipLwp` is `lwp[lwp < 0] = 0`. -/
noncomputable def generateDer (p : Option DerParameters) (f : DerInput) : Except String DerFile :=
  (match f.lwp with
    | none => .error "InvalidSourceFileError: Liquid water path missing from the categorize file."
    | some l => .ok l : Except String (ℕ → Option ℝ)).bind fun lwp0 =>
  (getIsRain f.rain).bind fun rain => (readCategoryBits f.categoryBits).bind fun c => (readVar f.z).bind fun zdb =>
  (cloudBaseTopPairs f.nT f.nH c.droplet).map fun pairs =>
    let params := p.getD defaultDerParameters
    let z : Grid (Option ℝ) := fun t h => (zdb t h).map fun x => (10 : ℝ) ^ (x / 10)
    let lwp := clipLwp lwp0
    let d := pairs.foldl (derLayerAll params z (pathLengthsFromGround f.heightAgl) lwp) fun _ _ => DerPixel.zero
    let der : Grid (Option ℝ) := fun t h => (maskedPositive (d t h).der).map fun v => v * 0.001
    { der := der
      error := fun t h => (maskedPositive (d t h).error).map fun v => v * 0.001
      scaled := maskedByLwp lwp 0.001 fun t h => (d t h).scaled
      scaledError := maskedByLwp lwp 0.001 fun t h => (d t h).scaledError
      n := maskedByLwp lwp 1 fun t h => (d t h).n
      status := derStatus c rain der }

end Cloudnet
