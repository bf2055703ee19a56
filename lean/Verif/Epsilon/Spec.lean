import Mathlib.Analysis.SpecialFunctions.Log.Base
import Mathlib.Analysis.SpecialFunctions.Pow.Real

/-! Specification of the dissipation rate from a spectrum, without reference to the model. -/

namespace Cloudnet.Spec

/-- Sum of squared distances of points from a line with an intercept and a slope. -/
def squaredError (pts : List (ℝ × ℝ)) (a b : ℝ) : ℝ := (pts.map fun p => (p.2 - (a + b * p.1)) ^ 2).sum

/-- The line of least squares. -/
def LineFit (pts : List (ℝ × ℝ)) (a b : ℝ) : Prop := ∀ a' b', squaredError pts a b ≤ squaredError pts a' b'

/-- A spectrum: pairs of wavenumber and power, all positive, with increasing wavenumber. -/
def IsSpectrum (sp : List (ℝ × ℝ)) : Prop :=
  sp.Pairwise (fun p q => p.1 < q.1) ∧ ∀ p ∈ sp, 0 < p.1 ∧ 0 < p.2

/-- The points of a spectrum strictly inside a band, in logarithmic coordinates. -/
noncomputable def bandPoints (sp : List (ℝ × ℝ)) (lo hi : ℝ) : List (ℝ × ℝ) :=
  (sp.filter fun p => decide (lo < p.1 ∧ p.1 < hi)).map fun p => (Real.logb 10 p.1, Real.logb 10 p.2)

/-- A band accepts the estimate `e`: it has two points or more, the line of least squares has a slope
within 20 % of -5/3 (rounded to -2 and -1.33), and `e` is the dissipation rate of a spectrum
`0.5 e^(2/3) k^(-5/3)` that has the intercept of the line. -/
def Estimate (sp : List (ℝ × ℝ)) (lo hi e : ℝ) : Prop :=
  2 ≤ (bandPoints sp lo hi).length ∧ 0 < e ∧
  ∃ a b, LineFit (bandPoints sp lo hi) a b ∧ -2 < b ∧ b < -1.33 ∧ (10 : ℝ) ^ a = 0.5 * e ^ (2 / 3 : ℝ)

/-- The bands of wavenumbers (rad/m) to which lines are fitted: six bands that start at 5 or 8 rad/m,
repeated over four decades down to 0.005 rad/m, and six that start at 2 or 3 rad/m, repeated over three. -/
def InertialBand (band : ℚ × ℚ) : Prop :=
  (∃ p ∈ [((5 : ℚ), (15 : ℚ)), (5, 30), (5, 50), (8, 20), (8, 40), (8, 60)], ∃ k < 4,
    band = (p.1 / 10 ^ k, p.2 / 10 ^ k)) ∨
  (∃ p ∈ [((2 : ℚ), (7 : ℚ)), (2, 10), (2, 15), (3, 10), (3, 20), (3, 30)], ∃ k < 3,
    band = (p.1 / 10 ^ k, p.2 / 10 ^ k))

end Cloudnet.Spec
