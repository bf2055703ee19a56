import Verif.Basic
import Verif.Interp.Model
import Verif.Droplet.Model
import Verif.Rebin.Model
import Verif.Search.Model
import Mathlib.Analysis.SpecialFunctions.Log.Base
import Mathlib.Analysis.SpecialFunctions.Pow.Real
import Mathlib.Analysis.SpecialFunctions.Complex.Circle

namespace Cloudnet

/-! Dissipation rate of turbulent kinetic energy from a cloud radar: `products/epsilon_radar.py`. Floating
point numbers are reals. -/

/-- The loop of a binary search to the right of equal elements. -/
def bisectRightLoop {α : Type*} [LT α] [DecidableLT α] (a : ℕ → α) (x : α) : ℕ → ℕ → ℕ → ℕ
  | 0, lo, _ => lo
  | fuel + 1, lo, hi =>
    if lo < hi then
      let mid := (lo + hi) / 2
      if x < a mid then bisectRightLoop a x fuel lo mid else bisectRightLoop a x fuel (mid + 1) hi
    else lo

/-- `np.searchsorted(a, x, side="right")` for a vector of length `hi`
(`products/epsilon_radar.py:128-131`, `238`). -/
def bisectRight {α : Type*} [LT α] [DecidableLT α] (a : ℕ → α) (x : α) (hi : ℕ) : ℕ :=
  bisectRightLoop a x hi 0 hi

/-! ### Spectrum -/

/-- `np.fft.rfft(vel)[k]` for a vector of length `n`. -/
noncomputable def rfft (n : ℕ) (vel : ℕ → ℝ) (k : ℕ) : ℂ :=
  ∑ j ∈ Finset.range n, (vel j : ℂ) * Complex.exp (-(2 * Real.pi * Complex.I * (j * k) / n))

/-- `products/epsilon_radar.py:205-215` `_periodogram`: pairs of wavenumber and power. `rfft` has
`n // 2 + 1` elements, the first one is left out. -/
noncomputable def periodogram (n : ℕ) (vel : ℕ → ℝ) (dt adv : ℝ) : List (ℝ × ℝ) :=
  let dx := dt * adv
  ((List.range (n / 2)).map fun k =>
    (((k + 1 : ℕ) : ℝ) / (n * dx) * 2 * Real.pi, dx / n * ‖rfft n vel (k + 1)‖ ^ 2 / Real.pi)).filter
      fun fp => decide (0 < fp.2)

/-! ### Fit -/

/-- `products/epsilon_radar.py:325-370` `freq_array`: limits of the bands. -/
def freqBands : List (ℚ × ℚ) :=
  [(5 / 1000, 15 / 1000), (5 / 1000, 3 / 100), (5 / 1000, 5 / 100),
   (8 / 1000, 2 / 100), (8 / 1000, 4 / 100), (8 / 1000, 6 / 100),
   (2 / 100, 7 / 100), (2 / 100, 1 / 10), (2 / 100, 15 / 100),
   (3 / 100, 1 / 10), (3 / 100, 2 / 10), (3 / 100, 3 / 10),
   (5 / 100, 15 / 100), (5 / 100, 3 / 10), (5 / 100, 5 / 10),
   (8 / 100, 2 / 10), (8 / 100, 4 / 10), (8 / 100, 6 / 10),
   (2 / 10, 7 / 10), (2 / 10, 1), (2 / 10, 15 / 10),
   (3 / 10, 1), (3 / 10, 2), (3 / 10, 3),
   (5 / 10, 15 / 10), (5 / 10, 3), (5 / 10, 5),
   (8 / 10, 2), (8 / 10, 4), (8 / 10, 6),
   (2, 7), (2, 10), (2, 15),
   (3, 10), (3, 20), (3, 30),
   (5, 15), (5, 30), (5, 50),
   (8, 20), (8, 40), (8, 60)]

/-- `np.concatenate(([0.0], np.cumsum(l)))[i]` (`products/epsilon_radar.py:233-236`). -/
def cumulative (l : List ℝ) (i : ℕ) : ℝ := (l.scanl (· + ·) 0).getD i 0

/-- One element of the vectors `n`, `slope` (`none` if it is not finite) and `intercept`. -/
structure BandFit where
  n : ℕ
  slope : Option ℝ
  intercept : ℝ

/-- `products/epsilon_radar.py:230-249`, one band. -/
noncomputable def bandFit (sp : List (ℝ × ℝ)) (band : ℚ × ℚ) : BandFit :=
  let logF := sp.map fun fp => Real.logb 10 fp.1
  let logP := sp.map fun fp => Real.logb 10 fp.2
  let csx := cumulative logF
  let csy := cumulative logP
  let csxx := cumulative (List.zipWith (· * ·) logF logF)
  let csxy := cumulative (List.zipWith (· * ·) logF logP)
  let lo := bisectRight (fun i => (sp.getD i (0, 0)).1) (band.1 : ℝ) sp.length
  let hi := bisectLeft (fun i => (sp.getD i (0, 0)).1) (band.2 : ℝ) sp.length
  let n := hi - lo
  let sx := csx hi - csx lo
  let sy := csy hi - csy lo
  let sxx := csxx hi - csxx lo
  let sxy := csxy hi - csxy lo
  let slope := if n * sxx - sx * sx = 0 then none else some ((n * sxy - sx * sy) / (n * sxx - sx * sx))
  { n := n, slope := slope, intercept := (sy - slope.getD 0 * sx) / n }

/-- `products/epsilon_radar.py:251-256`: is a band used? -/
def BandFit.valid (f : BandFit) : Prop :=
  2 ≤ f.n ∧ ∃ s, f.slope = some s ∧ -2 < s ∧ s < -(133 / 100)

/-- `products/epsilon_radar.py:259`: the dissipation rate of a band (Kolmogorov constant 0.5). -/
noncomputable def BandFit.epsilon (f : BandFit) : ℝ := ((10 : ℝ) ^ f.intercept / (1 / 2)) ^ (3 / 2 : ℝ)

open Classical in
/-- `products/epsilon_radar.py:218-261` `_epsilon_from_spectrum`: mean and standard deviation (`none` for
NaN). -/
noncomputable def epsilonFromSpectrum (sp : List (ℝ × ℝ)) : Option (ℝ × Option ℝ) :=
  let valid := (freqBands.map (bandFit sp)).filter fun f => decide f.valid
  if valid = [] then none
  else
    let eps := valid.map BandFit.epsilon
    let mean := eps.sum / eps.length
    some (mean, if 2 ≤ eps.length then
        some (Real.sqrt ((eps.map fun e => (e - mean) ^ 2).sum / (eps.length - 1)))
      else none)

/-! ### Windows -/

/-- `products/epsilon_radar.py:146-171`, one time and gate. The window has `m` profiles at `time`, `vel` are
its velocities. `spline` is SciPy's `CubicSpline` as a function of the known points and the time at which
it is evaluated. `wind` is `none` if it is not finite. -/
noncomputable def epsilonCell (spline : List (ℝ × ℝ) → ℝ → ℝ) (m : ℕ) (time : ℕ → ℝ) (vel : ℕ → Option ℝ)
    (dt : ℝ) (wind : Option ℝ) : Option (ℝ × Option ℝ) :=
  let minValid := max 2 ⌊(9 / 10 : ℝ) * m⌋₊
  let nanMask := (List.range m).map fun i => (vel i).isNone
  if (nanMask.take 2).all id || (nanMask.drop (m - 2)).all id then none
  else if m - nanMask.countP id < minValid then none
  else
    let known := (List.range m).filterMap fun i => (vel i).map fun x => (time i, x)
    let filled : ℕ → ℝ := if nanMask.any id then fun i => spline known (time i) else fun i => (vel i).getD 0
    match wind with
    | none => none
    | some u =>
      if u ≤ 0 then none
      else
        let sp := periodogram m filled dt u
        if sp.length < 2 then none else epsilonFromSpectrum sp

/-- The product: times and two dimensional data. -/
structure EpsilonOut where
  times : List ℝ
  epsilon : Grid (Option ℝ)
  error : Grid (Option ℝ)

/-- `products/epsilon_radar.py:113-183` `append_epsilon` for `nT` radar profiles. Heights are known by
their index; `wind` is the wind speed at a time and gate. The arrays start with `EPSILON_INVALID`, where
NaN is `none`. -/
noncomputable def appendEpsilon (spline : List (ℝ × ℝ) → ℝ → ℝ) (nT : ℕ) (time : ℕ → ℝ) (v : Grid (Option ℝ))
    (wind : ℝ → ℕ → Option ℝ) : Except String EpsilonOut := do
  let dt : ℝ := (npRound (mdiff nT time * 3600) : ℤ)
  let (n, grid) ← timeGrid (30 : ℝ)
  let all := (List.range n).map fun i =>
    (grid i, bisectRight time (grid i) nT, bisectRight time (grid i + 5 / 60) nT)
  let used := all.filter fun w => decide (w.2.1 < w.2.2)
  let cell : Grid (Option (ℝ × Option ℝ)) := fun t h =>
    let w := used.getD t (0, 0, 0)
    epsilonCell spline (w.2.2 - w.2.1) (fun i => time (w.2.1 + i)) (fun i => v (w.2.1 + i) h) dt (wind w.1 h)
  let epsilon : Grid ℝ := fun t h => ((cell t h).map (·.1)).getD (-999)
  let error : Grid (Option ℝ) := fun t h => ((cell t h).map (·.2)).getD (some (-999))
  pure { times := used.map (·.1)
         epsilon := fun t h => if epsilon t h = -999 then none else some (epsilon t h)
         error := fun t h => if error t h = some (-999) ∨ error t h = none then none else error t h }

/-! ### Coordinates and wind -/

/-- `products/epsilon_radar.py:194-202`: a site coordinate on the grid of the product; the position of a
stationary radar is a number, else there is one for each profile. -/
def gridCoordinate {α : Type} [Field α] [LinearOrder α] (nT : ℕ) (time : ℕ → α) (src : α ⊕ (ℕ → Option α))
    (n : ℕ) (times : ℕ → α) : Except String (ℕ → Option α) :=
  match src with
  | .inl x => .ok fun _ => some x
  | .inr x => rebin1d maMean nT time x n times

/-- `utils.py:878-896` `get_model_surface_altitude` at a time step (G is the standard gravity). -/
def modelSurface {α : Type} [Field α] (sfcHeight sfcGeopotential : Option (ℕ → α)) (site : α) (t : ℕ) : α :=
  match sfcHeight, sfcGeopotential with
  | some s, _ => s t
  | none, some g => g t / (980665 / 100000)
  | none, none => site

/-- `RectBivariateSpline(x, y, z, kx=1, ky=1)` at a point: bilinear within the cells of the grid, arguments
outside are moved to the edge. -/
noncomputable def bilinear (nx : ℕ) (x : ℕ → ℝ) (ny : ℕ) (y : ℕ → ℝ) (z : Grid ℝ) (u v : ℝ) : ℝ :=
  interpLinear nx x (fun i => interpLinear ny y (z i) v) u

/-- `products/epsilon_radar.py:83-103` `_get_wind_interpolator` for a model with `nT` times and `nH`
levels, heights above its surface in metres. -/
noncomputable def windSpeedAt (nT nH : ℕ) (time : ℕ → ℝ) (uwind vwind height : Grid ℝ)
    (sfcHeight sfcGeopotential : Option (ℕ → ℝ)) (site : ℝ) (t h : ℝ) : ℝ :=
  let heights : Grid ℝ := fun i k => height i k + modelSurface sfcHeight sfcGeopotential site i
  let speed : Grid ℝ := fun i k => Real.sqrt (uwind i k ^ 2 + vwind i k ^ 2)
  let mean : ℕ → ℝ := fun k => ((List.range nT).map fun i => heights i k).sum / nT
  let common : Grid ℝ := fun i k => interpLinear nH (heights i) (speed i) (mean k)
  bilinear nT time nH mean common t h

end Cloudnet
