import Verif.Ice.Model
import Verif.Search.Model
import Verif.Attenuation.Model
import Mathlib.Analysis.SpecialFunctions.Gamma.Basic

namespace Cloudnet

/-! The drizzle product: `products/drizzle_tools.py`, `products/drizzle.py`,
`products/drizzle_error.py`. -/

/-- `products/drizzle_tools.py:92-98` `DrizzleClassification`: masks used by the retrieval. -/
structure DrizzleMasks where
  warmLiquid : Grid Bool
  drizzle : Grid Bool
  wouldBeDrizzle : Grid Bool
  coldRain : ℕ → Bool
  isRain : ℕ → Bool

/-- `products/drizzle_tools.py:101-147` `DrizzleClassification.__init__`. `isVSigma` says where the
standard deviation of velocity is finite. `utils.transpose` (lines 119, 136) needs two profiles. -/
def drizzleClassification (nT nH : ℕ) (c : CategoryBits) (q : QualityBits) (isVSigma : Grid Bool)
    (isRain : ℕ → Bool) : Except String DrizzleMasks :=
  let warmLiquid := gand c.droplet (gnot c.freezing)
  let rain2d : Grid Bool := fun t _ => isRain t
  let drizzle := gand (gand (gand (gand (gand (gand (gand (gand (gand (gand (gand (gand
    (gnot rain2d) c.falling) (gnot c.droplet)) (gnot c.freezing)) (gnot c.melting)) (gnot c.insect))
    q.radar) q.lidar) (gnot q.clutter)) (gnot q.molecular)) (gnot q.attenuatedLiquid))
    (gnot q.attenuatedRain)) isVSigma
  let wouldBe := gand (gand (gand (gand (gand (gand (gand
    (gnot rain2d) warmLiquid) c.falling) (gnot c.melting)) (gnot c.insect)) q.radar)
    (gnot q.clutter)) (gnot q.molecular)
  let coldRain : ℕ → Bool := fun t => (List.range nH).any (c.melting t)
  if nT ≤ 1 then .error "ValueError: Invalid input array shape"
  else .ok { warmLiquid := warmLiquid, drizzle := drizzle, wouldBeDrizzle := wouldBe,
             coldRain := coldRain, isRain := isRain }

/-- `products/drizzle.py:155-186` `RetrievalStatus`. -/
def drizzleStatus (m : DrizzleMasks) : Grid ℕ :=
  let s0 : Grid ℕ := fun t h => if m.drizzle t h then 1 else 0
  let belowMelting : Grid Bool := fun t h => m.coldRain t && m.drizzle t h
  let s1 := s0.assign belowMelting 2
  let s2 := s1.assign m.wouldBeDrizzle 3
  let inWarmLiquid : Grid Bool := fun t h => (s2 t h == 0) && m.warmLiquid t h
  let s3 := s2.assign inWarmLiquid 4
  s3.assign (fun t _ => m.isRain t) 5

/-- A result of the drizzle retrieval: a scalar or a (time, height) array; `none` is masked. -/
inductive DrizzleResult (α : Type*) where
  | scalar (x : Option α)
  | grid (a : Grid (Option α))

/-- `products/drizzle.py:189-194` `_screen_rain`: zero in rainy profiles of array results (a single
profile cannot get here, see `drizzleClassification`). -/
def screenRain {α : Type*} [Zero α] (isRain : ℕ → Bool) (r : DrizzleResult α) : DrizzleResult α :=
  match r with
  | .scalar x => .scalar x
  | .grid a => .grid (a.assign (fun t _ => isRain t) (some 0))

/-- `products/drizzle.py:197-204` `_append_data` for one variable other than the status: zeros become
masked. -/
def maskZeros {α : Type*} [Zero α] [DecidableEq α] (r : DrizzleResult α) : DrizzleResult α :=
  match r with
  | .scalar x => .scalar (if x = some 0 then none else x)
  | .grid a => .grid fun t h => if a t h = some 0 then none else a t h

/-- What is written to a drizzle file: `products/drizzle.py:58-65`. The retrieval status is added after
the rain screening and its zeros are kept. -/
structure DrizzleFile (α : Type*) where
  fields : List (String × DrizzleResult α)
  status : Grid ℕ

/-- `products/drizzle.py:57-65`: status, rain screening and masking of zeros, for the list of retrieved
variables. -/
def drizzleFile {α : Type*} [Zero α] [DecidableEq α] (m : DrizzleMasks)
    (results : List (String × DrizzleResult α)) : DrizzleFile α where
  fields := results.map fun kv => (kv.1, maskZeros (screenRain m.isRain kv.2))
  status := drizzleStatus m

/-- The Mie look-up table (`products/drizzle_tools.py:46-66`): diameters, shape parameters, and
two-dimensional tables indexed by (width, diameter). -/
structure MieTable where
  nWidths : ℕ
  nDia : ℕ
  dia : ℕ → ℝ
  mu : ℕ → ℝ
  S : ℕ → ℕ → ℝ
  ray : ℕ → ℕ → ℝ
  width : ℕ → ℕ → ℝ
  lwf : ℕ → ℕ → ℝ
  v : ℕ → ℕ → ℝ
  termv : ℕ → ℝ

/-- Input of the drizzle retrieval (`products/drizzle_tools.py:221-233`): linear radar reflectivity,
lidar backscatter, Doppler velocity, corrected spectral width, height above ground. -/
structure DrizzleInput where
  nT : ℕ
  nH : ℕ
  mie : MieTable
  z : Grid ℝ
  beta : Grid ℝ
  v : Grid ℝ
  widthHt : Grid ℝ
  heightAgl : ℕ → ℝ
  drizzle : Grid Bool

/-- `products/drizzle_tools.py:293-316` `_calc_dia`. -/
noncomputable def calcDia (betaZRatio mu ray k : ℝ) : ℝ :=
  (Real.Gamma (3 + mu) / Real.Gamma (7 + mu) * (3.67 + mu) ^ 4 / (ray * k * betaZRatio)) ^ (1 / 4 : ℝ)

/-- `products/drizzle_tools.py:245-246` `_calc_beta_z_ratio`. -/
noncomputable def betaZRatio (d : DrizzleInput) : Grid ℝ :=
  fun t h => 2 / Real.pi * d.beta t h / d.z t h

open Classical in
/-- `products/drizzle_tools.py:248-257` `_find_lut_indices`: (width index, diameter index). -/
noncomputable def findLutIndices (d : DrizzleInput) (t h : ℕ) (diaInit : ℝ) : ℕ × ℕ :=
  let indDia := bisectLeft d.mie.dia diaInit (d.mie.nDia - 1)
  let indWidth := bisectLeft (fun i => - d.mie.width i indDia) (- d.widthHt t h) (d.mie.nWidths - 1)
  (indWidth, indDia)

/-- `self.params` of the solver (`products/drizzle_tools.py:237-242`). -/
structure DrizzleParams where
  Do : Grid ℝ
  mu : Grid ℝ
  S : Grid ℝ
  betaCorr : Grid ℝ

/-- `products/drizzle_tools.py:235-243` `_init_variables`. -/
def initDrizzleParams : DrizzleParams :=
  { Do := Grid.const 0, mu := Grid.const 0, S := Grid.const 0, betaCorr := Grid.const 1 }

/-- Assignment to one array element. -/
def Grid.set {α : Type*} (a : Grid α) (t h : ℕ) (v : α) : Grid α :=
  fun t' h' => if t' = t ∧ h' = h then v else a t' h'

@[simp] theorem Grid.set_apply {α : Type*} (a : Grid α) (t h : ℕ) (v : α) (t' h' : ℕ) :
    a.set t h v t' h' = if t' = t ∧ h' = h then v else a t' h' := rfl

/-- One evaluation of the loop body (`products/drizzle_tools.py:267-274`): diameter, shape parameter and
lidar ratio found from the guess `diaInit`, at correction factor `corr`. -/
noncomputable def drizzleStep (d : DrizzleInput) (t h : ℕ) (corr diaInit : ℝ) : ℝ × ℝ × ℝ :=
  let lut := findLutIndices d t h diaInit
  (calcDia (betaZRatio d t h * corr) (d.mie.mu lut.1) (d.mie.ray lut.1 lut.2) (d.mie.S lut.1 lut.2),
    d.mie.mu lut.1, d.mie.S lut.1 lut.2)

open Classical in
/-- The inner loop `products/drizzle_tools.py:266-277`; `n` is the number of iterations left (positive):
result of the last executed iteration. -/
noncomputable def drizzleIterate (d : DrizzleInput) (t h : ℕ) (corr : ℝ) : ℕ → ℝ → ℝ × ℝ × ℝ
  | 0, diaInit => drizzleStep d t h corr diaInit
  | n + 1, diaInit =>
    let r := drizzleStep d t h corr diaInit
    if |(r.1 - diaInit) / diaInit| < 0.001 then r else drizzleIterate d t h corr n r.1

/-- The body of the pixel loop `products/drizzle_tools.py:265-281` (ten iterations: one plus nine
left). -/
noncomputable def solvePixel (d : DrizzleInput) (p : DrizzleParams) (ind : Pixel) : DrizzleParams :=
  let t := ind.1
  let h := ind.2
  let r := drizzleIterate d t h (p.betaCorr t h) 9 (calcDia (betaZRatio d t h) 0 1 18.8)
  let betaFactor := Real.exp (2 * r.2.2 * d.beta t h * pathLengthsFromGround d.heightAgl h)
  { Do := p.Do.set t h r.1
    mu := p.mu.set t h r.2.1
    S := p.S.set t h r.2.2
    betaCorr := fun t' h' => if t' = t ∧ h + 1 ≤ h' then p.betaCorr t' h' * betaFactor
      else p.betaCorr t' h' }

/-- `products/drizzle_tools.py:259-281` `_solve_drizzle`: all drizzle pixels in row-major order. -/
noncomputable def solveDrizzle (d : DrizzleInput) : DrizzleParams :=
  (whereGrid d.nT d.nH d.drizzle).foldl (solvePixel d) initDrizzleParams

/-- `products/drizzle.py:103-115`: derived products. -/
structure DrizzleProducts where
  N : Grid ℝ
  lwc : Grid ℝ
  lwf : Grid ℝ
  vDrizzle : Grid ℝ
  vAir : Grid ℝ

open Classical in
/-- `products/drizzle.py:94-101` `_find_indices` for one pixel: positions in the table, moved back to
the last entry when beyond it. -/
noncomputable def productIndices (d : DrizzleInput) (p : DrizzleParams) (t h : ℕ) : ℕ × ℕ :=
  let indMu := bisectLeft d.mie.mu (p.mu t h) d.mie.nWidths
  let indDia := bisectLeft d.mie.dia (p.Do t h) d.mie.nDia
  (if indMu ≥ d.mie.nWidths then d.mie.nWidths - 1 else indMu,
    if indDia ≥ d.mie.nDia then d.mie.nDia - 1 else indDia)

open Classical in
/-- `products/drizzle.py:103-152`. -/
noncomputable def drizzleProducts (d : DrizzleInput) (p : DrizzleParams) : DrizzleProducts :=
  let lwc : Grid ℝ := fun t h => 1000 / 3 * d.beta t h * p.S t h * p.Do t h *
    (Real.Gamma (4 + p.mu t h) / Real.Gamma (3 + p.mu t h) / (3.67 + p.mu t h))
  let vDrizzle : Grid ℝ := fun t h =>
    if p.Do t h ≠ 0 then - d.mie.v (productIndices d p t h).1 (productIndices d p t h).2 else 0
  { N := fun t h => if p.Do t h ^ 6 ≠ 0 then d.z t h * 3.67 ^ 6 / p.Do t h ^ 6 else 0
    lwc := lwc
    lwf := fun t h => if p.Do t h ≠ 0 then
        lwc t h * (d.mie.lwf (productIndices d p t h).1 (productIndices d p t h).2 *
          d.mie.termv (productIndices d p t h).2)
      else lwc t h
    vDrizzle := vDrizzle
    vAir := fun t h => if p.Do t h ≠ 0 then - vDrizzle t h + d.v t h else - vDrizzle t h }

/-! ### Errors -/

/-- `utils.py:582-607` `l2norm_weighted` for one element of each term. -/
noncomputable def l2normWeighted (values : List (Option ℝ)) (scale : ℝ) (weights : List ℝ) : Option ℝ :=
  (l2norm (List.zipWith (fun v w => v.map (· * w)) values weights)).map (scale * ·)

/-- `products/drizzle_error.py:37-42` `_get_drizzle_indices`. -/
structure DrizzleIndices where
  drizzle : Grid Bool
  small : Grid Bool
  tiny : Grid Bool

open Classical in
/-- `products/drizzle_error.py:37-42` `_get_drizzle_indices`. -/
noncomputable def getDrizzleIndices (diameter : Grid ℝ) : DrizzleIndices where
  drizzle := fun t h => decide (diameter t h > 0)
  small := fun t h => decide (diameter t h ≤ 0.0001) && decide (diameter t h > 0.00001)
  tiny := fun t h => decide (diameter t h ≤ 0.00001) && decide (diameter t h > 0)

/-- `products/drizzle_error.py:141-154` `_calc_error` for one pixel; `mu` is the optional extra term
(0.07 or 0.25). -/
noncomputable def calcError (scale w1 w2 : ℝ) (zError betaError : Option ℝ) (mu : Option ℝ) : Option ℝ :=
  let error := l2normWeighted [zError, betaError] scale [w1, w2]
  match mu with
  | some m => l2norm [error, some m]
  | none => error

/-- `a[mask] = source[mask]`. -/
def Grid.assignFrom {α : Type*} (a : Grid α) (mask : Grid Bool) (source : Grid α) : Grid α :=
  fun t h => bif mask t h then source t h else a t h

/-- `products/drizzle_error.py:157-172` `_stack_errors`. -/
noncomputable def stackErrors (errorIn : Grid (Option ℝ)) (ind : DrizzleIndices)
    (errorSmall errorTiny : Option (Grid (Option ℝ))) : Grid (Option ℝ) :=
  let e0 : Grid (Option ℝ) := Grid.const (some 0)
  let e1 := e0.assignFrom ind.drizzle errorIn
  let e2 := match errorSmall with
    | some s => e1.assignFrom ind.small s
    | none => e1
  match errorTiny with
    | some s => e2.assignFrom ind.tiny s
    | none => e2

/-- `COR` (`products/drizzle_error.py:175`). -/
noncomputable def cor : ℝ := 10 / Real.log 10

open Classical in
/-- `products/drizzle_error.py:178-182` `db2lin` for one value. -/
noncomputable def errDb2lin (x : ℝ) : ℝ := Real.exp ((if x > 100 then 100 else x) / cor) - 1

open Classical in
/-- `products/drizzle_error.py:185-189` `lin2db` for one value. -/
noncomputable def errLin2db (x : ℝ) : ℝ := Real.log ((if x < -0.9 then -0.9 else x) + 1) * cor

/-- The array results of `get_drizzle_error` (`products/drizzle_error.py:81-86, 119-121`), in dB. -/
structure DrizzleErrors where
  Do : Grid (Option ℝ)
  lwc : Grid (Option ℝ)
  lwf : Grid (Option ℝ)
  S : Grid (Option ℝ)
  N : Grid (Option ℝ)
  vDrizzle : Grid (Option ℝ)

/-- `products/drizzle_error.py:12-34, 51-57, 60-86, 103-122, 136-138`: the errors from the diameters,
the radar error (dB, per pixel) and the lidar error (dB, scalar). Line 116 multiplies in place: the
entry `Do_error` of the results is the same array as `v_drizzle_error`, so both are changed. -/
noncomputable def drizzleErrors (diameter : Grid ℝ) (zErrorDb : Grid (Option ℝ)) (betaErrorDb : ℝ) :
    DrizzleErrors :=
  let ind := getDrizzleIndices diameter
  let z : Grid (Option ℝ) := fun t h => (zErrorDb t h).map errDb2lin
  let b : Option ℝ := some (errDb2lin betaErrorDb)
  let err (scale w1 w2 : ℝ) (mu : Option ℝ) : Grid (Option ℝ) := fun t h =>
    calcError scale w1 w2 (z t h) b mu
  let dia := stackErrors (err (2 / 7) 1 1 (some 0.07)) ind (some (err (1 / 4) 1 1 (some 0.25))) none
  let lwc := stackErrors (err (1 / 7) 1 6 none) ind (some (err (1 / 4) 1 3 none)) none
  let lwf := stackErrors (err (1 / 7) 3 4 (some 0.07)) ind (some (err (1 / 2) 1 1 (some 0.25)))
    (some (err (1 / 4) 3 1 (some 0.25)))
  let s := stackErrors (err (1 / 2) 1 1 none) ind none none
  let n := stackErrors (fun t h => l2norm [z t h, ((dia t h).map errDb2lin).map (6 * ·)]) ind none none
  -- `error = results["Do_error"]; error[tiny] *= error[tiny]`
  let dia' := dia.assignFrom ind.tiny (fun t h => (dia t h).map fun e => e * e)
  let toDb : Grid (Option ℝ) → Grid (Option ℝ) := fun a t h => (a t h).map errLin2db
  { Do := toDb dia', lwc := toDb lwc, lwf := toDb lwf, S := toDb s, N := toDb n,
    vDrizzle := toDb dia' }

end Cloudnet
