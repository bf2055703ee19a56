import Verif.Drizzle.Model
import Verif.IceFile.Model
import Mathlib.Analysis.SpecialFunctions.Trigonometric.Basic

/-!
The drizzle file (`products/drizzle.py`, `products/drizzle_tools.py`, `products/drizzle_error.py`) from the variables of the categorize
file.
-/

namespace Cloudnet

/-- The variables of a categorize file that are used; `none` is a missing variable. Reflectivity (dBZ), backscatter and velocity are the
numbers in the arrays. Altitude is the mean of the variable; heights, altitude and model variables are assumed to be present. -/
structure DrizzleCategorize where
  nT : ℕ
  time : ℕ → ℝ
  nH : ℕ
  height : ℕ → ℝ
  altitude : ℝ
  nModelT : ℕ
  modelTime : ℕ → ℝ
  nModelH : ℕ
  modelHeight : ℕ → ℝ
  uwind : Grid ℝ
  vwind : Grid ℝ
  frequency : Option ℝ
  z : Option (Grid ℝ)
  beta : Option (Grid ℝ)
  v : Option (Grid ℝ)
  vSigma : Option (Grid (Option ℝ))
  width : Option (Grid (Option ℝ))
  zError : Option (ℝ ⊕ Grid (Option ℝ))
  betaError : Option ℝ
  zBias : Option ℝ
  betaBias : Option ℝ
  categoryBits : Grid ℤ
  qualityBits : Grid ℤ
  rain : String → Option (ℕ → Option ℝ)

/-- `products/drizzle_tools.py:73-82` `_get_wl_band`: name of the table. -/
noncomputable def drizzleBand (frequency : ℝ) : Except String String :=
  (getWlBand frequency).bind fun band =>
    if band = "Ka" then .ok "35" else if band = "W" then .ok "94" else .error "ValueError: Unsupported band"

/-- `products/drizzle_tools.py:40-44` `_convert_z_units`, one value. -/
noncomputable def convertZUnits (z : ℝ) : ℝ :=
  let x := z - 180
  (10 : ℝ) ^ ((if 0 < x then 0 else x) / 10)

/-! ### Spectral width -/

/-- `products/drizzle_tools.py:187-192` `_calc_beam_divergence`. -/
noncomputable def beamDivergence (f : DrizzleCategorize) (h : ℕ) : ℝ := (f.height h - f.altitude) * (0.5 * (Real.pi / 180))

/-- `products/drizzle_tools.py:194-204` `_calc_horizontal_wind`. -/
noncomputable def horizontalWind (f : DrizzleCategorize) : Grid ℝ := fun t h =>
  Real.sqrt (interpolateModel f.nModelT f.modelTime f.nModelH f.modelHeight f.uwind f.time f.height t h ^ 2 +
    interpolateModel f.nModelT f.modelTime f.nModelH f.modelHeight f.vwind f.time f.height t h ^ 2)

/-- `products/drizzle_tools.py:180-185` `_calc_v_sigma_factor`, one value; a zero divisor masks the result. The base of the powers is assumed
not to be negative (gates below the altitude of the site). -/
noncomputable def vSigmaFactor (wind divergence : ℝ) : Option ℝ :=
  let actual := (wind + divergence) ^ (2 / 3 : ℝ)
  let scaled := (30 * wind + divergence) ^ (2 / 3 : ℝ)
  if scaled - actual = 0 then none else some (actual / (scaled - actual))

/-- `products/drizzle_tools.py:170-178` `_calculate_spectral_width`. -/
noncomputable def spectralWidth (f : DrizzleCategorize) (vSigma : Grid (Option ℝ)) : Grid (Option ℝ) := fun t h =>
  let width : Option ℝ := match f.width with
    | some w => w t h
    | none => some 0
  width.bind fun w => (vSigma t h).bind fun s => (vSigmaFactor (horizontalWind f t h) (beamDivergence f h)).map fun k => w - k * s

/-- A number above all widths of the table. A comparison with a masked width is never true, so a masked width acts like it. -/
noncomputable def aboveTable (m : MieTable) : ℝ := ∑ i ∈ Finset.range m.nWidths, ∑ j ∈ Finset.range m.nDia, |m.width i j|

/-! ### Status -/

/-- `products/drizzle.py:155-186` `RetrievalStatus` if the deviation of velocity is masked in some pixels. There the mask `drizzle` is
masked: `np.copy` takes the value under the mask (`isfinite` of the fill value, true), while `below_melting == 1` is false. `all` are the
masks without looking at the deviation of velocity, `m` those where masked pixels are no drizzle. -/
def drizzleStatusMasked (all m : DrizzleMasks) : Grid ℕ :=
  let s0 : Grid ℕ := fun t h => if all.drizzle t h then 1 else 0
  let belowMelting : Grid Bool := fun t h => m.coldRain t && m.drizzle t h
  let s1 := s0.assign belowMelting 2
  let s2 := s1.assign m.wouldBeDrizzle 3
  let inWarmLiquid : Grid Bool := fun t h => (s2 t h == 0) && m.warmLiquid t h
  let s3 := s2.assign inWarmLiquid 4
  s3.assign (fun t _ => m.isRain t) 5

/-! ### Biases -/

/-- `products/drizzle_error.py:89-101`, `:125-133`, `:136-138`: the biases in dB, from those of reflectivity and backscatter. -/
structure DrizzleBiases where
  Do : Option ℝ
  lwc : Option ℝ
  lwf : Option ℝ
  N : Option ℝ
  vDrizzle : Option ℝ

/-- `products/drizzle_error.py:45-48`, `:89-101`, `:125-133`, `:136-138`. -/
noncomputable def drizzleBiases (zBiasDb betaBiasDb : ℝ) : DrizzleBiases :=
  let bias := [some (errDb2lin zBiasDb), some (errDb2lin betaBiasDb)]
  let dia := l2normWeighted bias (2 / 7) [1, 1]
  { Do := dia.map errLin2db
    lwc := (l2normWeighted bias (1 / 7) [1, 6]).map errLin2db
    lwf := (l2normWeighted bias (1 / 7) [3, 4]).map errLin2db
    N := (l2normWeighted [some (errDb2lin zBiasDb), dia.map errDb2lin] 1 [1, 6]).map errLin2db
    vDrizzle := dia.map errLin2db }

/-! ### The file -/

/-- The input of the solver (`products/drizzle_tools.py:219-233`). -/
noncomputable def drizzleInput (f : DrizzleCategorize) (mie : MieTable) (z beta v : Grid ℝ) (vSigma : Grid (Option ℝ)) (m : DrizzleMasks) :
    DrizzleInput where
  nT := f.nT
  nH := f.nH
  mie := mie
  z := fun t h => convertZUnits (z t h)
  beta := beta
  v := v
  widthHt := fun t h => (spectralWidth f vSigma t h).getD (aboveTable mie)
  heightAgl := fun h => f.height h - f.altitude
  drizzle := m.drizzle

/-- `products/drizzle_error.py:28-32`: a constant error of reflectivity. -/
def zErrorGrid : ℝ ⊕ Grid (Option ℝ) → Grid (Option ℝ)
  | .inl x => Grid.const (some x)
  | .inr g => g

/-- `products/drizzle.py:58-62`: the dictionary of results. -/
noncomputable def drizzleResults (d : DrizzleInput) (zError : Grid (Option ℝ)) (betaError zBias betaBias : ℝ) :
    List (String × DrizzleResult ℝ) :=
  let p := solveDrizzle d
  let r := drizzleProducts d p
  let e := drizzleErrors p.Do zError betaError
  let b := drizzleBiases zBias betaBias
  let known (a : Grid ℝ) : DrizzleResult ℝ := .grid fun t h => some (a t h)
  [("Do", known p.Do), ("mu", known p.mu), ("S", known p.S), ("beta_corr", known p.betaCorr), ("drizzle_N", known r.N),
    ("drizzle_lwc", known r.lwc), ("drizzle_lwf", known r.lwf), ("v_drizzle", known r.vDrizzle), ("v_air", known r.vAir),
    ("Do_error", .grid e.Do), ("drizzle_lwc_error", .grid e.lwc), ("drizzle_lwf_error", .grid e.lwf), ("S_error", .grid e.S),
    ("Do_bias", .scalar b.Do), ("drizzle_lwc_bias", .scalar b.lwc), ("drizzle_lwf_bias", .scalar b.lwf),
    ("drizzle_N_error", .grid e.N), ("v_drizzle_error", .grid e.vDrizzle), ("mu_error", .scalar (some (errLin2db 0.07))),
    ("drizzle_N_bias", .scalar b.N), ("v_drizzle_bias", .scalar b.vDrizzle)]

open Classical in
/-- `products/drizzle.py:22-70` `generate_drizzle`; `mie` are the tables of the package by name. -/
noncomputable def generateDrizzle (mie : String → MieTable) (f : DrizzleCategorize) : Except String (DrizzleFile ℝ) :=
  (readVar f.frequency).bind fun frequency => (drizzleBand frequency).bind fun band => (readVar f.z).bind fun z =>
    (readVar f.beta).bind fun beta => (readVar f.v).bind fun v => (readCategoryBits f.categoryBits).bind fun c =>
      (readQualityBits f.qualityBits).bind fun q => (getIsRain f.rain).bind fun rain => (readVar f.vSigma).bind fun vSigma =>
        (drizzleClassification f.nT f.nH c q (fun t h => (vSigma t h).isSome) rain).bind fun m =>
          (drizzleClassification f.nT f.nH c q (fun _ _ => true) rain).bind fun all =>
            (readVar f.zError).bind fun zError => (readVar f.betaError).bind fun betaError => (readVar f.zBias).bind fun zBias =>
              (readVar f.betaBias).map fun betaBias =>
                let d := drizzleInput f (mie band) z beta v vSigma m
                { (drizzleFile m (drizzleResults d (zErrorGrid zError) betaError zBias betaBias)) with
                  status := drizzleStatusMasked all m }

end Cloudnet
