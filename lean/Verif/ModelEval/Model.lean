import Mathlib.Algebra.Order.Field.Basic
import Mathlib.Order.WithBot
import Verif.Basic
import Verif.Rebin.Model
import Verif.NcRadar.Model

namespace Cloudnet

/-! Model evaluation: downsampling of observations to the grid of a model, and what is compared with it.
Times are hours of the day (the code converts them to `datetime`, which rounds to microseconds; not modelled). Masked
and NaN observations are `none`. -/

section
variable {α : Type} [Field α] [LinearOrder α]

/-- `model_evaluation/products/tools.py:16-21` `rebin_edges` of a vector of length `n`. -/
def rebinEdges (n : ℕ) (x : ℕ → α) : Except String (ℕ → α) :=
  if n < 2 then .error "IndexError"
  else .ok fun i =>
    if i = 0 then x 0 - (x 1 - x 0)
    else if i = n then x (n - 1) + (x (n - 1) - x (n - 2))
    else (x (i - 1) + x i) / 2

/-- `tools.py:24-41` `calculate_advection_time` in hours, one value. Division by zero is masked. -/
def advectionTime (resolution sampling : α) (wind : Option α) : α :=
  let t := wind.bind fun w => if w = 0 then none else some (resolution * 1000 / w / 60 ^ 2)
  let t := t.getD 0
  if 1 / sampling < t then 1 / sampling else t

/-- `tools.py:44-52` `get_1d_indices` without a mask: the indices that are true. -/
def get1dIndices (lo hi : α) (n : ℕ) (data : ℕ → α) : List ℕ :=
  (List.range n).filter fun i => decide (lo ≤ data i) && decide (data i < hi)

/-- `tools.py:55-64` `get_adv_indices` without a mask. -/
def getAdvIndices (modelT advT : α) (n : ℕ) (data : ℕ → α) : List ℕ :=
  (List.range n).filter fun i => decide (modelT - advT / 2 ≤ data i) && decide (data i < modelT + advT / 2)

/-- `tools.py:67-73` `get_obs_window_size`. -/
def obsWindowSize (xs ys : List ℕ) : Option (ℕ × ℕ) :=
  match xs.head?, xs.getLast?, ys.head?, ys.getLast? with
  | some x0, some x1, some y0, some y1 => some (x1 - x0 + 1, y1 - y0 + 1)
  | _, _, _, _ => none

/-- `grid_methods.py:111-121` `_reshape_data_to_window`: the rows of the window, one for each profile. -/
def reshapeToWindow (xs ys : List ℕ) (obs : Grid (Option α)) : Except String (Option (List (List (Option α)))) :=
  match obsWindowSize xs ys with
  | none => .ok none
  | some (a, b) =>
    if a * b = xs.length * ys.length then .ok (some (xs.map fun t => ys.map fun h => obs t h))
    else .error "ValueError: cannot reshape array"

/-- `tools.py:81-90` `fraction_of_cloudy_columns`. -/
def fractionOfCloudyColumns (rows : List (List (Option α))) : Option α :=
  maskedMean (rows.map fun row =>
    let known := row.filterMap id
    if known = [] then none else some (if 0 < known.sum then 1 else 0))

/-- `grid_methods.py:123-132` `_regrid_cf`: the fractions by volume and by area. -/
def regridCf (rows : List (List (Option α))) : Option α × Option α :=
  let v := maskedMean rows.flatten
  (v, if rows.flatten.all fun x => x.isNone then v else fractionOfCloudyColumns rows)

/-- The observed cloud fractions on the model grid, `grid_methods.py:92-101` `_cf_method_storage`. -/
structure CfGrids (α : Type) where
  v : Grid (Option α)
  a : Grid (Option α)
  vAdv : Grid (Option α)
  aAdv : Grid (Option α)

/-- `downsample[i, j] = x` -/
def Grid.put {β : Type} (g : Grid β) (k : ℕ × ℕ) (x : β) : Grid β := fun i j => if (i, j) = k then x else g i j

/-- What is needed of the observations and the model by `grid_methods.py:11-43` `ProductGrid`: numbers of observation
times and heights, model times and levels; the observations; the time edges and advection times. -/
structure EvalInput (α : Type) where
  nT : ℕ
  nH : ℕ
  nM : ℕ
  nL : ℕ
  obsTime : ℕ → α
  obsHeight : ℕ → α
  obs : Grid (Option α)
  modelTime : ℕ → α
  modelHeight : Grid α
  adv : Grid α

/-- `grid_methods.py:50-74`: indices of the window of a cell, of its advection window, and of its heights. -/
def cellWindows (e : EvalInput α) (steps : ℕ → α) (i j : ℕ) : Except String (List ℕ × List ℕ × List ℕ) := do
  let xInd := get1dIndices (steps i) (steps (i + 1)) e.nT e.obsTime
  let ySteps ← rebinEdges e.nL (e.modelHeight i)
  let xAdv := getAdvIndices (e.modelTime i) (e.adv i j) e.nT e.obsTime
  let yInd := get1dIndices (ySteps j) (ySteps (j + 1)) e.nH e.obsHeight
  pure (xInd, xAdv, yInd)

/-- `grid_methods.py:63-82`: one cell for cloud fraction. -/
def stepCf (e : EvalInput α) (steps : ℕ → α) (s : CfGrids α) (k : ℕ × ℕ) : Except String (CfGrids α) := do
  let (xInd, xAdv, yInd) ← cellWindows e steps k.1 k.2
  match ← reshapeToWindow xInd yInd e.obs with
  | none => pure s
  | some rows =>
    let s := { s with v := s.v.put k (regridCf rows).1, a := s.a.put k (regridCf rows).2 }
    match ← reshapeToWindow xAdv yInd e.obs with
    | none => pure s
    | some rows => pure { s with vAdv := s.vAdv.put k (regridCf rows).1, aAdv := s.aAdv.put k (regridCf rows).2 }

/-- The cells of the model grid in the order of the two loops. -/
def modelCells (nM nL : ℕ) : List (ℕ × ℕ) := (List.range nM).flatMap fun i => (List.range nL).map fun j => (i, j)

/-- `grid_methods.py:45-91` `_generate_downsample_product` for cloud fraction. The edges of a column are computed again
in every cell. -/
def downsampleCf (e : EvalInput α) : Except String (CfGrids α) := do
  let steps ← binvec e.nM e.modelTime
  let zeros : Grid (Option α) := Grid.const (some 0)
  (modelCells e.nM e.nL).foldlM (stepCf e steps) ⟨zeros, zeros, zeros, zeros⟩

/-- `grid_methods.py:134-145` `_regrid_product`, one cell. -/
def regridProduct (xs ys : List ℕ) (obs : Grid (Option α)) : Option α :=
  maskedMean (xs.flatMap fun t => ys.map fun h => obs t h)

/-- `grid_methods.py:83-90`: one cell for other products. -/
def stepProduct (e : EvalInput α) (steps : ℕ → α) (s : Grid (Option α) × Grid (Option α)) (k : ℕ × ℕ) :
    Except String (Grid (Option α) × Grid (Option α)) := do
  let (xInd, xAdv, yInd) ← cellWindows e steps k.1 k.2
  pure (s.1.put k (regridProduct xInd yInd e.obs), s.2.put k (regridProduct xAdv yInd e.obs))

/-- `grid_methods.py:45-91` `_generate_downsample_product` for other products than cloud fraction. -/
def downsampleProduct (e : EvalInput α) : Except String (Grid (Option α) × Grid (Option α)) := do
  let steps ← binvec e.nM e.modelTime
  let zeros : Grid (Option α) := Grid.const (some 0)
  (modelCells e.nM e.nL).foldlM (stepProduct e steps) (zeros, zeros)

end

/-- `observation_products.py:82-91` `_classify_basic_mask`, one pixel. -/
def classifyBasicMask (droplet falling freezing aerosol insect : Bool) : ℕ :=
  let m := droplet.toNat + falling.toNat * 2
  let m := if falling && freezing then m + 2 else m
  let m := if aerosol then 6 else m
  let m := if insect then 7 else m
  if aerosol && insect then 8 else m

/-- `observation_products.py:93-100` `_mask_cloud_bits`, one pixel. -/
def maskCloudBits (m : ℕ) : ℕ :=
  let m := [1, 3, 4, 5].foldl (fun m i => if m = i then 1 else m) m
  [2, 6, 7, 8].foldl (fun m i => if m = i then 0 else m) m

section
variable {α : Type} [Field α] [LinearOrder α]

/-- `observation_products.py:102-112` `_mask_iwc`, one pixel. -/
def maskIwc (status : ℕ) (iwc : Option α) : Option α := if status ∈ [1, 3] then iwc else none

/-- `advance_methods.py:122-132` `mask_weird_indices`, one pixel. Missing operands give false. -/
def maskWeird (cf iwc lwc : Option α) : Option α :=
  cf.bind fun c =>
    let weird := (iwc.elim false fun i => decide (c ≠ 0 ∧ 5 / 10000 < i / c) && decide (c < 1 / 1000)) ||
      (decide (iwc = some 0) && decide (lwc = some 0) && decide (c = 0))
    if weird then none else some c

/-- `advance_methods.py:144-150` `get_ice_indices`, one pixel: missing operands give false (with a missing cloud
fraction the loop over the indices does nothing, `advance_methods.py:60-65`). -/
def isIce (cf iwc lwc : Option α) : Bool :=
  cf.elim false (fun c => decide (0 < c)) && iwc.elim false (fun i => decide (0 < i) &&
    lwc.elim false fun l => decide (l < i / 10))

/-- `advance_methods.py:216-221` `filter_cirrus`; `dist` are pairs of ice water content and probability. -/
def filterCirrus (minIwc : α) (dist : List (α × α)) (cf : α) : α :=
  ((dist.map fun d => if minIwc < d.1 then d.2 else 0).sum / (dist.map fun d => d.2).sum) * cf

/-- `advance_methods.py:59-80`: one ice pixel. `dist` is `none` if there is no distribution (`ValueError`), and `⊤` is
an infinite probability. -/
def cirrusPixel (minIwc : α) (dist : Option (List (α × WithTop α))) (cf : α) : Option α :=
  match dist with
  | none => some cf
  | some d =>
    if d.any fun x => x.2 = ⊤ then none
    else
      let d : List (α × α) := d.map fun x => (x.1, x.2.untopD 0)
      let total : α := (d.map fun x => x.2).sum
      if decide (total = 0) || d.getLast?.elim false (fun x => decide (1 / 100 * total < x.2)) then none
      else some (filterCirrus minIwc d cf)

/-- `advance_methods.py:48-84` `cf_cirrus_filter` on `nT` times and `nL` levels; the distributions and the smallest
observable ice water content are parameters. -/
def cirrusFilter (nT nL : ℕ) (cf iwc lwc : Grid (Option α)) (minIwc : Grid α)
    (dist : Grid (Option (List (α × WithTop α)))) : Except String (Grid (Option α)) :=
  let filtered : Grid (Option α) := fun t l => maskWeird (cf t l) (iwc t l) (lwc t l)
  let ice : Grid Bool := fun t l => isIce (filtered t l) (iwc t l) (lwc t l)
  if ((List.range nT).any fun t => (List.range nL).any fun l => ice t l) = false then
    .error "ValueError: No ice clouds in a input data"
  else
    let filtered : Grid (Option α) := fun t l =>
      if ice t l then (filtered t l).bind fun c => cirrusPixel (minIwc t l) (dist t l) c else filtered t l
    .ok fun t l => (filtered t l).bind fun c => if c < 5 / 100 then none else some c

/-- `model_products.py:60-87` `_read_number_of_levels`. -/
def numberOfLevels (nT nL : ℕ) (limit : α) (height : Grid α) : ℕ :=
  ((List.range nL).filter fun l => (List.range nT).any fun t => decide (height t l < limit)).length

/-- `model_products.py:141-173` `get_water_content`, one value: the mixing ratio and its optional parts, pressure and
temperature; `rs` is the gas constant. Division by zero is masked. -/
def waterContent (rs : α) (q : Option α) (parts : List (Option α)) (p t : Option α) : Option α :=
  let q := parts.foldl (fun q x => q.bind fun q => x.map fun x => q + x) q
  let wc := q.bind fun q => p.bind fun p => t.bind fun t => if rs * t = 0 then none else some (q * p / (rs * t))
  wc.bind fun w => if w < 0 then none else some w

/-- `model_products.py:100-120`: weak values of the model are masked. -/
def maskBelow (limit : α) (x : Option α) : Option α := x.bind fun v => if v < limit then none else some v

/-- `model_products.py:197-214` `_get_horizontal_resolution`; `np.unique` of the known values. -/
def horizontalResolution (values : List (Option α)) : Except String α :=
  match (values.filterMap id).dedup with
  | [r] => if r ≤ 0 then .error "ModelDataError" else .ok r
  | _ => .error "ModelDataError"

/-- `np.min` of the known values of `n` numbers; comparing with a masked minimum compares with zero. -/
def minKnown (n : ℕ) (x : ℕ → Option α) : α :=
  match (List.range n).filterMap x with
  | [] => 0
  | v :: vs => vs.foldl min v

/-- `statistical_methods.py:100-111` `combine_masked_indices`. -/
def combineMasked (n : ℕ) (model obs : ℕ → Option α) : (ℕ → Option α) × (ℕ → Option α) :=
  let model : ℕ → Option α := fun k => (model k).bind fun m => if m < minKnown n obs then none else some m
  (fun k => if (obs k).isNone then none else model k, fun k => if (model k).isNone then none else obs k)

/-- `statistical_methods.py:77-88` `relative_error` in percent, without rounding. -/
def relativeError (n : ℕ) (model obs : ℕ → Option α) (k : ℕ) : Option α :=
  let c := combineMasked n model obs
  (c.1 k).bind fun m => (c.2 k).bind fun o => if o = 0 then none else some ((m - o) / o * 100)

/-- `statistical_methods.py:91-97` `absolute_error` in percent, without rounding. -/
def absoluteError (n : ℕ) (model obs : ℕ → Option α) (k : ℕ) : Option α :=
  let c := combineMasked n model obs
  (c.1 k).bind fun m => (c.2 k).map fun o => (o - m) * 100

/-- `statistical_methods.py:114-134` `calc_common_area_sum` in percent, without rounding. -/
def commonArea (n : ℕ) (model obs : ℕ → Option α) : α :=
  let model : ℕ → Option α := fun k => (model k).bind fun m => if m < minKnown n obs then none else some m
  let valid := ((List.range n).filter fun k => !((model k).isNone && (obs k).isNone)).length
  if valid = 0 then 0
  else (((List.range n).filter fun k => !((model k).isNone || (obs k).isNone)).length : α) / (valid : α) * 100

end

end Cloudnet
