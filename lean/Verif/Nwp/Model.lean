import Verif.Interp.Model
import Verif.Epsilon.Model
import Verif.Categorize.Model
import Verif.Save.Model
import Mathlib.Data.List.Infix

/-!
Two-dimensional interpolation (`utils.py:324-406`, `products/product_tools.py:300-323`) and the weather model of the
categorize file (`categorize/model.py`).
-/

namespace Cloudnet

section
variable {α : Type} [Field α] [LinearOrder α]

/-! ### Interpolation -/

/-- `utils.py:324-348` `interpolate_2d`: `RectBivariateSpline(x, y, z, kx=1, ky=1)` at a point; bilinear in the cells of the
grid, arguments outside are moved to the edge. Coordinates are assumed to be strictly increasing. -/
def interpolate2d (n : ℕ) (x : ℕ → α) (m : ℕ) (y : ℕ → α) (z : Grid α) (u v : α) : α :=
  interpLinear n x (fun i => interpLinear m y (z i) v) u

/-- `scipy.interpolate.interp1d(x, y, fill_value="extrapolate")` for `m ≥ 2` strictly increasing coordinates. -/
def lineThrough (m : ℕ) (x y : ℕ → α) (v : α) : α :=
  let hi := min (max (bisectLeft x v m) 1) (m - 1)
  let lo := hi - 1
  (y hi - y lo) / (x hi - x lo) * (v - x lo) + y lo

/-- A corner of the triangle in which `griddata` interpolates: indices of a grid point and barycentric weight. -/
structure Corner (α : Type) where
  row : ℕ
  column : ℕ
  weight : α

/-- The result of a Delaunay triangulation: the corners of the triangle of a point, `none` outside of the convex hull. -/
abbrev Triangulation (α : Type) := α → α → Option (List (Corner α))

/-- `utils.py:383-388`: `griddata(..., method="linear")` at a point (NaN outside of the convex hull is `none`). -/
def gridData (tri : Triangulation α) (z : Grid (Option α)) (u v : α) : Option α :=
  (tri u v).map fun cs => (cs.map fun c => c.weight * (z c.row c.column).getD 0).sum

/-- `utils.py:394-399`: the known points of a row. -/
def knownPoints (nNew : ℕ) (yNew : ℕ → α) (row : ℕ → Option α) : List (α × α) :=
  (List.range nNew).filterMap fun k => (row k).map fun r => (yNew k, r)

/-- `utils.py:391-400`: extrapolation of a row along the second coordinate (target coordinates increase). -/
def extrapolateRow (nNew : ℕ) (yNew : ℕ → α) (row : ℕ → Option α) : ℕ → Option α :=
  let known := knownPoints nNew yNew row
  if ((List.range nNew).any fun k => (row k).isNone) = true ∧ 2 ≤ known.length then
    fun k => some ((row k).getD
      (lineThrough known.length (fun i => (known.getD i (0, 0)).1) (fun i => (known.getD i (0, 0)).2) (yNew k)))
  else row

/-- `utils.py:401-404`: the interpolated mask. -/
def maskPart (n : ℕ) (x : ℕ → α) (m : ℕ) (y : ℕ → α) (z : Grid (Option α)) (u v : α) : α :=
  interpolate2d n x m y (fun i j => if (z i j).isNone then 1 else 0) u v

/-- `utils.py:351-406` `interpolate_2d_mask` on a grid of `n` by `m` points; masked and NaN values are `none`. `delaunay` gives
the triangulation of the valid points, `none` if there is no triangle (`QhullError`); it cannot be built if there are less than
two rows or columns (`ValueError` of `RectBivariateSpline`, here not told apart). -/
def interpolate2dMask (delaunay : (ℕ → ℕ → Bool) → Option (Triangulation α)) (n : ℕ) (x : ℕ → α) (m : ℕ) (y : ℕ → α)
    (z : Grid (Option α)) (xNew : ℕ → α) (nNew : ℕ) (yNew : ℕ → α) (extrapolate : Bool) : Except String (Grid (Option α)) :=
  match delaunay fun i j => (z i j).isSome with
  | none => .error "QhullError"
  | some tri => .ok fun k l =>
    let row := fun l => gridData tri z (xNew k) (yNew l)
    let data := if extrapolate then extrapolateRow nNew yNew row else row
    if maskPart n x m y z (xNew k) (yNew l) < 1 / 2 then data l else none

/-- `products/product_tools.py:300-323` `interpolate_model` for a variable; `stored` are the numbers in the array, whatever the
mask says (the fill value for masked values read from a file). -/
def interpolateModel (nT : ℕ) (modelTime : ℕ → α) (nH : ℕ) (modelHeight : ℕ → α) (stored : Grid α) (time height : ℕ → α) :
    Grid α := fun t h => interpolate2d nT modelTime nH modelHeight stored (time t) (height h)

/-! ### The weather model -/

/-- `categorize/model.py:176`: the known models. -/
def modelKeys : List String := ["gdas1", "icon", "ecmwf", "harmonie", "era5", "arpege"]

/-- `categorize/model.py:174-182` `_find_model_type`. -/
def findModelType (path : String) : Except String String :=
  match modelKeys.find? fun key => decide (key.toList <:+: (posixBasename path).toList) with
  | some key => .ok key
  | none => .error "ValueError: Unknown model type"

/-- A variable of the model file: numbers in the array and mask. -/
structure ModelField (α : Type) where
  stored : Grid α
  masked : Grid Bool

/-- The value as a masked array. -/
def ModelField.value (f : ModelField α) : Grid (Option α) := fun i k => if f.masked i k then none else some (f.stored i k)

/-- The parts of the model file that are used: `nT` times (hours), `nH` levels, heights above the surface with their unit
(not masked), surface fields and variables. -/
structure ModelFile (α : Type) where
  nT : ℕ
  nH : ℕ
  time : ℕ → α
  height : Option (String × Grid α)
  sfcHeight : Option (ℕ → α)
  sfcGeopotential : Option (ℕ → α)
  field : String → Option (ModelField α)

/-- `datasource.py:137-145` `to_m` of a two-dimensional variable. -/
def heightsToM (units : String) (h : Grid α) : Except String (Grid α) :=
  if units = "km" then .ok fun i k => h i k * 1000
  else if units = "m" ∨ units = "meters" then .ok h
  else .error "ValueError: Unexpected unit"

/-- `categorize/model.py:139-147` `_get_model_heights`. (A wrong unit already raises in `DataSource.__init__`.) -/
def modelHeights (f : ModelFile α) (altSite : α) : Except String (Grid α) :=
  match f.height with
  | none => .error "ModelDataError: No height variable in the model file"
  | some (units, h) => (heightsToM units h).map fun g i k => g i k + modelSurface f.sfcHeight f.sfcGeopotential altSite i

/-- `categorize/model.py:169-171` `_calc_mean_height`. -/
def meanHeight (nT : ℕ) (heights : Grid α) : ℕ → α := fun k => ((List.range nT).map fun i => heights i k).sum / (nT : α)

/-- `categorize/model.py:66-77` `_interpolate_variable`: `interp1d` takes the numbers in the array and not the mask. Heights of
a profile increase and there are at least two levels. -/
def commonHeight (nH : ℕ) (heights : Grid α) (mean : ℕ → α) (f : ModelField α) : Grid (Option α) := fun i k =>
  if (List.range nH).all fun j => f.masked i j then none else some (lineThrough nH (heights i) (f.stored i) (mean k))

/-- `categorize/model.py:185-188` `_find_number_of_valid_profiles`. -/
def validProfiles (nT nH : ℕ) (a : Grid (Option α)) : ℕ :=
  ((List.range nT).filter fun i => (List.range nH).any fun k => (a i k).isSome).length

/-- `categorize/model.py:102`: `height_grid - np.diff(height_grid, prepend=alt_site) / 2`. -/
def halfHeight (altSite : α) (height : ℕ → α) (k : ℕ) : α :=
  height k - (height k - if k = 0 then altSite else height (k - 1)) / 2

/-- `categorize/model.py:38-48`: the fields on the dense grid and those of them that are attenuations. -/
def fieldsDense : List String := ["temperature", "pressure", "rh", "q"]
def fieldsSparse : List String := fieldsDense ++ ["uwind", "vwind"]
def fieldsAtten : List String := ["specific_gas_atten", "specific_saturated_gas_atten", "specific_liquid_atten"]

/-- `categorize/model.py:79-83`: a variable in the common height grid, `KeyError` if it is missing. -/
def sparseField (f : ModelFile α) (heights : Grid α) (key : String) : Except String (Grid (Option α)) :=
  match f.field key with
  | none => .error "KeyError"
  | some v => .ok (commonHeight f.nH heights (meanHeight f.nT heights) v)

/-- `categorize/model.py:63-83` `interpolate_to_common_height`. -/
def interpolateToCommonHeight (f : ModelFile α) (heights : Grid α) : Except String (List (String × Grid (Option α))) :=
  fieldsSparse.mapM fun key => (sparseField f heights key).map fun d => (key, d)

/-- The functions of atmoslib that are used, for a given frequency. -/
structure AtmosLib (α : Type) where
  liquid : α → α
  gas : α → α → α → α
  vaporPressure : α → α → α
  saturation : α → α

/-- `categorize/model.py:149-166` `calc_attenuations`: on the levels of the model, masked where an argument is. -/
def calcAttenuations (lib : AtmosLib α) (f : ModelFile α) : Except String (List (String × Grid (Option α))) :=
  match f.field "temperature", f.field "pressure", f.field "q" with
  | some t, some p, some q => .ok
    [("specific_liquid_atten", fun i k => (t.value i k).map lib.liquid),
     ("specific_gas_atten", fun i k => (t.value i k).bind fun t => (p.value i k).bind fun p => (q.value i k).map fun q =>
        lib.gas t p (lib.vaporPressure p q)),
     ("specific_saturated_gas_atten", fun i k => (t.value i k).bind fun t => (p.value i k).map fun p =>
        lib.gas t p (lib.saturation t))]
  | _, _, _ => .error "KeyError"

/-- `categorize/categorize.py:96-97`: the sparse fields, attenuations first (all names differ). -/
def sparseFields (lib : AtmosLib α) (f : ModelFile α) (heights : Grid α) : Except String (List (String × Grid (Option α))) :=
  (calcAttenuations lib f).bind fun a => (interpolateToCommonHeight f heights).map fun b => a ++ b

/-- `categorize/model.py:103-116`: a field on the target grid. -/
def denseField (delaunay : (ℕ → ℕ → Bool) → Option (Triangulation α)) (nT : ℕ) (time : ℕ → α) (nH : ℕ) (mean : ℕ → α)
    (altSite : α) (timeGrid : ℕ → α) (nGrid : ℕ) (heightGrid : ℕ → α) (sparse : List (String × Grid (Option α))) (key : String) :
    Except String (Grid (Option α)) :=
  match sparse.lookup key with
  | none => .error "KeyError"
  | some a => if validProfiles nT nH a < 2 then .error "ModelDataError"
  else interpolate2dMask delaunay nT time nH mean a timeGrid nGrid
    (if key ∈ fieldsAtten then halfHeight altSite heightGrid else heightGrid) true

/-- `categorize/model.py:85-118` `interpolate_to_grid`: all fields and the indices of profiles without temperature. -/
def interpolateToGrid (delaunay : (ℕ → ℕ → Bool) → Option (Triangulation α)) (nT : ℕ) (time : ℕ → α) (nH : ℕ) (mean : ℕ → α)
    (altSite : α) (sparse : List (String × Grid (Option α))) (nTime : ℕ) (timeGrid : ℕ → α) (nGrid : ℕ) (heightGrid : ℕ → α) :
    Except String (List (String × Grid (Option α)) × List ℕ) :=
  ((fieldsDense ++ fieldsAtten).mapM fun key =>
    (denseField delaunay nT time nH mean altSite timeGrid nGrid heightGrid sparse key).map fun d => (key, d)).bind
  fun dense => match dense.lookup "temperature" with
    | none => .error "KeyError"
    | some t => .ok (dense, findMaskedProfiles nTime nGrid t)

/-- `categorize/model.py:120-132` `calc_wet_bulb`: the field, and the value of the attribute `temperature_correction_applied`.
`wetBulb` is the function of atmoslib; a value is masked if an argument is. -/
def calcWetBulb (wetBulb : α → α → α → α) (offset : Option α) (t p q : Grid (Option α)) : Grid (Option α) × Option α :=
  let o := offset.getD 0
  (fun i k => (t i k).bind fun t => (p i k).bind fun p => (q i k).map fun q => wetBulb t p q + o, if o = 0 then none else some o)

end

end Cloudnet
