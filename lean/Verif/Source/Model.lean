import Verif.Basic
import Verif.Interp.Model
import Verif.Attenuation.Model
import Verif.Cli.Model
import Mathlib.Analysis.SpecialFunctions.Log.Base
import Mathlib.Analysis.SpecialFunctions.Pow.Real

namespace Cloudnet

/-! Opening input files: `datasource.py`, the radiometer and disdrometer inputs of categorize and unit
conversions of `cloudnetarray.py`. -/

/-- A coordinate variable of an input file: its values (a scalar is a list of one) and the attribute
`units`. -/
structure SrcVar (α : Type) where
  values : List (Option α)
  units : String

section
variable {α : Type} [Field α] [LinearOrder α]

/-- `datasource.py:70-90` `getvar`: `vars` are the variables of the file, `names` the possible
names (at least one). -/
def getvar {β : Type} (vars : List (String × β)) (names : List String) : Except String β :=
  match names.find? fun n => (vars.lookup n).isSome with
  | some n => match vars.lookup n with
    | some v => .ok v
    | none => .error "KeyError"
  | none => .error "KeyError: Missing variable"

/-- `datasource.py:137-145` `to_m`. -/
def toM (var : SrcVar α) : Except String (List (Option α)) :=
  if var.units = "km" then .ok (var.values.map fun v => v.map (· * 1000))
  else if var.units ≠ "m" ∧ var.units ≠ "meters" then .error "ValueError: Unexpected unit"
  else .ok var.values

/-- `datasource.py:147-155` `_init_time`; the file has `n` times, `none` if there is no such variable.
Times are assumed to be known (not masked). Returns the times in hours. -/
def initTime [FloorRing α] (time : Option (ℕ × (ℕ → α))) : Except String (ℕ → α) :=
  match time with
  | none => .error "KeyError: Missing variable time"
  | some (n, t) =>
    if n = 0 then .error "ValidTimeStampError: Empty time vector"
    else if (List.range n).any fun i => decide (25 < t i) then seconds2hours n t
    else .ok t

/-- `datasource.py:157-169` `_init_altitude`; `np.mean` of a masked array is the mean of its known
values. -/
def initAltitude (altitude : Option (SrcVar α)) : Except String (Option α) :=
  match altitude with
  | none => .ok none
  | some var =>
    if var.values.all fun v => v.isNone then .ok none
    else do
      let above ← toM var
      match above with
      | [v] => .ok v
      | _ => .ok (some ((above.filterMap id).sum / (above.filterMap id).length))

/-- `datasource.py:171-178` `_init_height`. Gates of `range` are assumed to be known. -/
def initHeight (height range : Option (SrcVar α)) (altitude : Option α) :
    Except String (Option (List (Option α))) :=
  match height, range, altitude with
  | some var, _, _ => (toM var).map some
  | none, some var, some alt => (toM var).map fun r => some (r.map fun v => v.map (· + alt))
  | none, _, _ => .ok none

/-- The coordinates of an opened file. -/
structure Coordinates (α : Type) where
  time : ℕ → α
  altitude : Option α
  height : Option (List (Option α))
  heightAgl : Option (List (Option α))

/-- `datasource.py:53-68` `DataSource.__init__`: the coordinates. -/
def openSource [FloorRing α] (time : Option (ℕ × (ℕ → α))) (altitude height range : Option (SrcVar α)) :
    Except String (Coordinates α) := do
  let time ← initTime time
  let altitude ← initAltitude altitude
  let height ← initHeight height range altitude
  pure { time := time, altitude := altitude, height := height,
         heightAgl := match height, altitude with
           | some h, some a => some (h.map fun v => v.map (· - a))
           | _, _ => none }

end

/-! ### Microwave radiometer -/

/-- `categorize/mwr.py:42-47` `_init_lwp_data`, one time step. `flag` is `none` if the file has no
quality flag; a masked flag compares unequal to zero. -/
def initLwp {β : Type} (lwp : Option β) (flag : Option (Option ℤ)) : Option β :=
  match flag with
  | none => lwp
  | some f => if f ≠ some 0 then none else lwp

/-- `categorize/mwr.py:49-52` `_init_lwp_error`, one time step (kg m-2). -/
noncomputable def initLwpError (lwp : Option ℝ) : Option ℝ :=
  l2norm [lwp.map (· * (1 / 4)), some (20 * (1 / 1000))]

/-- `categorize/mwr.py:27-40` `interpolate_to_grid` of the liquid water path and its error. -/
noncomputable def mwrToGrid (n : ℕ) (time : ℕ → ℝ) (lwp : ℕ → Option ℝ) (flag : Option (ℕ → Option ℤ))
    (nNew : ℕ) (timeNew : ℕ → ℝ) (maxTime : ℝ) :
    Except String ((ℕ → Option ℝ) × (ℕ → Option ℝ)) := do
  let data : ℕ → Option ℝ := fun i => initLwp (lwp i) (flag.map fun f => f i)
  let grid ← interpolate1d n time data nNew timeNew maxTime false
  let error ← interpolate1d n time (fun i => initLwpError (data i)) nNew timeNew maxTime false
  pure (grid, error)

/-! ### Disdrometer -/

/-- `categorize/disdrometer.py:30-38` `_init_rainfall_rate`: the variables taken from the file. -/
def disdrometerVariables {β : Type} (vars : List (String × β)) :
    Except String (List (String × β)) :=
  ["rainfall_rate", "n_particles", "synop_WaWa"].foldlM (fun data key =>
    match vars.lookup key with
    | none => if key = "synop_WaWa" then .ok data
              else .error s!"DisdrometerDataError: variable {key} is missing"
    | some v => .ok (data ++ [(key, v)])) []

/-- `categorize/disdrometer.py:23-28` `interpolate_to_grid`: present weather codes are not averaged. -/
def disdrometerToGrid {α : Type} [Field α] [LinearOrder α] (n : ℕ) (time : ℕ → α)
    (data : List (String × (ℕ → Option α))) (nNew : ℕ) (timeNew : ℕ → α) :
    Except String (List (String × (ℕ → Option α))) :=
  data.mapM fun kv => do
    let v ← interpolate1d n time kv.2 nNew timeNew 1 (decide (kv.1 = "synop_WaWa"))
    pure (kv.1, v)

/-! ### Units -/

/-- The data (any number of elements) and units of a `CloudnetArray` (`cloudnetarray.py:28-43`). -/
structure UnitArray where
  data : ℕ → Option ℝ
  units : String

/-- `"db" in self.units.lower()`. -/
def inDb (units : String) : Bool := decide ("db".toList <:+: pyLower units)

/-- `cloudnetarray.py:45-49` `lin2db` with `utils.py:548-552`: `ma.log10` masks numbers that are not
positive. -/
noncomputable def UnitArray.lin2db (a : UnitArray) : UnitArray :=
  if !inDb a.units then
    { data := fun i => (a.data i).bind fun x => if 0 < x then some (10 * Real.logb 10 x) else none
      units := "dB" }
  else a

/-- `cloudnetarray.py:51-55` `db2lin` with `utils.py:537-545`. -/
noncomputable def UnitArray.db2lin (a : UnitArray) : UnitArray :=
  if inDb a.units then
    { data := fun i => (a.data i).map fun x => (10 : ℝ) ^ (x / 10)
      units := "" }
  else a

end Cloudnet
