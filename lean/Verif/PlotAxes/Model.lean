import Verif.Droplet.Model
import Verif.NcRadar.Model
import Mathlib.Analysis.SpecialFunctions.Log.Base

namespace Cloudnet

/-! Heights, units, colour scales, tick labels and brightness temperatures of figures (`plotting/plotting.py`). -/

section
variable {α : Type} [Field α] [LinearOrder α]

/-! ### Heights -/

/-- The variables of a file that give the height: for each the values, `none` if there is no such variable. Those of models are profiles. -/
structure HeightSource (α : Type) where
  fileType : String
  heightSat : Option (List (Option α))
  nLevels : ℕ
  modelHeight : Option (List (ℕ → Option α))
  height : Option (List (Option α))
  altitude : Option (List (Option α))
  range : Option (List (Option α))
  diameter : Option (List (Option α))
  geopotential : Option (List α)
  gdas : Bool
  pressure : List (Option α)
  temperature : List (Option α)

/-- `ma.median` -/
def knownMedian (l : List (Option α)) : Option α := if l.filterMap id = [] then none else some (median (l.filterMap id))

/-- Subtraction of a number, which may be masked. -/
def lowered (by' : Option α) (l : List (Option α)) : List (Option α) := l.map fun h => h.bind fun h => by'.map fun b => h - b

/-- `plotting/plotting.py:229-237` `_calc_ground_altitude`; `isa` is `atmoslib.isa_altitude`. A mean of masked values only is masked. -/
def groundAltitude (isa : α → α → α) (f : HeightSource α) : Option α :=
  match f.geopotential with
  | some g => if f.gdas then (maskedMean f.temperature).bind fun t => (maskedMean f.pressure).map fun p => isa t p
              else (maskedMean (g.map some)).map fun x => x / (980665 / 100000)
  | none => (maskedMean f.temperature).bind fun t => (maskedMean f.pressure).map fun p => isa t p

/-- `con.M_TO_KM` -/
def inKm (l : List (Option α)) : List (Option α) := l.map fun h => h.map fun h => h * (1 / 1000)

/-- `plotting/plotting.py:203-227` `_get_height`; `above` is the option `plot_above_ground`. -/
def figureHeight (isa : α → α → α) (above : Bool) (f : HeightSource α) : Except String (Option (List (Option α))) :=
  if f.fileType = "cpr-simulation" then
    match f.heightSat, f.altitude with
    | none, _ => .error "KeyError"
    | some h, none => if above then .error "KeyError" else .ok (some (inKm h))
    | some h, some a => .ok (some (inKm (if above then lowered (knownMedian a) h else h)))
  else if f.fileType = "model" then
    match f.modelHeight with
    | none => .error "KeyError"
    | some rows =>
      let mean := (List.range f.nLevels).map fun k => maskedMean (rows.map fun r => r k)
      .ok (some (inKm (if above then mean else mean.map fun h => h.bind fun h => (groundAltitude isa f).map fun g => h + g)))
  else
    match f.height with
    | some h =>
      if above then
        match f.altitude with
        | none => .error "ValueError"
        | some a => .ok (some (inKm (lowered (knownMedian a) h)))
      else .ok (some (inKm h))
    | none =>
      match f.range, f.diameter with
      | some r, _ => .ok (some (inKm r))
      | none, some d => .ok (some (d.map fun x => x.map fun x => x * 1000))
      | none, none => .ok none

/-- `plotting/plotting.py:461-479` `_fill_out_of_range`: the range of heights that is hatched. A masked height is not hatched. -/
def outOfRange (height : Option (List (Option α))) (maxY : α) : Option (α × α) :=
  (height.bind fun h => h.getLast?.join).bind fun top => if top ≥ maxY then none else some (top, maxY)

/-! ### Units -/

/-- `plotting/plotting.py:397-422`: factor, addend and label. -/
def unitTable : List (String × α × α × String) :=
  [("rainfall_rate", 3600000, 0, "mm h$^{-1}$"), ("snowfall_rate", 3600000, 0, "mm h$^{-1}$"), ("precipitation_rate", 3600000, 0, "mm h$^{-1}$"),
   ("air_pressure", 1 / 100, 0, "hPa"), ("relative_humidity", 100, 0, "%"), ("rh", 100, 0, "%"), ("rainfall_amount", 1000, 0, "mm"),
   ("snowfall_amount", 1000, 0, "mm"), ("precipitation_amount", 1000, 0, "mm"), ("air_temperature", 1, -(27315 / 100), "°C"),
   ("temperature", 1, -(27315 / 100), "°C"), ("Tw", 1, -(27315 / 100), "°C"), ("T_sensor", 1, -(27315 / 100), "°C"),
   ("T_ambient", 1, -(27315 / 100), "°C"), ("T_interior", 1, -(27315 / 100), "°C"), ("T_laser_driver", 1, -(27315 / 100), "°C"),
   ("transmitter_temperature", 1, -(27315 / 100), "°C"), ("receiver_temperature", 1, -(27315 / 100), "°C"),
   ("pc_temperature", 1, -(27315 / 100), "°C"), ("r_accum_RT", 1000, 0, "mm"), ("r_accum_NRT", 1000, 0, "mm"),
   ("cloud_top_height_agl", 1 / 1000, 0, "Height (km AGL)")]

/-- `plotting/plotting.py:423-432`: a value. A factor and an addend are never combined. -/
def plotUnit (name : String) (x : α) : α :=
  match unitTable.lookup name with
  | none => x * 1
  | some (factor, add, _) => if add = 0 then x * factor else x + add

/-- `plotting/plotting.py:392-394` `_mask_zeros`, one value. -/
def maskZero (x : Option α) : Option α := x.bind fun v => if v = 0 then none else some v

end

/-- Is there a number after a letter: an optional minus and a digit? -/
def startsNumber : List Char → Bool
  | '-' :: d :: _ => d.isDigit
  | d :: _ => d.isDigit
  | [] => false

/-- The regular expression of `plotting/plotting.py:1227`: `([a-z])(-?\d+)` becomes `\1$^{\2}$`, for letters and digits of ASCII. The argument
`after` tells that the character before is a letter, `inside` that a number has been opened. -/
def superscript (after inside : Bool) : List Char → List Char
  | [] => if inside then "}$".toList else []
  | c :: cs =>
    if inside && c.isDigit then c :: superscript false true cs
    else if inside then "}$".toList ++ c :: superscript c.isAlpha false cs
    else if after && startsNumber (c :: cs) then "$^{".toList ++ c :: superscript false true cs
    else c :: superscript c.isAlpha false cs

/-- `plotting/plotting.py:1224-1227` `_reformat_units` -/
def reformatUnits (units : String) : String := if units = "1" then "" else String.ofList (superscript false false units.toList)

/-- `plotting/plotting.py:434-436`: the label of the axis. -/
def unitLabel (name : String) (units : Option String) : String :=
  match (unitTable (α := ℚ)).lookup name with
  | some (_, _, label) => label
  | none => reformatUnits (units.getD "")

/-! ### Images -/

/-- `plotting/plotting.py:643-655` and `plotting/plotting.py:740-746`: a value of an image, without the rows for gaps (C145) and without smoothing.
`vmin` is the lower end of the scale. -/
noncomputable def imageValue (name : String) (maskZeros logScale : Bool) (vmin : ℝ) (x : Option ℝ) : Option ℝ :=
  let x := x.map (plotUnit name)
  let x := if maskZeros then maskZero x else x
  let x := if name = "cloud_fraction" then maskZero x else x
  if logScale then (x.map fun v => max v vmin).bind fun v => if 0 < v then some (Real.logb 10 v) else none else x

section
variable {α : Type} [Field α] [LinearOrder α]

/-- Where a value is on a colour scale (`matplotlib.colors.Normalize`, with the colours at the ends for values outside). -/
def scalePosition (scale : α × α) (v : α) : α := max 0 (min 1 ((v - scale.1) / (scale.2 - scale.1)))

/-- `plotting/plot_meta.py:180-185`: the colour scale of the rainfall rate of rain radars. -/
def rainRadarScale : α × α := (0, 50 / 3600000)

/-- The colour of a rainfall rate of a rain radar: `plotting/plotting.py:740-746` does not convert the scale. -/
def rainRadarColour (x : α) : α := scalePosition rainRadarScale (plotUnit "rainfall_rate" x)

/-! ### Brightness temperatures -/

/-- A file with brightness temperatures of `nFreq` channels: the values, pointing flags with zenith angles, and quality flags. -/
structure TbFile (α : Type) where
  nT : ℕ
  nFreq : ℕ
  tb : Grid (Option α)
  pointing : Option ((ℕ → ℤ) × (ℕ → α))
  flags : Option (ℕ → ℕ → Bool)

/-- `plotting/plotting.py:1056-1065` `_get_bad_zenith_profiles` -/
def badZenith (f : TbFile α) (t : ℕ) : Bool :=
  match f.pointing with
  | some (flag, zenith) => decide (5 < |zenith t|) || flag t != 0
  | none => false

/-- The column of an index of Python, `none` is `IndexError`. -/
def pyColumn (n : ℕ) (i : ℤ) : Option ℕ :=
  if 0 ≤ i ∧ i < n then some i.toNat else if -n ≤ i ∧ i < 0 then some (n + i).toNat else none

/-- Are all values masked? -/
def noValue (n : ℕ) (data : ℕ → Option α) : Bool := (List.range n).all fun t => (data t).isNone

/-- `plotting/plotting.py:893-913` `plot_tb` up to the curve, and `plotting/plotting.py:841-843`: the values and the times marked as flagged. -/
def plotTb (raiseOnEmpty : Bool) (f : TbFile α) (ind : ℤ) : Except String ((ℕ → Option α) × List ℕ) := do
  if ind ≥ f.nFreq then throw "PlottingError"
  let some k := pyColumn f.nFreq ind | throw "IndexError"
  if noValue f.nT (fun t => f.tb t k) && raiseOnEmpty then throw "PlottingError"
  let some flags := f.flags | throw "IndexError"
  let data : ℕ → Option α := fun t => if badZenith f t then none else f.tb t k
  if noValue f.nT data && raiseOnEmpty then throw "PlottingError"
  return (data, (List.range f.nT).filter fun t => flags t k && !badZenith f t)

end

/-- `plotting/plotting.py:540-550` `_read_flagged_data`: the variable with the flags of a variable. -/
def flagVariable (has : String → Bool) (name : String) : Option String :=
  ([name ++ "_quality_flag", "temperature_quality_flag"] ++ if name ≠ "irt" then ["quality_flag"] else []).find? has

/-! ### Ticks -/

/-- `f"{i:02d}:00"` -/
def hourText (i : ℕ) : String := (if i < 10 then "0" ++ toString i else toString i) ++ ":00"

/-- `plotting/plotting.py:1206-1213` `get_time_tick_labels`, for a whole number of hours; `np.arange` up to 24.01. -/
def tickLabels (resolution : ℕ) (edges : Bool) : List String :=
  (((List.range 25).map fun k => k * resolution).filter fun i => i ≤ 24).map fun i =>
    if (if edges then 24 ≥ i ∧ i ≥ 0 else 24 > i ∧ i > 0) then hourText i else ""

end Cloudnet
