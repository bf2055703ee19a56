import Verif.Nwp.Model
import Verif.Cli.Model
import Mathlib.Analysis.SpecialFunctions.Pow.Real

/-!
Dissipation rate from Doppler lidars (`products/epsilon_lidar.py`): the wind, the accumulation time and the attributes of the file. The
turbulence itself is computed by the library doppy.
-/

namespace Cloudnet

/-- A file with winds of a Doppler lidar: times (microseconds), heights and winds; `none` is masked. -/
structure LidarWindFile where
  nT : ℕ
  time : ℕ → ℝ
  nH : ℕ
  height : ℕ → ℝ
  uwind : Grid (Option ℝ)
  vwind : Grid (Option ℝ)

/-- `products/epsilon_lidar.py:132-133`: the masks of both winds are scalars, as no value is masked. -/
def LidarWindFile.noMask (f : LidarWindFile) : Prop := ∀ i < f.nT, ∀ j < f.nH, (f.uwind i j).isSome = true ∧ (f.vwind i j).isSome = true

/-- `products/epsilon_lidar.py:134-135`: speed, where both winds are known. -/
noncomputable def LidarWindFile.speed (f : LidarWindFile) : Grid (Option ℝ) := fun i j =>
  (f.uwind i j).bind fun u => (f.vwind i j).map fun v => Real.sqrt (u ^ 2 + v ^ 2)

open Classical in
/-- `products/epsilon_lidar.py:138-139`: the known pixels. -/
noncomputable def LidarWindFile.known (f : LidarWindFile) : Finset (ℕ × ℕ) :=
  (Finset.range f.nT ×ˢ Finset.range f.nH).filter fun p => (f.speed p.1 p.2).isSome = true

/-- `scipy.interpolate.NearestNDInterpolator`: a known point for every point of the plane. -/
abbrev NearestPoint := (ℕ → ℕ → Bool) → ℝ → ℝ → ℕ × ℕ

open Classical in
/-- `products/epsilon_lidar.py:124-156` `_horizontal_wind_from_doppler_lidar_file`: the speed at times and heights of the file. A scalar mask
has no dimensions, to which times cannot be broadcast (line 138). -/
noncomputable def lidarWind (delaunay : (ℕ → ℕ → Bool) → Option (Triangulation ℝ)) (nearest : NearestPoint) (f : LidarWindFile) :
    Except String (Grid ℝ) :=
  let valid := fun i j => (f.speed i j).isSome
  if f.noMask then .error "ValueError: input operand has more dimensions than allowed by the axis remapping"
  else if f.known = ∅ then .error "ValidTimeStampError"
  else if (f.known.image fun p => f.time p.1).card < 3 ∨ (f.known.image fun p => f.height p.2).card < 3 then
    .error "ValidTimeStampError: Not enough unique values for interpolation"
  else match delaunay valid with
    | none => .error "QhullError"
    | some tri => .ok fun i j =>
        let p := nearest valid (f.time i) (f.height j)
        (gridData tri f.speed (f.time i) (f.height j)).getD ((f.speed p.1 p.2).getD 0)

/-- `products/epsilon_lidar.py:172-184` `_infer_pulse_repetition_frequency`. -/
noncomputable def inferPrf (range : List ℝ) : Except String ℝ :=
  match range with
  | [] => .error "ValueError: zero-size array to reduction operation maximum which has no identity"
  | r :: l =>
    let dist := l.foldl max r - l.foldl min r
    let roundTrip := 2 * dist / 299792458
    if roundTrip / (1 / 15000) < 1 then .ok 15000
    else if roundTrip / (1 / 10000) < 1 then .ok 10000
    else .error "ValueError: Suspiciously large range"

/-- `products/epsilon_lidar.py:159-169` `_get_options`: the accumulation time. -/
noncomputable def lidarAccumulation (accumulation pulses : Option ℝ) (range : List ℝ) : Except String ℝ :=
  match accumulation, pulses with
  | some x, _ => .ok x
  | none, some n => (inferPrf range).map fun prf => n / prf
  | none, none => .error "ValueError: Missing ray info"

/-! ### Attributes -/

/-- An attribute of a file. -/
def readAttr (l : List (String × String)) (name : String) : Except String String := match l.lookup name with
  | some x => .ok x
  | none => .error ("AttributeError: " ++ name)

/-- `products/epsilon_lidar.py:102-111`: the lines of the history. Lines end with `\n`. -/
def lidarHistory (now doppy cloudnetpy stare wind : String) : String :=
  String.ofList (['\n'].intercalate ((((splitChar '\n' (now ++ " - epsilon-lidar file created using doppy v" ++ doppy ++ " and cloudnetpy v" ++ cloudnetpy ++ "\n" ++
    stare ++ "\n" ++ wind)).map pyStrip).filter fun l => l != "").map String.toList))

/-- `products/epsilon_lidar.py:81-114`: global attributes in the order of their first assignment. `order` is the order in which a set of two
strings is listed, which changes between runs of Python. -/
def lidarAttributes (order : String → String → Bool) (now uuid doppy cloudnetpy : String) (stare wind : List (String × String)) :
    Except String (List (String × String)) := do
  let location ← readAttr stare "location"
  let year ← readAttr stare "year"
  let month ← readAttr stare "month"
  let day ← readAttr stare "day"
  let conventions ← readAttr stare "Conventions"
  let uuid1 ← readAttr stare "file_uuid"
  let uuid2 ← readAttr wind "file_uuid"
  let source1 ← readAttr stare "source"
  let source2 ← readAttr wind "source"
  let history1 ← readAttr stare "history"
  let history2 ← readAttr wind "history"
  return [("file_uuid", uuid), ("cloudnet_file_type", "epsilon-lidar"), ("doppy_version", doppy), ("cloudnetpy_version", cloudnetpy),
    ("title", "Dissipation rate of turbulent kinetic energy (lidar) from " ++ location), ("year", year), ("month", month), ("day", day),
    ("location", location), ("Conventions", conventions), ("source_file_uuids", uuid1 ++ ", " ++ uuid2),
    ("source", if source1 = source2 then source1 else if order source1 source2 then source1 ++ ", " ++ source2 else source2 ++ ", " ++ source1),
    ("history", lidarHistory now doppy cloudnetpy history1 history2), ("references", "https://doi.org/10.1175/2010JTECHA1455.1")]

end Cloudnet
