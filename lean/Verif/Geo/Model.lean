import Verif.Radiometrics.Model
import Verif.NcRadar.Model

/-!
Site coordinates (`utils.py:1107-1208`, `cloudnet_instrument.py:26-33`) and the epoch of time units (`utils.py:924-945`).
-/

namespace Cloudnet

section
variable {α : Type} [Field α] [LinearOrder α] [IsStrictOrderedRing α]

/-- A coordinate: a Python number or an array (a scalar array has one element); `none` is masked. -/
inductive GeoValue (α : Type) where
  | number (x : α)
  | array (xs : List (Option α))
deriving DecidableEq

/-- `np.atleast_1d` -/
def GeoValue.elements : GeoValue α → List (Option α)
  | .number x => [some x]
  | .array xs => xs

/-- A netCDF file: variables and global attributes. -/
structure GeoFile (α : Type) where
  var : String → Option (List (Option α))
  attr : String → Option String

/-- The arguments of `add_site_geolocation`. The values of `site_meta` are numbers. -/
structure GeoInput (α : Type) where
  gps : Bool
  data : String → Option (List (Option α))
  site : Option (String → Option α)
  dataset : Option (GeoFile α)

/-- `utils.py:1123-1128` -/
def GeoInput.gpsValues (i : GeoInput α) (key : String) : Option (List (Option α)) :=
  if i.gps ∧ key ≠ "altitude" then
    match i.dataset.bind fun d => d.var key with
    | some v => some v
    | none => i.data key
  else none

/-- `utils.py:1129-1135`: zeros are masked, masked values count as zero. -/
def gpsValue (values : List (Option α)) : Option (List (Option α)) :=
  if values.any fun x => x.any fun v => decide (v ≠ 0) then some (values.map fun x => x.filter fun v => decide (v ≠ 0)) else none

/-- `utils.py:1189-1197` `_parse_global_attribute_numeral`; `float` is Python's, `none` is a `ValueError`. Only ASCII digits are
digits. -/
def geoNumeral (float : String → Option α) (attr : String) : Except String (Option α) :=
  if attr = "Unknown" then .ok none
  else
    match float (String.ofList (attr.toList.filter fun c => c.isDigit || c == '.')) with
    | some x => .ok (some x)
    | none => .error "ValueError"

/-- `key.capitalize()` for the three keys. -/
def geoAttribute (key : String) : String :=
  if key = "latitude" then "Latitude" else if key = "longitude" then "Longitude" else "Altitude"

/-- `utils.py:1140-1158`: from the source file. -/
def geoFromFile (float : String → Option α) (d : GeoFile α) (key : String) : Except String (Option (GeoValue α × String)) :=
  match (d.var key).filter fun v => !(v.all Option.isNone) with
  | some v => .ok (some (.array v, "raw file"))
  | none =>
    match d.attr (geoAttribute key) with
    | none => .ok none
    | some a => (geoNumeral float a).map fun x => x.map fun x => (.number x, "raw file")

/-- `utils.py:1118-1161`: value and source of a coordinate. -/
def geoFind (float : String → Option α) (i : GeoInput α) (key : String) : Except String (Option (GeoValue α × String)) :=
  match (i.gpsValues key).bind gpsValue with
  | some v => .ok (some (.array v, "GPS"))
  | none =>
    match i.site.bind fun s => s key with
    | some x => .ok (some (.array [some x], "site coordinates"))
    | none =>
      match i.dataset with
      | none => .ok none
      | some d => geoFromFile float d key

/-- `np.min`, `np.max` of the valid values. -/
def geoMin (l : List (Option α)) : α := (l.filterMap id).foldl min ((l.filterMap id).headD 0)

/-- `np.max` of the valid values. -/
def geoMax (l : List (Option α)) : α := (l.filterMap id).foldl max ((l.filterMap id).headD 0)

/-- `ma.mean` of an array with a valid value. -/
def geoMean (l : List (Option α)) : α := (maskedMean l).getD 0

/-- `utils.py:1200-1208` `_are_stationary`; `cosd` is the cosine of an angle in degrees. -/
def areStationary (cosd : α → α) (lat lon : List (Option α)) : Bool :=
  decide (geoMax lat - geoMin lat ≤ 1 / 100) &&
    decide (geoMax lon - geoMin lon ≤ 1 / 100 / cosd ((geoMin lat + geoMax lat) / 2))

/-- `utils.py:1163-1172`. (Line 1166 computes `lon[lon > 180] - 360` and drops it.) -/
def geoPosition (cosd : α → α) (lat lon : GeoValue α) : GeoValue α × GeoValue α :=
  if areStationary cosd lat.elements lon.elements then (.number (geoMean lat.elements), .number (geoMean lon.elements))
  else (.array lat.elements, .array lon.elements)

/-- `utils.py:1174-1177` -/
def geoAltitude (alt : GeoValue α) : GeoValue α :=
  if geoMax alt.elements - geoMin alt.elements < 100 then .number (geoMean alt.elements) else alt

/-- The coordinates that are set: value and source; `none` leaves `data` as it is. An array has the dimension `time`, a number none
(`utils.py:1179-1186`). -/
structure GeoResult (α : Type) where
  latitude : Option (GeoValue α × String)
  longitude : Option (GeoValue α × String)
  altitude : Option (GeoValue α × String)
deriving DecidableEq

/-- `utils.py:1107-1186` `add_site_geolocation`. -/
def addSiteGeolocation (cosd : α → α) (float : String → Option α) (i : GeoInput α) : Except String (GeoResult α) := do
  let lat ← geoFind float i "latitude"
  let lon ← geoFind float i "longitude"
  let alt ← geoFind float i "altitude"
  let alt := alt.map fun a => (geoAltitude a.1, a.2)
  match lat, lon with
  | some a, some b => return ⟨some ((geoPosition cosd a.1 b.1).1, a.2), some ((geoPosition cosd a.1 b.1).2, b.2), alt⟩
  | _, _ => return ⟨lat, lon, alt⟩

/-- `cloudnet_instrument.py:27`: instruments whose positions are those of a GPS. -/
def hasGps (instrument : String) : Bool := instrument ∈ ["BASTA", "FMCW94", "FMCW35", "HATPRO"]

end

/-! ## Epoch -/

/-- A date of the proleptic Gregorian calendar. -/
structure CivilDate where
  year : ℤ
  month : ℤ
  day : ℤ
deriving DecidableEq

/-- Python's calendar. -/
def daysInMonth (year month : ℤ) : ℤ :=
  if month = 2 then (if year % 4 = 0 ∧ (year % 100 ≠ 0 ∨ year % 400 = 0) then 29 else 28)
  else if month ∈ [4, 6, 9, 11] then 30 else 31

/-- `datetime.datetime(year, month, day)` -/
def civilDate (year month day : ℤ) : Except String CivilDate :=
  if 1 ≤ year ∧ year ≤ 9999 ∧ 1 ≤ month ∧ month ≤ 12 ∧ 1 ≤ day ∧ day ≤ daysInMonth year month then .ok ⟨year, month, day⟩
  else .error "ValueError"

/-- `utils.py:931-933`: the date in the third word. -/
def epochText (word : String) : List Char := (word.toList.filter (· ≠ ',')).takeWhile (· ≠ 'T')

/-- `utils.py:934-940`: the numbers; `none` if neither separator works. -/
def epochNumbers (int : String → Option ℤ) (text : List Char) : Option (List ℤ) :=
  match ((text.splitOn '-').map String.ofList).mapM int with
  | some l => some l
  | none => ((text.splitOn '.').map String.ofList).mapM int

/-- `utils.py:924-945` `get_epoch`. `int` is Python's, `none` is a `ValueError`. -/
def getEpoch (int : String → Option ℤ) (currentYear : ℤ) (units : String) : Except String CivilDate :=
  match (rmWords units)[2]? with
  | none => .ok ⟨2001, 1, 1⟩
  | some word =>
    match epochNumbers int (epochText word) with
    | none => .ok ⟨2001, 1, 1⟩
    | some [year, month, day] =>
      if (1900 < year ∧ year ≤ currentYear) ∧ (0 < month ∧ month < 13) ∧ (0 < day ∧ day < 32) then civilDate year month day
      else .ok ⟨2001, 1, 1⟩
    | some _ => .error "ValueError"

end Cloudnet
