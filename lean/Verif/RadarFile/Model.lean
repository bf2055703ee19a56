import Verif.Mrr.Model
import Verif.Geo.Model
import Verif.Source.Model
import Verif.RpgDay.Model
import Verif.Mira.Model

/-!
BASTA (`instruments/basta.py`) and BOW-TIE (`instruments/bowtie.py`) radar files from reading to the written variables, with the parts of
`instruments/nc_radar.py`, `datasource.py` and `instruments/cloudnet_instrument.py` they use. How the variables get their attributes and are
written is modelled elsewhere (properties C40, C41 and C119).
-/

namespace Cloudnet

/-- The same operation for all elements of an array. -/
def NdArray.mapAll {β γ : Type} (g : β → γ) : NdArray β → NdArray γ
  | .d0 x => .d0 (g x)
  | .d1 xs => .d1 (xs.map g)
  | .d2 xs => .d2 (xs.map fun r => r.map g)
  | .d3 xs => .d3 (xs.map fun r => r.map fun s => s.map g)
  | .dn xs => .dn (xs.map fun r => r.map fun s => s.map fun u => u.map g)

/-- `utils.py:730-750` `isscalar` -/
def NdArray.isScalar {β : Type} (a : NdArray β) : Bool :=
  match a.len? with
  | none => true
  | some n => n == 1

section
variable {α : Type} [Field α] [LinearOrder α] [FloorRing α]

/-- The element of a masked array; a number that is not finite is masked (`nc_radar.py:48`). -/
def RawPixel.value (p : RawPixel α) : Option α := if p.masked then none else p.number

/-- A netCDF file: its variables (dimensions as in the file), their units and the global attributes. -/
structure RadarFile (α : Type) where
  vars : List (String × NdArray (RawPixel α))
  units : String → String
  attr : String → Option String

/-- Arguments: coordinates of the site, correction factor of the range. -/
structure RadarSite (α : Type) where
  coordinate : String → Option α
  rangeFactor : Option α

/-- The cosine of an angle in degrees, Python's `float` and `int` (`none` is a `ValueError`), `datetime.date.fromisoformat`, and `argsort` of
NumPy. -/
structure RadarTools (α : Type) where
  cosd : α → α
  float : String → Option α
  int : String → Option ℤ
  iso : String → Option CivilDate
  argsort : List α → List ℕ

/-- A variable of the file with its units, as `DataSource` sees it. -/
def RadarFile.source (f : RadarFile α) (name : String) : Option (SrcVar α) :=
  (f.vars.lookup name).map fun a => ⟨a.elements.map RawPixel.value, f.units name⟩

/-- The times in the file. They are assumed to be known. -/
def RadarFile.stamps (f : RadarFile α) : Option (List α) :=
  (f.vars.lookup "time").map fun a => a.elements.filterMap RawPixel.number

/-- `datasource.py:53-68`: opening the file. The times in hours. -/
def radarOpen (f : RadarFile α) : Except String (List α) := do
  let c ← openSource (f.stamps.map fun l => (l.length, vec l)) (f.source "altitude") (f.source "height") (f.source "range")
  return (List.range (f.stamps.getD []).length).map c.time

/-- `datasource.py:113-130` `get_date` -/
def radarDate (tools : RadarTools α) (f : RadarFile α) : Except String CivilDate :=
  match (f.attr "year").bind tools.int, (f.attr "month").bind tools.int, (f.attr "day").bind tools.int with
  | some y, some m, some d =>
    match civilDate y m d with
    | .ok date => .ok date
    | .error _ => .error "RuntimeError: Missing or invalid date in global attributes."
  | _, _, _ => .error "RuntimeError: Missing or invalid date in global attributes."

/-- `nc_radar.py:47-48`: an array with one row is no masked array any more: its mask is lost, and a number that is not finite becomes zero (the
data of `ma.masked`). -/
def initNd (a : NdArray (RawPixel α)) : NdArray (Option α) :=
  if a.isScalar then a.mapAll fun p => some (p.number.getD 0) else a.mapAll RawPixel.value

/-- `nc_radar.py:38-49` `init_data` -/
def radarInit (keymap : List (String × String)) (f : RadarFile α) : List (String × NdArray (Option α)) :=
  initData keymap (f.vars.map fun kv => (kv.1, initNd kv.2))

/-- `nc_radar.py:56-58` -/
def scaleRange (site : RadarSite α) (r : NdArray (Option α)) : NdArray (Option α) :=
  match site.rangeFactor with
  | some c => r.mapNumbers (· * c)
  | none => r

/-- `nc_radar.py:51-63` `add_time_and_range`. `np.array` drops the mask of the range. -/
def addTimeAndRange (f : RadarFile α) (site : RadarSite α) (times : List α) (d : List (String × NdArray (Option α))) :
    Except String (List (String × NdArray (Option α))) := do
  let r ← getvar f.vars ["range", "height"]
  return dictSet (dictSet d "range" (scaleRange site (r.mapAll RawPixel.number))) "time" (.d1 (times.map some))

/-- `utils.py:1179-1186` -/
def GeoValue.toNd : GeoValue α → NdArray (Option α)
  | .number x => .d0 (some x)
  | .array xs => .d1 xs

/-- `utils.py:1179-1186`: a coordinate that was found is stored. -/
def setCoordinate (key : String) (v : Option (GeoValue α × String)) (d : List (String × NdArray (Option α))) :
    List (String × NdArray (Option α)) :=
  match v with
  | some v => dictSet d key v.1.toNd
  | none => d

/-- The arguments of `utils.add_site_geolocation`. -/
def radarGeoInput (f : RadarFile α) (site : RadarSite α) (d : List (String × NdArray (Option α))) : GeoInput α :=
  { gps := true
    data := fun key => (d.lookup key).map NdArray.elements
    site := some site.coordinate
    dataset := some ⟨fun key => (f.vars.lookup key).map fun a => a.elements.map RawPixel.value, f.attr⟩ }

/-- `cloudnet_instrument.py:26-33` `add_site_geolocation`; both radars have a GPS (line 27). -/
def addCoordinates (tools : RadarTools α) (f : RadarFile α) (site : RadarSite α) (d : List (String × NdArray (Option α))) :
    Except String (List (String × NdArray (Option α))) := do
  let g ← addSiteGeolocation tools.cosd tools.float (radarGeoInput f site d)
  return setCoordinate "altitude" g.altitude (setCoordinate "longitude" g.longitude (setCoordinate "latitude" g.latitude d))

/-- `nc_radar.py:156-172` `add_radar_specific_variables`; the median ignores masks. -/
def addRadarSpecific (frequency : α) (f : RadarFile α) (d : List (String × NdArray (Option α))) : List (String × NdArray (Option α)) :=
  let d := dictSet d "radar_frequency" (.d0 (some frequency))
  match getvar f.vars ["ambiguous_velocity", "NyquistVelocity"] with
  | .ok a => (dictSet d "nyquist_velocity" (.d0 (some (median (a.elements.filterMap RawPixel.number))))).filter fun kv => kv.1 ≠ "NyquistVelocity"
  | .error _ => d

/-- `cloudnet_instrument.py:89-95` `_get_zenith_angle`, or zero (`cloudnet_instrument.py:37-39`). -/
def radarZenith (d : List (String × NdArray (Option α))) : α :=
  match d.lookup "zenith_angle" with
  | none => 0
  | some a => if a.elements.filterMap id = [] then 0 else median (a.elements.filterMap id)

/-- `cloudnet_instrument.py:41`: altitude is added in place, so an array must have one element or that of the heights. -/
def addAltitude (altitude h : NdArray (Option α)) : Except String (NdArray (Option α)) :=
  match altitude, h with
  | .d0 (some x), h => .ok (h.mapNumbers (· + x))
  | .d1 [some x], h => .ok (h.mapNumbers (· + x))
  | .d1 xs, .d1 hs => if xs.length = hs.length then .ok (.d1 (List.zipWith (fun a h => h.bind fun h => a.map fun a => h + a) xs hs)) else .error "ValueError"
  | _, _ => .error "ValueError"

/-- `cloudnet_instrument.py:35-42` `add_height` -/
def addHeightVar (tools : RadarTools α) (d : List (String × NdArray (Option α))) : Except String (List (String × NdArray (Option α))) := do
  let some r := d.lookup "range" | .error "KeyError: range"
  let some a := d.lookup "altitude" | .error "KeyError: altitude"
  let h ← addAltitude a (r.mapNumbers (· * tools.cosd (radarZenith d)))
  return dictSet d "height" h

/-- `nc_radar.py:174-179` `test_if_all_masked`. (An array with one row has no mask, see `initNd`.) -/
def testAllMasked (d : List (String × NdArray (Option α))) : Except String Unit :=
  match d.lookup "v" with
  | none => .error "KeyError: v"
  | some v => if v.elements.all Option.isNone then .error "RadarDataError: All radar data are masked" else .ok ()

/-! ## BASTA -/

/-- `basta.py:54-60` -/
def bastaKeymap : List (String × String) :=
  [("reflectivity", "Zh"), ("velocity", "v"), ("radar_pitch", "radar_pitch"), ("radar_yaw", "radar_yaw"), ("radar_roll", "radar_roll")]

/-- `basta.py:100`: one value; `plain` tells that it is in an array without mask, where `ma.masked` is stored as zero. A masked background is
not one. -/
def bastaPixel (plain : Bool) (background : RawPixel α) (x : Option α) : Option α :=
  if background.value = some 1 then x else if plain then some 0 else none

/-- `basta.py:98-100`: the loop body of `screen_data` for arrays of the same shape as the background. -/
def bastaArray (background : NdArray (RawPixel α)) (a : NdArray (Option α)) : NdArray (Option α) :=
  match background, a with
  | .d1 bs, .d1 xs => .d1 (List.zipWith (bastaPixel (NdArray.isScalar (.d1 xs))) bs xs)
  | .d2 bs, .d2 xs => .d2 (List.zipWith (List.zipWith (bastaPixel (NdArray.isScalar (.d2 xs)))) bs xs)
  | _, a => a

/-- `basta.py:95-100` `screen_data` -/
def bastaBackground (f : RadarFile α) (d : List (String × NdArray (Option α))) : Except String (List (String × NdArray (Option α))) := do
  let b ← getvar f.vars ["background_mask"]
  return d.map fun kv => (kv.1, if kv.1 ∈ bastaKeymap.map Prod.snd then bastaArray b kv.2 else kv.2)

/-- `basta.py:102-109` `validate_date` -/
def bastaValidate (tools : RadarTools α) (f : RadarFile α) (expected : CivilDate) : Except String Unit :=
  match (rmWords (f.units "time"))[2]? with
  | none => .error "IndexError"
  | some w =>
    match tools.iso w with
    | none => .error "ValueError"
    | some d => if expected ≠ d then .error "ValidTimeStampError: Time units doesn't match expected date" else .ok ()

/-- `basta.py:64-65` -/
def bastaExpected (tools : RadarTools α) (f : RadarFile α) (date : Option CivilDate) : Except String Unit :=
  match date with
  | some e => bastaValidate tools f e
  | none => .ok ()

/-- `basta.py:111-114` `add_zenith_angle` -/
def bastaZenith (f : RadarFile α) (d : List (String × NdArray (Option α))) : Except String (List (String × NdArray (Option α))) := do
  let e ← getvar f.vars ["elevation"]
  return dictSet d "zenith_angle" ((e.mapAll RawPixel.value).mapNumbers (90 - ·))

/-- `cloudnet_instrument.py:54-57` `sort_timestamps` and `cloudnet_instrument.py:49-52` `remove_duplicate_timestamps` -/
def sortUniqueTimes (argsort : List α → List ℕ) (d : Instrument (Option α)) : Except String (Instrument (Option α)) := do
  let d ← d.screenTimeIndices (.idx (argsort (d.getTime.filterMap id)))
  d.screenTimeIndices (.idx (uniqueIndex (d.getTime.filterMap id).length (vec (d.getTime.filterMap id))))

/-- `basta.py:17-78` `basta2nc`, `basta.py:90-93` `__init__`: the date and the variables of the new file. -/
def basta2nc (tools : RadarTools α) (site : RadarSite α) (date : Option CivilDate) (f : RadarFile α) :
    Except String (CivilDate × List (String × NdArray (Option α))) := do
  let times ← radarOpen f
  let day ← radarDate tools f
  let d := radarInit bastaKeymap f
  bastaExpected tools f date
  let d ← bastaBackground f d
  let d ← addTimeAndRange f site times d
  let d ← addCoordinates tools f site d
  let d ← bastaZenith f d
  let d := addRadarSpecific 95 f d
  let d ← addHeightVar tools d
  let i ← sortUniqueTimes tools.argsort ⟨d, times.map some⟩
  testAllMasked i.data
  return (day, i.data)

/-! ## BOW-TIE -/

/-- `bowtie.py:42-57` -/
def bowtieKeymap : List (String × String) :=
  [("Zh", "Zh"), ("v", "v"), ("width", "width"), ("ldr", "ldr"), ("kurt", "kurtosis"), ("Skew", "skewness"), ("SNR", "SNR"), ("time", "time"),
    ("range", "range"), ("lwp", "lwp"), ("SurfRelHum", "relative_humidity"), ("rain", "rainfall_rate"), ("Nyquist_velocity", "nyquist_velocity"),
    ("range_offsets", "chirp_start_indices")]

/-- `bowtie.py:87-89`: the new number; `constants.py` `G_TO_KG`, `MM_H_TO_M_S`. -/
def bowtieUnit (name : String) (x : α) : α :=
  if name = "lwp" then x * (1 / 1000) else if name = "rainfall_rate" then x * (1 / 1000 / 3600) else if name = "relative_humidity" then x / 100 else x

/-- `bowtie.py:86-89` `convert_units` -/
def bowtieUnits (d : List (String × NdArray (Option α))) : Except String (List (String × NdArray (Option α))) :=
  if ["lwp", "rainfall_rate", "relative_humidity"].all fun k => (d.lookup k).isSome then
    .ok (d.map fun kv => (kv.1, kv.2.mapNumbers (bowtieUnit kv.1)))
  else .error "KeyError"

/-- `np.array(x, dtype=np.int32)` of a number -/
def truncate (x : α) : α := if 0 ≤ x then (⌊x⌋ : α) else (⌈x⌉ : α)

/-- `bowtie.py:91-94` `fix_chirp_start_indices`. Masked values (which would become some number) are not expected. -/
def bowtieChirps (d : List (String × NdArray (Option α))) : Except String (List (String × NdArray (Option α))) :=
  match d.lookup "chirp_start_indices" with
  | none => .error "KeyError: chirp_start_indices"
  | some a => .ok (dictSet d "chirp_start_indices" (a.mapNumbers truncate))

/-- `bowtie.py:96-99` `add_correction_bits`. An array with one row has no attribute `mask` (see `initNd`). -/
def bowtieBits (d : List (String × NdArray (Option α))) : Except String (List (String × NdArray (Option α))) :=
  match d.lookup "v" with
  | none => .error "KeyError: v"
  | some v => if v.isScalar then .error "AttributeError" else .ok (dictSet d "correction_bits" (v.mapNumbers fun _ => 1))

/-- `bowtie.py:66-67`, `bowtie.py:101-103` `check_date` -/
def bowtieExpected (day : CivilDate) (date : Option CivilDate) : Except String Unit :=
  match date with
  | some e => if day ≠ e then .error "ValidTimeStampError" else .ok ()
  | none => .ok ()

/-- `bowtie.py:18-77` `bowtie2nc`, `bowtie.py:80-84` `__init__`: the date and the variables of the new file. -/
def bowtie2nc (tools : RadarTools α) (site : RadarSite α) (date : Option CivilDate) (f : RadarFile α) :
    Except String (CivilDate × List (String × NdArray (Option α))) := do
  let times ← radarOpen f
  let day ← radarDate tools f
  let d := radarInit bowtieKeymap f
  let d ← addTimeAndRange f site times d
  bowtieExpected day date
  let d := addRadarSpecific 94 f d
  let d ← addCoordinates tools f site d
  let d ← addHeightVar tools d
  let d ← bowtieUnits d
  let d ← bowtieChirps d
  testAllMasked d
  let d ← bowtieBits d
  return (day, d)

end

end Cloudnet
