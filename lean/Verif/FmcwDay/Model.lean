import Verif.Precip.Model
import Verif.RpgDay.Model
import Verif.Interp.Model
import Verif.Times.Model
import Verif.Mira.Model

namespace Cloudnet

/-! A day of an RPG cloud radar, after the files have been combined (C128): `rpg2nc` (`instruments/rpg.py:71-83`). The number of time stamps is
assumed to differ from the number of gates and of chirps (see C110); other variables with one value per time are selected in the same way and are
left out. -/

section
variable {α : Type} [Field α] [LinearOrder α]

/-- A profile: the time in seconds and additional milliseconds (zero if there are none), the time of day, the elevation, the data of the gates
(masked if the variable is absent), the sensors, and whether the width under a mask is too small. -/
structure FmcwProfile (α : Type) where
  seconds : α
  ms : α
  hour : α
  elevation : Option α
  zh : ℕ → Option α
  v : ℕ → Option α
  width : ℕ → Option α
  ldr : ℕ → Option α
  sldr : ℕ → Option α
  under : ℕ → Bool
  rain : Option α
  lwp : Option α
  humidity : Option α
  pressure : Option α
  wind : Option α

/-- The combined data: profiles in the order of the files, the gates, the frequency in GHz, and the altitude that `add_site_geolocation` (C134)
leaves in the data, a number. -/
structure FmcwFiles (α : Type) where
  profiles : List (FmcwProfile α)
  nGates : ℕ
  range : ℕ → α
  frequency : α
  altitude : Option α

/-- The cosine of an angle in degrees, `argsort` of NumPy, `lin2db`, and the reference time of the radar (`utils.py:52-68`) in seconds since day
zero. -/
structure FmcwTools (α : Type) where
  cosd : α → α
  argsort : List α → List ℕ
  toDb : Option α → Option α
  epoch : α

/-- What is written. The zenith angle of a profile is in the place of its elevation. -/
structure FmcwDay (α : Type) where
  profiles : List (FmcwProfile α)
  nGates : ℕ
  range : ℕ → α
  height : ℕ → α
  instrument : String
  date : ℤ

/-- `rpg.py:336-356` `mask_invalid_ldr` and `mask_invalid_width` -/
def FmcwProfile.screen (p : FmcwProfile α) : FmcwProfile α :=
  let ldr := fun h => maskInvalidLdr (-35) (p.ldr h)
  let sldr := fun h => maskInvalidLdr (-40) (p.sldr h)
  let f := fun (x : ℕ → Option α) h => maskInvalidWidth (p.under h) (p.width h) (x h)
  { p with zh := f p.zh, v := f p.v, ldr := f ldr, width := f p.width, sldr := f sldr }

/-- `rpg.py:376-382` `convert_units`, one variable. -/
def rpgConvert (name : String) (x : Option α) : Option α :=
  match rpgUnit name with
  | some f => x.map f
  | none => x

/-- `rpg.py:76-77` -/
def FmcwProfile.convert (toDb : Option α → Option α) (p : FmcwProfile α) : FmcwProfile α :=
  { p with
    zh := fun h => toDb (p.zh h)
    rain := rpgConvert "rainfall_rate" p.rain
    lwp := rpgConvert "lwp" p.lwp
    humidity := rpgConvert "relative_humidity" p.humidity
    pressure := rpgConvert "air_pressure" p.pressure
    wind := rpgConvert "wind_speed" p.wind }

/-- `rpg.py:299-309` `convert_time_to_fraction_hour` -/
def fmcwHours [FloorRing α] (ps : List (FmcwProfile α)) : Except String (ℕ → α) :=
  seconds2hours ps.length (vec (ps.map fun p => p.seconds + p.ms * (1 / 1000)))

/-- The profiles with their times of day. -/
def fmcwTimed (hours : ℕ → α) (ps : List (FmcwProfile α)) : List (FmcwProfile α) := ps.mapIdx fun i p => { p with hour := hours i }

/-- `rpg.py:311-318` `_get_date`: the day number of the first time. -/
def fmcwDate [FloorRing α] (tools : FmcwTools α) (ps : List (FmcwProfile α)) : Except String ℤ :=
  match ps with
  | [] => .error "IndexError"
  | p :: _ => .ok (dateOf tools.epoch p.seconds)

/-- The zenith angle for the height (`cloudnet_instrument.py:37-39`, `cloudnet_instrument.py:89-95`). -/
def fmcwZenith (ps : List (FmcwProfile α)) : α :=
  let v := ps.filterMap FmcwProfile.elevation
  if v = [] then 0 else median v

/-- `rpg.py:79-81`: the selection by pointing, and the height. -/
def fmcwFinish (tools : FmcwTools α) (f : FmcwFiles α) (instrument : String) (date : ℤ) (ps : List (FmcwProfile α)) :
    Except String (FmcwDay α) := do
  let (zenith, valid) ← addZenithAngle (ps.map FmcwProfile.elevation)
  let ps := ps.mapIdx fun i p => { p with elevation := (zenith[i]?).getD none }
  let ps ← keepProfiles (((ps.zipIdx).filter fun pi => valid.getD pi.2 false).map Prod.fst)
  let some altitude := f.altitude | .error "KeyError: altitude"
  return ⟨ps, f.nGates, f.range, fun k => f.range k * tools.cosd (fmcwZenith ps) + altitude, instrument, date⟩

/-- `rpg.py:70-81` -/
def fmcw2nc [FloorRing α] (tools : FmcwTools α) (f : FmcwFiles α) : Except String (FmcwDay α) := do
  let date ← fmcwDate tools f.profiles
  let instrument ← rpgInstrument f.frequency
  let hours ← fmcwHours f.profiles
  let ps := (fmcwTimed hours f.profiles).map FmcwProfile.screen
  let ps := sortUnique FmcwProfile.hour (tools.argsort (ps.map FmcwProfile.hour)) ps
  let ps := ps.map (FmcwProfile.convert tools.toDb)
  fmcwFinish tools f instrument date ps

end

end Cloudnet
