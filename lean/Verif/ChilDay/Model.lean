import Verif.Chilbolton.Model
import Verif.Mira.Model
import Verif.Precip.Model
import Verif.Geo.Model

namespace Cloudnet

/-! A day of the radars Copernicus and Galileo of Chilbolton: `copernicus2nc` (`instruments/copernicus.py:19-115`) and `galileo2nc`
(`instruments/galileo.py:18-113`). Files of a directory are concatenated before (C39, C40); variables with one value per time (the antenna
diameter, the widths of the beam) are left out. The number of time stamps is assumed to differ from the number of gates (see C110). -/

section
variable {α : Type} [Field α] [LinearOrder α]

/-- A profile: the time in the file and the time of day, the pointing, the data of the gates, the numbers under their masks, and the results
of comparisons with a masked SNR. -/
structure ChilProfile (α : Type) where
  stamp : α
  hour : α
  elevation : Option α
  azimuth : Option α
  zh : ℕ → Option α
  v : ℕ → Option α
  width : ℕ → Option α
  ldr : ℕ → Option α
  snr : ℕ → Option α
  widthUnder : ℕ → α
  ldrUnder : ℕ → α
  snrUnder : ℕ → α
  junk : ℕ → Bool

/-- A file: its profiles in any order, the ranges of the gates (converted to metres, C152), the date of the units of time
(`nc_radar.py:199-200`), the offsets applied before (attributes, zero if missing), the attribute `folding_velocity` of `VEL_HC`, and the
altitude that `add_site_geolocation` (C134) leaves in the data, a number (it is the variable `height` of the file if nothing else is
known). -/
structure ChilFile (α : Type) where
  profiles : List (ChilProfile α)
  nGates : ℕ
  range : ℕ → α
  epoch : CivilDate
  zhApplied : Option α
  rangeApplied : Option α
  folding : Option α
  altitude : Option α

/-- The arguments: the expected date and what the site says. -/
structure ChilSite (α : Type) where
  date : Option CivilDate
  zhOffset : Option α
  rangeOffset : Option α
  snrLimit : Option α

/-- The cosine of an angle in degrees, `argsort` of NumPy, and the number under a masked angle. -/
structure ChilTools (α : Type) where
  cosd : α → α
  argsort : List α → List ℕ
  junk : α

/-- What is written. The zenith angle of a profile is in the place of its elevation. -/
structure ChilDay (α : Type) where
  profiles : List (ChilProfile α)
  nGates : ℕ
  range : ℕ → α
  height : ℕ → α
  nyquist : α
  scalars : List (String × α)
  date : CivilDate

/-- A profile without data. -/
def emptyProfile : ChilProfile α :=
  ⟨0, 0, none, none, fun _ => none, fun _ => none, fun _ => none, fun _ => none, fun _ => none, fun _ => 0, fun _ => 0, fun _ => 0, fun _ => false⟩

/-- The time-height variables, for a profile. -/
def ChilProfile.gates (f : ChilFile α) (p : ChilProfile α) : GateData α :=
  ⟨f.nGates, f.range, fun _ => p.zh, fun _ => p.v, fun _ => p.width, fun _ => p.ldr, fun _ => p.snr⟩

/-- A profile with new time-height variables. -/
def ChilProfile.withGates (d : GateData α) (p : ChilProfile α) : ChilProfile α :=
  { p with zh := d.zh 0, v := d.v 0, width := d.width 0, ldr := d.ldr 0, snr := d.snr 0 }

/-- The profiles with their times of `DataSource` (`datasource.py:147-155`). -/
def chilTimed (hours : ℕ → α) (ps : List (ChilProfile α)) : List (ChilProfile α) := ps.mapIdx fun i p => { p with hour := hours i }

/-- `nc_radar.py:195-197` `check_date` -/
def chilDate (site : ChilSite α) (f : ChilFile α) : Except String Unit :=
  match site.date with
  | none => .ok ()
  | some d => if f.epoch ≠ d then .error "ValidTimeStampError" else .ok ()

/-- `copernicus.py:88-94`, `galileo.py:84-90`: reading, the date, and one profile for each time. -/
def chilRead [FloorRing α] (tools : ChilTools α) (site : ChilSite α) (f : ChilFile α) : Except String (List (ChilProfile α)) := do
  let hours ← initTime (some (f.profiles.length, vec (f.profiles.map ChilProfile.stamp)))
  chilDate site f
  let ps := chilTimed hours f.profiles
  return sortUnique ChilProfile.hour (tools.argsort (ps.map ChilProfile.hour)) ps

/-- The zenith angle for the height (`cloudnet_instrument.py:37-39`, `cloudnet_instrument.py:89-95`). -/
def chilZenith (ps : List (ChilProfile α)) : α :=
  let v := ps.filterMap ChilProfile.elevation
  if v = [] then 0 else median v

/-- `copernicus.py:104-113`, `galileo.py:101-109`: the velocity of folding, the selection by pointing, and the height. -/
def chilFinish (tools : ChilTools α) (elDiff : α) (f : ChilFile α) (nGates : ℕ) (range : ℕ → α) (scalars : List (String × α))
    (ps : List (ChilProfile α)) : Except String (ChilDay α) := do
  let some folding := f.folding | .error "AttributeError: folding_velocity"
  let angles ← addAngles ps.length (11 / 10) elDiff (1 / 10) tools.junk none none
    (fun i => (ps[i]?).bind ChilProfile.elevation) (fun i => (ps[i]?).bind ChilProfile.azimuth)
  let ps := ps.mapIdx fun i p => { p with elevation := angles.zenith i, azimuth := angles.azimuth i }
  let ps ← keepProfiles (((ps.zipIdx).filter fun pi => angles.stable pi.2).map Prod.fst)
  let some altitude := f.altitude | .error "KeyError: altitude"
  if ps.all fun p => (List.range nGates).all fun h => (p.v h).isNone then throw "RadarDataError: All radar data are masked"
  return ⟨ps, nGates, range, fun k => range k * tools.cosd (chilZenith ps) + altitude, folding, scalars, f.epoch⟩

/-- The options of Copernicus, for a profile. -/
def ChilFile.copernicus (f : ChilFile α) (site : ChilSite α) (p : ChilProfile α) : CopernicusOptions α :=
  ⟨f.zhApplied.getD 0, site.zhOffset, f.rangeApplied.getD 0, site.rangeOffset, fun _ => p.widthUnder, fun _ => p.junk⟩

/-- `copernicus.py:87-113` -/
def copernicus2nc [FloorRing α] (tools : ChilTools α) (site : ChilSite α) (f : ChilFile α) : Except String (ChilDay α) := do
  let ps ← chilRead tools site f
  let ps := ps.map fun p => p.withGates (copernicusProcess (f.copernicus site p) (p.gates f))
  let g := copernicusProcess (f.copernicus site emptyProfile) (emptyProfile.gates f)
  chilFinish tools (1 / 2) f g.nGates g.range
    [("Zh_offset", site.zhOffset.getD (-(1495 / 10))), ("range_offset", site.rangeOffset.getD (-720))] ps

/-- `galileo.py:83-109` -/
def galileo2nc [FloorRing α] (tools : ChilTools α) (site : ChilSite α) (f : ChilFile α) : Except String (ChilDay α) := do
  let ps ← chilRead tools site f
  let g ← galileoProcess site.snrLimit (fun _ _ => 0) (fun _ _ => 0) (emptyProfile.gates f)
  let ps ← ps.mapM fun p => do
    let d ← galileoProcess site.snrLimit (fun _ => p.snrUnder) (fun _ => p.ldrUnder) (p.gates f)
    return p.withGates d
  chilFinish tools (1 / 10) f g.nGates g.range [("snr_limit", site.snrLimit.getD 3)] ps

end

end Cloudnet
