import Verif.Lidar.Select
import Verif.Station.Pipe
import Verif.Times.Model

/-!
A whole day of a lidar with netCDF files (`ceilo.py:26-143` `ceilo2nc` for CL61, DA10 and CHM 15k), from the variables of the file to those
that are written: `nc_lidar.py`, `cl61d.py`, `da10.py`, `lufft.py` and the class `Ceilometer` in `ceilometer.py`.
-/

namespace Cloudnet

section
variable {α : Type}

/-- What depends on the instrument. `allMasked` says whether all values of `beta_att` are masked; other masks of the backscatter are not
modelled. -/
inductive NcLidarKind (α : Type) where
  | cl61d (allMasked : Bool) (xPol pPol : List (List (MaPixel α)))
  | da10 (allMasked : Bool)
  | lufft (kx : Bool) (version : LufftVersion) (std nn1 : List α)

/-- A netCDF file: seconds since a day, edges of the gates, tilt angles (if there are any), backscatter. -/
structure NcLidarFile (α : Type) where
  kind : NcLidarKind α
  times : List α
  epochDay : ℤ
  range : List α
  tilt : Option (List (Option α))
  beta : List (List α)

/-- The dictionary `data` of the class, with all arrays as rows; depolarisation is that before the screening. -/
structure NcLidarData (α : Type) where
  time : List α
  range : List α
  zenith : α
  factor : α
  beta : List (List α)
  depol : Option (List (List (MaPixel α)))

/-- `utils.py:967-984` `screen_by_time` on this dictionary, for `n` times: every array with `n` rows is indexed. -/
def NcLidarData.pick (ind : List ℕ) (d : NcLidarData α) : NcLidarData α :=
  let n := d.time.length
  { d with
    time := pickRows ind d.time
    range := if d.range.length = n then pickRows ind d.range else d.range
    beta := if d.beta.length = n then pickRows ind d.beta else d.beta
    depol := d.depol.map fun p => if p.length = n then pickRows ind p else p }

/-- The names of the instruments in `instruments.py`, in lower case. -/
def NcLidarKind.model : NcLidarKind α → String
  | .cl61d _ _ _ => "cl61d"
  | .da10 _ => "da10"
  | .lufft true _ _ _ => "chm15kx"
  | .lufft false _ _ _ => "chm15k"

/-- The variables that are written. -/
structure NcLidarDay (α : Type) where
  date : ℤ
  time : List α
  range : List α
  height : List α
  zenith : α
  factor : α
  betaRaw : List (List α)
  beta : List (List (Option α))
  betaSmooth : List (List (Option α))
  depolRaw : Option (List (List (Option α)))
  depol : Option (List (List (Option α)))

/-- `ceilometer.py:141-157` `screen_sunbeam`: the rows with the given indices. -/
def NcLidarDay.pick (keep : List ℕ) (d : NcLidarDay α) : NcLidarDay α :=
  { d with
    time := pickRows keep d.time
    betaRaw := pickRows keep d.betaRaw
    beta := pickRows keep d.beta
    betaSmooth := pickRows keep d.betaSmooth
    depolRaw := d.depolRaw.map (pickRows keep)
    depol := d.depol.map (pickRows keep) }

variable [Field α] [LinearOrder α]

/-- `nc_lidar.py:39-50` `_fetch_zenith_angle`, with the default 3. `np.array` of a masked median is zero. -/
def lidarZenith (tilt : Option (List (Option α))) : α :=
  match tilt with
  | none => 3
  | some l => if l.filterMap id = [] then 0 else median (l.filterMap id)

/-- `nc_lidar.py:23-28` `_fetch_range`. -/
def lidarRange (f : NcLidarFile α) : Except String (List α) :=
  let lower := match f.kind with
    | .lufft _ _ _ _ => false
    | _ => true
  (edges2mid f.range.length (vec f.range) lower).map fun r => (List.range f.range.length).map r

/-- `cl61d.py:39-55`, `da10.py:38-51`, `lufft.py:41-60`: calibration factor, raw backscatter and depolarisation; `nn` is `lufft.py:85-92`
for the median and one value of nn1. -/
def lidarVariables (nn : α → α → α) (calibration : Option α) (range : List α) (f : NcLidarFile α) :
    Except String (α × List (List α) × Option (List (List (MaPixel α)))) :=
  match f.kind with
  | .cl61d allMasked x p =>
    if allMasked then .error "LidarDataError: All beta_raw values are masked"
    else .ok (calibration.getD 1, f.beta.map fun row => row.map fun b => b * calibration.getD 1,
      some (List.zipWith (fun a b => List.zipWith pixelDivide a b) x p))
  | .da10 allMasked =>
    if allMasked then .error "LidarDataError: All beta_raw values are masked"
    else .ok (calibration.getD 1, f.beta.map fun row => row.map fun b => b * calibration.getD 1, none)
  | .lufft _ version std nn1 =>
    let c := calibration.getD (3 / 10 ^ 12)
    match lufftOld version with
    | .error e => .error e
    | .ok false => .ok (c, f.beta.map fun row => row.map fun b => b * c, none)
    | .ok true =>
      let scale := List.zipWith (fun s x => s / nn (median nn1) x) std nn1
      if scale.length ≤ 1 then .error "ValueError: Invalid input array shape"
      else .ok (c, List.zipWith (fun row s => List.zipWith (fun b r => b * s * r ^ 2 * c) row range) f.beta scale, none)

/-- `cl61d.py:28-37`, `da10.py:28-36`, `lufft.py:31-39` `read_ceilometer_file` up to the time. -/
def readNcLidar (nn : α → α → α) (calibration : Option α) (f : NcLidarFile α) : Except String (NcLidarData α) := do
  let range ← lidarRange f
  let (factor, beta, depol) ← lidarVariables nn calibration range f
  pure ⟨f.times, range, lidarZenith f.tilt, factor, beta, depol⟩

/-- `nc_lidar.py:30-37` `_fetch_time_and_date`, `ceilometer.py:98-105` `get_date_and_time`; `argsort` is that of NumPy. The time is in seconds
whatever the units of the variable say. -/
def lidarTime [FloorRing α] (argsort : List α → List ℕ) (epochDay : ℤ) (date : Option ℤ) (d : NcLidarData α) :
    Except String (ℤ × NcLidarData α) := do
  let d ← match date with
    | none => pure d
    | some day => do
      let ind ← findValidTimeIndices (vec d.time) (argsort d.time) ((epochDay : α) * 86400) day
      pure (d.pick ind)
  let hours ← seconds2hours d.time.length (vec d.time)
  pure (dateOf ((epochDay : α) * 86400) (vec d.time 0), { d with time := (List.range d.time.length).map hours })

/-- Rows as a grid. -/
def rowsGrid (rows : List (List α)) : Grid α := fun t h => (rows.getD t []).getD h 0

/-- The functions that are not modelled: square root, cosine of an angle in degrees, `scipy.ndimage.gaussian_filter` for two widths, and the
data under the mask of the screened backscatter. -/
structure LidarNumerics (α : Type) where
  sqrt : α → α
  cos : α → α
  filter : α × α → Grid α → Grid α
  under : Grid α

/-- `ceilo.py:103-133`, `ceilometer.py:36-55` `calc_screened_product`, `ceilometer.py:84-96` `prepare_data`, without the sunbeams. If times
and gates are as many and the range has been cut (`NcLidarData.pick`), the arrays do not fit; the code finds out when it writes the file. -/
def lidarScreen (nu : LidarNumerics α) (model : String) (old rangeCorrected : Bool) (altitude : α) (date : ℤ) (d : NcLidarData α) :
    Except String (NcLidarDay α) := do
  let nT := d.time.length
  let nH := d.range.length
  if d.beta.length = 1 ∨ (d.beta.headD []).length = 1 then throw "ValidTimeStampError: Invalid beta_raw shape"
  if (d.beta.headD []).length ≠ nH then throw "IndexError"
  let n := ceiloNegatives old model
  let limit : α := altLimit rangeCorrected (some model)
  let raw : Grid α := rowsGrid d.beta
  let screened : Grid (Option α) := fun t =>
    screenProfile nu.sqrt {} rangeCorrected limit (1 / 10 ^ 9) 5 nH n (vec d.range) (raw t) (raw t)
  let sigma ← calcSigmaUnits 1 10 nT (vec d.time) nH (vec d.range)
  let smooth := betaSmooth nu.sqrt (nu.filter sigma) rangeCorrected limit (4 / 10 ^ 9) 5 nH n (vec d.range) raw nu.under screened
  let beta : Grid (Option α) := fun t h => ceiloBeta model rangeCorrected (some (raw t h)) (screened t h) (smooth t h)
  let rows : Grid (Option α) → List (List (Option α)) := fun g => (List.range nT).map fun t => (List.range nH).map (g t)
  let depol : Grid (MaPixel α) → Grid (Option α) := fun p t h =>
    screenDepol (if ceiloUsesSmooth model rangeCorrected then (⟨(p t h).data, (beta t h).isNone⟩ : MaPixel α).value else (p t h).value)
  pure {
    date := date
    time := d.time
    range := d.range
    height := d.range.map fun r => altitude + r * nu.cos d.zenith
    zenith := d.zenith
    factor := d.factor
    betaRaw := d.beta
    beta := rows beta
    betaSmooth := rows smooth
    depolRaw := d.depol.map fun p => p.map fun row => row.map MaPixel.value
    depol := d.depol.map fun p => rows (depol fun t h => (p.getD t []).getD h ⟨0, true⟩) }

/-- `ceilo.py:134`: the indices of the profiles without a sunbeam. -/
def lidarKeep (d : NcLidarDay α) : List ℕ :=
  (List.range d.beta.length).filter fun t => keepSunbeam d.range.length (vec d.range) fun h => ((d.beta.getD t []).getD h none)

/-- `lufft.py:29`, `lufft.py:49`: the attribute `is_old_version`. -/
def NcLidarKind.old : NcLidarKind α → Bool
  | .lufft _ version _ _ => match lufftOld version with
    | .ok b => b
    | .error _ => false
  | _ => false

/-- `ceilo.py:26-143` `ceilo2nc` for a file that `_initialize_ceilo` gives to one of the readers of netCDF files. `prepare_data` needs the
altitude of the site (`KeyError`). -/
def ncLidar2nc [FloorRing α] (nu : LidarNumerics α) (nn : α → α → α) (argsort : List α → List ℕ) (calibration altitude : Option α)
    (rangeCorrected : Bool) (date : Option ℤ) (f : NcLidarFile α) : Except String (NcLidarDay α) := do
  let d ← readNcLidar nn calibration f
  let (day, d) ← lidarTime argsort f.epochDay date d
  let full ← lidarScreen nu f.kind.model f.kind.old rangeCorrected (altitude.getD 0) day d
  if altitude = none then throw "KeyError"
  pure (full.pick (lidarKeep full))

end

end Cloudnet
