import Mathlib.Data.String.Basic
import Mathlib.Data.List.Sort
import Verif.Cli.Model
import Verif.Categorize.Model
import Verif.NcRadar.Model
import Verif.Times.Model
import Verif.Source.Model

namespace Cloudnet

/-! METEK MIRA cloud radars: `instruments/mira.py`, and the part of `instruments/nc_radar.py` that reads the file. -/

/-! ## Input files -/

/-- `\w` of a regular expression. Letters and digits outside ASCII are not modelled. -/
def isWordChar (c : Char) : Bool := c.isAlphanum || c == '_'

/-- Does `(\.\d+)?$` match here? (`mira.py:339`; that `$` also matches before a final newline is not modelled.) -/
def isCounter : List Char → Bool
  | [] => true
  | c :: ds => c == '.' && ds != [] && ds.all Char.isDigit

/-- `re.search(r"\.(\w+)(\.\d+)?$", name)` (`mira.py:339`): the first group of the leftmost match. -/
def suffixMatch : List Char → Option (List Char)
  | [] => none
  | c :: cs =>
    let word := cs.takeWhile isWordChar
    if c == '.' && word != [] && isCounter (cs.dropWhile isWordChar) then some word else suffixMatch cs

/-- `mira.py:338-342` `_get_suffix`. -/
def miraSuffix (filename : String) : String :=
  match suffixMatch filename.toList with
  | none => ""
  | some w => String.ofList (w.map Char.toLower)

/-- `utils.py:905-913` `get_sorted_filenames`, for a lower case extension. -/
def sortedFilenames (dir : String) (listing : List String) (extension : String) : List String :=
  ((listing.filter fun f => extension.toList.isSuffixOf (pyLower f)).map fun f => dir ++ "/" ++ f).insertionSort (· ≤ ·)

/-- The argument `raw_mira`: a file, a directory with its content, or a list of files. -/
inductive MiraInput where
  | file (path : String)
  | dir (path : String) (listing : List String)
  | files (paths : List String)

/-- `mira.py:345-403` `_get_keymap` and `_check_file_type`: variables of the raw file and their Cloudnet names, in order. The
argument is the suffix, in lower case. -/
def miraKeymap (filetype : String) : Except String (List (String × String)) :=
  if filetype = "znc" then
    .ok [("Zg", "Zh"), ("Zh2l", "Zh"), ("VELg", "v"), ("VELh2l", "v"), ("RMSg", "width"), ("RMSh2l", "width"),
      ("LDRg", "ldr"), ("LDRh2l", "ldr"), ("SNRg", "SNR"), ("SNRh2l", "SNR"), ("elv", "elevation"),
      ("azi", "azimuth_angle"), ("nfft", "nfft"), ("nave", "nave"), ("prf", "prf"), ("rg0", "rg0"),
      ("NyquistVelocity", "nyquist_velocity"), ("tpow", "tpow")]
  else if filetype = "mmclx" then
    .ok [("Ze", "Zh"), ("Zg", "Zh"), ("VELg", "v"), ("RMSg", "width"), ("LDRg", "ldr"), ("SNRg", "SNR"),
      ("elv", "elevation"), ("azi", "azimuth_angle"), ("nfft", "nfft"), ("nave", "nave"), ("prf", "prf"),
      ("rg0", "rg0"), ("NyquistVelocity", "nyquist_velocity"), ("tpow", "tpow")]
  else .error "ValueError: Filetype must be one of znc and mmclx"

/-- `mira.py:275-323` `_parse_input_files`: the files that are read, in the order in which they are concatenated, and the
names of their variables. The concatenation itself is `concat_lib.concatenate_files` (property C39). -/
def miraInputFiles (input : MiraInput) : Except String (List String × List (String × String)) :=
  match input with
  | .file path => (miraKeymap (miraSuffix path)).map fun k => ([path], k)
  | .dir path listing =>
    let znc := sortedFilenames path listing ".znc"
    let files := if znc = [] then sortedFilenames path listing ".mmclx" else znc
    fromList files
  | .files paths => fromList (paths.insertionSort (· ≤ ·))
where
  /-- `mira.py:295-314`: all files have the same type. -/
  fromList (files : List String) : Except String (List String × List (String × String)) :=
    match files with
    | [] => .error "FileNotFoundError"
    | f :: _ =>
      if files.any fun g => miraSuffix g != miraSuffix f then .error "TypeError: Mixed mmclx and znc files"
      else (miraKeymap (miraSuffix f)).map fun k => (files, k)

/-- `nc_radar.py:40-49`: the loop body of `init_data`. -/
def initStep {β : Type} (vars : List (String × β)) (d : List (String × β)) (kn : String × String) : List (String × β) :=
  match vars.lookup kn.1 with
  | some a => dictSet d kn.2 a
  | none => d

/-- `nc_radar.py:38-49` `init_data`: the variables of the file under their Cloudnet names. (Numbers that are not finite are
masked; here they already are.) -/
def initData {β : Type} (keymap : List (String × String)) (vars : List (String × β)) : List (String × β) :=
  keymap.foldl (initStep vars) []

/-- `mira.py:147-155` `_read_hrd`: the header lines `key:value`. -/
def readHrd (hrd : String) : List (String × String) :=
  ((splitChar '\n' hrd).filter fun l => l.toList.contains ':').foldl (fun d l =>
    dictSet d (String.ofList (l.toList.takeWhile (· ≠ ':')))
      (pyStrip (String.ofList ((l.toList.dropWhile (· ≠ ':')).drop 1)))) []

/-! ## Profiles -/

section
variable {α : Type} [Field α] [LinearOrder α] [FloorRing α]

/-- One profile: its time stamp (seconds since 1970), its time in hours, power, angles and the values at the range gates.
`snrUnder` is the data under the mask of the SNR. Arrays with time as first dimension are lists of profiles here: property
C110 tells when selecting rows of the arrays of a file is selecting profiles. -/
structure MiraProfile (α : Type) where
  stamp : α
  hour : α
  tpow : α
  elevation : Option α
  azimuth : Option α
  zh : ℕ → Option α
  v : ℕ → Option α
  width : ℕ → Option α
  ldr : ℕ → Option α
  snr : ℕ → Option α
  snrUnder : ℕ → α

/-- What `mira2nc` needs to know besides the profiles: expected date (as a day number), model, header values `SN`, `POL` and
whether `FZK100` is in the header, the site's SNR limit and offsets, whether the file has powers, the number of gates, how
`argsort` orders profiles, and the conversion to decibels (`UnitArray.lin2db`, property C101). `junk` see
`prependedDiff`. -/
structure MiraOptions (α : Type) where
  date : Option ℤ
  model : String
  sn : String
  pol : String
  fzk100 : Bool
  snrLimit : Option α
  zenithOffset : Option α
  azimuthOffset : Option α
  hasPower : Bool
  nGates : ℕ
  sort : List (MiraProfile α) → List (MiraProfile α)
  toDb : Option α → Option α
  junk : α

/-- The result: the profiles (elevations replaced by zenith angles), and whether there is a variable `ldr`. -/
structure MiraResult (α : Type) where
  profiles : List (MiraProfile α)
  hasLdr : Bool
  snrLimit : α

/-- `cloudnet_instrument.py:59-81` `screen_time_indices` for profiles: nothing left raises. -/
def keepProfiles {β : Type} (kept : List β) : Except String (List β) :=
  if kept.isEmpty then .error "ValidTimeStampError: All timestamps screened" else .ok kept

/-- `mira.py:172-182` `screen_by_date`: a time stamp of 0 is never valid. -/
def miraOnDate (date : ℤ) (p : MiraProfile α) : Bool := decide (p.stamp ≠ 0) && decide (dateOf 0 p.stamp = date)

/-- `cloudnet_instrument.py:49-52` `remove_duplicate_timestamps`, for profiles. -/
def uniqueProfiles (ps : List (MiraProfile α)) : List (MiraProfile α) :=
  (uniqueIndex ps.length (vec (ps.map MiraProfile.hour))).filterMap fun i => ps[i]?

/-- `cloudnet_instrument.py:44-47` `linear_to_db` for `Zh`, `ldr` and `SNR` (`mira.py:81`). -/
def MiraProfile.db (toDb : Option α → Option α) (p : MiraProfile α) : MiraProfile α :=
  { p with zh := fun h => toDb (p.zh h), ldr := fun h => toDb (p.ldr h), snr := fun h => toDb (p.snr h) }

/-- `mira.py:226-241` `_correct_fzk_tpow`. -/
def MiraProfile.fixPower (o : MiraOptions α) (p : MiraProfile α) : MiraProfile α :=
  if o.sn ≠ "fzk" ∨ o.fzk100 = true then p else { p with tpow := p.tpow * 100 }

/-- Is the power high enough (`mira.py:214-224`)? See also `keptPower`. -/
def miraPowerOk (o : MiraOptions α) (p : MiraProfile α) : Bool :=
  !decide (p.tpow < if o.model = "mira-35c" then 5 / 10 else 5)

/-- The five time-height variables masked at some gates. -/
def MiraProfile.mask (bad : ℕ → Bool) (p : MiraProfile α) : MiraProfile α :=
  let f := fun (x : ℕ → Option α) h => if bad h then none else x h
  { p with zh := f p.zh, v := f p.v, width := f p.width, ldr := f p.ldr, snr := f p.snr }

/-- `mira.py:84-88`: the SNR limit of the site or the default of the model. -/
def miraSnrLimit (o : MiraOptions α) : α :=
  match o.snrLimit with
  | some l => l
  | none => if o.model = "mira-10" then -30 else -17

/-- `mira.py:243-260` `screen_invalid_ldr`: the variable is deleted without polarisation; it is masked if its mean is
positive. -/
def miraLdr (o : MiraOptions α) (ps : List (MiraProfile α)) : List (MiraProfile α) × Bool :=
  if o.pol = "0" then (ps, false)
  else
    match maskedMean (ps.flatMap fun p => (List.range o.nGates).map p.ldr) with
    | some m => if 0 < m then (ps.map fun p => { p with ldr := fun _ => none }, true) else (ps, true)
    | none => (ps, true)

/-- `nc_radar.py:83-90` `mask_invalid_data` and `mira.py:262-272` `mask_bad_angles`, one profile. -/
def MiraProfile.clean (p : MiraProfile α) : MiraProfile α :=
  let q := p.mask fun h => (p.zh h).isNone || (p.v h).isNone
  { q with elevation := maskBadAngle 0 180 p.elevation, azimuth := maskBadAngle (-360) 360 p.azimuth }

/-- Is the model known (`mira.py:135-145`)? -/
def miraModelOk (model : String) : Bool :=
  model = "mira-35" || model = "mira-35s" || model = "mira-35c" || model = "mira-10"

/-- `mira.py:79-82`: the selection by time and power, and the conversion to decibels. -/
def miraTimes (o : MiraOptions α) (ps : List (MiraProfile α)) : Except String (List (MiraProfile α)) := do
  let ps ← keepProfiles (o.sort ps)
  let ps ← keepProfiles (uniqueProfiles ps)
  let ps := ps.map (MiraProfile.db o.toDb)
  if o.hasPower then keepProfiles ((ps.map (MiraProfile.fixPower o)).filter (miraPowerOk o)) else pure ps

/-- `mira.py:76-78`: the selection by date. -/
def miraDate (o : MiraOptions α) (ps : List (MiraProfile α)) : Except String (List (MiraProfile α)) :=
  match o.date with
  | some date => keepProfiles (ps.filter (miraOnDate date))
  | none => .ok ps

/-- The profiles with their times of `DataSource` (`datasource.py:147-155`). -/
def timedProfiles (hours : ℕ → α) (raw : List (MiraProfile α)) : List (MiraProfile α) :=
  raw.mapIdx fun i p => { p with hour := hours i }

/-- `mira.py:74-82`: reading, and the selection by date, time and power. -/
def miraSelect (o : MiraOptions α) (raw : List (MiraProfile α)) : Except String (List (MiraProfile α)) := do
  let hours ← initTime (some (raw.length, vec (raw.map MiraProfile.stamp)))
  let ps := timedProfiles hours raw
  if !miraModelOk o.model then throw "ValueError: Invalid model"
  let ps ← miraDate o ps
  miraTimes o ps

/-- `mira.py:84-98`: masks. -/
def miraMask (o : MiraOptions α) (ps : List (MiraProfile α)) : List (MiraProfile α) × Bool :=
  let ps := ps.map fun p => p.mask fun h => decide ((p.snr h).getD (p.snrUnder h) < miraSnrLimit o)
  let r := miraLdr o ps
  (r.1.map MiraProfile.clean, r.2)

/-- `mira.py:103-113`: the selection by pointing. -/
def miraPointing (o : MiraOptions α) (ps : List (MiraProfile α)) : Except String (List (MiraProfile α)) := do
  let angles ← addAngles ps.length (11 / 10) (1 / 1000000) (1 / 1000) o.junk o.zenithOffset o.azimuthOffset
    (fun i => (ps[i]?).bind MiraProfile.elevation) (fun i => (ps[i]?).bind MiraProfile.azimuth)
  let ps := ps.mapIdx fun i p => { p with elevation := angles.zenith i, azimuth := angles.azimuth i }
  keepProfiles (((ps.zipIdx).filter fun pi => angles.stable pi.2).map Prod.fst)

/-- `mira.py:74-113`, the processing of the profiles of a file. Variables that do not change with time, the position and the
height (property C94) are left out; elevation and azimuth are masked if the file has none. -/
def mira2nc (o : MiraOptions α) (raw : List (MiraProfile α)) : Except String (MiraResult α) := do
  let ps ← miraSelect o raw
  let masked := miraMask o ps
  let ps ← miraPointing o masked.1
  if ps.all fun p => (List.range o.nGates).all fun h => (p.v h).isNone then throw "RadarDataError: All radar data are masked"
  return ⟨ps, masked.2, miraSnrLimit o⟩

end

end Cloudnet
