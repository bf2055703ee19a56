import Mathlib.Data.List.Infix
import Verif.Disdrom.Logger
import Verif.Cli.Model

namespace Cloudnet

/-! OTT Parsivel disdrometers in `disdronator/parsivel.py`. -/

/-- An element of a telegram: the number of a field, the format of a time, or `None` for a field that is not used. -/
inductive PvTok where
  | num (n : ℤ)
  | fmt (f : String)
  | skip
  deriving DecidableEq

/-- `float`, `int`, `datetime.strptime` (format first), `.date()`, `.time()` and `datetime.combine`; `none` is a `ValueError`. -/
structure PvParsers (T D C α : Type) where
  float : String → Option α
  int : String → Option ℤ
  stamp : String → String → Option T
  date : T → D
  clock : T → C
  combine : D → C → T

/-- A value of a field. -/
inductive PvVal (α : Type) where
  | num (x : α)
  | int (n : ℤ)
  | list (xs : List α)
  | grid (rows : List (List α))
  | raw (s : String)
  deriving DecidableEq

/-- What one element of the telegram gives. -/
inductive PvItem (T α : Type) where
  | value (v : PvVal α)
  | stamp (t : T)
  | nothing

/-- `FLOAT_KEYS` (`parsivel.py:215`). -/
def pvFloats : List ℤ := [1, 2, 7, 16, 17, 24, 30, 31, 33, 34, 35]

/-- `INT_KEYS` (`parsivel.py:216`). -/
def pvInts : List ℤ := [3, 4, 8, 9, 10, 11, 12, 13, 18, 25, 26, 27, 28, 60]

/-- `parsivel.py:228-234`: number of fields of an element. -/
def pvWidth : PvTok → ℕ
  | .num n => if n = 90 ∨ n = 91 then 32 else if n = 93 then 1024 else 1
  | _ => 1

/-- `parsivel.py:227-234`: `expected_len`. -/
def pvExpected (telegram : List PvTok) : ℕ := (telegram.map pvWidth).sum

/-- `np.reshape(spectrum, (32, 32))` for lists of the right length (`n` rows of 32). -/
def pvChunks {α : Type} : ℕ → List α → List (List α)
  | 0, _ => []
  | n + 1, l => l.take 32 :: pvChunks n (l.drop 32)

/-- `values[0].replace(decimal_separator, b".")` for a separator of one character. -/
def pvDot (dec : Char) (s : String) : String := String.ofList (s.toList.map fun c => if c = dec then '.' else c)

/-- `"%H" in t` and `"%Y" in t` (`parsivel.py:264-266`). -/
def pvContains (sub s : String) : Bool := decide (sub.toList <:+: s.toList)

section
variable {T D C α : Type}

/-- `parsivel.py:248-276`: one element of the telegram, with its fields. -/
def pvField (p : PvParsers T D C α) (dec : Char) (tok : PvTok) (field : List String) : Option (PvItem T α) :=
  match tok with
  | .num n =>
    if n ∈ pvFloats then field.head?.bind fun s => (p.float (pvDot dec s)).map fun x => .value (.num x)
    else if n ∈ pvInts then field.head?.bind fun s => (p.int s).map fun x => .value (.int x)
    else if n = 90 ∨ n = 91 then (field.mapM p.float).map fun xs => .value (.list xs)
    else if n = 93 then (field.mapM p.float).map fun xs => .value (.grid (pvChunks 32 xs))
    else field.head?.map fun s => .value (.raw s)
  | .fmt f => field.head?.bind fun s => (p.stamp f s).map .stamp
  | .skip => some .nothing

/-- `row_time`, `row_date`, `row_datetime` and `row_data` (`parsivel.py:244-247`). -/
structure PvRow (T D C α : Type) where
  clock : Option C
  date : Option D
  full : Option T
  data : ℤ → Option (PvVal α)

/-- `parsivel.py:244-247`: a row before its fields are read. -/
def pvEmpty : PvRow T D C α := ⟨none, none, none, fun _ => none⟩

/-- `parsivel.py:248-276`: store what an element gave. A format with hours and without a year of four digits is a time, a format
without hours a date, and one with both a date with time. -/
def pvStore (p : PvParsers T D C α) (r : PvRow T D C α) (q : PvTok × PvItem T α) : PvRow T D C α :=
  match q with
  | (.num n, .value v) => { r with data := fun m => if m = n then some v else r.data m }
  | (.fmt f, .stamp t) =>
    if pvContains "%H" f ∧ ¬ pvContains "%Y" f then { r with clock := some (p.clock t) }
    else if ¬ pvContains "%H" f then { r with date := some (p.date t) }
    else { r with full := some t }
  | _ => r

/-- `parsivel.py:248-276`: all elements of the telegram; `none` is a `ValueError`. -/
def pvRow (p : PvParsers T D C α) (dec : Char) : List PvTok → List String → PvRow T D C α → Option (PvRow T D C α)
  | [], _, r => some r
  | t :: ts, values, r =>
    match pvField p dec t (values.take (pvWidth t)) with
    | none => none
    | some item => pvRow p dec ts (values.drop (pvWidth t)) (pvStore p r (t, item))

/-- `times`, `dates`, `datetimes` and `data` (`parsivel.py:235-238`). -/
structure PvData (T D C α : Type) where
  clocks : List C
  dates : List D
  fulls : List T
  data : ℤ → List (PvVal α)

/-- `line.rstrip(field_separator).split(field_separator)` (`parsivel.py:240`) for a separator of one character. -/
def pvValues (sep : Char) (line : String) : List String :=
  splitChar sep (String.ofList ((line.toList.reverse.dropWhile fun c => decide (c = sep)).reverse))

/-- `parsivel.py:239-285`: one line. -/
def pvLine (p : PvParsers T D C α) (telegram : List PvTok) (sep dec : Char) (s : PvData T D C α) (line : String) :
    PvData T D C α :=
  if (pvValues sep line).length ≠ pvExpected telegram then s
  else match pvRow p dec telegram (pvValues sep line) pvEmpty with
    | none => s
    | some r => ⟨s.clocks ++ r.clock.toList, s.dates ++ r.date.toList, s.fulls ++ r.full.toList, fun n => s.data n ++ (r.data n).toList⟩

/-- `parsivel.py:235-285`: all lines. -/
def pvCollect (p : PvParsers T D C α) (telegram : List PvTok) (sep dec : Char) (lines : List String) : PvData T D C α :=
  lines.foldl (pvLine p telegram sep dec) ⟨[], [], [], fun _ => []⟩

/-- `parsivel.py:219-291` `_read_lines`, after spectra have been expanded and lines split. -/
def pvRead (p : PvParsers T D C α) (telegram : List PvTok) (sep dec : Char) (lines : List String) :
    Except String (List T × (ℤ → List (PvVal α))) :=
  let s := pvCollect p telegram sep dec lines
  if s.fulls = [] then
    if s.dates.length = s.clocks.length then .ok (List.zipWith p.combine s.dates s.clocks, s.data)
    else .error "ValueError: zip() argument 2 has a different length than argument 1"
  else .ok (s.fulls, s.data)

/-- `parsivel.py:294-297` `_expand_spectrum`. -/
def pvExpand (m : String) : String :=
  if m = "ZERO" then String.ofList (List.replicate 1024 "0;".toList).flatten
  else String.ofList ([';'].intercalate (((splitChar ';' m).map fun x => if x = "" then "0" else x).map String.toList))

/-- `line.split(b":", maxsplit=1)` (`parsivel.py:307`); `none` if there is no colon. -/
def pvKeyValue (l : String) : Option (String × String) :=
  match l.toList.dropWhile (fun c => decide (c ≠ ':')) with
  | [] => none
  | _ :: rest => some (String.ofList (l.toList.takeWhile fun c => decide (c ≠ ':')), String.ofList rest)

/-- `value.rstrip(b";").split(b";")` (`parsivel.py:314-316`). -/
def pvNumbers (value : String) : List String := pvValues ';' value

/-- `parsivel.py:306-317`: the value of a line of a message. The inner `none` is a number that is not used. -/
def pvMessageValue (p : PvParsers T D C α) (ofInt : ℤ → α) (num : ℤ) (value : String) : Option (Option (PvVal α)) :=
  if num ∈ pvInts then (p.int value).map fun x => some (.int x)
  else if num ∈ pvFloats then (p.float value).map fun x => some (.num x)
  else if num = 90 ∨ num = 91 then ((pvNumbers value).mapM p.float).map fun xs => some (.list xs)
  else if num = 93 then
    ((pvNumbers value).mapM p.int).bind fun xs =>
      if xs.length = 1024 then some (some (.grid (pvChunks 32 (xs.map ofInt)))) else none
  else some none

/-- `parsivel.py:306-317`: a line of a message. -/
def pvMessageLine (p : PvParsers T D C α) (ofInt : ℤ → α) (d : ℤ → Option (PvVal α)) (l : String) :
    Option (ℤ → Option (PvVal α)) :=
  (pvKeyValue l).bind fun kv => (p.int kv.1).bind fun num => (pvMessageValue p ofInt num kv.2).map fun v =>
    match v with
    | some x => fun m => if m = num then some x else d m
    | none => d

/-- `parsivel.py:300-318` `_read_typ_op4a`. -/
def pvMessage (p : PvParsers T D C α) (ofInt : ℤ → α) (lines : List String) : Except String (ℤ → Option (PvVal α)) :=
  match lines with
  | [] => .error "IndexError: list index out of range"
  | first :: rest =>
    if first ≠ "TYP OP4A" then .error "ValueError"
    else match rest.foldlM (pvMessageLine p ofInt) (fun _ => none) with
      | none => .error "ValueError"
      | some d => .ok d

/-- `parsivel.py:400-405`: a record is added to times and columns. Columns that appear for the first time are filled up with
`None`. -/
def pvAdd {V : Type} (s : List T × (ℤ → Option (List (Option V)))) (r : T × (ℤ → Option V)) :
    List T × (ℤ → Option (List (Option V))) :=
  (s.1 ++ [r.1], fun k =>
    match s.2 k, r.2 k with
    | none, none => none
    | none, some v => some (List.replicate s.1.length none ++ [some v])
    | some col, v => some (col ++ [v]))

/-- `parsivel.py:382-399`: a block of the file, with its time (`none` if it is not a valid time) and its lines. -/
def pvBlock (p : PvParsers T D C α) (ofInt : ℤ → α) (s : List T × (ℤ → Option (List (Option (PvVal α))))) (b : Option T × List String) :
    Except String (List T × (ℤ → Option (List (Option (PvVal α))))) :=
  match pvMessage p ofInt b.2 with
  | .error e => if e = "ValueError" then .ok s else .error e
  | .ok d =>
    match b.1 with
    | none => .ok s
    | some t => .ok (pvAdd s (t, d))

/-- `parsivel.py:377-406` `_read_hyytiala`, after the blocks have been found. -/
def pvHyytiala (p : PvParsers T D C α) (ofInt : ℤ → α) (blocks : List (Option T × List String)) :
    Except String (List T × (ℤ → Option (List (Option (PvVal α))))) :=
  blocks.foldlM (pvBlock p ofInt) ([], fun _ => none)

/-- `disdronator/utils.py:7-27`: can a column be made an array? Integers need a number in every place, and lists a list of the same
length. (`None` becomes NaN in a column of floats.) -/
def pvConvertible (n : ℤ) (col : List (Option (PvVal α))) : Bool :=
  if n ∈ pvInts ∨ n = 93 then col.all Option.isSome
  else if n = 90 ∨ n = 91 then col.all fun v =>
    match v, col.head? with
    | some (.list xs), some (some (.list ys)) => decide (xs.length = ys.length)
    | _, _ => false
  else true

/-- `parsivel.py:490-497` `read_parsivel` for these files: fails if a column cannot be made an array. -/
def pvReadable (r : List T × (ℤ → Option (List (Option (PvVal α))))) : Bool :=
  (pvInts ++ [90, 91, 93]).all fun n => ((r.2 n).map (pvConvertible n)).getD true

end

/-! netCDF files of data loggers -/

/-- `PARSIVEL2NC_KEYS` (`parsivel.py:116-134`). -/
def pvParsivel2nc : List (String × ℤ) :=
  [("interval", 9), ("data_raw", 93), ("number_concentration", 90), ("fall_velocity", 91), ("n_particles", 11), ("rainfall_rate", 1),
    ("radar_reflectivity", 7), ("E_kin", 24), ("visibility", 8), ("synop_WaWa", 3), ("synop_WW", 4), ("T_sensor", 12),
    ("sig_laser", 10), ("state_sensor", 18), ("V_sensor", 17), ("I_heating", 16), ("error_code", 25)]

/-- `DISDRODL_KEYS` (`parsivel.py:138-162`). -/
def pvDisdrodl : List (String × ℤ) :=
  [("rain_intensity", 1), ("code_4680", 3), ("code_4677", 4), ("code_4678", 5), ("code_NWS", 6), ("reflectivity", 7), ("MOR", 8),
    ("amplitude", 10), ("n_particles", 11), ("T_sensor", 12), ("I_heating", 16), ("V_power_supply", 17), ("state_sensor", 18),
    ("absolute_rain_amount", 24), ("error_code", 25), ("T_pcb", 26), ("T_L_sensor_head", 27), ("T_R_sensor_head", 28),
    ("kinetic_energy", 34), ("snowfall_intensity", 35), ("fieldN", 90), ("fieldV", 91), ("data_raw", 93)]

/-- `MUNICH_KEYS` (`parsivel.py:166-190`). -/
def pvMunich : List (String × ℤ) :=
  [("status_sensor", 18), ("sensor_time", 20), ("error_code", 25), ("rr", 1), ("rain_accum", 2), ("wawa", 3), ("Ze", 7),
    ("n_particles", 11), ("snow_intensity", 35), ("sample_interval", 9), ("serial_no", 13), ("firmware_IOP", 14),
    ("firmware_DSP", 15), ("curr_heating", 16), ("volt_sensor", 17), ("signal_amplitude", 10), ("T_sensor_housing", 12),
    ("T_pcb", 26), ("T_sensor_right", 27), ("T_sensor_left", 28), ("N", 90), ("v", 91), ("M", 93)]

/-- `LEIPZIG_KEYS` (`parsivel.py:193-213`). -/
def pvLeipzig : List (String × ℤ) :=
  [("Meas_Interval", 9), ("RR_Intensity", 1), ("RR_Accumulated", 2), ("RR_Total", 24), ("Synop_WaWa", 3), ("Synop_WW", 4),
    ("Reflectivity", 7), ("Visibility", 8), ("T_Sensor", 12), ("Sig_Laser", 10), ("N_Particles", 11), ("State_Sensor", 18),
    ("E_kin", 24), ("V_Sensor", 17), ("I_Heating", 16), ("Error_Code", 25), ("Data_N_Field", 90), ("Data_V_Field", 91),
    ("Data_Raw", 93)]

/-- `parsivel.py:412`, `parsivel.py:437`, `parsivel.py:445`: `{num: nc[key][:] for key, num in ….items()}`; a variable that is missing
is an `IndexError`. -/
def pvNetcdf {V : Type} (keys : List (String × ℤ)) (get : String → Option V) : Except String (ℤ → Option V) :=
  keys.foldlM (fun (d : ℤ → Option V) kn =>
    match get kn.1 with
    | none => .error "IndexError"
    | some v => .ok fun m => if m = kn.2 then some v else d m) (fun _ => none)

/-- `parsivel.py:426-428`: variables that are missing are left out. -/
def pvNetcdfPresent {V : Type} (keys : List (String × ℤ)) (get : String → Option V) : ℤ → Option V :=
  keys.foldl (fun (d : ℤ → Option V) kn =>
    match get kn.1 with
    | none => d
    | some v => fun m => if m = kn.2 then some v else d m) (fun _ => none)

/-- The reader of a file (`parsivel.py:452-487`). -/
inductive PvReader where
  | parsivel2nc
  | disdrodl
  | munich
  | leipzig
  | pyatmoslogger
  | asdo
  | granada
  | hyytiala
  | headerless
  deriving DecidableEq

/-- `parsivel.py:452-487` `_read_parsivel`: how a file is read. `names` are the variables of a netCDF file (`none` if it is not one),
`head` the first 50 bytes of the file. -/
def pvDispatch (names : Option (List String)) (head : String) (hasTelegram : Bool) : Except String PvReader :=
  match names with
  | some vs =>
    if "number_concentration" ∈ vs then .ok .parsivel2nc
    else if "fieldN" ∈ vs then .ok .disdrodl
    else if "N" ∈ vs then .ok .munich
    else if "Data_N_Field" ∈ vs then .ok .leipzig
    else .error "ValueError: Unsupported netCDF file"
  | none =>
    if "datetime_utc;".toList <+: head.toList then .ok .pyatmoslogger
    else if "Date;Time;".toList <+: head.toList then .ok .asdo
    else if "\"TOA5\"".toList <+: head.toList then .ok .granada
    else if pvContains "TYP OP4A" head then .ok .hyytiala
    else if hasTelegram then .ok .headerless
    else .error "ValueError: telegram must be defined"

end Cloudnet
