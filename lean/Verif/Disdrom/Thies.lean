import Verif.Disdrom.Logger
import Verif.Station.Model

namespace Cloudnet

/-! Reading files of Thies disdrometers: `instruments/disdrometer/thies.py`. -/

/-- `TELEGRAM4` (`thies.py:20-70`). -/
def thiesTelegram : List (ℕ × String) :=
  [(1, "_serial_number"), (2, "_software_version"), (3, "_date"), (4, "_time"), (5, "_synop_5min_ww"), (6, "_synop_5min_WaWa"),
    (7, "_metar_5min_4678"), (8, "_rainfall_rate_5min"), (9, "synop_WW"), (10, "synop_WaWa"), (11, "_metar_1_min_4678"),
    (12, "rainfall_rate_1min_total"), (13, "rainfall_rate"), (14, "rainfall_rate_1min_solid"), (15, "_precipition_amount"),
    (16, "visibility"), (17, "radar_reflectivity"), (18, "measurement_quality"), (19, "maximum_hail_diameter"),
    (20, "status_laser"), (21, "static_signal"), (22, "status_T_laser_analogue"), (23, "status_T_laser_digital"),
    (24, "status_I_laser_analogue"), (25, "status_I_laser_digital"), (26, "status_sensor_supply"),
    (27, "status_laser_heating"), (28, "status_receiver_heating"), (29, "status_temperature_sensor"),
    (30, "status_heating_supply"), (31, "status_heating_housing"), (32, "status_heating_heads"),
    (33, "status_heating_carriers"), (34, "status_laser_power"), (35, "_status_reserve"), (36, "T_interior"),
    (37, "T_laser_driver"), (38, "I_mean_laser"), (39, "V_control"), (40, "V_optical_output"), (41, "V_sensor_supply"),
    (42, "I_heating_laser_head"), (43, "I_heating_receiver_head"), (44, "T_ambient"), (45, "_V_heating_supply"),
    (46, "_I_housing"), (47, "_I_heating_heads"), (48, "_I_heating_carriers"), (49, "n_particles")]

/-- `int`, `float`, `datetime.date`, `datetime.time`, `datetime.combine` and `datetime.strptime(value, "%Y-%m-%d %H:%M:%S")`; `none`
is a `ValueError`. -/
structure ThiesParsers (D C T α : Type) where
  int : String → Option ℤ
  float : String → Option α
  date : ℤ → ℤ → ℤ → Option D
  clock : ℤ → ℤ → ℤ → Option C
  combine : D → C → T
  stamp : String → Option T

/-- The values of `raw_data`. -/
inductive ThiesValue (D C T α : Type) where
  | date (d : D)
  | clock (c : C)
  | stamp (t : T)
  | num (x : α)
  | int (n : ℤ)
  | text (s : String)
  | counts (ns : List ℤ)
  deriving DecidableEq

section
variable {D C T α : Type}

/-- `thies.py:296-300` `_parse_date`. -/
def thiesDate (p : ThiesParsers D C T α) (text : String) : Option D :=
  match (splitChar '.' text).mapM p.int with
  | some [day, month, year] => p.date (if year < 100 then year + 2000 else year) month day
  | _ => none

/-- `thies.py:303-305` `_parse_time`. -/
def thiesClock (p : ThiesParsers D C T α) (text : String) : Option C :=
  match (splitChar ':' text).mapM p.int with
  | some [hour, minute, second] => p.clock hour minute second
  | _ => none

/-- `thies.py:227-240` (two of the names are not in the telegram). -/
def thiesFloats : List String :=
  ["I_heating", "T_ambient", "T_interior", "T_laser_driver", "V_power_supply", "_precipition_amount", "_rainfall_rate_5min",
    "maximum_hail_diameter", "radar_reflectivity", "rainfall_rate", "rainfall_rate_1min_solid", "rainfall_rate_1min_total"]

/-- `thies.py:242-247` -/
def thiesTexts : List String := ["_serial_number", "_software_version", "_metar_5min_4678", "_metar_1_min_4678"]

/-- `thies.py:223-250`: the value of a field. -/
def thiesParse (p : ThiesParsers D C T α) (key text : String) : Option (ThiesValue D C T α) :=
  if key = "_date" then (thiesDate p text).map .date
  else if key = "_time" then (thiesClock p text).map .clock
  else if key ∈ thiesFloats then (p.float text).map .num
  else if key ∈ thiesTexts then some (.text text)
  else (p.int text).map .int

/-- `thies.py:213`: `line.strip().strip(";").split(";")` -/
def thiesFields (line : String) : List String := splitChar ';' (stripChar ';' (pyStrip line))

/-- `thies.py:219-251`: a named field of a line. -/
def thiesField (p : ThiesParsers D C T α) (fields : List String) (ik : ℕ × String) : Option (String × ThiesValue D C T α) :=
  match fields[ik.1]? with
  | none => none
  | some text => (thiesParse p ik.2 text).map fun v => (ik.2, v)

/-- `thies.py:252-257`: the spectrum, in reading order; `none` if a count cannot be read or the reshaping to 22 × 20 fails. (Counts
that do not fit in 16 bits are not modelled.) -/
def thiesSpectrum (p : ThiesParsers D C T α) (fields : List String) : Option (List ℤ) :=
  if ((fields.drop 79).take 440).length = 440 then ((fields.drop 79).take 440).mapM p.int else none

/-- `thies.py:252-257` -/
def thiesCounts (p : ThiesParsers D C T α) (expected : ℕ) (fields : List String) :
    Option (List (String × ThiesValue D C T α)) :=
  if 79 < expected then (thiesSpectrum p fields).map fun ns => [("spectrum", .counts ns)] else some []

/-- `thies.py:258-265`: the time of the data logger, or date and time of the telegram. -/
def thiesTime (p : ThiesParsers D C T α) (stamp : Option T) (values : List (String × ThiesValue D C T α)) : Option T :=
  match stamp with
  | some t => some t
  | none =>
    match values.lookup "_date", values.lookup "_time" with
    | some (.date d), some (.clock c) => some (p.combine d c)
    | _, _ => none

/-- `thies.py:219-265`: what a line adds to `raw_data`; `none` is a `ValueError` or an `IndexError`. `expected` is the number of
columns expected (520, or one less than `truncate_columns`, which is assumed to be positive). -/
def thiesItems (p : ThiesParsers D C T α) (expected : ℕ) (stamp : Option T) (fields : List String) :
    Option (List (String × ThiesValue D C T α)) :=
  match (thiesTelegram.takeWhile fun ik => decide (ik.1 + 1 < expected)).mapM (thiesField p fields),
      thiesCounts p expected fields with
  | some values, some counts => (thiesTime p stamp values).map fun t => values ++ counts ++ [("time", .stamp t)]
  | _, _ => none

/-- `raw_data[key].append(value)` for a `defaultdict`. -/
def rawAppend {V : Type} (d : List (String × List V)) (kv : String × V) : List (String × List V) := dictExtend d (kv.1, [kv.2])

/-- `thies.py:212-265` `_read_line`. -/
def thiesLine (p : ThiesParsers D C T α) (expected : ℕ) (raw : List (String × List (ThiesValue D C T α)))
    (line : Option T × String) : Except String (List (String × List (ThiesValue D C T α))) :=
  if (thiesFields line.2).length ≠ expected ∧ (thiesFields line.2).length ≠ expected + 4 then .ok raw
  else match thiesItems p expected line.1 (thiesFields line.2) with
    | none => .error "DisdrometerDataError: Unable to read disdrometer file"
    | some items => .ok (items.foldl rawAppend raw)

/-- `thies.py:156-183`, after the lines have been separated from the time stamps of the data logger. -/
def thiesLines (p : ThiesParsers D C T α) (expected : ℕ) (lines : List (Option T × String)) :
    Except String (List (String × List (ThiesValue D C T α))) :=
  (lines.foldlM (thiesLine p expected) []).bind fun raw =>
    if ((raw.lookup "time").getD []).length = 0 then .error "ValidTimeStampError" else .ok raw

/-- `thies.py:166-172`: a line of a file with time stamps of the data logger; `telegram.strip().rstrip(";") + ";"`. -/
def thiesStamped (p : ThiesParsers D C T α) (line : String) : Except String (Option T × String) :=
  if ';' ∉ line.toList then .error "DisdrometerDataError: Unable to read disdrometer file"
  else
    let stamp := String.ofList (line.toList.takeWhile fun c => decide (c ≠ ';'))
    let telegram := String.ofList ((line.toList.dropWhile fun c => decide (c ≠ ';')).drop 1)
    match p.stamp stamp with
    | none => .error "DisdrometerDataError: Unable to read disdrometer file"
    | some t => .ok (some t, String.ofList (((pyStrip telegram).toList.reverse.dropWhile fun c => decide (c = ';')).reverse) ++ ";")

/-- `thies.py:161-162`: a row of a TOA5 file. -/
def thiesToaRow (row : List (String × ToaValue T)) : Except String (Option T × String) :=
  match row.lookup "RawString", row.lookup "TIMESTAMP" with
  | some (.scalar (.text s)), some (.scalar (.time t)) => .ok (some t, s)
  | _, _ => .error "KeyError"

/-- `thies.py:156-183` `_read_data`. The stamped lines are read one by one, so that a bad time stamp and a bad telegram give the
same error. `csv` is what `csv.reader` makes of the lines. (Exceptions of `read_toa5` that are no `ValueError` pass through.) -/
def thiesRead (p : ThiesParsers D C T α) (toa : ToaParsers T) (expected : ℕ) (lines : List String) (csv : List (List String)) :
    Except String (List (String × List (ThiesValue D C T α))) :=
  let first := lines.headD ""
  if hasPart "TOA5" first then
    ((readToa5 toa csv).bind fun file => file.rows.mapM thiesToaRow).bind (thiesLines p expected)
  else if "datetime [utc];".toList.isPrefixOf (pyLower first) then
    ((lines.drop 1).mapM (thiesStamped p)).bind (thiesLines p expected)
  else thiesLines p expected (lines.map fun l => (none, l))

end

end Cloudnet
