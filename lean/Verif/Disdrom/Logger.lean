import Verif.Station.Toa5
import Verif.Disdro.Model

namespace Cloudnet

/-! Files of data loggers with Parsivel data: `_read_toa5` and `_read_pyatmoslogger_file` of
`instruments/disdrometer/parsivel.py`. `T` is the type of Python's `datetime`, `α` that of `float`. The lines of a TOA5 file are
given as `csv.reader` splits them. -/

/-- `datetime.strptime(value, "%Y-%m-%d %H:%M:%S")`, `int(value)` and `float(value)`; `none` is a `ValueError`. -/
structure LoggerParsers (T α : Type) where
  time : String → Option T
  int : String → Option ℤ
  float : String → Option α

/-- A field after parsing. -/
inductive FieldValue (T α : Type) where
  | time (t : T)
  | int (n : ℤ)
  | num (x : α)
  | text (s : String)
  deriving DecidableEq

/-- What a row has in a column: a value or the values of several fields. -/
inductive LoggerCell (T α : Type) where
  | one (v : FieldValue T α)
  | many (vs : List (FieldValue T α))
  deriving DecidableEq

/-- The names whose parser is `_parse_int` in `parsivel.py:394-421`. -/
def parsivelInts : List String :=
  ["T_sensor", "_T_pcb", "_T_right", "_T_left", "error_code", "interval", "n_particles", "sig_laser", "state_sensor",
    "synop_WaWa", "synop_WW", "visibility"]

/-- The names whose parser is `_parse_float` in `parsivel.py:394-421`. -/
def parsivelFloats : List String :=
  ["I_heating", "V_power_supply", "_rain_accum", "_rain_amount_absolute", "kinetic_energy", "radar_reflectivity",
    "rainfall_rate", "snowfall_rate"]

/-- The names of `TOA5_HEADERS` (`parsivel.py:194-272`). -/
def loggerHeaders : List (String × String) :=
  [("RECORD", "_record"), ("TIMESTAMP", "_datetime"), ("datetime_utc", "_datetime"), ("rainIntensity", "rainfall_rate"),
    ("rain_intensity", "rainfall_rate"), ("rain rate [mm/h]", "rainfall_rate"), ("snowIntensity", "snowfall_rate"),
    ("snow_intensity", "snowfall_rate"), ("accPrec", "_rain_accum"), ("precipitation", "_rain_accum"),
    ("rain accum [mm]", "_rain_accum"), ("weatherCodeWaWa", "synop_WaWa"), ("wawa", "synop_WaWa"),
    ("weather_code_wawa", "synop_WaWa"), ("radarReflectivity", "radar_reflectivity"),
    ("radar_reflectivity", "radar_reflectivity"), ("Z [dBz]", "radar_reflectivity"), ("morVisibility", "visibility"),
    ("mor_visibility", "visibility"), ("MOR visibility [m]", "visibility"), ("kineticEnergy", "kinetic_energy"),
    ("kinetic_energy", "kinetic_energy"), ("signalAmplitude", "sig_laser"), ("signal_amplitude", "sig_laser"),
    ("Signal amplitude", "sig_laser"), ("sensorTemperature", "T_sensor"), ("sensor_temperature", "T_sensor"),
    ("Temperature sensor [°C]", "T_sensor"), ("pbcTemperature", "_T_pcb"), ("pbc_temperature", "_T_pcb"),
    ("rightTemperature", "_T_right"), ("right_temperature", "_T_right"), ("leftTemperature", "_T_left"),
    ("left_temperature", "_T_left"), ("heatingCurrent", "I_heating"), ("heating_current", "I_heating"),
    ("sensorVoltage", "V_power_supply"), ("sensor_voltage", "V_power_supply"),
    ("Power supply voltage in the sensor [V]", "V_power_supply"), ("sensorStatus", "state_sensor"),
    ("sensor_status", "state_sensor"), ("Sensor status", "state_sensor"), ("errorCode", "error_code"),
    ("error_code", "error_code"), ("Error code", "error_code"), ("numberParticles", "n_particles"),
    ("number_particles", "n_particles"), ("Number of detected particles", "n_particles"), ("N", "number_concentration"),
    ("V", "fall_velocity"), ("spectrum", "spectrum"), ("Current heating system [A]", "I_heating"),
    ("sample interval [s]", "interval"), ("Serial number", "_sensor_id"), ("IOP firmware version", "_iop_firmware_version"),
    ("Station name", "_station_name"), ("Rain amount absolute [mm]", "_rain_amount_absolute"), ("wawa [ww]", "synop_WW"),
    ("wawa [METAR]", "_metar_speci"), ("wawa [NWS]", "_nws"), ("DSP firmware version", "_dsp_firmware_version"),
    ("Start of measurement [DD.MM.YY_HH:MM:SS]", "_datetime_skip"), ("Sensor time [HH:MM:SS]", "_time_skip"),
    ("Sensor date [DD.MM.YY]", "_date_skip"), ("Station number", "_station_number"), ("Temperature PCB [°C]", "_T_pcb"),
    ("Temperature right sensor head [°C]", "_T_right"), ("Temperature left sensor head [°C]", "_T_left"),
    ("Rain intensity 16 bit low [mm/h]", "_rainfall_rate_16_bit_low"),
    ("Rain intensity 16 bit high [mm/h]", "_rainfall_rate_16_bit_high"),
    ("Rain accumulated 16 bit [mm]", "_rain_accum_16_bit"), ("Reflectivity 16 bit [dBZ]", "_radar_reflectivity_16_bit"),
    ("Kinetic energy [J m-2 h-1)]", "kinetic_energy"), ("Snow depth intensity (vol equiv.) [mm/h]", "snowfall_rate"),
    ("Number of particles", "n_particles"), ("Particle list (empty, see particle file)", "_particles")]

section
variable {T α : Type}

/-- The names that collect several fields of a row (`parsivel.py:501-505`, `parsivel.py:577-581`). -/
def arrayNames : List String := ["number_concentration", "fall_velocity", "spectrum"]

/-- `parsivel.py:508-525`, `parsivel.py:584-601`: the value of a field. -/
def loggerParse (p : LoggerParsers T α) (name value : String) : Option (FieldValue T α) :=
  if name = "_datetime" then (p.time value).map .time
  else if name ∈ ["number_concentration", "fall_velocity"] then (p.float value).map .num
  else if name = "spectrum" then (p.int value).map .int
  else if name ∈ parsivelInts then (p.int value).map .int
  else if name ∈ parsivelFloats then (p.float value).map .num
  else some (.text value)

/-- The dictionaries `scalars` and `arrays` of a row. -/
structure LoggerRow (T α : Type) where
  scalars : List (String × FieldValue T α)
  arrays : List (String × List (FieldValue T α))

/-- `parsivel.py:507-525`, `parsivel.py:583-601`: one field of a row. -/
def loggerField (p : LoggerParsers T α) (st : LoggerRow T α) (hv : Option String × String) : Option (LoggerRow T α) :=
  match hv.1 with
  | none => some st
  | some name =>
    match loggerParse p name hv.2 with
    | none => none
    | some v =>
      if name ∈ arrayNames then some { st with arrays := appendTo st.arrays name v }
      else some { st with scalars := dictSet st.scalars name v }

/-- `parsivel.py:500-528`, `parsivel.py:576-604`: one row, `none` if it is invalid. `zip(…, strict=True)` raises `ValueError` if
the number of fields is wrong. -/
def loggerRow (p : LoggerParsers T α) (headers : List (Option String)) (line : List String) : Option (LoggerRow T α) :=
  if headers.length ≠ line.length then none
  else (headers.zip line).foldlM (loggerField p) ⟨[], arrayNames.map fun n => (n, [])⟩

/-- `parsivel.py:531-538`, `parsivel.py:607-614`: the values of an array name are appended if the name is one of the headers. -/
def loggerArray (headers : List (Option String)) (row : LoggerRow T α) (data : List (String × List (LoggerCell T α)))
    (name : String) : List (String × List (LoggerCell T α)) :=
  if some name ∈ headers then appendTo data name (.many ((row.arrays.lookup name).getD [])) else data

/-- `parsivel.py:529-538`, `parsivel.py:605-614`: a valid row is appended to the columns. The reshaping of the spectrum raises if
there are not 32 × 32 counts; here the counts stay in reading order. (Counts that do not fit in 16 bits are not modelled.) -/
def loggerStore (headers : List (Option String)) (data : List (String × List (LoggerCell T α))) (row : LoggerRow T α) :
    Except String (List (String × List (LoggerCell T α))) :=
  let data := row.scalars.foldl (fun d kv => appendTo d kv.1 (.one kv.2)) data
  if some "spectrum" ∈ headers ∧ ((row.arrays.lookup "spectrum").getD []).length ≠ 1024 then
    .error "ValueError: cannot reshape array"
  else .ok (["spectrum", "number_concentration", "fall_velocity"].foldl (loggerArray headers row) data)

/-- `parsivel.py:498-538`, `parsivel.py:573-614`: the loop body with the number of invalid rows. -/
def loggerStep (p : LoggerParsers T α) (headers : List (Option String)) (st : List (String × List (LoggerCell T α)) × ℕ)
    (line : List String) : Except String (List (String × List (LoggerCell T α)) × ℕ) :=
  match loggerRow p headers line with
  | none => .ok (st.1, st.2 + 1)
  | some row => (loggerStore headers st.1 row).map fun d => (d, st.2)

/-- `parsivel.py:495`, `parsivel.py:570`. -/
def loggerEmpty (headers : List (Option String)) : List (String × List (LoggerCell T α)) :=
  (headers.filterMap id).foldl (fun d name => dictSet d name []) []

/-- `parsivel.py:495-544`, `parsivel.py:570-620`: the columns of a file. -/
def loggerRead (p : LoggerParsers T α) (headers : List (Option String)) (lines : List (List String)) :
    Except String (List (String × List (LoggerCell T α))) :=
  (lines.foldlM (loggerStep p headers) (loggerEmpty headers, 0)).bind fun st =>
    if st.2 = lines.length then .error "DisdrometerDataError: No valid data in file" else .ok st.1

/-- `parsivel.py:486`: `TOA5_HEADERS.get(re.sub(r"\(.*", "", field))` (a field with line breaks is not modelled). -/
def toaName (field : String) : Option String :=
  loggerHeaders.lookup (String.ofList (field.toList.takeWhile fun c => decide (c ≠ '(')))

/-- `parsivel.py:475-544` `_read_toa5`. -/
def parsivelToa5 (p : LoggerParsers T α) (lines : List (List String)) : Except String (List (String × List (LoggerCell T α))) :=
  match lines with
  | _ :: header :: _ :: _ :: data => loggerRead p (header.map toaName) data
  | _ => .error "StopIteration"

/-- `re.sub(r"M\_.*", "spectrum", field)`. -/
def subMatrix : List Char → List Char
  | [] => []
  | c :: cs => if c = 'M' ∧ cs.head? = some '_' then "spectrum".toList else c :: subMatrix cs

/-- `re.sub(r"v[0-9][0-9]", "V", field)` for `from` and `to` instead of `v` and `V`. -/
def subNumbered (old new : Char) : List Char → List Char
  | c :: d :: e :: cs =>
    if c = old ∧ d.isDigit = true ∧ e.isDigit = true then new :: subNumbered old new cs
    else c :: subNumbered old new (d :: e :: cs)
  | cs => cs

/-- `parsivel.py:556-565`: the name of a column of pyAtmosLogger. -/
def pyAtmosName (field : String) : Option String :=
  loggerHeaders.lookup (String.ofList (subNumbered 'N' 'N' (subNumbered 'v' 'V' (subMatrix field.toList))))

/-- `value.strip(c)`. -/
def stripChar (c : Char) (s : String) : String :=
  String.ofList (((s.toList.dropWhile (· = c)).reverse.dropWhile (· = c)).reverse)

/-- `line.strip().strip(";").split(";")` -/
def pyAtmosFields (line : String) : List String := splitChar ';' (stripChar ';' (pyStrip line))

/-- `parsivel.py:547-620` `_read_pyatmoslogger_file`; `lines` are the lines of a file that is not empty. -/
def parsivelPyAtmos (p : LoggerParsers T α) (lines : List String) : Except String (List (String × List (LoggerCell T α))) :=
  match lines with
  | [] => .error "IndexError"
  | header :: rest => loggerRead p ((pyAtmosFields header).map pyAtmosName) (rest.map pyAtmosFields)

end

end Cloudnet
