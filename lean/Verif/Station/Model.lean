import Verif.Station.Toa5
import Verif.Cli.Model
import Verif.Times.Model

namespace Cloudnet

/-! Readers of weather station files: `instruments/weather_station.py`. Files are given as lists of rows that `csv` or
`str.split` have taken apart. `T` is the type of Python's `datetime`, `α` that of numbers; `Option` is for numbers that are not
finite. The parsers (`strptime` and `float`) are parameters; `none` is a `ValueError`. -/

/-- A value of a column. -/
inductive StationCell (T α : Type) where
  | time (t : T)
  | num (x : Option α)
deriving DecidableEq

/-- A dictionary of lists. -/
abbrev Columns (β : Type) := List (String × List β)

/-- `d[key].append(x)`. -/
def appendCol {β : Type} (d : Columns β) (key : String) (x : β) : Except String (Columns β) :=
  if (d.lookup key).isSome then .ok (appendTo d key x) else .error "KeyError"

/-- What a reader does with a field: ignore it, append a value to a column, or `break`. -/
inductive FieldAction (β : Type) where
  | skip
  | append (name : String) (x : β)
  | stop

/-- The loop over the fields of a row. -/
def storeRow {ι β : Type} (act : ι → Except String (FieldAction β)) : List ι → Columns β → Except String (Columns β)
  | [], c => .ok c
  | i :: is, c =>
    match act i with
    | .error e => .error e
    | .ok .skip => storeRow act is c
    | .ok .stop => .ok c
    | .ok (.append name x) => (appendCol c name x).bind (storeRow act is)

/-- The loop over the rows. -/
def storeRows {ι β : Type} (act : ι → Except String (FieldAction β)) (rows : List (List ι)) (c : Columns β) :
    Except String (Columns β) :=
  rows.foldlM (fun c row => storeRow act row c) c

/-- `{key: [] for key in keys}`. -/
def emptyColumns {β : Type} (keys : List String) : Columns β := keys.foldl (fun d k => dictSet d k []) []

section
variable {T α : Type}

/-! ## TOA5 files: Granada, Jülich and Falkenberg -/

/-- Variables and units of a station; `strict` stations raise if a value is not a number. -/
structure ToaStation where
  keymap : List (String × String)
  units : List (String × String)
  strict : Bool

/-- `weather_station.py:340-356`. -/
def granada : ToaStation :=
  ⟨[("TIMESTAMP", "time"), ("air_t_Avg", "air_temperature"), ("rh_Avg", "relative_humidity"), ("pressure_Avg", "air_pressure"),
    ("wind_speed_avg", "wind_speed"), ("wind_dir_avg", "wind_direction"), ("rain_Tot", "rainfall_rate")],
   [("air_t_Avg", "degC"), ("rh_Avg", "%"), ("pressure_Avg", "hPa"), ("wind_speed_avg", "m/s"), ("wind_dir_avg", "Deg"),
    ("rain_Tot", "mm")], false⟩

/-- `weather_station.py:567-581`. -/
def juelich : ToaStation :=
  ⟨[("TIMESTAMP", "time"), ("AirTC_Avg", "air_temperature"), ("RH", "relative_humidity"), ("BV_BP_Avg", "air_pressure"),
    ("WS_ms_S_WVT", "wind_speed"), ("WindDir_D1_WVT", "wind_direction")],
   [("AirTC_Avg", "Deg C"), ("RH", "%"), ("BV_BP_Avg", "hPa"), ("WS_ms_S_WVT", "meters/Second"), ("WindDir_D1_WVT", "Deg")],
   true⟩

/-- `weather_station.py:872-886`. -/
def falkenberg : ToaStation :=
  ⟨[("TIMESTAMP", "time"), ("WS500_air_temperature", "air_temperature"), ("WS500_relative_humidity", "relative_humidity"),
    ("WS500_absolute_air_pressure", "air_pressure"), ("WS500_wind_speed_avg", "wind_speed"),
    ("WS500_wind_direction_avg", "wind_direction")],
   [("WS500_air_temperature", "degC"), ("WS500_relative_humidity", "%"), ("WS500_absolute_air_pressure", "hPa"),
    ("WS500_wind_speed_avg", "m s-1"), ("WS500_wind_direction_avg", "deg")], false⟩

/-- `weather_station.py:368-377` (also lines 593-599 and 898-907): one entry of a row. The time stays as it is; of other entries only text can be a number. -/
def toaAction (s : ToaStation) (number : String → Option (Option α)) (kv : String × ToaValue T) :
    Except String (FieldAction (StationCell T α)) :=
  match s.keymap.lookup kv.1 with
  | none => .ok .skip
  | some name =>
    match kv.2 with
    | .scalar (.time t) => .ok (.append name (.time t))
    | .scalar (.text v) =>
      match number v with
      | some x => .ok (.append name (.num x))
      | none => if s.strict then .error "ValueError: could not convert string to float" else .ok (.append name (.num none))
    | _ => .error "TypeError"

/-- `weather_station.py:358-364` (also lines 583-589 and 888-894): is a column in another unit than expected? -/
def wrongUnits (s : ToaStation) (units : List (String × String)) : Bool :=
  units.any fun ku => match s.units.lookup ku.1 with
    | some u => u != ku.2
    | none => false

/-- `weather_station.py:339-378`, `weather_station.py:566-601` and `weather_station.py:871-908`: `_read_data`. -/
def toaStation (s : ToaStation) (p : ToaParsers T) (number : String → Option (Option α)) (lines : List (List String)) :
    Except String (Columns (StationCell T α)) :=
  (readToa5 p lines).bind fun t =>
    if wrongUnits s t.units then .error "ValueError: Expected other units"
    else storeRows (toaAction s number) t.rows (emptyColumns (t.units.filterMap fun ku => s.keymap.lookup ku.1))

/-! ## CSV files with column names: Kenttärova, Galați and Lampedusa -/

/-- A value of a row of `csv.DictReader`: a field, `None` for a column without field, or the fields without column. -/
inductive CsvValue where
  | text (s : String)
  | missing
  | rest (l : List String)

/-- The rows of `csv.DictReader`. (For columns with the same name the last field counts, as in `dict(zip(...))`.) -/
def csvDictRow (fields row : List String) : List (Option String × CsvValue) :=
  let d : List (String × CsvValue) := (fields.zip row).foldl (fun d kv => dictSet d kv.1 (.text kv.2)) []
  let d := (fields.drop row.length).foldl (fun d k => dictSet d k .missing) d
  (d.map fun kv => (some kv.1, kv.2)) ++ if fields.length < row.length then [(none, .rest (row.drop fields.length))] else []

/-- How the values of a station are read. -/
structure CsvStation (T α : Type) where
  timeKey : String
  time : String → Option T
  number : String → Option (Option α)
  skipBadTime : Bool

/-- `weather_station.py:394-408`, `weather_station.py:512-523`, `weather_station.py:633-645`: one field. A missing field
raises, like additional fields. -/
def csvAction (s : CsvStation T α) (kv : Option String × CsvValue) : Except String (FieldAction (StationCell T α)) :=
  match kv with
  | (some key, .text v) =>
    if key = s.timeKey then
      match s.time v with
      | some t => .ok (.append key (.time t))
      | none => if s.skipBadTime then .ok .stop else .error "ValueError: time data does not match format"
    else .ok (.append key (.num ((s.number v).getD none)))
  | _ => .error "TypeError"

/-- The loop over a file; `csv.DictReader` ignores blank rows. -/
def csvColumns (s : CsvStation T α) (fields : List String) (rows : List (List String)) :
    Except String (Columns (StationCell T α)) :=
  storeRows (csvAction s) ((rows.filter (· ≠ [])).map (csvDictRow fields)) (emptyColumns fields)

/-- The variables of a station: name and possible columns, the first of which is taken. -/
def pickColumns {β : Type} (names : List (String × List String)) (raw : Columns β) : Except String (Columns β) :=
  names.mapM fun nk =>
    match nk.2.findSome? fun k => raw.lookup k with
    | some col => .ok (nk.1, col)
    | none => .error "KeyError"

/-- `weather_station.py:409-417`. -/
def kenttarovaNames : List (String × List String) :=
  [("time", ["Read time (UTC+2)"]), ("air_temperature", ["Temp 2m (C)"]), ("relative_humidity", ["Humidity 2m (%)"]),
   ("air_pressure", ["Pressure (hPa)"]), ("wind_speed", ["Wind speed (m/s)"]), ("wind_direction", ["Wind dir (deg)"]),
   ("rainfall_rate", ["Precipitation (?)"])]

/-- `weather_station.py:531-544`. -/
def galatiNames : List (String × List String) :=
  [("time", ["TimeStamp"]), ("air_temperature", ["Temperature", "Temperatura"]), ("relative_humidity", ["RH", "Umiditate_relativa"]),
   ("air_pressure", ["Atmospheric_pressure", "Presiune_atmosferica"]),
   ("rainfall_rate", ["Precipitations", "Precipitatii", "Precipitatii_Tot"]), ("wind_speed", ["Wind_speed", "Viteza_vant"]),
   ("wind_direction", ["Wind_direction", "Directie_vant"]), ("visibility", ["Visibility", "Vizibilitate"])]

/-- `weather_station.py:614-629`. -/
def lampedusaFields : List String :=
  ["time", "str1", "str2", "T", "RH", "Td", "P", "WSi", "WDi", "WS10m", "WD10m", "rain1m", "rain2h", "empty"]

/-- `weather_station.py:647-655`. -/
def lampedusaNames : List (String × List String) :=
  [("time", ["time"]), ("air_temperature", ["T"]), ("relative_humidity", ["RH"]), ("air_pressure", ["P"]),
   ("wind_speed", ["WSi"]), ("wind_direction", ["WDi"]), ("rainfall_rate", ["rain1m"])]

/-- A file with column names in the first row (`weather_station.py:390-417`, `weather_station.py:508-545`). -/
def csvFile (s : CsvStation T α) (names : List (String × List String)) (rows : List (List String)) :
    Except String (Columns (StationCell T α)) :=
  match rows with
  | [] => .error "TypeError: 'NoneType' object is not iterable"
  | fields :: data => (csvColumns s fields data).bind (pickColumns names)

/-- `weather_station.py:418-421`: the columns of another file are appended. (Every file has the same columns.) -/
def mergeColumns {β : Type} (merged data : Columns β) : Columns β :=
  if merged.isEmpty then data else merged.map fun kv => (kv.1, kv.2 ++ (data.lookup kv.1).getD [])

/-- `weather_station.py:387-422` `KenttarovaWS._read_data`. -/
def kenttarova (s : CsvStation T α) (files : List (List (List String))) : Except String (Columns (StationCell T α)) :=
  files.foldlM (fun merged rows => (csvFile s kenttarovaNames rows).map (mergeColumns merged)) []

/-- `weather_station.py:612-656` `LampedusaWS._read_data`. -/
def lampedusa (s : CsvStation T α) (rows : List (List String)) : Except String (Columns (StationCell T α)) :=
  (csvColumns s lampedusaFields rows).bind (pickColumns lampedusaNames)

/-! ## SIRTA files: Limassol -/

/-- White space of a regular expression (`\s`); only ASCII is modelled. -/
def isSpaceChar (c : Char) : Bool := c == ' ' || c == '\t' || c == '\n' || c == '\r' || c == '\x0b' || c == '\x0c'

/-- `re.fullmatch(r"#\s*Col.\s*(\d+)\s*:\s*(.*)", line)` (`weather_station.py:729`): the two groups. -/
def sirtaHeader (line : String) : Option (String × String) :=
  match line.toList with
  | '#' :: l =>
    match l.dropWhile isSpaceChar with
    | 'C' :: 'o' :: 'l' :: _ :: l =>
      let l := l.dropWhile isSpaceChar
      let digits := l.takeWhile Char.isDigit
      match (l.dropWhile Char.isDigit).dropWhile isSpaceChar with
      | ':' :: l => if digits = [] then none else some (String.ofList digits, String.ofList (l.dropWhile isSpaceChar))
      | _ => none
    | _ => none
  | _ => none

/-- `weather_station.py:726-736`: the column titles; they have to be numbered 1, 2, .... -/
def sirtaColumns (lines : List String) : Except String (List String) :=
  (lines.filterMap sirtaHeader).foldlM (fun (cols : List String) m =>
    if m.1 ≠ toString (cols.length + 1) then .error "ValueError: Expected column" else .ok (cols ++ [m.2])) []

/-- How values of a SIRTA file are read: times without and with `Z`, and numbers. -/
structure SirtaParsers (T α : Type) where
  time : String → Option T
  timeZ : String → Option T
  number : String → Option (Option α)

/-- `weather_station.py:743-758`: one field. -/
def sirtaAction (p : SirtaParsers T α) (kv : String × String) : Except String (FieldAction (StationCell T α)) :=
  if kv.1 = "Date Time (yyyy-mm-ddThh:mm:ss)" then
    match p.time kv.2 with
    | some t => .ok (.append kv.1 (.time t))
    | none => .error "ValueError: time data does not match format"
  else if kv.1 = "Date Time (yyyy-mm-ddThh:mm:ssZ)" then
    match p.timeZ kv.2 with
    | some t => .ok (.append kv.1 (.time t))
    | none => .error "ValueError: time data does not match format"
  else .ok (.append kv.1 (.num ((p.number kv.2).getD none)))

/-- `weather_station.py:717-759` `_parse_sirta`: a line is given as text (for the header) and as fields. Rows with another
number of fields than columns are ignored, like comments and blank lines. -/
def parseSirta (p : SirtaParsers T α) (lines : List (String × List String)) : Except String (Columns (StationCell T α)) :=
  (sirtaColumns (lines.map Prod.fst)).bind fun cols =>
    storeRows (sirtaAction p)
      ((lines.filter fun l => !(l.1 == "") && !(l.1.toList.head? == some '#') && l.2.length == cols.length).map
        fun l => cols.zip l.2)
      (emptyColumns cols)

/-- `weather_station.py:663-666`: the files of Limassol, one after the other, into a `defaultdict(list)`. -/
def limassolFiles (p : SirtaParsers T α) (files : List (List (String × List String))) :
    Except String (Columns (StationCell T α)) :=
  files.foldlM (fun acc lines => (parseSirta p lines).map fun d =>
    d.foldl (fun acc kv => dictSet acc kv.1 ((acc.lookup kv.1).getD [] ++ kv.2)) acc) []

/-! ## Files with a fixed sequence of columns: Palaiseau, Bucharest, Maïdo, Potenza -/

/-- The expected column titles and the variables (after the time) of a station. -/
structure FixedStation where
  identifiers : List String
  keys : List String

/-- `weather_station.py:175-193`. -/
def palaiseau : FixedStation :=
  ⟨["DateTime(yyyy-mm-ddThh:mm:ssZ)", "Windspeed(m/s)", "Winddirection(deg", "Airtemperature", "Relativehumidity(%)",
    "Pressure(hPa)", "Precipitationrate(mm/min)", "precipitation"],
   ["wind_speed", "wind_direction", "air_temperature", "relative_humidity", "air_pressure", "rainfall_rate", "rainfall_amount"]⟩

/-- `weather_station.py:269-290`. -/
def maido : FixedStation :=
  ⟨["DateTimeyyyy-mm-ddThh:mm:ssZ", "Winddirection-average", "Windspeed-maximumvalue(m/s)", "Windspeed-average(m/s)",
    "Pressure-average(hPa)", "Relativehumidity-maximumvalue(%)", "Relativehumidity-average(%)", "Airtemperature-minimumvalue",
    "Airtemperature-average"],
   ["wind_direction", "_wind_speed_max", "wind_speed", "air_pressure", "_relative_humidity_max", "relative_humidity",
    "_air_temperature_min", "air_temperature"]⟩

/-- `weather_station.py:297-319`. -/
def potenza : FixedStation :=
  ⟨["DateTime(yyyy-mm-ddThh:mm:ssZ)", "WindspeedMaximumvalue(m/s)", "WindspeedAveragevalue(m/s)", "Winddirection(degres)",
    "Airtemperature(°C)", "Relativehumidity(%)", "Pressure(hPa)", "Precipitationrate(mm/min)", "24-hrcumulatedprecipitation(mm)"],
   ["_wind_speed_max", "wind_speed", "wind_direction", "air_temperature", "relative_humidity", "air_pressure", "_rainfall_rate",
    "_rainfall_amount"]⟩

/-- `re.match(r"\d{4}-\d{2}-\d{2}T\d{2}:\d{2}:\d{2}Z", s)` (`weather_station.py:208`). -/
def startsWithStamp (s : String) : Bool :=
  let pattern := "dddd-dd-ddTdd:dd:ddZ".toList
  decide (pattern.length ≤ s.toList.length) &&
    (pattern.zip s.toList).all fun pc => if pc.1 == 'd' then pc.2.isDigit else pc.2 == pc.1

/-- Header rows and data rows found so far. -/
abbrev FixedState (T α : Type) := List String × List (T × List (Option α))

/-- `weather_station.py:206-224`: one row, split at white space. -/
def fixedRow (s : FixedStation) (time : String → Option T) (number : String → Option (Option α)) (st : FixedState T α)
    (columns : List String) : Except String (FixedState T α) :=
  match columns with
  | [] => .ok st
  | first :: values =>
    if startsWithStamp first then
      if values.length ≠ s.keys.length then .ok st
      else
        match time first, values.mapM number with
        | some t, some xs => .ok (st.1, st.2 ++ [(t, xs)])
        | _, _ => .error "ValueError"
    else
      let header := String.join columns
      if header ∈ st.1 then .ok st else .ok (st.1 ++ [header], st.2)

/-- `part in s`. -/
def hasPart (part s : String) : Bool := decide (part.toList <:+: s.toList)

/-- `weather_station.py:256-265` `_validate_header`. -/
def validHeader (s : FixedStation) (header : List String) : Bool :=
  let titles := header.filter (hasPart "Col.")
  titles.length == s.identifiers.length && (titles.zip s.identifiers).all fun ti => hasPart ti.2 ti.1

/-- `weather_station.py:200-227` `_read_data`, for the rows of all files. -/
def fixedRead (s : FixedStation) (time : String → Option T) (number : String → Option (Option α)) (rows : List (List String)) :
    Except String (List (T × List (Option α))) :=
  (rows.foldlM (fixedRow s time number) ([], [])).bind fun st =>
    if validHeader s st.1 then .ok st.2 else .error "ValueError: Unexpected weather station file format"

/-- `weather_station.py:243-249` `add_data`: the columns by name, but those with an underscore. -/
def fixedColumns (s : FixedStation) (rows : List (T × List (Option α))) : Columns (StationCell T α) :=
  ("time", rows.map fun r => .time r.1) ::
    ((s.keys.zipIdx.filter fun ki => ki.1.toList.head? ≠ some '_').map fun ki =>
      (ki.1, rows.map fun r => .num ((r.2[ki.2]?).getD none)))

/-! ## L'Aquila and Cluj-Napoca -/

/-- `weather_station.py:805-807` and `weather_station.py:852-854` `_parse_value`. -/
def laquilaValue (number : String → Option (Option α)) (v : String) : Option (Option α) :=
  if pyStrip v = "" then some none else number (pyStrip v)

/-- The variables of L'Aquila after the time (`weather_station.py:769-780`). -/
def laquilaKeys : List String :=
  ["air_temperature", "air_pressure", "relative_humidity", "rainfall_rate", "wind_speed", "wind_direction"]

/-- `weather_station.py:781-798`: the rows of all files, split at commas; comments and rows with another number of columns
are ignored. -/
def laquilaRows (time : String → Option T) (number : String → Option (Option α)) (rows : List (List String)) :
    Except String (List (T × List (Option α))) :=
  (rows.filter fun r => !((r.headD "").toList.head? == some '#') && r.length == 7).mapM fun r =>
    match time (r.headD ""), (r.drop 1).mapM (laquilaValue number) with
    | some t, some xs => .ok (t, xs)
    | _, _ => .error "ValueError"

/-- `weather_station.py:799-803`: for each time the first row with it; `stamp` is the time as a number. -/
def laquilaRead [Field α] [LinearOrder α] (stamp : T → α) (time : String → Option T) (number : String → Option (Option α))
    (rows : List (List String)) : Except String (List (T × List (Option α))) :=
  (laquilaRows time number rows).map fun rs =>
    (uniqueIndex rs.length (vec (rs.map fun r => stamp r.1))).filterMap fun i => rs[i]?

/-- `weather_station.py:819`, `weather_station.py:822`: a line of the file, taken apart at tabulators after white space at both ends
has been removed. -/
def clujFields (line : String) : List String := splitChar '\t' (pyStrip line)

/-- `weather_station.py:817-824`: the text of the columns; all lines have to have as many fields as there are titles. -/
def clujText (lines : List String) : Except String (Columns String) :=
  match lines with
  | [] => .error "IndexError"
  | first :: rest =>
    let headers := clujFields first
    rest.foldlM (fun d line =>
      if (clujFields line).length ≠ headers.length then .error "ValueError: zip() arguments have different lengths"
      else storeRow (fun kv => .ok (.append kv.1 kv.2)) (headers.zip (clujFields line)) d) (emptyColumns headers)

/-- `weather_station.py:825-845`: the columns of Cluj-Napoca. -/
def clujNames : List (String × List String) :=
  [("time", ["DateTime"]), ("air_temperature", ["Air_temperature_C"]), ("air_pressure", ["air_pressure_hPA"]),
   ("relative_humidity", ["rel_humidity_pct"]), ("rainfall_rate", ["Precipitation_mm"]), ("wind_speed", ["WS_azimuth_ms"]),
   ("wind_direction", ["WD_azimuth_deg"])]

/-- `weather_station.py:827-843`: one value of Cluj-Napoca. -/
def clujCell (time : String → Option T) (number : String → Option (Option α)) (name v : String) :
    Except String (StationCell T α) :=
  if name = "time" then
    match time v with
    | some t => .ok (.time t)
    | none => .error "ValueError: time data does not match format"
  else
    match laquilaValue number v with
    | some x => .ok (.num x)
    | none => .error "ValueError: could not convert string to float"

/-- `weather_station.py:816-845` `_read_data` of Cluj-Napoca. -/
def clujRead (time : String → Option T) (number : String → Option (Option α)) (lines : List String) :
    Except String (Columns (StationCell T α)) :=
  (clujText lines).bind fun d => (pickColumns clujNames d).bind fun cols =>
    cols.mapM fun kv => (kv.2.mapM (clujCell time number kv.1)).map fun xs => (kv.1, xs)

/-! ## Hyytiälä -/

/-- How the values of Hyytiälä are read: `time` is the time of year, month, day and minute of the day (`none` if one of them
cannot be read), `isFill` says whether a number is -99.99 or -99.9. -/
structure HyytialaParsers (T α : Type) where
  time : String → String → String → String → Option T
  number : String → Option (Option α)
  isFill : α → Bool

/-- The text under a key of a row. -/
def csvText (row : List (Option String × CsvValue)) (key : String) : Option String :=
  match row.lookup (some key) with
  | some (.text v) => some v
  | _ => none

/-- `weather_station.py:466-473`: the time of a row. -/
def hyytialaTime (p : HyytialaParsers T α) (row : List (Option String × CsvValue)) : Option T :=
  (csvText row "y").bind fun y => (csvText row "m").bind fun m => (csvText row "d").bind fun d =>
    (csvText row "minute").bind fun minute => p.time y m d minute

/-- `weather_station.py:476-481`: a number. -/
def hyytialaNumber (p : HyytialaParsers T α) (v : CsvValue) : Option α :=
  match v with
  | .text s => (((p.number s).getD none).filter fun x => !p.isFill x)
  | _ => none

/-- `weather_station.py:463-482`: one field of a row; fields without (or with empty) column name are ignored. -/
def hyytialaAction (p : HyytialaParsers T α) (rkv : List (Option String × CsvValue) × (Option String × CsvValue)) :
    Except String (FieldAction (StationCell T α)) :=
  match rkv.2.1 with
  | none => .ok .skip
  | some key =>
    if key = "" then .ok .skip
    else if key = "y" then
      match hyytialaTime p rkv.1 with
      | some t => .ok (.append "time" (.time t))
      | none => .error "ValueError"
    else .ok (.append key (.num (hyytialaNumber p rkv.2.2)))

/-- `weather_station.py:484-492`. -/
def hyytialaNames : List (String × List String) :=
  [("time", ["time"]), ("air_temperature", ["Ta/dsC"]), ("relative_humidity", ["RH/pcnt"]), ("air_pressure", ["Pa/kPa"]),
   ("wind_speed", ["WS/(m/s)"]), ("wind_direction", ["WD/ds"]), ("rainfall_rate", ["AaNRT/mm"])]

/-- `weather_station.py:453-493`, for the column names of the header line and the rows below. -/
def hyytiala (p : HyytialaParsers T α) (fields : List String) (rows : List (List String)) :
    Except String (Columns (StationCell T α)) :=
  (storeRows (hyytialaAction p)
    ((rows.filter (· ≠ [])).map fun r => (csvDictRow fields r).map fun kv => (csvDictRow fields r, kv))
    (emptyColumns (fields ++ ["time"]))).bind (pickColumns hyytialaNames)

end

end Cloudnet
