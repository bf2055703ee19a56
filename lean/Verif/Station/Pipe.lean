import Verif.Station.Model
import Verif.Gauge.Model
import Verif.Times.Model

namespace Cloudnet

/-! Weather stations: from the columns read to the variables written, `instruments/weather_station.py`. -/

section
variable {T α : Type}

/-- The times and the other columns of the input files. -/
structure StationData (T α : Type) where
  time : List T
  columns : Columns (Option α)

/-- The supported sites. -/
inductive Site where
  | palaiseau | bucharest | granada | kenttarova | hyytiala | galati | juelich | lampedusa | limassol | laquila | maido | cluj
  | falkenberg | potenza
  deriving DecidableEq

/-- `weather_station.py:54-84`: the reader for a site. -/
def siteOf (name : String) : Except String Site :=
  if name = "Palaiseau" then .ok .palaiseau
  else if name = "Bucharest" then .ok .bucharest
  else if name = "Granada" then .ok .granada
  else if name = "Kenttärova" then .ok .kenttarova
  else if name = "Hyytiälä" then .ok .hyytiala
  else if name = "Galați" then .ok .galati
  else if name = "Jülich" then .ok .juelich
  else if name = "Lampedusa" then .ok .lampedusa
  else if name = "Limassol" then .ok .limassol
  else if name = "L'Aquila" then .ok .laquila
  else if name = "Maïdo Observatory" then .ok .maido
  else if name = "Cluj-Napoca" then .ok .cluj
  else if name = "Falkenberg" then .ok .falkenberg
  else if name = "Potenza" then .ok .potenza
  else .error "ValueError: Unsupported site"

/-- The sites whose columns are lists, screened by `weather_station.py:233-241` and `weather_station.py:673-681`. -/
def Site.hasLists : Site → Bool
  | .palaiseau | .bucharest | .maido | .potenza | .limassol => true
  | _ => false

/-- `weather_station.py:125-131` `screen_timestamps` (and its variants for lists): arrays of another length than the mask
cannot be indexed. -/
def stationOnDate (lists : Bool) (onDate : T → Bool) (d : StationData T α) : Except String (StationData T α) :=
  if d.time.all fun t => !onDate t then .error "ValidTimeStampError"
  else if !lists && d.columns.any fun kv => decide (kv.2.length ≠ d.time.length) then .error "IndexError"
  else .ok ⟨d.time.filter onDate,
    d.columns.map fun kv => (kv.1, ((d.time.zip kv.2).filter fun tx => onDate tx.1).map Prod.snd)⟩

/-- `array[ind]`. -/
def pickRows {β : Type} (ind : List ℕ) (l : List β) : List β := ind.filterMap fun i => l[i]?

/-- `cloudnet_instrument.py:49-52` and `cloudnet_instrument.py:70-75`: records with a new time; an array with one element counts
as scalar, and arrays of another length than the time are left alone. -/
def stationUnique {β : Type} [Field α] [LinearOrder α] (hours : List α) (l : List β) : List β :=
  if l.length = hours.length ∧ l.length ≠ 1 then pickRows (uniqueIndex hours.length (vec hours)) l else l

/-- The conversions of `weather_station.py:142-155`, `weather_station.py:251-254`, `weather_station.py:325-328`,
`weather_station.py:424-431`, `weather_station.py:495-498`, `weather_station.py:552-557`, `weather_station.py:713-717` and
`weather_station.py:856-860`. `atmoslib.c2k` adds 273.15. `trunc` is the conversion of the visibility to `int32`. -/
def stationConvert [Field α] (trunc : α → α) (site : Site) (name : String) (x : α) : α :=
  if name = "air_temperature" then x + 27315 / 100
  else if name = "relative_humidity" then x / 100
  else if name = "air_pressure" then
    match site with
    | .kenttarova => x * 10
    | .hyytiala => x * 1000
    | .galati => x * (133322 / 1000)
    | _ => x * 100
  else if name = "rainfall_rate" then
    match site with
    | .bucharest => x * (1 / (3600 / (1 / 1000)))
    | .kenttarova => x * (1 / (3600 / (1 / 1000))) / 10
    | .limassol => x / (10 * 60) / 1000
    | .cluj => x / (1000 * 600)
    | _ => x / 60 / 1000
  else if name = "rainfall_amount" then
    match site with
    | .palaiseau | .bucharest => x / 1000
    | _ => x
  else if name = "visibility" ∧ site = .galati then trunc x
  else x

/-- The columns that the conversions of a site need. -/
def Site.required : Site → List String
  | .palaiseau => ["air_temperature", "relative_humidity", "rainfall_amount"]
  | .bucharest => ["air_temperature", "relative_humidity", "rainfall_rate", "rainfall_amount"]
  | .kenttarova => ["air_temperature", "relative_humidity", "air_pressure", "rainfall_rate"]
  | .hyytiala | .galati => ["air_temperature", "relative_humidity", "air_pressure"]
  | .limassol | .cluj => ["air_temperature", "relative_humidity", "rainfall_rate"]
  | _ => ["air_temperature", "relative_humidity"]

/-- `weather_station.py:547-551`: the columns dropped for Galați before 29 October 2024. -/
def galatiDropped : List String := ["wind_speed", "wind_direction"]

/-- `weather_station.py:98-99`: the rain amount, from the column or from the rain rate. -/
def stationAmount [Field α] [LinearOrder α] (hours : List α) (cols : Columns (Option α)) : Except String (Columns (Option α)) :=
  match cols.lookup "rainfall_amount" with
  | some a => (normalizeAmount a.length fun i => a.getD i none).map fun out =>
      dictSet cols "rainfall_amount" ((List.range a.length).map out)
  | none =>
    match cols.lookup "rainfall_rate" with
    | some r => .ok (cols ++ [("rainfall_amount", (List.range (if hours.length = 1 then 1 else r.length)).map
        (rainfallAmount hours.length (vec hours) fun i => r.getD i none))])
    | none => .ok cols

/-- `weather_station.py:547-551`, `cloudnet_instrument.py:107-114`: the columns written, for the first time of the data. -/
def stationColumns (early : T → Bool) (site : Site) (first : T) (cols : Columns (Option α)) : Columns (Option α) :=
  if site = .galati ∧ early first = true then cols.filter fun kv => decide (kv.1 ∉ galatiDropped) else cols

/-- `weather_station.py:100`: `wrap_wind_direction`. -/
def stationWind [Field α] [LinearOrder α] (kv : String × List (Option α)) : String × List (Option α) :=
  if kv.1 = "wind_direction" then (kv.1, kv.2.map (Option.map wrapWindDirection)) else kv

/-- `weather_station.py:91-100`, for the hours of the times and the columns. -/
def stationProcess [Field α] [LinearOrder α] (trunc : α → α) (site : Site) (hs : List α) (cols : Columns (Option α)) :
    Except String (List α × Columns (Option α)) :=
  if site.required.all fun k => (cols.lookup k).isSome then
    (stationAmount (stationUnique hs hs) (cols.map fun kv =>
      (kv.1, (stationUnique hs kv.2).map (Option.map (stationConvert trunc site kv.1))))).map fun cols =>
        (stationUnique hs hs, cols.map stationWind)
  else .error "KeyError"

/-- `weather_station.py:85-86`: the records of the expected date, if there is one. -/
def stationScreen (site : Site) (onDate : Option (T → Bool)) (d : StationData T α) : Except String (StationData T α) :=
  match onDate with
  | none => .ok d
  | some p => stationOnDate site.hasLists p d

/-- `weather_station.py:85-100`: the part of `ws2nc` between reading and writing. `hours` is the decimal hour of a time,
`early` says whether it is before 29 October 2024, `onDate` whether it is on the expected date, if there is one. Returns the
times and the other variables. -/
def stationFile [Field α] [LinearOrder α] (hours : T → α) (trunc : α → α) (early : T → Bool) (site : Site)
    (onDate : Option (T → Bool)) (d : StationData T α) : Except String (List α × Columns (Option α)) :=
  (stationScreen site onDate d).bind fun d =>
    match d.time with
    | [] => .error "IndexError"
    | first :: _ => stationProcess trunc site (d.time.map hours) (stationColumns early site first d.columns)

/-- `weather_station.py:668-709`: the columns of Limassol by variable; wind at 10 m if there is both speed and direction. -/
def limassolNames (has : String → Bool) : List (String × List String) :=
  [("time", ["Date Time (yyyy-mm-ddThh:mm:ss)"]), ("air_temperature", ["Air temperature (°C)"]),
   ("relative_humidity", ["Relative humidity (%)"]), ("rainfall_rate", ["Total precipitation (mm)"])] ++
  if has "Wind speed at 10m (m/s)" && has "Wind direction at 10m (degrees)" then
    [("wind_speed", ["Wind speed at 10m (m/s)"]), ("wind_direction", ["Wind direction at 10m (degrees)"])]
  else [("wind_speed", ["Wind speed (m/s)"])]

/-- `weather_station.py:660-709`: the variables of Limassol. (The code screens the columns before it takes them.) -/
def limassol (p : SirtaParsers T α) (files : List (List (String × List String))) : Except String (Columns (StationCell T α)) :=
  (limassolFiles p files).bind fun raw => pickColumns (limassolNames fun k => (raw.lookup k).isSome) raw

end

end Cloudnet
