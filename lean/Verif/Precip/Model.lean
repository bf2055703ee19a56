import Verif.Station.Pipe
import Verif.Droplet.Model

namespace Cloudnet

/-! The rain[e]H3 rain gauge and the FD12P weather sensor: `instruments/rain_e_h3.py`, `instruments/fd12p.py`. -/

section
variable {T α R : Type}

/-- `sort_timestamps` and `remove_duplicate_timestamps` (`cloudnet_instrument.py:49-57`) for records; `order` is what `argsort`
returns. -/
def sortUnique [Field α] [LinearOrder α] (hours : R → α) (order : List ℕ) (rs : List R) : List R :=
  let s := pickRows order rs
  pickRows (uniqueIndex s.length (vec (s.map hours))) s

/-! ## rain[e]H3 -/

/-- What one row of a file says: time, rain rate (mm/h) and amount (mm). -/
structure RainRecord (T α : Type) where
  time : T
  rate : Option α
  amount : Option α
  deriving DecidableEq

/-- `rain_e_h3.py:71`: the median of the number of columns, rounded down; without rows it is not a number. -/
def talkerColumns (rows : List (List String)) : Option ℤ :=
  if rows = [] then none else some ⌊median (rows.map fun r => (r.length : ℚ))⌋

/-- The positions of time, rate and amount; `rain_e_h3.py:104-117` (date and time are one text) and
`rain_e_h3.py:150-161`. -/
structure Talker where
  width : ℕ
  time : List String → String
  rate : ℕ
  amount : ℕ

/-- `rain_e_h3.py:104-117`. -/
def talker16 : Talker := ⟨16, fun row => row.getD 0 "" ++ " " ++ row.getD 1 "", 2, 3⟩

/-- `rain_e_h3.py:150-161`. -/
def talker22 : Talker := ⟨22, fun row => row.getD 0 "", 3, 4⟩

/-- `rain_e_h3.py:104-117`, `rain_e_h3.py:150-162`: one row of a protocol. A row with a bad time is skipped, a bad number is an
error. `number` is `float`, with `none` for not-a-number and infinities. -/
def talkerRow (p : Talker) (time : String → Option T) (number : String → Option (Option α)) (onDate : Option (T → Bool))
    (acc : List (RainRecord T α)) (row : List String) : Except String (List (RainRecord T α)) :=
  if row.length ≠ p.width then .ok acc
  else match time (p.time row) with
    | none => .ok acc
    | some t =>
      if (onDate.map fun f => f t) = some false then .ok acc
      else match number (row.getD p.rate ""), number (row.getD p.amount "") with
        | some r, some a => .ok (acc ++ [⟨t, r, a⟩])
        | _, _ => .error "ValueError: could not convert string to float"

/-- `rain_e_h3.py:104-117`, `rain_e_h3.py:150-162`: the rows of a protocol. -/
def talkerRead (p : Talker) (time : String → Option T) (number : String → Option (Option α)) (onDate : Option (T → Bool))
    (rows : List (List String)) : Except String (List (RainRecord T α)) :=
  rows.foldlM (talkerRow p time number onDate) []

/-- `rain_e_h3.py:66-80` `parse_input_file`; `time16` and `time22` read the time of the two protocols. -/
def rainParse (time16 time22 : String → Option T) (number : String → Option (Option α)) (onDate : Option (T → Bool))
    (rows : List (List String)) : Except String (List (RainRecord T α)) :=
  (if talkerColumns rows = some 22 then talkerRead talker22 time22 number onDate rows
   else if talkerColumns rows = some 16 then talkerRead talker16 time16 number onDate rows
   else .error "NotImplementedError").bind fun rs =>
    if rs = [] then .error "ValidTimeStampError" else .ok rs

/-- A record of the output: hours, rain rate (m/s), rain amount (m). -/
structure RainOut (α : Type) where
  hour : α
  rate : Option α
  amount : Option α
  deriving DecidableEq

/-- `rain_e_h3.py:166-171` `convert_units` and `rain_e_h3.py:46` `normalize_cumulative_amount`, in the order of the file. -/
def rainConvert [Field α] [LinearOrder α] (hours : T → α) (rs : List (RainRecord T α)) : Except String (List (RainOut α)) :=
  (normalizeAmount rs.length fun i => (rs[i]?).bind fun r => r.amount.map (· / 1000)).map fun amount =>
    rs.zipIdx.map fun ri => ⟨hours ri.1.time, ri.1.rate.map fun x => x / 3600 / 1000, amount ri.2⟩

/-- `rain_e_h3.py:45-49`: the records written; `order` is what `argsort` returns for the hours. -/
def rainFile [Field α] [LinearOrder α] (hours : T → α) (order : List ℕ) (rs : List (RainRecord T α)) :
    Except String (List (RainOut α)) :=
  (rainConvert hours rs).map (sortUnique RainOut.hour order)

/-! ## FD12P -/

/-- What one line of a file says. -/
structure SensorRecord (T α : Type) where
  time : T
  visibility : Option α
  synop : Option α
  rate : Option α
  amount : Option α
  snow : Option α
  deriving DecidableEq

/-- How texts are read: the date and time, integers and floats (`none` if `ValueError`, `some none` for not-a-number). -/
structure SensorParsers (T α : Type) where
  time : String → String → Option T
  int : String → Option α
  float : String → Option (Option α)

/-- `fd12p.py:162-165`: values with a slash are missing. -/
def SensorParsers.parseInt (p : SensorParsers T α) (v : String) : Option (Option α) :=
  if '/' ∈ v.toList then some none else (p.int v).map some

/-- `fd12p.py:168-171`. -/
def SensorParsers.parseFloat (p : SensorParsers T α) (v : String) : Option (Option α) :=
  if '/' ∈ v.toList then some none else p.float v

/-- `fd12p.py:85-106`: one line, split at white space; lines that cannot be read are skipped. Integers out of the range of
`int32` are not modelled. -/
def sensorLine (p : SensorParsers T α) (columns : List String) : Option (SensorRecord T α) :=
  match columns with
  | [date, time, _, _, visibility, _, _, synop, _, _, rate, amount, snow] =>
    (p.time date time).bind fun t => (p.parseInt visibility).bind fun v => (p.parseInt synop).bind fun s =>
      (p.parseFloat rate).bind fun r => (p.parseFloat amount).bind fun a => (p.parseInt snow).map fun n => ⟨t, v, s, r, a, n⟩
  | _ => none

/-- `fd12p.py:131-137` `screen_all_masked`: does the record have data? -/
def SensorRecord.hasData (r : SensorRecord T α) : Bool :=
  r.visibility.isSome || r.synop.isSome || r.rate.isSome || r.amount.isSome || r.snow.isSome

/-- `fd12p.py:78-121` and `fd12p.py:131-137`: the records before sorting. The expected date removes times but no values, so that
masks and times do not fit together if there is another day. -/
def sensorParse (p : SensorParsers T α) (onDate : Option (T → Bool)) (lines : List (List String)) :
    Except String (List (SensorRecord T α)) :=
  let rs := lines.filterMap (sensorLine p)
  let times := (rs.map SensorRecord.time).filter fun t => (onDate.map fun f => f t) ≠ some false
  if times = [] then .error "ValidTimeStampError"
  else if times.length ≠ rs.length then .error "ValueError: non-broadcastable output operand"
  else if rs.all fun r => !r.hasData then .error "ValidTimeStampError: All timestamps screened"
  else .ok (rs.filter SensorRecord.hasData)

/-- A record of the output in SI units. -/
structure SensorOut (α : Type) where
  hour : α
  visibility : Option α
  synop : Option α
  rate : Option α
  amount : Option α
  snow : Option α
  deriving DecidableEq

/-- `fd12p.py:123-129` `convert_units` and `fd12p.py:53-54`. -/
def sensorConvert [Field α] [LinearOrder α] (hours : T → α) (rs : List (SensorRecord T α)) :
    Except String (List (SensorOut α)) :=
  (normalizeAmount rs.length fun i => (rs[i]?).bind fun r => r.amount.map (· / 1000)).bind fun amount =>
    (normalizeAmount rs.length fun i => (rs[i]?).bind fun r => r.snow.map (· / 1000)).map fun snow =>
      rs.zipIdx.map fun ri =>
        ⟨hours ri.1.time, ri.1.visibility, ri.1.synop, ri.1.rate.map fun x => x / 3600 / 1000, amount ri.2, snow ri.2⟩

/-- `fd12p.py:50-54`; `order` is what `argsort` returns for the hours. -/
def sensorFile [Field α] [LinearOrder α] (hours : T → α) (order : List ℕ) (rs : List (SensorRecord T α)) :
    Except String (List (SensorOut α)) :=
  sensorConvert hours (sortUnique (fun r => hours r.time) order rs)

end

end Cloudnet
