import Verif.Disdro.Model
import Verif.Station.Pipe

namespace Cloudnet

/-! Parsivel and Thies disdrometers: from the columns read to the variables written,
`instruments/disdrometer/parsivel.py` and `instruments/disdrometer/thies.py`. The site coordinates (`add_meta`) are not modelled. -/

/-- What a variable has for a record or a bin: a number or several of them (`none` is masked), or a text. -/
inductive Cell (α : Type) where
  | num (x : Option α)
  | many (xs : List (Option α))
  | text (s : String)
  deriving DecidableEq

section
variable {T α : Type}

/-- A function applied to the numbers of a cell. -/
def Cell.map (f : Option α → Option α) : Cell α → Cell α
  | .num x => .num (f x)
  | .many xs => .many (xs.map f)
  | .text s => .text s

/-- `raw_data`: the times and the other columns. -/
structure RawDisdro (T α : Type) where
  time : List T
  columns : List (String × List (Cell α))

/-- What differs between the instruments. -/
structure DisdroType (α : Type) where
  idName : String
  idRequired : Bool
  bins : List (String × List (Cell α))
  invalid : String → α → Bool
  required : List String
  minRecords : ℕ
  convert : String → α → α

/-- `parsivel.py:104-115`, `thies.py:267-277` `_screen_time`. Arrays of another length than the mask cannot be indexed. -/
def rawOnDate (onDate : Option (T → Bool)) (raw : RawDisdro T α) : Except String (RawDisdro T α) :=
  match onDate with
  | none => if raw.time = [] then .error "IndexError" else .ok raw
  | some f =>
    if raw.time.all fun t => !f t then .error "DisdrometerDataError: No data found"
    else if raw.columns.any fun kv => decide (kv.2.length ≠ raw.time.length) then .error "IndexError"
    else .ok ⟨raw.time.filter f, raw.columns.map fun kv => (kv.1, ((raw.time.zip kv.2).filter fun tx => f tx.1).map Prod.snd)⟩

/-- `parsivel.py:136-143`, `thies.py:205-210`: all records must have the same sensor. -/
def sameSensor [DecidableEq α] (kind : DisdroType α) (raw : RawDisdro T α) : Except String Unit :=
  match raw.columns.lookup kind.idName with
  | none => if kind.idRequired then .error "IndexError" else .ok ()
  | some [] => .error "IndexError"
  | some (x :: xs) => if xs.all fun y => decide (y = x) then .ok () else .error "DisdrometerDataError: Multiple sensor IDs"

/-- `parsivel.py:122-125`, `thies.py:191-194`: the name of a variable in the output. -/
def outputName (name : String) : String := if name = "spectrum" then "data_raw" else name

/-- `parsivel.py:119-120`, `thies.py:187-188` -/
def isPublic (name : String) : Bool := decide (name.toList.head? ≠ some '_')

/-- `parsivel.py:117-135`, `thies.py:185-203` and the bins of `common.py:40-52`. -/
def disdroColumns (kind : DisdroType α) (raw : RawDisdro T α) : List (String × List (Cell α)) :=
  kind.bins.foldl (fun d kv => dictSet d kv.1 kv.2)
    ((raw.columns.filter fun kv => isPublic kv.1).foldl (fun d kv => dictSet d (outputName kv.1) kv.2) [])

/-- `cloudnet_instrument.py:59-83` `screen_time_indices` for one array, `n` is the number of times; an array with one element
counts as scalar. -/
def screenRows {β : Type} (n : ℕ) (ind : List ℕ) (l : List β) : List β :=
  if l.length = n ∧ l.length ≠ 1 then pickRows ind l else l

/-- `sort_timestamps` and `remove_duplicate_timestamps` (`cloudnet_instrument.py:49-57`) for one array; `order` is what `argsort`
returns. -/
def sortedRows {β : Type} [Field α] [LinearOrder α] (hours : List α) (order : List ℕ) (l : List β) : List β :=
  let sorted := screenRows hours.length order hours
  screenRows sorted.length (uniqueIndex sorted.length (vec sorted)) (screenRows hours.length order l)

/-- `mask_invalid_values` and `convert_units` for a number. -/
def DisdroType.value (kind : DisdroType α) (name : String) (x : Option α) : Option α :=
  (x.filter fun v => !kind.invalid name v).map (kind.convert name)

/-- `parsivel2nc` (`parsivel.py:67-80`) and `thies2nc` (`thies.py:107-120`) after reading. `hours first t` is the time in hours
since the start of the day of the first record, `argsort` is NumPy's. -/
def disdroFile [Field α] [LinearOrder α] (hours : T → T → α) (argsort : List α → List ℕ) (kind : DisdroType α)
    (onDate : Option (T → Bool)) (raw : RawDisdro T α) : Except String (List α × List (String × List (Cell α))) :=
  (rawOnDate onDate raw).bind fun raw =>
    (sameSensor kind raw).bind fun _ =>
      match raw.time with
      | [] => .error "IndexError"
      | first :: _ =>
        let hs := raw.time.map (hours first)
        let data := (disdroColumns kind raw).map fun kv => (kv.1, sortedRows hs (argsort hs) kv.2)
        let times := sortedRows hs (argsort hs) hs
        if kind.required.any fun name => (data.lookup name).isNone then .error "KeyError"
        else if times.length < kind.minRecords then .error "DisdrometerDataError: Too few data points"
        else .ok (times, data.map fun kv => (kv.1, kv.2.map (Cell.map (kind.value kv.1))))

/-- `common.py:40-52` `store_vectors`. -/
def storeVectors [Field α] (nValues : List ℕ) (spreads : List α) (name : String) (start : α) : List (String × List (Cell α)) :=
  match createVectors nValues spreads start with
  | .error _ => []
  | .ok (mid, bounds, spread) =>
    [(name, mid.map fun x => .num (some x)), (name ++ "_spread", spread.map fun x => .num (some x)),
      (name ++ "_bnds", bounds.map fun b => .many [some b.1, some b.2])]

/-- Parsivel: `parsivel.py:136`, `parsivel.py:145-171`, `parsivel.py:71-73`. `toCount` is `np.power(10, x).round()`. -/
def parsivelType [Field α] [DecidableEq α] (toCount : α → α) : DisdroType α where
  idName := "_sensor_id"
  idRequired := false
  bins := storeVectors [10, 5, 5, 5, 5, 2] [1 / 10, 2 / 10, 4 / 10, 8 / 10, 16 / 10, 32 / 10] "velocity" 0
    ++ storeVectors [10, 5, 5, 5, 5, 2] [125 / 1000, 25 / 100, 5 / 10, 1, 2, 3] "diameter" 0
  invalid name x :=
    if name = "number_concentration" then decide (x = -(9999 / 1000))
    else if name = "fall_velocity" then decide (x = 0)
    else false
  required := []
  minRecords := 2
  convert name x :=
    if name = "rainfall_rate" ∨ name = "snowfall_rate" then x / (3600 / (1 / 1000))
    else if name = "diameter" ∨ name = "diameter_spread" ∨ name = "diameter_bnds" then x / 1000
    else if name = "V_sensor_supply" then x / 10
    else if name = "T_sensor" then x + 27315 / 100
    else if name = "number_concentration" then toCount x
    else x

/-- Thies: `thies.py:143-154`, `thies.py:205-206`, `thies.py:279-293`. -/
def thiesType [Field α] [LinearOrder α] : DisdroType α where
  idName := "_serial_number"
  idRequired := true
  bins := storeVectors [5, 6, 7, 1, 1] [2 / 10, 4 / 10, 8 / 10, 1, 10] "velocity" 0
    ++ storeVectors [3, 6, 13] [125 / 1000, 25 / 100, 5 / 10] "diameter" (125 / 1000)
  invalid name x := if name = "rainfall_rate" then decide (x > 999) else false
  required := ["rainfall_rate"]
  minRecords := 0
  convert name x :=
    if name = "rainfall_rate_1min_total" ∨ name = "rainfall_rate" ∨ name = "rainfall_rate_1min_solid" then
      x / (3600 / (1 / 1000))
    else if name = "diameter" ∨ name = "diameter_spread" ∨ name = "diameter_bnds" then x / 1000
    else if name = "V_sensor_supply" then x / 10
    else if name = "I_mean_laser" then x / 100
    else if name = "T_interior" ∨ name = "T_ambient" ∨ name = "T_laser_driver" then x + 27315 / 100
    else x

end

end Cloudnet
