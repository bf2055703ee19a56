import Verif.Rpg.Model
import Verif.Times.Model
import Verif.Categorize.Model

namespace Cloudnet

/-! One day of RPG cloud radar files: `instruments/rpg.py`. The binary format is read by the package `rpgpy`. -/

section
variable {α : Type} [Field α] [LinearOrder α] [FloorRing α]

/-- A file after `rpg_reader.py:19-111`: ranges, first gates of the chirps, name of the customer, the other fields of the header
(numbers, or vectors with one number for each chirp), and the data. The time stamps (seconds since 2001) are the
variable "time" of the data. -/
structure RpgObject (α : Type) where
  range : List α
  starts : List (Option ℕ)
  customer : String
  header : List (String × NdArray (Option α))
  data : List (String × NdArray (Option α))

/-- `obj.data["time"]` -/
def RpgObject.times (o : RpgObject α) : List (Option α) :=
  match o.data.lookup "time" with
  | some (.d1 ts) => ts
  | _ => []

/-- `rpg.py:282-287` `_validate_date`: are all time stamps of the expected date? -/
def RpgObject.onDate (epoch : α) (expected : ℤ) (o : RpgObject α) : Bool :=
  o.times.all fun t => t.elim false fun t => decide (dateOf epoch t = expected)

/-- The exceptions caught in `rpg.py:202`. -/
def rpgCaught (e : String) : Bool := e = "RPGFileError" || e = "TypeError" || e = "ValueError" || e = "IndexError"

/-- `rpg.py:197-206`: the loop over the files; `read` is the constructor of `Fmcw94Bin`. -/
def rpgCollect (read : String → Except String (RpgObject α)) (epoch : α) (expected : Option ℤ) :
    List String → Except String (List (String × RpgObject α))
  | [] => .ok []
  | file :: files =>
    match read file with
    | .error e => if rpgCaught e then rpgCollect read epoch expected files else .error e
    | .ok o =>
      if expected.all fun d => o.onDate epoch d then
        (rpgCollect read epoch expected files).map fun l => (file, o) :: l
      else rpgCollect read epoch expected files

/-! ## Common range -/

/-- `max(range_arrays, key=lambda r: r[-1])` (`rpg.py:221`): the first one with the highest last element. -/
def highestRange : List (List α) → List α
  | [] => []
  | r :: rs => rs.foldl (fun best s => if best.getLastD 0 < s.getLastD 0 then s else best) r

/-- `rpg.py:227-230`: one variable. -/
def resampleArray (src target : List α) (a : NdArray (Option α)) : NdArray (Option α) :=
  match a with
  | .d2 rows =>
    if rows.all fun r => r.length = src.length then
      .d2 (rows.map fun r => target.map fun v => interpolateAlongY src.length (vec src) (fun _ j => r.getD j none) 0 v)
    else a
  | _ => a

/-- `rpg.py:222-232`: the loop body of `_interpolate_to_common_height`. Chirps are known here. -/
def RpgObject.resample (target : List α) (o : RpgObject α) : RpgObject α :=
  if o.range = target then o
  else
    { o with
      range := target
      starts := (interpolateStarts (vec o.range) target.length (vec target) (o.starts.filterMap id)).map some
      data := o.data.map fun kv => (kv.1, resampleArray o.range target kv.2) }

/-- `rpg.py:216-233` `_interpolate_to_common_height`; an empty vector of ranges has no last element. -/
def toCommonHeight (objects : List (RpgObject α)) : Except String (List (RpgObject α)) :=
  let ranges := objects.map RpgObject.range
  if ranges.all fun r => decide (r = ranges.headD []) then .ok objects
  else if ranges.any fun r => r.isEmpty then .error "IndexError"
  else .ok (objects.map (RpgObject.resample (highestRange ranges)))

/-! ## Header -/

/-- `rpg.py:256-261`: a field of the header, padded from `n` to `m` chirps. -/
def padField (n m : ℕ) (a : NdArray (Option α)) : NdArray (Option α) :=
  match a with
  | .d1 xs => if xs.length = n then .d1 (padChirps m xs) else a
  | _ => a

/-- `rpg.py:252-261`: the loop body of `_pad_chirp_related_fields`. -/
def RpgObject.pad (m : ℕ) (o : RpgObject α) : RpgObject α :=
  { o with starts := padChirps m o.starts, header := o.header.map fun kv => (kv.1, padField o.starts.length m kv.2) }

/-- `rpg.py:246-262` `_pad_chirp_related_fields` (nothing is done if all numbers of chirps are equal, as there is nothing to
pad). -/
def padObjects (objects : List (RpgObject α)) : List (RpgObject α) :=
  let m := (objects.map fun o => o.starts.length).foldl max 0
  objects.map fun o => if o.starts.length = m then o else o.pad m

/-- `rpg.py:275-278`: a field of the header repeated for `n` times. A vector with one element counts as a number. -/
def expandField {β : Type} (n : ℕ) : NdArray β → NdArray β
  | .d0 x => .d1 (List.replicate n x)
  | .d1 [x] => .d1 (List.replicate n x)
  | .d1 xs => .d2 (List.replicate n xs)
  | a => a

/-- `ma.median` of a number or vector. -/
def medianField : NdArray (Option α) → NdArray (Option α)
  | .d1 xs => .d0 (if xs.filterMap id = [] then none else some (median (xs.filterMap id)))
  | a => a

/-- `rpg.py:265-279` `_expand_time_related_fields`: the fields of the header that change with time. -/
def RpgObject.expandedHeader (o : RpgObject α) : List (String × NdArray (Option α)) :=
  o.header.map fun kv =>
    if kv.1.startsWith "_" then kv
    else
      let a := if kv.1 = "latitude" ∨ kv.1 = "longitude" then medianField kv.2 else kv.2
      (kv.1, expandField o.times.length a)

/-- `rpg.py:265-279` `_expand_time_related_fields`: the first gates of the chirps. -/
def RpgObject.expandedStarts (o : RpgObject α) : NdArray (Option ℕ) := expandField o.times.length (.d1 o.starts)

/-! ## Stacking -/

/-- `np.concatenate((a, b))`: the same number of dimensions, and of columns (of arrays with rows). -/
def concatArrays {β : Type} : NdArray β → NdArray β → Except String (NdArray β)
  | .d1 xs, .d1 ys => .ok (.d1 (xs ++ ys))
  | .d2 xs, .d2 ys =>
    if (xs ++ ys).all fun r => r.length = ((xs ++ ys).headD []).length then .ok (.d2 (xs ++ ys)) else .error "ValueError"
  | _, _ => .error "ValueError"

/-- `rpg.py:160-169`: one field. -/
def stackField {β : Type} (dst : List (String × NdArray β)) (kv : String × NdArray β) :
    Except String (List (String × NdArray β)) :=
  if kv.1.startsWith "_" then .ok dst
  else
    match dst.lookup kv.1 with
    | none => .ok (dictSet dst kv.1 kv.2)
    | some a => (concatArrays a kv.2).map fun b => dictSet dst kv.1 b

/-- `rpg.py:155-170` `_stack_rpg_data`: the data or the header of all files. -/
def stackFields {β : Type} (files : List (List (String × NdArray β))) : Except String (List (String × NdArray β)) :=
  files.flatten.foldlM stackField []

/-- `rpg.py:112-121` without the name of the customer. -/
def rpgConstant : List String :=
  ["model_number", "dual_polarization", "antenna_separation", "antenna_diameter", "antenna_gain", "half_power_beam_width",
    "radar_frequency"]

/-- The elements of an array. -/
def NdArray.elements {β : Type} : NdArray β → List β
  | .d0 x => [x]
  | .d1 xs => xs
  | .d2 xs => xs.flatten
  | .d3 xs => (xs.map List.flatten).flatten
  | .dn xs => (xs.map fun r => (r.map List.flatten).flatten).flatten

/-- `rpg.py:123-133`: the loop body for a numerical field. -/
def constantField (header : List (String × NdArray (Option α))) (key : String) :
    Except String (List (String × NdArray (Option α))) :=
  match header.lookup key with
  | none => .ok header
  | some a =>
    match a.elements.dedup with
    | [] => .error "IndexError"
    | [x] => .ok (dictSet header key (.d0 x))
    | _ => .error "ValueError: More than one value"

/-- `rpg.py:177-187`: one array of the data; `isInt` tells whether it has integers. -/
def maskArray (isInt : Bool) (name : String) (a : NdArray (Option α)) : NdArray (Option α) :=
  if isInt then a
  else
    match a with
    | .d1 xs => if name = "air_temperature" ∨ name = "air_pressure" then .d1 (xs.map maskInvalid) else a
    | .d2 xs => .d2 (xs.map fun r => r.map maskInvalid)
    | _ => a

/-- The data of one day. -/
structure RpgDay (α : Type) where
  files : List String
  range : List α
  starts : NdArray (Option ℕ)
  header : List (String × NdArray (Option α))
  data : List (String × NdArray (Option α))

/-- Stacking of the first gates of the chirps (`rpg.py:155-170`). -/
def stackStarts {β : Type} : List (NdArray β) → Except String (NdArray β)
  | [] => .error "KeyError"
  | a :: l => l.foldlM concatArrays a

/-- `rpg.py:66-68` with `rpg.py:107-136` `create_one_day_data_record`; `isInt` tells which variables of the data are
integers. -/
def rpgDay (read : String → Except String (RpgObject α)) (isInt : String → Bool) (epoch : α) (expected : Option ℤ)
    (files : List String) : Except String (RpgDay α) := do
  let found ← rpgCollect read epoch expected files
  if found.isEmpty then throw "ValidTimeStampError: No valid files found"
  let objects ← toCommonHeight (found.map Prod.snd)
  let objects := padObjects objects
  let data ← stackFields (objects.map RpgObject.data)
  let header ← stackFields (objects.map RpgObject.expandedHeader)
  let starts ← stackStarts (objects.map RpgObject.expandedStarts)
  if (objects.flatMap fun o => List.replicate o.times.length o.customer).dedup.length > 1 then
    throw "ValueError: More than one value"
  let header ← rpgConstant.foldlM constantField header
  return { files := found.map Prod.fst, range := (objects.map RpgObject.range).headD [], starts := starts,
           header := header, data := data.map fun kv => (kv.1, maskArray (isInt kv.1) kv.1 kv.2) }

/-- `rpg.py:139-152` `_expand_nyquist` for the arrays of the day: rows are expanded (property C56); the elements of a vector are
numbers, which have no method `compressed`. -/
def expandNyquist (nRange : ℕ) (starts : NdArray (Option ℕ)) (nyquist : NdArray (Option α)) :
    Except String (List (List α)) :=
  match starts, nyquist with
  | .d2 ss, .d2 vs => (ss.zip vs).mapM fun sv => expandNyquistRow nRange (sv.1.map fun s => s.map Int.ofNat) sv.2
  | _, _ => .error "AttributeError"

/-- `math.isclose(a, b, abs_tol=0.1)` -/
def mathIsClose (a b : α) : Bool := decide (|a - b| ≤ max (1 / 1000000000 * max |a| |b|) (1 / 10))

/-- `rpg.py:384-392` `_get_instrument` -/
def rpgInstrument (frequency : α) : Except String String :=
  if mathIsClose frequency 35 then .ok "FMCW35"
  else if mathIsClose frequency 94 then .ok "FMCW94"
  else .error "RuntimeError: Unknown RPG cloud radar frequency"

/-- `rpg.py:376-382` `convert_units`: the new number; `none` if the variable is not converted. -/
def rpgUnit (name : String) : Option (α → α) :=
  if name = "rainfall_rate" then some fun x => x * (1 / 1000 / 3600)
  else if name = "lwp" then some fun x => x * (1 / 1000)
  else if name = "relative_humidity" then some fun x => x / 100
  else if name = "air_pressure" then some fun x => x * 100
  else if name = "wind_speed" then some fun x => x * (1000 / 3600)
  else none

end

end Cloudnet
