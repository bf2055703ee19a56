import Verif.Mira.Model

namespace Cloudnet

/-! METEK MRR-PRO rain radars: `instruments/mrr.py`, with the parts of `instruments/nc_radar.py` it uses. -/

section
variable {α : Type} [Field α] [LinearOrder α] [FloorRing α]

/-- A pixel of a variable of a file: is it masked, and the number in the file (`none` if not finite). -/
structure RawPixel (α : Type) where
  masked : Bool
  number : Option α

/-- `nc_radar.py:43-48`, an array with one row for each time. An array with one row counts as a scalar: its mask is
lost. Numbers that are not finite are missing. -/
def initArray (rows : List (List (RawPixel α))) : List (List (Option α)) :=
  if rows.length = 1 then rows.map fun r => r.map fun p => p.number
  else rows.map fun r => r.map fun p => if p.masked then none else p.number

/-- The file: variables with time and range, time stamps (seconds since 1970), ranges and elevation angles. -/
structure MrrFile (α : Type) where
  vars : List (String × List (List (RawPixel α)))
  stamps : List α
  range : List α
  elevation : List (Option α)

/-- `mrr.py:55-62` -/
def mrrKeymap : List (String × String) :=
  [("RR", "rainfall_rate"), ("WIDTH", "width"), ("VEL", "v"), ("LWC", "lwc"), ("Ze", "Zh"), ("PIA", "pia")]

/-- `mrr.py:101`, `nc_radar.py:38-49` `init_data`. -/
def mrrInit (f : MrrFile α) : List (String × NdArray (Option α)) :=
  initData mrrKeymap (f.vars.map fun kv => (kv.1, NdArray.d2 (initArray kv.2)))

/-- The same operation for all numbers of an array. -/
def NdArray.mapNumbers (g : α → α) : NdArray (Option α) → NdArray (Option α)
  | .d0 x => .d0 (x.map g)
  | .d1 xs => .d1 (xs.map (Option.map g))
  | .d2 xs => .d2 (xs.map fun r => r.map (Option.map g))
  | .d3 xs => .d3 (xs.map fun r => r.map fun s => s.map (Option.map g))
  | .dn xs => .dn (xs.map fun r => r.map fun s => s.map fun u => u.map (Option.map g))

/-- `mrr.py:146-148`: the new number. -/
def mrrUnit (name : String) (x : α) : α :=
  if name = "v" then x * -1 else if name = "rainfall_rate" then x / 3600000 else if name = "lwc" then x * (1 / 1000) else x

/-- `mrr.py:145-148` `fix_units` -/
def mrrFixUnits (data : List (String × NdArray (Option α))) : Except String (List (String × NdArray (Option α))) :=
  if ["v", "rainfall_rate", "lwc"].all fun k => (data.lookup k).isSome then
    .ok (data.map fun kv => (kv.1, kv.2.mapNumbers (mrrUnit kv.1)))
  else .error "KeyError"

/-- `mrr.py:157-162`: positions of the time stamps of the expected date. -/
def mrrOnDate (stamps : List α) (expected : ℤ) : List ℕ :=
  (List.range stamps.length).filter fun i => decide (dateOf 0 (vec stamps i) = expected)

/-- `mrr.py:155-163` `screen_by_date`, if a date is given (`mrr.py:104-105`). -/
def mrrScreen (date : Option ℤ) (stamps : List α) (d : Instrument (Option α)) : Except String (Instrument (Option α)) :=
  match date with
  | some e => d.screenTimeIndices (.idx (mrrOnDate stamps e))
  | none => .ok d

/-- `nc_radar.py:53-58`, `mrr.py:165-169` `fix_range`: ranges above the first gate. -/
def mrrRange (correction : Option α) (range : List α) : Except String (List α) :=
  let r := match correction with
    | some c => range.map (· * c)
    | none => range
  match r with
  | [] => .error "IndexError"
  | first :: _ => .ok (r.map (· - first))

/-- `mrr.py:100-112`: the date and the arrays. `argsort` is what `argsort` returns for a list of times. Position, frequency,
Nyquist velocity and height (property C94) are left out. The file is the concatenation of the input files
(property C39). -/
def mrr2nc (date : Option ℤ) (correction : Option α) (argsort : List α → List ℕ) (f : MrrFile α) :
    Except String (ℤ × Instrument (Option α)) := do
  let hours ← initTime (some (f.stamps.length, vec f.stamps))
  let data ← mrrFixUnits (mrrInit f)
  let d ← mrrScreen date f.stamps ⟨data, (List.range f.stamps.length).map fun i => some (hours i)⟩
  let range ← mrrRange correction f.range
  let data := dictSet (dictSet d.data "range" (.d1 (range.map some))) "time" (.d1 d.time)
  let data := dictSet data "zenith_angle" (.d1 (f.elevation.map fun x => x.map fun e => 90 - e))
  let d : Instrument (Option α) := ⟨data, d.time⟩
  let d ← d.screenTimeIndices (.idx (argsort (d.getTime.filterMap id)))
  return (dateOf 0 (vec f.stamps 0), d)

end

/-! ## Input files -/

/-- `Path(name).suffix` (Python): from the last dot on, unless this is the first or last character. -/
def pathSuffix (name : String) : List Char :=
  let cs := name.toList
  let ext := (cs.reverse.takeWhile (· ≠ '.')).reverse
  if ext.length = cs.length ∨ ext = [] ∨ ext.length + 1 = cs.length then [] else '.' :: ext

/-- The argument `input_file`: a path that is a file, a directory with its content, or a list of files. -/
inductive MrrInput where
  | file (path : String)
  | dir (path : String) (listing : List String)
  | files (paths : List String)

/-- `mrr.py:64-98`: the files given to `concatenate_files` (which sorts them, property C39); `none` if the argument is read
itself. `readable` tells which files `netCDF4.Dataset` opens. -/
def mrrFiles (readable : String → Bool) : MrrInput → Option (List String)
  | .file _ => none
  | .dir path listing =>
    some (((listing.filter fun f => (pathSuffix f).map Char.toLower == ".nc".toList).map fun f =>
      path ++ "/" ++ f).filter readable)
  | .files paths => some (paths.filter readable)

end Cloudnet
