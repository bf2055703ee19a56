import Verif.Basic
import Verif.Arrays.Model
import Mathlib.Algebra.Order.Field.Basic
import Mathlib.Algebra.Order.Group.Unbundled.Abs
import Mathlib.Data.List.Sort

namespace Cloudnet

/-! Concatenating and updating netCDF files: `cloudnetpy/concat_lib.py`. The concatenation dimension is
called "time" and the interpolation dimension "range" below. -/

/-- One record of a variable: its values along the second axis (a single one for 1-D variables and
scalars). `none` is the fill value. -/
abbrev Row (α : Type) := List (Option α)

/-- A netCDF variable of up to two dimensions. `static` has no time axis; `series` has one, and a record
for each index (unlimited dimension: records never written hold fill values). `dims` are the other
dimensions. -/
inductive NcVar (α : Type) where
  | static (dims : List String) (value : Row α)
  | series (dims : List String) (rows : ℕ → Row α)

/-- A netCDF file: `n` is the length of the time dimension. `broken` lists the variables whose reading
fails with an HDF error. Attributes, types and compression are left out; shapes are assumed to fit (else
the netCDF library raises); values are stored numbers, without scaling. -/
structure NcFile (α : Type) where
  n : ℕ
  vars : List (String × NcVar α)
  broken : List String

/-- `nc["range"][:]`: the values of a static variable. -/
def NcFile.rangeValues {α : Type} (f : NcFile α) : Row α :=
  match f.vars.lookup "range" with
  | some (.static _ v) => v
  | _ => []

section
variable {α : Type} [Field α] [LinearOrder α]

/-- `concat_lib.py:149-155` `_is_valid_file` (a missing range variable raises `IndexError`). -/
def NcFile.isValid (f : NcFile α) : Bool := decide (0 < f.n) && decide (f.rangeValues.length < 10000)

/-- `concat_lib.py:219-228` `_expand_array`: dimensions besides time (`none`: no time axis) and the
records. -/
def expandArray (key : String) (v : NcVar α) : NcVar α :=
  match v with
  | .series dims rows => .series dims rows
  | .static dims value => if key ≠ "range" then .series dims (fun _ => value) else .static dims value

/-- A record full of fill values, as wide as the record given. -/
def fillLike (r : Row α) : Row α := r.map fun _ => none

/-- The fill record of a variable. -/
def NcVar.fillRow (v : NcVar α) : Row α :=
  match v with
  | .static _ value => fillLike value
  | .series _ rows => fillLike (rows 0)

/-- `concat_lib.py:185-217` `_write_initial_data`: the variables of the output after the first file.
`keep` restricts the variables with a time axis, `ignore` removes any. -/
def writeInitialData (first : NcFile α) (keep : Option (List String)) (ignore : List String) :
    NcFile α where
  n := first.n
  broken := []
  vars := (first.vars.filter fun kv =>
      !((match keep with
          | some ks => !ks.contains kv.1 && kv.1 != "time" &&
              (match kv.2 with | .series _ _ => true | .static _ _ => false)
          | none => false)
        || ignore.contains kv.1)).map fun kv =>
    (kv.1, match expandArray kv.1 kv.2 with
      | .series dims rows => .series dims fun i => if i < first.n then rows i else kv.2.fillRow
      | .static dims value => .static dims value)

/-- `concat_lib.py:244-255`: nearest neighbour interpolation of one record from the range gates of the
file to those of the first file; gates outside get the fill value. -/
def interpRow (x xTarget : Row α) (r : Row α) : Row α :=
  let xs : ℕ → α := fun i => ((x.getD i none)).getD 0
  let m := x.length - 1
  xTarget.map fun t =>
    let v := t.getD 0
    if v < xs (argmin xs m) ∨ xs (argmax xs m) < v then none
    else r.getD (argmin (fun i => |xs i - v|) m) none

/-- The records that `_append_data` writes for one variable of the file. -/
def appendRows (first file : NcFile α) (key : String) (v : NcVar α) : ℕ → Row α :=
  match expandArray key v with
  | .static _ value => fun _ => value
  | .series dims rows =>
    if "range" ∈ dims ∧ first.rangeValues.length ≠ file.rangeValues.length then
      fun i => interpRow file.rangeValues first.rangeValues (rows i)
    else rows

/-- Is the variable `key` of the output appended from this file (`concat_lib.py:239`)? -/
def isAppended (file : NcFile α) (key : String) : Bool :=
  (file.vars.lookup key).isSome && key != "range"

/-- `concat_lib.py:230-257` `_append_data`: variables are written one after another; an HDF error while
reading one of them ends the loop with the earlier ones already written. Returns the new output and
whether the file was read to the end. -/
def appendData (first : NcFile α) (out file : NcFile α) : NcFile α × Bool :=
  let bad : String → Bool := fun key => isAppended file key && file.broken.contains key
  let keys := out.vars.map (·.1)
  let written := (keys.takeWhile fun key => !bad key).filter (isAppended file)
  let vars := out.vars.map fun kv =>
    if kv.1 ∈ written then
      (kv.1, match kv.2, file.vars.lookup kv.1 with
        | .series dims rows, some v => .series dims fun i =>
            if out.n ≤ i ∧ i < out.n + file.n then appendRows first file kv.1 v (i - out.n) else rows i
        | w, _ => w)
    else kv
  ({ n := if written = [] then out.n else out.n + file.n, vars := vars, broken := [] },
    keys.all fun key => !bad key)

/-- `concat_lib.py:164-183` `concat_data` for the sorted list of valid files: output file and names of
the files used. -/
def concatData {ν : Type} (first : ν × NcFile α) (rest : List (ν × NcFile α))
    (keep : Option (List String)) (ignore : List String) : NcFile α × List ν :=
  rest.foldl (fun acc file =>
      let r := appendData first.2 acc.1 file.2
      (r.1, if r.2 then acc.2 ++ [file.1] else acc.2))
    (writeInitialData first.2 keep ignore, [first.1])

/-- `concat_lib.py:90-147` `concatenate_files`: files are named, valid ones sorted by name. -/
def concatenateFiles {ν : Type} [LinearOrder ν] (files : List (ν × NcFile α))
    (keep : Option (List String)) (ignore : List String) : Except String (NcFile α × List ν) :=
  match (files.filter fun f => f.2.isValid).insertionSort (fun a b => a.1 ≤ b.1) with
  | [] => .error "ValidTimeStampError: No valid files to concatenate."
  | first :: rest => .ok (concatData first rest keep ignore)

/-! ### `update_nc` -/

/-- `nc.variables["time"][i]`; a masked time never compares as later. -/
def NcFile.timeAt (f : NcFile α) (i : ℕ) : Option α :=
  match f.vars.lookup "time" with
  | some (.series _ rows) => (rows i).getD 0 none
  | _ => none

/-- `new > old`, false if either is masked. -/
def later (new old : Option α) : Bool :=
  match new, old with
  | some a, some b => decide (b < a)
  | _, _ => false

/-- `concat_lib.py:299-303` `_find_valid_time_indices`. -/
def findLaterIndices (old new : NcFile α) : List ℕ :=
  (List.range new.n).filter fun i => later (new.timeAt i) (old.timeAt (old.n - 1))

/-- `concat_lib.py:306-325` `_update_fields`: only variables of one or two dimensions that exist in both
files are written; record `i` of the new file goes to position `old.n + i`. Records between that are not
written hold fill values. -/
def updateFields (old new : NcFile α) (validInd : List ℕ) : NcFile α where
  n := old.n + validInd.getLast?.getD 0 + 1
  broken := old.broken
  vars := old.vars.map fun kv =>
    (kv.1, match kv.2, new.vars.lookup kv.1 with
      | .series dims rows, some (.series dims' rows') => .series dims fun i =>
          if i < old.n then rows i
          else if dims'.length ≤ 1 ∧ i - old.n ∈ validInd then rows' (i - old.n) else fillLike (rows 0)
      | .series dims rows, _ => .series dims fun i =>
          if i < old.n then rows i else fillLike (rows 0)
      | v, _ => v)

/-- `concat_lib.py:62-87` `update_nc`; `none` is a file that cannot be opened. The old file must contain
a record (`time[-1]`). -/
def updateNc (old : NcFile α) (new : Option (NcFile α)) : Except String (ℕ × NcFile α) :=
  match new with
  | none => .ok (0, old)
  | some new =>
    if old.n = 0 then .error "IndexError"
    else
      let validInd := findLaterIndices old new
      if 0 < validInd.length then .ok (1, updateFields old new validInd) else .ok (0, old)

end

end Cloudnet
