import Mathlib.Data.String.Basic
import Mathlib.Data.List.Basic
import Verif.Categorize.Model

namespace Cloudnet

/-! Files of Campbell Scientific data loggers: `instruments/toa5.py`. The lines are given as `csv.reader` splits them. `T` is
the type of Python's `datetime`; the parsers of `datetime.strptime` and `int` are parameters. -/

/-- `datetime.strptime(value, "%Y-%m-%d %H:%M:%S")` and `int(value)`; `none` is a `ValueError`. -/
structure ToaParsers (T : Type) where
  time : String → Option T
  int : String → Option ℤ

/-- A field after parsing. -/
inductive ToaScalar (T : Type) where
  | text (s : String)
  | time (t : T)
  | record (n : ℤ)
deriving DecidableEq

/-- An entry of a row while the file is read: a field, or the list that the row template has under this key. This list is one
object for all rows, because `row_template.copy()` (`toa5.py:35`) does not copy it. -/
inductive ToaEntry (T : Type) where
  | scalar (x : ToaScalar T)
  | shared

/-- An entry of a row that is returned. -/
inductive ToaValue (T : Type) where
  | scalar (x : ToaScalar T)
  | array (xs : List (ToaScalar T))
deriving DecidableEq

section
variable {T : Type}

/-- `key[: key.index("(")]` if there is a parenthesis (`toa5.py:31-32`, `toa5.py:44-45`). -/
def toaBase (key : String) : Option String :=
  if '(' ∈ key.toList then some (String.ofList (key.toList.takeWhile fun c => decide (c ≠ '('))) else none

/-- `toa5.py:37-43`: the value of a field. -/
def toaParse (p : ToaParsers T) (key value : String) : Except String (ToaScalar T) :=
  if key = "TIMESTAMP" then
    match p.time value with
    | some t => .ok (.time t)
    | none => .error "ValueError: time data does not match format"
  else if key = "RECORD" then
    match p.int value with
    | some n => .ok (.record n)
    | none => .error "ValueError: invalid literal for int"
  else .ok (.text value)

/-- `toa5.py:29-32`: the row template. -/
def toaTemplate (header : List String) : List (String × ToaEntry T) :=
  (header.filterMap toaBase).foldl (fun d b => dictSet d b .shared) []

/-- `toa5.py:29-32`: the lists of the row template. -/
def toaArrays (header : List String) : List (String × List (ToaScalar T)) :=
  (header.filterMap toaBase).foldl (fun d b => dictSet d b []) []

/-- `list.append` on the list under a key. -/
def appendTo {β : Type} (d : List (String × List β)) (key : String) (x : β) : List (String × List β) :=
  d.map fun kv => if kv.1 == key then (kv.1, kv.2 ++ [x]) else kv

/-- The lists of the template and the row that is being filled. -/
abbrev ToaState (T : Type) := List (String × List (ToaScalar T)) × List (String × ToaEntry T)

/-- `toa5.py:44-47`: storing a field. -/
def toaStore (st : ToaState T) (key : String) (x : ToaScalar T) : Except String (ToaState T) :=
  match toaBase key with
  | none => .ok (st.1, dictSet st.2 key (.scalar x))
  | some base =>
    match st.2.lookup base with
    | some .shared => .ok (appendTo st.1 base x, st.2)
    | some (.scalar _) => .error "AttributeError"
    | none => .error "KeyError"

/-- `toa5.py:36-47`: one field. -/
def toaField (p : ToaParsers T) (st : ToaState T) (kv : String × String) : Except String (ToaState T) :=
  (toaParse p kv.1 kv.2).bind (toaStore st kv.1)

/-- `toa5.py:34-48`: one line, given the lists of the template. -/
def toaRow (p : ToaParsers T) (header line : List String) (arrays : List (String × List (ToaScalar T))) :
    Except String (ToaState T) :=
  (header.zip line).foldlM (toaField p) (arrays, toaTemplate header)

/-- `toa5.py:34-48`: all lines. -/
def toaRows (p : ToaParsers T) (header : List String) : List (List String) → List (String × List (ToaScalar T)) →
    Except String (List (String × List (ToaScalar T)) × List (List (String × ToaEntry T)))
  | [], arrays => .ok (arrays, [])
  | line :: lines, arrays =>
    (toaRow p header line arrays).bind fun st => (toaRows p header lines st.1).map fun r => (r.1, st.2 :: r.2)

/-- What a row looks like when the file has been read. -/
def toaResolve (arrays : List (String × List (ToaScalar T))) (row : List (String × ToaEntry T)) : List (String × ToaValue T) :=
  row.map fun kv => (kv.1, match kv.2 with
    | .scalar x => .scalar x
    | .shared => .array ((arrays.lookup kv.1).getD []))

/-- `dict(zip(keys, values))`. -/
def dictZip {β : Type} (keys : List String) (values : List β) : List (String × β) :=
  (keys.zip values).foldl (fun d kv => dictSet d kv.1 kv.2) []

/-- What `read_toa5` returns: units, processing and rows. -/
structure Toa5 (T : Type) where
  units : List (String × String)
  process : List (String × String)
  rows : List (List (String × ToaValue T))

/-- `toa5.py:7-49` `read_toa5`. -/
def readToa5 (p : ToaParsers T) (lines : List (List String)) : Except String (Toa5 T) :=
  match lines with
  | [] => .error "StopIteration"
  | origin :: rest =>
    if origin.head? ≠ some "TOA5" then .error "ValueError: Invalid TOA5 file"
    else
      match rest with
      | header :: units :: process :: data =>
        (toaRows p header data (toaArrays header)).map fun r =>
          ⟨dictZip header units, dictZip header process, r.2.map (toaResolve r.1)⟩
      | _ => .error "StopIteration"

end

end Cloudnet
