import Verif.Output.Model

/-!
The tables of variable attributes are dictionaries of modules that every call changes and none restores: `output.py` `add_time_attribute` and
`add_source_attribute`, the comments of `products/iwc.py`, `products/ier.py` and `products/der.py`; and the attributes of Level 3 files
(`model_evaluation/file_handler.py`).
-/

namespace Cloudnet

/-- A dictionary of attributes by variable. -/
abbrev AttrTable := String → Option MetaData

/-- `attributes[key] = attributes[key]._replace(...)`, where a missing key is first taken from the common table if `fallback`. -/
structure TableEdit where
  key : String
  fallback : Bool
  fields : List (AttrName × Option String)

/-- `_replace` of a named tuple. -/
def MetaData.replace (m : MetaData) (fields : List (AttrName × Option String)) : MetaData :=
  { m with value := fun f => (fields.lookup f).getD (m.value f) }

/-- One edit; the error is that of a missing key. -/
def TableEdit.run (common : AttrTable) (table : AttrTable) (e : TableEdit) : AttrTable × Option String :=
  match if e.fallback then (table e.key).or (common e.key) else table e.key with
  | none => (table, some "KeyError")
  | some m => (fun k => if k = e.key then some (m.replace e.fields) else table k, none)

/-- A call that edits the table: its edits, and how the editing ends. -/
structure TableCall where
  edits : List TableEdit
  error : Option String

/-- Edits one after the other until one fails; what was done stays. -/
def runEdits (common : AttrTable) (table : AttrTable) : List TableEdit → AttrTable × Option String
  | [] => (table, none)
  | e :: es =>
    match e.run common table with
    | (t, none) => runEdits common t es
    | (t, some err) => (t, some err)

/-- `output.py:375-386` `add_time_attribute`. -/
def timeEdit (date key : String) : TableEdit := ⟨key, true, [(.units, some ("hours since " ++ date ++ " 00:00:00 +00:00"))]⟩

/-- The calls of the instruments, for instance `instruments/ceilo.py:138`, `instruments/mira.py:114`, `instruments/rpg.py:87`, and of the products
without own comments, for instance `products/lwc.py:61`, `products/drizzle.py:67`, `products/classification.py:77`. -/
def instrumentCall (date : String) : TableCall := ⟨[timeEdit date "time"], none⟩

/-- `products/iwc.py:56-58`, `products/ier.py:71-72`, `products/der.py:79-80`: the date and the comments of some variables. -/
def commentCall (date : String) (comments : List (String × String)) : TableCall :=
  ⟨timeEdit date "time" :: comments.map fun c => ⟨c.1, false, [(.comment, some c.2)]⟩, none⟩

/-- `output.py:410-419`: one instrument; the file has an attribute `source` and perhaps `instrument_pid`. -/
def sourceEdits (i : SourceKind) (source : String) (pid : Option String) : List TableEdit :=
  i.keys.map fun key => ⟨key, true, [(.source, some source), (.sourceInstrumentPid, pid)]⟩

/-- `output.py:409-420` `add_source_attribute`: the instruments in order; an input file without `source` raises `AttributeError`. -/
def allSourceEdits (data : SourceKind → Option (Option String × Option String)) : List SourceKind → TableCall
  | [] => ⟨[], none⟩
  | i :: is =>
    match data i with
    | none => allSourceEdits data is
    | some (none, _) => ⟨[], some "AttributeError"⟩
    | some (some source, pid) => ⟨sourceEdits i source pid ++ (allSourceEdits data is).edits, (allSourceEdits data is).error⟩

/-- `categorize/categorize.py:212-214`. -/
def categorizeCall (date : String) (data : SourceKind → Option (Option String × Option String)) : TableCall :=
  let s := allSourceEdits data [.radar, .lidar, .mwr, .model, .disdrometer]
  ⟨timeEdit date "time" :: timeEdit date "model_time" :: s.edits, s.error⟩

/-- The table after a call. -/
def TableCall.after (common : AttrTable) (table : AttrTable) (c : TableCall) : AttrTable := (runEdits common table c.edits).1

/-- The arrays of a call with their attributes (`output.py:423-438` `update_attributes`), or the error of the call. -/
def TableCall.result {β : Type} (common : AttrTable) (table : AttrTable) (c : TableCall) (arrays : List (String × CloudnetArray β)) :
    Except String (List (String × CloudnetArray β)) :=
  match (runEdits common table c.edits).2, c.error with
  | some e, _ => .error e
  | none, some e => .error e
  | none, none => .ok (updateAttributes common (runEdits common table c.edits).1 arrays)

/-- The table of a module after the calls of a process. -/
def tableAfter (common : AttrTable) (table : AttrTable) (history : List TableCall) : AttrTable := history.foldl (TableCall.after common) table

/-! ### Threads -/

/-- What threads do with the table of a module: set the date, and read the table for the arrays of the file. -/
inductive TableEvent where
  | setDate (thread : ℕ) (date : String)
  | read (thread : ℕ)
deriving DecidableEq

/-- The tables that the threads have read, in order. -/
def threadTables (common : AttrTable) : AttrTable → List TableEvent → List (ℕ × AttrTable)
  | _, [] => []
  | table, .setDate _ date :: es => threadTables common ((timeEdit date "time").run common table).1 es
  | table, .read thread :: es => (thread, table) :: threadTables common table es

/-! ### Level 3 -/

/-- `model_evaluation/metadata.py`, the four tables. -/
structure L3Tables where
  model : AttrTable
  l3 : AttrTable
  cycle : AttrTable
  regrid : AttrTable

/-- Apply the attributes of a table if the key is there. -/
def setFrom {β : Type} (m : Option MetaData) (a : CloudnetArray β) : CloudnetArray β := match m with | none => a | some m => a.setAttributes m

/-- `model_evaluation/file_handler.py:36-48` `update_attributes`, one array. -/
def l3Attributes {β : Type} (t : L3Tables) (attributes : AttrTable) (key : String) (a : CloudnetArray β) : CloudnetArray β :=
  let a := setFrom (attributes key) a
  if (t.model key).isSome then setFrom (t.model key) a
  else if "model_".toList.isPrefixOf key.toList then
    let base := String.ofList (key.toList.drop 6)
    if (t.l3 base).isSome then setFrom (t.l3 base) a else setFrom (t.cycle base) a
  else setFrom (t.regrid key) a

/-- `model_evaluation/file_handler.py:117-131` `add_time_attribute`. -/
def l3TimeTable (t : L3Tables) (date : String) : AttrTable :=
  fun k => if k = "time" then (t.model "time").map fun m => m.replace [(.units, some ("hours since " ++ date ++ " 00:00:00 +00:00"))] else none

end Cloudnet
