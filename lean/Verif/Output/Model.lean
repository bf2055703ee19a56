import Mathlib.Data.List.Lex
import Mathlib.Data.List.Sort
import Mathlib.Data.Char
import Mathlib.Data.Int.Basic
import Mathlib.Order.Lattice

namespace Cloudnet

/-! File attributes: `output.py` and the attribute part of `cloudnetarray.py`. -/

/-- A Python string. -/
abbrev Text := List Char

/-- `text.split("\n")`. -/
def splitLines : Text → List Text
  | [] => [[]]
  | c :: cs =>
    if c = '\n' then [] :: splitLines cs
    else match splitLines cs with
      | [] => [[c]]
      | l :: ls => (c :: l) :: ls

/-- `sep.join(parts)`. -/
def joinWith (sep : Text) : List Text → Text
  | [] => []
  | [x] => x
  | x :: xs => x ++ sep ++ joinWith sep xs

/-- An input object (`DataSource`) of a product, as seen by `output.py`: `none` stands for an attribute
that does not exist. `isModel`: a `Model` instance or a file with `cloudnet_file_type` "model". -/
structure SourceFile where
  history : Option Text
  isModel : Bool
  uuid : Option Text
  source : Option Text
  pid : Text

/-- `output.py:239-249` `merge_history.extract_history`. -/
def extractHistory (s : SourceFile) : List Text :=
  match s.history with
  | none => []
  | some h => if s.isModel then [(splitLines h).getLastD []] else splitLines h

/-- `output.py:231-275` `merge_history`: the new value of the global attribute `history`. `parse` reads
the time stamp of a line (`strptime` of the part before " - "), `none` if malformed; `dtMin` is
`datetime.min`. `list.sort(key, reverse=True)` is stable, as is `insertionSort`. -/
def mergeHistory (parse : Text → Option ℤ) (dtMin : ℤ) (newRecord : Text) (sources : List SourceFile) :
    Text :=
  let histories := (sources.flatMap extractHistory).eraseDups
  let parseTime := fun line => (parse line).getD dtMin
  let histories := histories.insertionSort fun a b => parseTime b ≤ parseTime a
  newRecord ++ histories.flatMap fun h => '\n' :: h

/-- `output.py:208-228` `get_source_uuids`. -/
def getSourceUuids (sources : List SourceFile) : Text :=
  let uuids := sources.filterMap (·.uuid)
  joinWith [',', ' '] ((uuids.eraseDups).insertionSort (· ≤ ·))

/-- `output.py:278-296` `add_source_instruments`: the attributes `source` and `source_instrument_pids`
(`none`: not set). -/
def addSourceInstruments (obs : List SourceFile) : Option Text × Option Text :=
  let sources := ((obs.filterMap (·.source)).flatMap splitLines).eraseDups
  let pids := ((obs.map (·.pid)).filter (· ≠ [])).eraseDups
  (if sources = [] then none else some (joinWith ['\n'] (sources.insertionSort (· ≤ ·))),
   if pids = [] then none else some (joinWith ['\n'] (pids.insertionSort (· ≤ ·))))

/-- `output.py:134-144` `_append_extra_sources`: the attribute `source` of the output file before and
after. -/
def appendExtraSources (existing : Option Text) (extra : List Text) : Option Text :=
  if extra = [] then existing
  else
    let lines := existing.elim [] splitLines
    let merged := (lines ++ extra.filter (· ≠ [])).eraseDups
    if merged = [] then existing else some (joinWith ['\n'] merged)

/-! ### Variable attributes -/

/-- The fields of `MetaData` (`metadata.py:6-19`) besides `dimensions`. -/
inductive AttrName where
  | longName | standardName | units | comment | definition | references | ancillaryVariables
  | positive | axis | calendar | source | sourceInstrumentPid
  deriving DecidableEq

/-- `metadata.py:6-19` `MetaData`. -/
structure MetaData where
  dimensions : Option (List String)
  value : AttrName → Option String

/-- `cloudnetarray.py:14-43` `CloudnetArray`: its data (of any kind `β`) and attributes. -/
structure CloudnetArray (β : Type) where
  name : String
  data : β
  dataType : String
  dimensions : Option (List String)
  attr : AttrName → Option String

/-- Truth value of an optional string in Python. -/
def truthy (x : Option String) : Bool :=
  match x with
  | none => false
  | some s => s ≠ ""

/-- `cloudnetarray.py:97-102` `CloudnetArray.set_attributes`. -/
def CloudnetArray.setAttributes {β : Type} (a : CloudnetArray β) (m : MetaData) : CloudnetArray β :=
  { a with
    dimensions := m.dimensions
    attr := fun k => if truthy (m.value k) then m.value k else a.attr k }

/-- `output.py:423-438` `update_attributes`, with `common` the table `COMMON_ATTRIBUTES`. -/
def updateAttributes {β : Type} (common attributes : String → Option MetaData)
    (arrays : List (String × CloudnetArray β)) : List (String × CloudnetArray β) :=
  arrays.map fun kv =>
    let a := match common kv.1 with
      | none => kv.2
      | some m => kv.2.setAttributes m
    let a := match attributes kv.1 with
      | none => a
      | some m => a.setAttributes m
    (kv.1, a)

/-- `cloudnetarray.py:79-95` `fetch_attributes` and `output.py:461-462`: the attributes that are written
to the file, with their values. -/
def CloudnetArray.written {β : Type} (a : CloudnetArray β) (k : AttrName) : Option String := a.attr k

/-- The instruments of `output.py:391-408`. -/
inductive SourceKind where
  | radar | lidar | mwr | model | disdrometer
  deriving DecidableEq

/-- `output.py:391-408`, the variables of each instrument. -/
def SourceKind.keys : SourceKind → List String
  | .radar => ["v", "width", "v_sigma", "ldr", "Z", "zdr", "sldr", "radar_frequency",
      "nyquist_velocity", "rainfall_rate"]
  | .lidar => ["beta", "lidar_wavelength"]
  | .mwr => ["lwp"]
  | .model => ["uwind", "vwind", "Tw", "q", "pressure", "temperature"]
  | .disdrometer => ["rainfall_rate"]

/-- `output.py:414-419`, one variable. -/
def setSource (common : String → Option MetaData) (source : String) (pid : Option String)
    (attributes : String → Option MetaData) (key : String) : Except String (String → Option MetaData) :=
  match (attributes key).or (common key) with
  | none => .error "KeyError"
  | some m => .ok fun k =>
      if k = key then
        some { m with value := fun f =>
          if f = .source then some source else if f = .sourceInstrumentPid then pid else m.value f }
      else attributes k

/-- `output.py:389-420` `add_source_attribute`; `data i` is the source and the optional instrument PID of
instrument `i`, `none` if the instrument is missing. -/
def addSourceAttribute (common : String → Option MetaData)
    (data : SourceKind → Option (String × Option String)) (attributes : String → Option MetaData) :
    Except String (String → Option MetaData) :=
  [SourceKind.radar, .lidar, .mwr, .model, .disdrometer].foldlM (fun attributes i =>
    match data i with
    | none => .ok attributes
    | some (source, pid) => i.keys.foldlM (setSource common source pid) attributes) attributes

/-- `output.py:322-353` `copy_variables`: the variables of the target file after the copy. A variable
(data type, dimensions, attributes and data) is copied as a whole. -/
def copyVariables {β : Type} (source target : List (String × β)) (keys : List String) :
    List (String × β) :=
  keys.foldl (fun target key =>
    match source.lookup key, target.lookup key with
    | some v, none => target ++ [(key, v)]
    | _, _ => target) target

/-- `output.py:356-372` `copy_global`: the global attributes of the target file after the copy. -/
def copyGlobal {β : Type} (source : String → Option β) (target : String → Option β)
    (attributes : List String) : String → Option β :=
  attributes.foldl (fun target a =>
    match source a with
    | none => target
    | some v => fun k => if k = a then some v else target k) target

end Cloudnet
