import Verif.Output.Model
import Verif.Categorize.Model

/-!
Writing of files: `output.py` `init_file`, `save_level1b`, `save_product_file`, `categorize.py` `_save_cat` and
`model_evaluation/file_handler.py` `save_downsampled_file`, including what is left on disk if an error is raised.
-/

namespace Cloudnet

variable {β : Type}

/-- The data of a `CloudnetArray`: its shape, whether it is a masked array, and the values, of any kind `β`. -/
structure FileArray (β : Type) where
  shape : List ℕ
  masked : Bool
  content : β

/-- A variable of a netCDF file. `filled`: it has a `_FillValue`. The content is `none` as long as nothing is written. -/
structure DiskVar (β : Type) where
  name : String
  dataType : String
  dims : List String
  shape : List ℕ
  filled : Bool
  content : Option β
  attr : AttrName → Option String

/-- A netCDF file: dimensions, variables and global attributes. -/
structure DiskFile (β : Type) where
  dims : List (String × ℕ)
  vars : List (DiskVar β)
  globals : List (String × String)

/-- Writing: the file so far and the exception, if one was raised. -/
abbrev Saving (β : Type) := DiskFile β × Option String

/-- One step after others: nothing happens after an exception. -/
def Saving.next (s : Saving β) (step : DiskFile β → Saving β) : Saving β :=
  match s.2 with
  | none => step s.1
  | some _ => s

/-- `setattr(nc, key, value)`. -/
def DiskFile.set (f : DiskFile β) (key value : String) : DiskFile β := { f with globals := dictSet f.globals key value }

/-- `if value is not None: setattr(nc, key, value)`. -/
def DiskFile.setSome (f : DiskFile β) (key : String) (value : Option String) : DiskFile β :=
  match value with
  | none => f
  | some v => f.set key v

/-- Several attributes, one after the other. -/
def DiskFile.setAll (f : DiskFile β) (l : List (String × String)) : DiskFile β := l.foldl (fun f kv => f.set kv.1 kv.2) f

/-- `nc.variables[key]`. -/
def DiskFile.var (f : DiskFile β) (key : String) : Option (DiskVar β) := f.vars.find? fun v => v.name == key

/-- `output.py:441-462` `_write_vars2nc`. `fits shape sizes`: `netCDF4` accepts data of this shape for dimensions of these sizes. A
name that is in use and a dimension that is not defined are errors of `createVariable`. -/
def writeVars (fits : List ℕ → List ℕ → Bool) : DiskFile β → List (CloudnetArray (FileArray β)) → Saving β
  | f, [] => (f, none)
  | f, a :: as =>
    if a.name ∈ f.vars.map DiskVar.name then (f, some "RuntimeError")
    else
      match (a.dimensions.getD []).mapM (f.dims.lookup ·) with
      | none => (f, some "KeyError")
      | some sizes =>
        if fits a.data.shape sizes then
          writeVars fits { f with vars := f.vars ++ [⟨a.name, a.dataType, a.dimensions.getD [], sizes, a.data.masked,
            some a.data.content, a.written⟩] } as
        else
          ({ f with vars := f.vars ++ [⟨a.name, a.dataType, a.dimensions.getD [], sizes, a.data.masked, none, fun _ => none⟩] },
            some "IndexError")

/-- `output.py:299-319` `init_file` with `484-487` `add_standard_global_attributes`. The file is opened for writing, which removes an
old one. (A dimension of size 0 is unlimited in netCDF; this is not modelled.) -/
def initFile (fits : List ℕ → List ℕ → Bool) (version : String) (dims : List (String × ℕ))
    (arrays : List (String × CloudnetArray (FileArray β))) (uuid : String) : Saving β :=
  (writeVars fits ⟨dims, [], []⟩ (arrays.map Prod.snd)).next fun f =>
    (f.setAll [("Conventions", "CF-1.8"), ("cloudnetpy_version", version), ("file_uuid", uuid)], none)

/-- `s.capitalize()`, for ASCII letters. -/
def capitalize (s : String) : String :=
  match s.toList with
  | [] => ""
  | c :: cs => String.ofList (c.toUpper :: cs.map Char.toLower)

/-- `str(n).zfill(2)`. -/
def zfill2 (n : ℕ) : String := if n < 10 then "0" ++ toString n else toString n

/-! ### Level 1b -/

/-- `instruments.py:4-11` `Instrument`, without wavelength and frequency. -/
structure InstrumentInfo where
  domain : String
  category : String
  model : Option String
  manufacturer : Option String

/-- `output.py:147-152` `get_l1b_source`. -/
def l1bSource (i : InstrumentInfo) : String :=
  match i.manufacturer, i.model with
  | some a, some b => a ++ " " ++ b
  | some a, none => a
  | none, some b => b
  | none, none => capitalize i.category

/-- `output.py:160-168` `get_l1b_title`. An empty model is no model. -/
def l1bTitle (i : InstrumentInfo) (location : String) : String :=
  (match i.model with
    | some m => if m = "" then capitalize i.category else m ++ " " ++ i.category
    | none => capitalize i.category) ++ " from " ++ location

/-- `output.py:171-205` `get_references`. -/
def references (identifier : Option String) (extra : List String) : String :=
  let base := "https://doi.org/10.21105/joss.02123" ++
    (match identifier with
      | some "der" => ", https://doi.org/10.1175/1520-0426(2002)019<0835:TROSCD>2.0.CO;2"
      | some "ier" => ", https://doi.org/10.1175/JAM2340.1, https://doi.org/10.1175/JAM2543.1, https://doi.org/10.5194/amt-13-5335-2020"
      | some "lwc" => ", https://doi.org/10.1175/BAMS-88-6-883"
      | some "categorize" => ", https://doi.org/10.1175/BAMS-88-6-883"
      | some "iwc" => ", https://doi.org/10.1175/JAM2340.1"
      | some "drizzle" => ", https://doi.org/10.1175/JAM-2181.1"
      | some "epsilon-radar" => ", https://doi.org/10.5194/amt-13-5335-2020, https://doi.org/10.1002/2015JD024543"
      | _ => "")
  extra.foldl (fun r x => r ++ ", " ++ x) base

/-- What `save_level1b` uses of an instrument object. -/
structure L1bObject (β : Type) where
  data : List (String × CloudnetArray (FileArray β))
  instrument : InstrumentInfo
  siteName : Option String
  year : ℕ
  month : ℕ
  day : ℕ
  serial : Option String
  software : List (String × String)
  nDiameter : Option ℕ
  nVelocity : Option ℕ

/-- `len(a[:])`; a scalar raises. -/
def firstSize (a : CloudnetArray (FileArray β)) : Except String ℕ :=
  match a.data.shape with
  | [] => .error "IndexError"
  | n :: _ => .ok n

/-- `a[:].shape[1]`. -/
def secondSize (a : CloudnetArray (FileArray β)) : Except String ℕ :=
  match a.data.shape with
  | _ :: n :: _ => .ok n
  | _ => .error "IndexError"

/-- `output.py:47-49`: the sizes of `time` and `range` if they are there. -/
def coordinateSizes (data : List (String × CloudnetArray (FileArray β))) : List String → Except String (List (String × ℕ))
  | [] => .ok []
  | key :: keys =>
    match data.lookup key with
    | none => coordinateSizes data keys
    | some a => (firstSize a).bind fun n => (coordinateSizes data keys).map ((key, n) :: ·)

/-- `output.py:50-53`. -/
def chirpSize (data : List (String × CloudnetArray (FileArray β))) : Except String (List (String × ℕ)) :=
  match data.lookup "chirp_start_indices" with
  | none => .ok []
  | some a => match a.data.shape with
    | [] => .error "IndexError"
    | [n] => .ok [("chirp_sequence", n)]
    | _ :: n :: _ => .ok [("chirp_sequence", n)]

/-- `output.py:61-65`. -/
def tbSizes (data : List (String × CloudnetArray (FileArray β))) : Except String (List (String × ℕ)) :=
  match data.lookup "tb" with
  | none => .ok []
  | some a => (secondSize a).bind fun n =>
    match data.lookup "receiver_nb" with
    | none => .error "KeyError"
    | some r => (firstSize r).map fun m => [("frequency", n), ("receiver_nb", m), ("band", 2), ("t_amb_nb", 2)]

/-- `output.py:66-67`. -/
def irtSize (data : List (String × CloudnetArray (FileArray β))) : Except String (List (String × ℕ)) :=
  match data.lookup "irt" with
  | none => .ok []
  | some a => (secondSize a).map fun n => [("ir_channel", n)]

/-- `output.py:55-59`. -/
def disdrometerSizes (o : L1bObject β) : List (String × ℕ) :=
  match o.nDiameter, o.nVelocity with
  | some d, some v => [("diameter", d), ("velocity", v), ("nv", 2)]
  | _, _ => []

/-- `output.py:46-68` `_get_netcdf_dimensions`. -/
def netcdfDimensions (o : L1bObject β) : Except String (List (String × ℕ)) :=
  (coordinateSizes o.data ["time", "range"]).bind fun a =>
  (chirpSize o.data).bind fun b =>
  (tbSizes o.data).bind fun d =>
  (irtSize o.data).map fun e => a ++ b ++ disdrometerSizes o ++ d ++ e

/-- `output.py:28-43`, after `init_file`. `fix_attribute_name` (`490-500`) looks for an attribute `unit`, which a `CloudnetArray` does
not have. -/
def level1bGlobals (stamp : String) (o : L1bObject β) (f : DiskFile β) : Saving β :=
  match o.siteName with
  | none => (f, some "KeyError")
  | some location =>
    (f.setAll ([("cloudnet_file_type", o.instrument.domain), ("title", l1bTitle o.instrument location),
      ("year", toString o.year), ("month", zfill2 o.month), ("day", zfill2 o.day), ("location", location),
      ("history", stamp ++ " - " ++ o.instrument.domain ++ " file created"), ("source", l1bSource o.instrument)] ++
      (match o.serial with | some s => [("serial_number", s)] | none => []) ++
      o.software.map (fun sv => (sv.1 ++ "_version", sv.2)) ++ [("references", references none [])]), none)

/-- `output.py:20-43` `save_level1b`: the file on disk before and after, and the exception. -/
def saveLevel1b (fits : List ℕ → List ℕ → Bool) (version stamp : String) (o : L1bObject β) (uuid : String)
    (old : Option (DiskFile β)) : Option (DiskFile β) × Option String :=
  match netcdfDimensions o with
  | .error e => (old, some e)
  | .ok dims =>
    let s := (initFile fits version dims o.data uuid).next (level1bGlobals stamp o)
    (some s.1, s.2)

/-! ### Products -/

/-- An open input file, `DataSource`; `isModel`: an instance of `Model`. -/
structure InputFile (β : Type) where
  isModel : Bool
  file : DiskFile β

/-- The attributes of an input file that are looked at. -/
def InputFile.attributes (i : InputFile β) : SourceFile where
  history := (i.file.globals.lookup "history").map String.toList
  isModel := i.isModel || i.file.globals.lookup "cloudnet_file_type" == some "model"
  uuid := (i.file.globals.lookup "file_uuid").map String.toList
  source := (i.file.globals.lookup "source").map String.toList
  pid := ((i.file.globals.lookup "instrument_pid").getD "").toList

/-- `output.py:465-481` `_get_identifier`; `none` is a `ValueError`. -/
def identifierName (shortId : String) : Option String :=
  if shortId ∈ ["lwc", "iwc", "drizzle", "classification", "der", "ier", "classification-voodoo", "epsilon-radar"] then
    some (if shortId = "iwc" then "ice water content"
      else if shortId = "lwc" then "liquid water content"
      else if shortId = "ier" then "ice effective radius"
      else if shortId = "der" then "droplet effective radius"
      else if shortId = "epsilon-radar" then "dissipation rate of turbulent kinetic energy"
      else shortId)
  else none

/-- `output.py:322-353` `copy_variables`, with its errors. -/
def copyVars (fits : List ℕ → List ℕ → Bool) (source : DiskFile β) : DiskFile β → List String → Saving β
  | f, [] => (f, none)
  | f, key :: keys =>
    match source.var key with
    | none => copyVars fits source f keys
    | some v =>
      if key ∈ f.vars.map DiskVar.name then copyVars fits source f keys
      else
        match v.dims.mapM (f.dims.lookup ·) with
        | none => (f, some "KeyError")
        | some sizes =>
          if fits v.shape sizes then copyVars fits source { f with vars := f.vars ++ [{ v with shape := sizes }] } keys
          else ({ f with vars := f.vars ++ [{ v with shape := sizes, content := none }] }, some "IndexError")

/-- `output.py:356-372` `copy_global`. -/
def copyGlobals (source : DiskFile β) (f : DiskFile β) (attributes : List String) : DiskFile β :=
  attributes.foldl (fun f key =>
    match source.globals.lookup key with
    | none => f
    | some v => f.set key v) f

/-- What `save_product_file` uses of a product object: its arrays, the number of times, the input file. -/
structure ProductObject (β : Type) where
  data : List (String × CloudnetArray (FileArray β))
  nTime : ℕ
  input : InputFile β

/-- `output.py:92-97`: the number of heights. -/
def heightSize (o : ProductObject β) : Except String ℕ :=
  match o.data.lookup "height" with
  | some a => firstSize a
  | none =>
    match o.input.file.var "height" with
    | none => .error "KeyError"
    | some v => match v.shape with
      | [] => .error "TypeError"
      | n :: _ => .ok n

/-- `output.py:101-131`, after `init_file`. `parse` and `dtMin` as in `mergeHistory`. -/
def productGlobals (fits : List ℕ → List ℕ → Bool) (parse : Text → Option ℤ) (dtMin : ℤ) (stamp shortId readable : String)
    (o : ProductObject β) (copy : List String) (extra : List (InputFile β)) (f : DiskFile β) : Saving β :=
  (copyVars fits o.input.file (f.set "cloudnet_file_type" shortId)
    (["altitude", "latitude", "longitude", "time", "height"] ++ copy)).next fun f =>
  match o.input.file.globals.lookup "location" with
  | none => (f, some "AttributeError")
  | some location =>
    let sources := (o.input :: extra).map InputFile.attributes
    let f := f.set "title" (capitalize readable ++ " products from " ++ location)
    let f := f.set "source_file_uuids" (String.ofList (getSourceUuids sources))
    let f := copyGlobals o.input.file f
      ["location", "day", "month", "year", "source", "source_instrument_pids", "instrument_pid", "voodoonet_version"]
    match (extra.map InputFile.attributes).mapM SourceFile.source with
    | none => (f, some "AttributeError")
    | some extraSources =>
      let f := f.setSome "source"
        ((appendExtraSources ((f.globals.lookup "source").map String.toList) extraSources).map String.ofList)
      let f := f.set "history"
        (String.ofList (mergeHistory parse dtMin (stamp ++ " - " ++ readable ++ " file created").toList sources))
      (f.set "references" (references (some shortId) []), none)

/-- `output.py:71-131` `save_product_file`. -/
def saveProductFile (fits : List ℕ → List ℕ → Bool) (parse : Text → Option ℤ) (dtMin : ℤ) (version stamp shortId : String)
    (o : ProductObject β) (uuid : String) (copy : List String) (extra : List (InputFile β)) (old : Option (DiskFile β)) :
    Option (DiskFile β) × Option String :=
  match identifierName shortId with
  | none => (old, some "ValueError")
  | some readable =>
    match heightSize o with
    | .error e => (old, some e)
    | .ok n =>
      let s := (initFile fits version [("time", o.nTime), ("height", n)] o.data uuid).next
        (productGlobals fits parse dtMin stamp shortId readable o copy extra)
      (some s.1, s.2)

/-! ### Categorize file -/

/-- `categorize.py:222-263` `_save_cat`. `sources` are the input files in the order of `Observations`, the first one is the
radar; `location` is `data_obs.radar.location`, which exists; `voodoo` is the version of VoodooNet. -/
def saveCategorize (fits : List ℕ → List ℕ → Bool) (parse : Text → Option ℤ) (dtMin : ℤ) (version stamp voodoo : String)
    (nTime nHeight nModelTime nModelHeight : ℕ) (arrays : List (String × CloudnetArray (FileArray β))) (radar : InputFile β)
    (others : List (InputFile β)) (location uuid : String) : Saving β :=
  let isVoodoo := (arrays.lookup "liquid_prob").isSome
  let fileType := if isVoodoo then "categorize-voodoo" else "categorize"
  let sources := (radar :: others).map InputFile.attributes
  (initFile fits version [("time", nTime), ("height", nHeight), ("model_time", nModelTime), ("model_height", nModelHeight)]
    arrays uuid).next fun f =>
    let f := f.set "cloudnet_file_type" fileType
    let f := copyGlobals radar.file f ["year", "month", "day", "location"]
    let f := f.set "title" ("Cloud categorization products from " ++ location)
    let f := f.set "source_file_uuids" (String.ofList (getSourceUuids sources))
    let f := f.set "references"
      (references (some fileType) (if isVoodoo then ["https://doi.org/10.5194/amt-15-5343-2022"] else []))
    let f := if isVoodoo then f.set "voodoonet_version" voodoo else f
    -- `DataSource.source` is the empty text if the file has none
    let inst := addSourceInstruments (sources.map fun s => { s with source := some (s.source.getD []) })
    let f := f.setSome "source" (inst.1.map String.ofList)
    let f := f.setSome "source_instrument_pids" (inst.2.map String.ofList)
    (f.set "history" (String.ofList (mergeHistory parse dtMin (stamp ++ " - " ++ fileType ++ " file created").toList sources)), none)

/-! ### Level 3 file -/

/-- `model_metadata.py:43-47` `PRODUCT_NAMES.get(product, product)`. -/
def l3Name (product : String) : String :=
  if product = "cf" then "cloud fraction" else if product = "iwc" then "ice water content"
  else if product = "lwc" then "liquid water content" else product

/-- `os.path.basename` on POSIX. -/
def posixBasename (path : String) : String := String.ofList ((path.toList.splitOn '/').getLastD [])

/-- What `save_downsampled_file` uses of the model object: arrays, number of times and levels, input file, name and date. -/
structure L3Model (β : Type) where
  data : List (String × CloudnetArray (FileArray β))
  nTime : ℕ
  nLevel : ℕ
  input : InputFile β
  name : String
  date : String × String × String

/-- `site_name or fallback`, `model_name or fallback`. -/
def orElseText (x : Option String) (fallback : String) : String :=
  match x with
  | some s => if s = "" then fallback else s
  | none => fallback

/-- `site_name or model_obj.dataset.location`. -/
def l3Site (m : L3Model β) (siteName : Option String) : Except String String :=
  if siteName.getD "" = "" then
    match m.input.file.globals.lookup "location" with
    | some l => .ok l
    | none => .error "AttributeError"
  else .ok (siteName.getD "")

/-- `model_evaluation/file_handler.py:67-94`: the global attributes of a Level 3 file, with `103-119` `_add_source`. -/
def l3Globals (parse : Text → Option ℤ) (dtMin : ℤ) (stamp product : String) (m : L3Model β) (obs : InputFile β)
    (modelFiles : List String) (productFile : String) (modelName : Option String) (location : String) (f : DiskFile β) : DiskFile β :=
  let f := f.set "Conventions" "CF-1.8"
  let f := f.set "cloudnet_file_type" ("l3-" ++ product)
  let f := f.set "title" ("Observed and modeled " ++ l3Name product ++ " over " ++ location)
  let f := f.set "model_id" m.name
  let f := f.set "model_name" (orElseText modelName m.name)
  let f := f.set "source" (String.ofList
    (joinWith ['\n'] ((posixBasename productFile :: modelFiles.map posixBasename).map String.toList)))
  let f := f.set "source_file_uuids" (String.ofList (getSourceUuids [m.input.attributes, obs.attributes]))
  let f := f.setSome "source_instrument_pids" (obs.file.globals.lookup "source_instrument_pids")
  let f := copyGlobals m.input.file f ["day", "month", "year"]
  let f := f.set "location" location
  let f := if (m.input.file.globals.lookup "day").isSome then f
    else ((f.set "year" m.date.1).set "month" m.date.2.1).set "day" m.date.2.2
  f.set "history" (String.ofList
    (mergeHistory parse dtMin (stamp ++ " - L3 " ++ l3Name product ++ " file created").toList [m.input.attributes]))

/-- `model_evaluation/file_handler.py:51-96` `save_downsampled_file`. -/
def saveL3 (fits : List ℕ → List ℕ → Bool) (parse : Text → Option ℤ) (dtMin : ℤ) (version stamp product : String) (m : L3Model β)
    (obs : InputFile β) (modelFiles : List String) (productFile uuid : String) (modelName siteName : Option String)
    (old : Option (DiskFile β)) : Option (DiskFile β) × Option String :=
  match l3Site m siteName with
  | .error e => (old, some e)
  | .ok location =>
    let s := (initFile fits version [("time", m.nTime), ("level", m.nLevel)] m.data uuid).next fun f =>
      (l3Globals parse dtMin stamp product m obs modelFiles productFile modelName location f, none)
    (some s.1, s.2)

end Cloudnet
