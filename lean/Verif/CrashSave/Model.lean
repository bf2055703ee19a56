import Verif.Save.Model

/-!
Writing of files step by step, to say what is on disk when the writing stops anywhere: `output.py` `init_file`, `save_level1b`,
`save_product_file`, `categorize.py` `_save_cat`, `model_evaluation/file_handler.py` `save_downsampled_file` and the second pass of
`instruments/hatpro.py` `hatpro2l1c`. All of them write to the final name of the file.
-/

namespace Cloudnet

variable {β : Type}

/-- One operation on the file that is being written. -/
inductive WriteOp (β : Type) where
  | dim (name : String) (size : ℕ)
  | create (v : DiskVar β)
  | write (v : DiskVar β)
  | attr (key value : String)

/-- `createDimension`, `createVariable`, data and attributes of the variable, `setattr` of a global attribute. -/
def WriteOp.run (f : DiskFile β) : WriteOp β → DiskFile β
  | .dim name size => { f with dims := f.dims ++ [(name, size)] }
  | .create v => { f with vars := f.vars ++ [{ v with content := none, attr := fun _ => none }] }
  | .write v => { f with vars := f.vars.map fun w => if w.name = v.name then v else w }
  | .attr key value => f.set key value

/-- What is written together: a dimension, a variable with its content, or a global attribute. -/
inductive SaveStep (β : Type) where
  | dim (name : String) (size : ℕ)
  | var (v : DiskVar β)
  | attr (key value : String)

/-- The operations of a step. The data and the attributes of a variable (`output.py:456-462`) count as one operation. -/
def SaveStep.ops : SaveStep β → List (WriteOp β)
  | .dim name size => [.dim name size]
  | .var v => [.create v, .write v]
  | .attr key value => [.attr key value]

/-- The operations of a run. -/
def writeOps (steps : List (SaveStep β)) : List (WriteOp β) := steps.flatMap SaveStep.ops

/-- The file on disk when the writing stops after `k` operations. `netCDF4.Dataset(file_name, "w")` has removed an old file. -/
def stoppedAfter (steps : List (SaveStep β)) (k : ℕ) : DiskFile β := ((writeOps steps).take k).foldl WriteOp.run ⟨[], [], []⟩

/-- The file of a run that is not stopped. -/
def wholeFile (steps : List (SaveStep β)) : DiskFile β := (writeOps steps).foldl WriteOp.run ⟨[], [], []⟩

/-- `output.py:441-462`: the variable that an array becomes. -/
def arrayVar (dims : List (String × ℕ)) (a : CloudnetArray (FileArray β)) : DiskVar β :=
  ⟨a.name, a.dataType, a.dimensions.getD [], ((a.dimensions.getD []).mapM (dims.lookup ·)).getD [], a.data.masked, some a.data.content, a.written⟩

/-- `output.py:314-319` `init_file`. -/
def initSteps (version : String) (dims : List (String × ℕ)) (arrays : List (String × CloudnetArray (FileArray β))) (uuid : String) :
    List (SaveStep β) :=
  dims.map (fun d => .dim d.1 d.2) ++ arrays.map (fun a => .var (arrayVar dims a.2)) ++
    [.attr "Conventions" "CF-1.8", .attr "cloudnetpy_version" version, .attr "file_uuid" uuid]

/-- `output.py:20-43` `save_level1b`, with the dimensions and the name of the site. -/
def level1bSteps (version stamp : String) (o : L1bObject β) (dims : List (String × ℕ)) (location uuid : String) : List (SaveStep β) :=
  initSteps version dims o.data uuid ++
  [.attr "cloudnet_file_type" o.instrument.domain, .attr "title" (l1bTitle o.instrument location), .attr "year" (toString o.year),
    .attr "month" (zfill2 o.month), .attr "day" (zfill2 o.day), .attr "location" location,
    .attr "history" (stamp ++ " - " ++ o.instrument.domain ++ " file created"), .attr "source" (l1bSource o.instrument)] ++
  (match o.serial with | some s => [.attr "serial_number" s] | none => []) ++
  o.software.map (fun sv => .attr (sv.1 ++ "_version") sv.2) ++ [.attr "references" (references none [])]

/-- `instruments/hatpro.py:133-141`: the file of `save_level1b` is opened again and its attributes replaced; `title`, `history`, `source`
are the new texts. -/
def hatproL1cSteps (first : List (SaveStep β)) (title mwrpy coefficients history : String) (withLidar : Option (String × String)) :
    List (SaveStep β) :=
  first ++ [.attr "cloudnet_file_type" "mwr-l1c", .attr "title" title, .attr "mwrpy_version" mwrpy,
    .attr "mwrpy_coefficients" coefficients, .attr "history" history] ++
  (match withLidar with | some sh => [.attr "source" sh.1, .attr "history" sh.2] | none => [])

/-- `output.py:337-353` `copy_variables`: the variables that are copied to a file with the dimensions `dims` and variables `present`. -/
def copiedVars (source : DiskFile β) (dims : List (String × ℕ)) : List String → List String → List (DiskVar β)
  | _, [] => []
  | present, key :: keys =>
    match source.var key with
    | none => copiedVars source dims present keys
    | some v =>
      if key ∈ present then copiedVars source dims present keys
      else { v with shape := (v.dims.mapM (dims.lookup ·)).getD [] } :: copiedVars source dims (present ++ [v.name]) keys

/-- `output.py:368-372` `copy_global`: the attributes that are copied. -/
def copiedGlobals (source : DiskFile β) (keys : List String) : List (SaveStep β) :=
  keys.filterMap fun key => (source.globals.lookup key).map fun v => .attr key v

/-- `output.py:71-131` `save_product_file`: `extraSources` are the sources of the additional input files. -/
def productSteps (parse : Text → Option ℤ) (dtMin : ℤ) (version stamp shortId readable : String) (o : ProductObject β) (height : ℕ)
    (uuid : String) (copy : List String) (extra : List (InputFile β)) (location : String) (extraSources : List Text) : List (SaveStep β) :=
  let dims := [("time", o.nTime), ("height", height)]
  let sources := (o.input :: extra).map InputFile.attributes
  initSteps version dims o.data uuid ++ [.attr "cloudnet_file_type" shortId] ++
  (copiedVars o.input.file dims (o.data.map fun a => a.2.name)
    (["altitude", "latitude", "longitude", "time", "height"] ++ copy)).map .var ++
  [.attr "title" (capitalize readable ++ " products from " ++ location),
    .attr "source_file_uuids" (String.ofList (getSourceUuids sources))] ++
  copiedGlobals o.input.file
    ["location", "day", "month", "year", "source", "source_instrument_pids", "instrument_pid", "voodoonet_version"] ++
  (match appendExtraSources ((o.input.file.globals.lookup "source").map String.toList) extraSources with
    | some s => [.attr "source" (String.ofList s)]
    | none => []) ++
  [.attr "history" (String.ofList (mergeHistory parse dtMin (stamp ++ " - " ++ readable ++ " file created").toList sources))] ++
  [.attr "references" (references (some shortId) [])]

/-- `categorize.py:222-263` `_save_cat`. -/
def categorizeSteps (parse : Text → Option ℤ) (dtMin : ℤ) (version stamp voodoo : String) (nTime nHeight nModelTime nModelHeight : ℕ)
    (arrays : List (String × CloudnetArray (FileArray β))) (radar : InputFile β) (others : List (InputFile β)) (location uuid : String) :
    List (SaveStep β) :=
  let isVoodoo := (arrays.lookup "liquid_prob").isSome
  let fileType := if isVoodoo then "categorize-voodoo" else "categorize"
  let sources := (radar :: others).map InputFile.attributes
  let inst := addSourceInstruments (sources.map fun s => { s with source := some (s.source.getD []) })
  initSteps version [("time", nTime), ("height", nHeight), ("model_time", nModelTime), ("model_height", nModelHeight)] arrays uuid ++
  [.attr "cloudnet_file_type" fileType] ++ copiedGlobals radar.file ["year", "month", "day", "location"] ++
  [.attr "title" ("Cloud categorization products from " ++ location), .attr "source_file_uuids" (String.ofList (getSourceUuids sources)),
    .attr "references" (references (some fileType) (if isVoodoo then ["https://doi.org/10.5194/amt-15-5343-2022"] else []))] ++
  (if isVoodoo then [.attr "voodoonet_version" voodoo] else []) ++
  (match inst.1 with | some s => [.attr "source" (String.ofList s)] | none => []) ++
  (match inst.2 with | some s => [.attr "source_instrument_pids" (String.ofList s)] | none => []) ++
  [.attr "history" (String.ofList (mergeHistory parse dtMin (stamp ++ " - " ++ fileType ++ " file created").toList sources))]

/-- `model_evaluation/file_handler.py:79-97` `save_downsampled_file`. -/
def l3Steps (parse : Text → Option ℤ) (dtMin : ℤ) (version stamp product : String) (m : L3Model β) (obs : InputFile β)
    (modelFiles : List String) (productFile uuid : String) (modelName : Option String) (location : String) : List (SaveStep β) :=
  initSteps version [("time", m.nTime), ("level", m.nLevel)] m.data uuid ++
  [.attr "Conventions" "CF-1.8", .attr "cloudnet_file_type" ("l3-" ++ product),
    .attr "title" ("Observed and modeled " ++ l3Name product ++ " over " ++ location), .attr "model_id" m.name,
    .attr "model_name" (orElseText modelName m.name),
    .attr "source" (String.ofList (joinWith ['\n'] ((posixBasename productFile :: modelFiles.map posixBasename).map String.toList))),
    .attr "source_file_uuids" (String.ofList (getSourceUuids [m.input.attributes, obs.attributes]))] ++
  (match obs.file.globals.lookup "source_instrument_pids" with | some s => [.attr "source_instrument_pids" s] | none => []) ++
  copiedGlobals m.input.file ["day", "month", "year"] ++ [.attr "location" location] ++
  (if (m.input.file.globals.lookup "day").isSome then []
    else [.attr "year" m.date.1, .attr "month" m.date.2.1, .attr "day" m.date.2.2]) ++
  [.attr "history" (String.ofList
    (mergeHistory parse dtMin (stamp ++ " - L3 " ++ l3Name product ++ " file created").toList [m.input.attributes]))]

/-- `model_evaluation/products/product_resampling.py:63-65` and `:73-87`, `process_L3_day_product`: an existing file stops the run unless it may be
replaced. `save` is the rest of the run. -/
def l3Rerun (overwrite : Bool) (old : Option (DiskFile β)) (save : Option (DiskFile β) → Option (DiskFile β) × Option String) :
    Option (DiskFile β) × Option String :=
  if old.isSome && !overwrite then (old, some "FileExistsError") else save old

end Cloudnet
