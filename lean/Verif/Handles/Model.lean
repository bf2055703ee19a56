/-!
Which files a call leaves open: `datasource.py`, `categorize/categorize.py`, `products/*.py`, `model_evaluation/products/product_resampling.py`, `concat_lib.py` and
`output.py:299-321`. Every step may fail. Files are open from `netCDF4.Dataset` to `close`; that the garbage collector may close them later is not modelled. Closing does
not fail.
-/

namespace Cloudnet

/-- The files of a call, by their role: one path may be given in several roles. -/
inductive FileRole where
  | radar | lidar | model | mwr | disdrometer | categorize | observations | output
  | raw (n : Nat)
deriving DecidableEq

/-- Steps that may fail: opening a file, the rest of a constructor or of the first writing, and the work of a call. -/
inductive FileStep where
  | opening (f : FileRole)
  | starting (f : FileRole)
  | work (name : String)
deriving DecidableEq

/-- The exception of each step, `none` if it succeeds. -/
abbrev FileWorld := FileStep → Option String

/-- A part of a call: result, and files that are open. -/
def FileM (β : Type) := List FileRole → Except String β × List FileRole

/-- One part after the other. -/
def FileM.andThen {β γ : Type} (a : FileM β) (b : FileM γ) : FileM γ := fun s =>
  match a s with
  | (.error e, s) => (.error e, s)
  | (.ok _, s) => b s

/-- `try: ... finally: ...` and the exit of `with`. -/
def FileM.finally {β : Type} (a : FileM β) (h : List FileRole → List FileRole) : FileM β := fun s => ((a s).1, h (a s).2)

/-- A step that leaves files alone. -/
def fileStep (w : FileWorld) (x : FileStep) : FileM Unit := fun s =>
  match w x with
  | some e => (.error e, s)
  | none => (.ok (), s)

/-- `netCDF4.Dataset(...)`. -/
def openFile (w : FileWorld) (f : FileRole) : FileM Unit := fun s =>
  match w (.opening f) with
  | some e => (.error e, s)
  | none => (.ok (), f :: s)

/-- `datasource.py:132-134` `close`. -/
def closeFile (f : FileRole) (s : List FileRole) : List FileRole := s.filter (· ≠ f)

/-- `datasource.py:54-69` `DataSource.__init__` with the constructors of subclasses (`categorize/radar.py:39-47`, `categorize/disdrometer.py:19-21` and others): the file is opened, and
then read. -/
def dataSource (w : FileWorld) (f : FileRole) : FileM Unit := (openFile w f).andThen (fileStep w (.starting f))

/-- `with netCDF4.Dataset(...) as nc:`. -/
def withDataset {β : Type} (w : FileWorld) (f : FileRole) (body : FileM β) : FileM β := (openFile w f).andThen (body.finally (closeFile f))

/-- `with DataSource(...) as source:` (`datasource.py:180-189`). -/
def withDataSource {β : Type} (w : FileWorld) (f : FileRole) (body : FileM β) : FileM β := (dataSource w f).andThen (body.finally (closeFile f))

/-- `with output.init_file(...) as nc:` (`output.py:299-321`, used by `output.py` `save_product_file` and `categorize/categorize.py:240`): variables are written before the file is given to
`with`. -/
def saveFile (w : FileWorld) : FileM Unit := withDataSource w .output (fileStep w (.work "attributes"))

/-- Products of a categorize file: `products/iwc.py:47-61`, `products/ier.py:63-75`, `products/lwc.py:54-73`, `products/der.py:73-83`, `products/drizzle.py:50-70`. The masks are read
with `with` inside (`products/product_tools.py:96-121`). -/
def productCall (w : FileWorld) : FileM Unit :=
  withDataSource w .categorize ((withDataset w (.raw 0) (fileStep w (.work "bits"))).andThen ((fileStep w (.work "retrieval")).andThen (saveFile w)))

/-- `products/classification.py:45-80`: the masks are read before. -/
def classificationCall (w : FileWorld) : FileM Unit :=
  (withDataset w (.raw 0) (fileStep w (.work "bits"))).andThen (withDataSource w .categorize ((fileStep w (.work "retrieval")).andThen (saveFile w)))

/-- `products/epsilon_radar.py:57-80`. -/
def epsilonRadarCall (w : FileWorld) : FileM Unit :=
  withDataSource w .radar (withDataSource w .model ((fileStep w (.work "retrieval")).andThen (saveFile w)))

/-- `categorize/categorize.py:177-183`: an optional file is opened as an attribute of `data`; `caught` is the exception that is logged. -/
def optionalSource (w : FileWorld) (given : Bool) (f : FileRole) (caught : Option String) (bound : List FileRole) :
    List FileRole → Except String (List FileRole) × List FileRole := fun s =>
  if given then
    match dataSource w f s with
    | (.ok _, s) => (.ok (f :: bound), s)
    | (.error e, s) => if some e = caught then (.ok bound, s) else (.error e, s)
  else (.ok bound, s)

/-- `categorize/categorize.py:162-167` `_close_all` with the attributes of `data`. -/
def closeBound (bound : List FileRole) (s : List FileRole) : List FileRole := s.filter (· ∉ bound)

/-- `categorize/categorize.py:169-219`. `data` is bound after the constructors of radar, lidar and model; `_close_all` closes what is bound to it. -/
def categorizeCall' (w : FileWorld) (mwr disdrometer : Bool) : FileM Unit := fun s =>
  match ((dataSource w .radar).andThen ((dataSource w .lidar).andThen (dataSource w .model))) s with
  | (.error e, s) => (.error e, s)
  | (.ok _, s) =>
    match optionalSource w mwr .mwr none [.radar, .lidar, .model] s with
    | (.error e, s) => (.error e, closeBound [.radar, .lidar, .model] s)
    | (.ok bound, s) =>
      match optionalSource w disdrometer .disdrometer (some "DisdrometerDataError") bound s with
      | (.error e, s) => (.error e, closeBound bound s)
      | (.ok bound, s) => ((fileStep w (.work "categorize")).andThen (saveFile w)).finally (closeBound bound) s

/-- `model_evaluation/products/product_resampling.py:62-91`. The exception of the cirrus filter that is caught is not a failure here. -/
def level3Call (w : FileWorld) : FileM Unit :=
  (dataSource w .observations).andThen ((dataSource w .model).andThen
    (((fileStep w (.work "resampling")).andThen (saveFile w)).finally fun s => closeFile .observations (closeFile .model s)))

/-- `concat_lib.py:149-155` for each file (`concat_lib.py:138-141`). -/
def validFiles (w : FileWorld) : List Nat → FileM Unit
  | [] => fun s => (.ok (), s)
  | n :: l => (withDataset w (.raw n) (fileStep w (.work s!"valid {n}"))).andThen (validFiles w l)

/-- `concat_lib.py:165-183` `concat_data`, the files after the first: the exception of the netCDF library that is caught. -/
def appendFiles (w : FileWorld) : List Nat → FileM Unit
  | [] => fun s => (.ok (), s)
  | n :: l => fun s =>
    match withDataset w (.raw n) (fileStep w (.work s!"append {n}")) s with
    | (.error e, s) => if e = "RuntimeError: NetCDF: HDF error" then appendFiles w l s else (.error e, s)
    | (.ok _, s) => appendFiles w l s

/-- `concat_lib.py:121-123` `concatenate_files` with `concat_lib.py:129-147` and `concat_lib.py:259-286`; the first of the files has the role `categorize` here while it is open as
`first_file`. Creating the dimensions is the start of the output. -/
def concatenateCall (w : FileWorld) (files rest : List Nat) : FileM Unit :=
  (validFiles w files).andThen ((openFile w .categorize).andThen ((dataSource w .output).andThen
    (((fileStep w (.work "first")).andThen (appendFiles w rest)).finally fun s => closeFile .output (closeFile .categorize s))))

end Cloudnet
