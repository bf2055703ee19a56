import Verif.Cli.Model
import Verif.MwrTools.Model

/-!
A run of the command line interface (`cli.py:44-118` `run`): what is downloaded and made, in which order and from which files.
Plotting is not modelled.
-/

namespace Cloudnet

/-- A file below the folder of the site and day: `instrument`, `geophysical` or `evaluation`, and its name. -/
abbrev CliPath := String × String

/-- Stands for the `None` that is stored for an instrument product with the flag `--dl` (`cli.py:291-292`). -/
def noPath : CliPath := ("", "")

/-- A call of a processing function. -/
inductive Job where
  | instrument (function product : String) (instrument : CliInstrument) (files : List RawFile) (output : CliPath)
  | categorize (inputs : List (String × CliPath)) (output : CliPath)
  | level2 (product : String) (input : CliPath) (output : String)
  | radiometer (product : String) (input output : CliPath)
  | epsilonRadar (radar model output : CliPath)
  | evaluation (product model : String) (observations modelFile output : CliPath)
deriving DecidableEq

/-- What a run does: ask for raw files, ask for a product file, call a processing function. -/
inductive CliAction where
  | raw (instrument : CliInstrument) (files : List RawFile)
  | fetch (path : CliPath)
  | make (job : Job)
deriving DecidableEq

/-- Actions so far, and a value or an exception. -/
abbrev RunM (α : Type) := List CliAction × Except String α

def RunM.pure {α : Type} (a : α) : RunM α := ([], .ok a)

def RunM.bind {α β : Type} (x : RunM α) (f : α → RunM β) : RunM β :=
  match x.2 with
  | .error e => (x.1, .error e)
  | .ok a => (x.1 ++ (f a).1, (f a).2)

/-- The data portal for a site and day, with the source products and the files of each model (`none`: any model). -/
structure CliSite where
  portal : Portal
  sourceProducts : String → List String
  modelFiles : Option String → List ProductFile

/-- The command line: products (`cli.py:739-747`), preferences (`cli.py:498-525`), site, date, root of the output, flags and model. -/
structure CliArgs where
  products : List String
  prefs : List (String × List String)
  site : String
  date : String
  output : String
  dl : Bool
  model : Option String

/-- The portal as `categorize` sees it. -/
def CliSite.forModel (s : CliSite) (model : Option String) : Portal := { s.portal with modelFiles := s.modelFiles model }

/-- What is not determined by the portal: order of sets, answers of the user, order in which downloads end, and for each call of a
processing function the exception it raises (`none`: it returns). Errors in preparing the input of an instrument (calibration, joining of
files) count as errors of the call. -/
structure CliWorld where
  order : List CliInstrument → List CliInstrument
  answer : String → Option ℤ
  completed : List (String × Option CliPath) → List (String × Option CliPath)
  outcome : Job → Option String

/-- `args.date.replace('-', '')` -/
def compactDate (date : String) : String := String.ofList (date.toList.filter (· ≠ '-'))

/-- `cli.py:653-654` `_shorten_pid`. -/
def shortenPid (pid : String) : String := String.ofList (((pid.toList.splitOn '.').getLastD []).take 8)

/-- `cli.py:402-410` `_create_instrument_filepath`. -/
def instrumentPath (a : CliArgs) (i : CliInstrument) : CliPath :=
  ("instrument", compactDate a.date ++ "_" ++ a.site ++ "_" ++ i.instrumentId ++ "_" ++ shortenPid i.pid ++ ".nc")

/-- `cli.py:413-416` `_create_categorize_filepath`. -/
def categorizePath (a : CliArgs) : CliPath := ("geophysical", compactDate a.date ++ "_" ++ a.site ++ "_categorize.nc")

/-- The full path: `cli.py:425-428` `_create_output_folder`. -/
def fullPath (a : CliArgs) (p : CliPath) : String := a.output ++ "/" ++ a.site ++ "/" ++ a.date ++ "/" ++ p.1 ++ "/" ++ p.2

/-- `sub in s` -/
def hasText (sub s : String) : Bool := decide (sub.toList <:+: s.toList)

/-- `cli.py:296-353`: the function that reads the instrument; `none` if no case fits, so that `fun` is not bound. -/
def readerOf (product id : String) : Option String :=
  if product = "radar" ∧ hasText "mira" id then some "mira2nc"
  else if product = "radar" ∧ hasText "rpg" id then some "rpg2nc"
  else if product = "radar" ∧ hasText "basta" id then some "basta2nc"
  else if product = "radar" ∧ hasText "copernicus" id then some "copernicus2nc"
  else if product = "radar" ∧ hasText "galileo" id then some "galileo2nc"
  else if product = "disdrometer" ∧ hasText "parsivel" id then some "parsivel2nc"
  else if product = "disdrometer" ∧ hasText "thies" id then some "thies2nc"
  else if product = "lidar" ∧ hasText "pollyxt" id then some "pollyxt2nc"
  else if product = "lidar" then some "ceilo2nc"
  else if product = "mwr" then some "hatpro2nc"
  else if product = "mwr-l1c" then some "hatpro2l1c"
  else if product = "mrr" then some "mrr2nc"
  else if product = "weather-station" then some "ws2nc"
  else none

/-- The call of a processing function. -/
def callJob (w : CliWorld) (j : Job) : RunM Unit :=
  ([.make j], match w.outcome j with
    | none => .ok ()
    | some e => .error e)

/-- `cli.py:273-357` `_process_instrument_product`: the file, or `None` if data are only downloaded. -/
def processInstrument (w : CliWorld) (a : CliArgs) (product : String) (i : CliInstrument) (files : List RawFile) : RunM CliPath :=
  RunM.bind ([.raw i files], .ok ()) fun _ =>
    if a.dl then .pure noPath
    else match readerOf product i.instrumentId with
      | none => ([], .error "UnboundLocalError")
      | some f =>
        if f = "basta2nc" ∧ 1 < files.length then ([], .error "ValueError: Multiple input files found")
        else RunM.bind (callJob w (.instrument f product i files (instrumentPath a i))) fun _ => .pure (instrumentPath a i)

/-- `cli.py:49-73`: the loop over instrument products; the result is `cat_files`. -/
def instrumentPhase (s : CliSite) (w : CliWorld) (a : CliArgs) : List (String × List String) → List (String × CliPath) →
    RunM (List (String × CliPath))
  | [], d => .pure d
  | (product, possible) :: l, d =>
    match instrumentInput s.portal w.order a.prefs (w.answer product) product possible with
    | none => instrumentPhase s w a l d
    | some (i, files) => RunM.bind (processInstrument w a product i files) fun path =>
        instrumentPhase s w a l (dictSet d product path)

/-- `cli.py:486-495` `_get_product_sources`. -/
def getProductSources (s : CliSite) (products : List String) : List (String × List String) :=
  products.foldl (fun d p =>
    let prod := (parseInstrument p).1
    if s.sourceProducts prod = [] then d else dictSet d prod (s.sourceProducts prod)) []

/-- A fetch, if there is something to fetch. -/
def fetchActions (p : Option CliPath) : List CliAction := (p.map CliAction.fetch).toList

/-- `cli.py:223-239`: the input files after the downloads (the dictionary of the caller is changed). -/
def categorizeFiles (s : CliSite) (w : CliWorld) (a : CliArgs) (inputs : List (String × CliPath)) (model : Option CliPath) :
    List (String × CliPath) :=
  storeFile ((w.completed (categorizeDownloads (s.forModel a.model) a.prefs inputs model)).foldl storeFile inputs)
    ("mwr", fetchMwr (s.forModel a.model))

/-- `cli.py:183-256` `_process_categorize`: the categorize file (`none`: not made) and the dictionary of input files. -/
def categorizePhase (s : CliSite) (w : CliWorld) (a : CliArgs) (inputs : List (String × CliPath)) :
    RunM (Option CliPath × List (String × CliPath)) :=
  match fetchModel (s.forModel a.model) with
  | .error e => ((w.completed (categorizeDownloads (s.forModel a.model) a.prefs inputs none)).flatMap fun p => fetchActions p.2, .error e)
  | .ok model =>
    RunM.bind ((w.completed (categorizeDownloads (s.forModel a.model) a.prefs inputs model)).flatMap (fun p => fetchActions p.2) ++
      fetchActions (fetchMwr (s.forModel a.model)), .ok ()) fun _ =>
    let files := categorizeFiles s w a inputs model
    if files.any fun p => p.1 == "model" then
      let j := Job.categorize files (categorizePath a)
      ([.make j], match w.outcome j with
        | none => .ok (some (categorizePath a), files)
        | some e => if e = "NameError" then .ok (none, files) else .error e)
    else .pure (none, files)

/-- `cli.py:720-725` `_process_cat_product`. -/
def level2Output (a : CliArgs) (product : String) (input : CliPath) : String := textReplace (fullPath a input) "categorize" product

/-- `cli.py:83-92`: the loop over products of a categorize file. -/
def level2Phase (s : CliSite) (w : CliWorld) (a : CliArgs) : List String → Option CliPath → RunM Unit
  | [], _ => .pure ()
  | product :: l, some f => RunM.bind (callJob w (.level2 product f (level2Output a product f))) fun _ => level2Phase s w a l (some f)
  | product :: l, none =>
    match fetchProduct s.portal "categorize" none with
    | none => .pure ()
    | some f => RunM.bind ([.fetch f], .ok ()) fun _ =>
      RunM.bind (callJob w (.level2 product f (level2Output a product f))) fun _ => level2Phase s w a l (some f)

/-- `cli.py:728-736` `_process_mwrpy_product`: the date with hyphens. -/
def radiometerOutput (a : CliArgs) (product : String) : CliPath := ("geophysical", a.date ++ "_" ++ a.site ++ "_" ++ product ++ ".nc")

/-- `cli.py:95-105`: the loop over products of a radiometer file. -/
def radiometerPhase (s : CliSite) (w : CliWorld) (a : CliArgs) (d : List (String × CliPath)) : List String → RunM Unit
  | [] => .pure ()
  | product :: l =>
    let found := match d.lookup "mwr-l1c" with
      | some f => ([], if f = noPath then none else some f)
      | none => (fetchActions (fetchProduct s.portal "mwr-l1c" none), fetchProduct s.portal "mwr-l1c" none)
    match found.2 with
    | none => (found.1, .ok ())
    | some f => RunM.bind (found.1, .ok ()) fun _ =>
      RunM.bind (callJob w (.radiometer product f (radiometerOutput a product))) fun _ => radiometerPhase s w a d l

/-- `cli.py:121-139` `_process_epsilon_radar`. -/
def epsilonPhase (s : CliSite) (w : CliWorld) (a : CliArgs) (d : List (String × CliPath)) : RunM Unit :=
  let found := match d.lookup "radar" with
    | some f => if f = noPath then (fetchActions (fetchProduct s.portal "radar" none), fetchProduct s.portal "radar" none) else ([], some f)
    | none => (fetchActions (fetchProduct s.portal "radar" none), fetchProduct s.portal "radar" none)
  match found.2 with
  | none => (found.1, .ok ())
  | some radar => RunM.bind (found.1, fetchModel (s.forModel a.model)) fun model =>
    match model with
    | none => .pure ()
    | some m => RunM.bind ([.fetch m], .ok ()) fun _ =>
      callJob w (.epsilonRadar radar m ("geophysical", compactDate a.date ++ "_" ++ a.site ++ "_epsilon-radar.nc"))

/-- `cli.py:33-37`, the table of observations. -/
def evaluationSources : List (String × String) := [("l3-cf", "categorize"), ("l3-iwc", "iwc"), ("l3-lwc", "lwc")]

/-- `cli.py:142-180` `_process_l3_product`. -/
def evaluationJob (s : CliSite) (w : CliWorld) (a : CliArgs) (product source : String) : RunM Unit :=
  let model := a.model.getD "ecmwf"
  match fetchProduct s.portal source none with
  | none => .pure ()
  | some obs => RunM.bind ([.fetch obs], fetchModel (s.forModel (some model))) fun m =>
    match m with
    | none => .pure ()
    | some m => RunM.bind ([.fetch m], .ok ()) fun _ =>
      let j := Job.evaluation product model obs m ("evaluation", compactDate a.date ++ "_" ++ a.site ++ "_" ++ model ++ "_" ++ product ++ ".nc")
      ([.make j], match w.outcome j with
        | none => .ok ()
        | some e => if e = "ModelDataError" then .ok () else .error e)

/-- `cli.py:112-118`: the loop over model evaluation products. -/
def evaluationPhase (s : CliSite) (w : CliWorld) (a : CliArgs) : List String → RunM Unit
  | [] => .pure ()
  | product :: l =>
    let base := (parseInstrument product).1
    match evaluationSources.lookup base with
    | none => evaluationPhase s w a l
    | some source => RunM.bind (evaluationJob s w a base source) fun _ => evaluationPhase s w a l

/-- The products with a given source product. -/
def productsFrom (s : CliSite) (a : CliArgs) (source : String) : List String :=
  ((getProductSources s a.products).filter fun p => decide (source ∈ p.2)).map Prod.fst

/-- `cli.py:44-118` `run`. -/
def cliRun (s : CliSite) (w : CliWorld) (a : CliArgs) : RunM Unit :=
  RunM.bind (instrumentPhase s w a (getSourceInstruments s.portal a.products a.prefs) []) fun d =>
  RunM.bind (if "categorize" ∈ a.products then categorizePhase s w a d else .pure (none, d)) fun c =>
  RunM.bind (level2Phase s w a (productsFrom s a "categorize") c.1) fun _ =>
  RunM.bind (radiometerPhase s w a c.2 (productsFrom s a "mwr-l1c")) fun _ =>
  RunM.bind (if "epsilon-radar" ∈ a.products then epsilonPhase s w a c.2 else .pure ()) fun _ =>
  evaluationPhase s w a a.products

/-! ### Files on disk -/

/-- Where the content of a file comes from. -/
inductive FileContent where
  | old
  | portal
  | made (job : Job)
deriving DecidableEq

/-- Product files on disk. -/
abbrev CliDisk := CliPath → Option FileContent

/-- `cli.py:632-650` `_download_product_file`: an existing file is kept, or replaced with the flag `--force-download`. -/
def downloadProduct (force : Bool) (d : CliDisk) (p : CliPath) : CliDisk := fun q =>
  if q = p then (match d p with
    | some c => if force then some .portal else some c
    | none => some .portal) else d q

/-- The output of a call as a path below the folder of the day (`none` for a Level 2 product, whose path may be elsewhere). -/
def Job.output : Job → Option CliPath
  | .instrument _ _ _ _ o => some o
  | .categorize _ o => some o
  | .level2 _ _ _ => none
  | .radiometer _ _ o => some o
  | .epsilonRadar _ _ o => some o
  | .evaluation _ _ _ _ o => some o

/-- The effect of an action on the disk. A call that raises is taken to leave no file or the old one, which does not matter after a run
that stops there. -/
def CliAction.apply (w : CliWorld) (force : Bool) (d : CliDisk) : CliAction → CliDisk
  | .raw _ _ => d
  | .fetch p => downloadProduct force d p
  | .make j => if (w.outcome j).isSome then d else fun q => if j.output = some q then some (.made j) else d q

end Cloudnet
