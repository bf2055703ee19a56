import Mathlib.Data.String.Basic
import Mathlib.Data.List.Sort
import Verif.Categorize.Model

namespace Cloudnet

/-! Choosing instruments and input files in `cli.py`. -/

/-- The part of an `Instrument` of the data portal that is used here. -/
structure CliInstrument where
  pid : String
  instrumentId : String
  name : String
deriving DecidableEq

/-- A raw file of the data portal. -/
structure RawFile where
  filename : String
  instrument : CliInstrument
deriving DecidableEq

/-- A product file of the data portal: its instrument (if it has one), its file name and whether the type of its
product contains `geophysical`. -/
structure ProductFile where
  filename : String
  instrument : Option CliInstrument
  geophysical : Bool
deriving DecidableEq

/-- `cli.py:476-477` `_is_pid`. -/
def isPid (value : String) : Bool := "https://hdl.handle.net/".toList.isPrefixOf value.toList

/-- `cli.py:480-483` `_instrument_matches`. -/
def instrumentMatches (i : CliInstrument) (value : String) : Bool :=
  if isPid value then i.pid == value else i.instrumentId == value

/-- `s.split(c)` -/
def splitChar (c : Char) (s : String) : List String := (s.toList.splitOn c).map String.ofList

/-- `s.strip()`, for the white space of `Char.isWhitespace` (Python strips some more Unicode characters). -/
def pyStrip (s : String) : String :=
  String.ofList (((s.toList.dropWhile Char.isWhitespace).reverse.dropWhile Char.isWhitespace).reverse)

/-- `cli.py:515-516`: the values of a preference argument after the first colon. -/
def prefValues (rest : List Char) : List String :=
  ((splitChar ',' (String.ofList rest)).map pyStrip).filter fun v => v != ""

/-- `cli.py:515-516`: product and values of an argument with a colon. -/
def parsedArg (arg : String) : String × List String :=
  (String.ofList (arg.toList.takeWhile (· != ':')), prefValues ((arg.toList.dropWhile (· != ':')).drop 1))

/-- `cli.py:509-524`: the loop body. -/
def prefStep (prefs : List (String × List String)) (arg : String) : Except String (List (String × List String)) :=
  if ':' ∈ arg.toList then
    if (parsedArg arg).2.any (fun v => decide (':' ∈ v.toList) && !isPid v) then
      .error "ArgumentTypeError: Invalid instrument value"
    else .ok (dictSet prefs (parsedArg arg).1 ((prefs.lookup (parsedArg arg).1).getD [] ++ (parsedArg arg).2))
  else .error "ArgumentTypeError: Invalid instrument format"

/-- `cli.py:498-525` `_parse_instrument_preferences`. -/
def parsePreferences (args : List String) : Except String (List (String × List String)) := args.foldlM prefStep []

/-- `cli.py:528-535` `_parse_instrument`. -/
def parseInstrument (s : String) : String × Option String :=
  if '[' ∈ s.toList ∧ s.toList.getLast? = some ']' then
    (String.ofList (s.toList.takeWhile (· != '[')),
      some (String.ofList ((s.toList.dropWhile (· != '[')).drop 1).dropLast))
  else (s, none)

/-- `cli.py:574-576` `_get_unique_instruments`; `order` is the unspecified order in which Python iterates a set. -/
def uniqueInstruments (order : List CliInstrument → List CliInstrument) (files : List RawFile) : List CliInstrument :=
  (order (files.map RawFile.instrument)).insertionSort fun a b => a.name ≤ b.name

/-- `cli.py:538-571` `_select_instrument`; `answer` is the number typed by the user, `none` if it is not a number or
the prompt was cancelled. -/
def selectInstrument (order : List CliInstrument → List CliInstrument) (files : List RawFile)
    (prefs : List String) (answer : Option ℤ) : Option CliInstrument :=
  let instruments := uniqueInstruments order files
  if instruments.length = 0 then none
  else
    match prefs.findSome? fun pref => (instruments.filter fun i => instrumentMatches i pref).head? with
    | some i => some i
    | none =>
      if 1 < instruments.length then
        match answer with
        | none => none
        | some a => if 0 ≤ a - 1 ∧ a - 1 < instruments.length then instruments[(a - 1).toNat]? else none
      else instruments[0]?

/-- `str.lower()` (ASCII letters only). -/
def pyLower (s : String) : List Char := s.toList.map Char.toLower

/-- `cli.py:448-455` `_filter_by_suffix`. -/
def suffixOk (product filename : String) : Bool :=
  if product == "radar" then !".lv0".toList.isSuffixOf (pyLower filename)
  else if product == "mwr" then
    decide (".lwp".toList <:+: pyLower filename) || decide (".iwv".toList <:+: pyLower filename)
  else if product == "mwr-l1c" then !".nc".toList.isSuffixOf (pyLower filename)
  else true

/-- What the data portal knows about one site and day. `rawFiles` takes the instrument ids asked for. -/
structure Portal where
  sourceInstruments : String → List String
  rawFiles : List String → List RawFile
  files : String → List ProductFile
  modelFiles : List ProductFile

/-- One round of the loop in `cli.py:458-473` `_get_source_instruments`: the instrument ids that are asked for. -/
def askedInstruments (portal : Portal) (prefs : List (String × List String)) (product : String) (model : Option String) :
    List String :=
  let models := match model with
    | some m => [m]
    | none => ((prefs.lookup product).getD []).filter fun p => !isPid p
  let possible := portal.sourceInstruments product
  let found := models.filter fun m => possible.contains m
  if possible ≠ [] ∧ found ≠ [] then found else possible

/-- `cli.py:458-473` `_get_source_instruments`. -/
def getSourceInstruments (portal : Portal) (products : List String) (prefs : List (String × List String)) :
    List (String × List String) :=
  products.foldl (fun d p =>
    let (prod, model) := parseInstrument p
    dictSet d prod (askedInstruments portal prefs prod model)) []

/-- `cli.py:53-66`: the instrument and the raw files from which an instrument product is made; `none` if it is not
made. -/
def instrumentInput (portal : Portal) (order : List CliInstrument → List CliInstrument)
    (prefs : List (String × List String)) (answer : Option ℤ) (product : String) (possible : List String) :
    Option (CliInstrument × List RawFile) :=
  if possible = [] then none
  else
    let files := portal.rawFiles possible
    match selectInstrument order files ((prefs.lookup product).getD []) answer with
    | none => none
    | some i =>
      let files := (files.filter fun f => f.instrument.pid == i.pid).filter fun f => suffixOk product f.filename
      if files = [] then none else some (i, files)

/-- `cli.py:579-598` `_fetch_product`: the file that is used, as folder and file name. It is the same whether the file
exists already or is downloaded. -/
def fetchProduct (portal : Portal) (product : String) (source : Option String) : Option (String × String) :=
  let files := match source with
    | none => portal.files product
    | some s =>
      if s = "" then portal.files product
      else (portal.files product).filter fun f => f.instrument.any fun i => instrumentMatches i s
  files.head?.map fun f => (if f.geophysical then "geophysical" else "instrument", f.filename)

/-- `cli.py:601-614` `_fetch_model`, with the check of `cli.py:639-641`. -/
def fetchModel (portal : Portal) : Except String (Option (String × String)) :=
  match portal.modelFiles with
  | [] => .ok none
  | [f] => .ok (some ("instrument", f.filename))
  | _ => .error "ValueError: Multiple product files found"

/-- `cli.py:194-205`: the file of a preferred instrument. -/
def fetchPreferred (portal : Portal) (product source : String) : Option (String × String) :=
  match fetchProduct portal product (some source) with
  | some f => some f
  | none => if product == "lidar" then fetchProduct portal "doppler-lidar" (some source) else none

/-- `cli.py:191-212` `fetch_instrument`. -/
def fetchInstrument (portal : Portal) (prefs : List (String × List String)) (product : String) :
    Option (String × String) :=
  match ((prefs.lookup product).getD []).findSome? (fetchPreferred portal product) with
  | some f => some f
  | none => fetchProduct portal product none

/-- `cli.py:259-270` `_fetch_mwr`. -/
def fetchMwr (portal : Portal) : Option (String × String) :=
  [("mwr-single", none), ("mwr", none), ("radar", some "rpg-fmcw-35"), ("radar", some "rpg-fmcw-94")].findSome?
    fun p => fetchProduct portal p.1 p.2

/-- The downloads that `cli.py:224-228` starts in parallel, with their results. -/
def categorizeDownloads (portal : Portal) (prefs : List (String × List String))
    (inputs : List (String × (String × String))) (model : Option (String × String)) :
    List (String × Option (String × String)) :=
  ("model", model) :: ((["radar", "lidar", "disdrometer"].filter fun p => !inputs.any fun q => q.1 == p).map fun p =>
    (p, fetchInstrument portal prefs p))

/-- `cli.py:232-233`, `cli.py:238-239`: a file that was found is stored under its product. -/
def storeFile (d : List (String × (String × String))) (p : String × Option (String × String)) :
    List (String × (String × String)) :=
  match p.2 with
  | some f => dictSet d p.1 f
  | none => d

/-- `cli.py:183-243` `_process_categorize` up to the processing: the input files, `none` without a model file.
`completed` are the downloads in the order in which they finish. If the model download fails the exception is raised
whatever the order. (The API errors that `fetch_mwr` catches and API errors elsewhere are not modelled, and input files
are assumed not to be `None`, as they are with the download-only flag.) -/
def categorizeInputs (portal : Portal) (prefs : List (String × List String))
    (inputs : List (String × (String × String)))
    (completed : List (String × Option (String × String)) → List (String × Option (String × String))) :
    Except String (Option (List (String × (String × String)))) := do
  let model ← fetchModel portal
  let inputs := (completed (categorizeDownloads portal prefs inputs model)).foldl storeFile inputs
  let inputs := storeFile inputs ("mwr", fetchMwr portal)
  if inputs.any fun p => p.1 == "model" then return some inputs else return none

/-- A model of the data portal. -/
structure PortalModel where
  id : String
  sourceModelId : String
deriving DecidableEq

/-- `cli.py:750-762` `_parse_model`. -/
def parseModel (models : List PortalModel) (id : String) : Except String String := do
  let found ← models.foldlM (fun (found : Bool) m =>
    if id = m.sourceModelId ∧ m.id ≠ m.sourceModelId then
      (.error "ArgumentTypeError: Use another model" : Except String Bool)
    else .ok (found || id == m.id)) false
  if found then return id else .error "ArgumentTypeError: Invalid model"

/-- `cli.py:739-747` `_parse_products`; `valid` are the products of the portal, `l3` the model evaluation products. -/
def parseProducts (argument : String) (valid l3 : List String) : List String :=
  (splitChar ',' argument).filter fun p => valid.contains (parseInstrument p).1 || l3.contains (parseInstrument p).1

end Cloudnet
