import Verif.CliRun.Model
import Verif.MwrTools.Model

/-!
Raw files of the command line interface over several runs (`cli.py` `_fetch_raw`, `_unzip_gz_file`, `_process_instrument_product`,
`_concatenate_`), checksums of files (`md5sum`) and plots (`_plot`, `_plot_l3`).
-/

namespace Cloudnet

variable {γ : Type}

/-- Files of a folder by name. -/
abbrev RawFolder (γ : Type) := String → Option γ

/-- Outside the code: `keep old new` says whether the client of the portal keeps an existing file instead of downloading, `gunzip` what of a compressed
file can be decompressed and whether it is complete, `concat` the concatenation of netCDF files, and `text` that of text files. -/
structure RawTools (γ : Type) where
  keep : γ → γ → Bool
  gunzip : γ → γ × Bool
  concat : List γ → Except String γ
  text : List γ → γ

/-- `cli.py:623-628`: existing files of the names to be downloaded are removed. -/
def removeFiles (names : List String) (d : RawFolder γ) : RawFolder γ := fun q => if q ∈ names then none else d q

/-- `client.download` of one file. Simplification: the name of a file is the last part of its address. -/
def downloadFile (w : RawTools γ) (d : RawFolder γ) (f : String × γ) : RawFolder γ := fun q =>
  if q = f.1 then
    match d q with
    | some old => if w.keep old f.2 then some old else some f.2
    | none => some f.2
  else d q

/-- `cli.py:617-629` `_fetch_raw`: the folder afterwards; the paths are those of the files in order. -/
def fetchRaw (w : RawTools γ) (force : Bool) (files : List (String × γ)) (d : RawFolder γ) : RawFolder γ :=
  files.foldl (downloadFile w) (if force then removeFiles (files.map Prod.fst) d else d)

/-- `path.suffix == ".gz"` and `path.with_suffix("")`: the name without the suffix. -/
def gzStem (name : String) : Option String :=
  if ".gz".toList <:+ name.toList ∧ 3 < name.toList.length then some (String.ofList (name.toList.take (name.toList.length - 3))) else none

/-- `cli.py:898-905` `_unzip_gz_file`: the name to use and the folder afterwards. What was decompressed before an error stays. -/
def unzipFile (w : RawTools γ) (d : RawFolder γ) (name : String) : RawFolder γ × Except String String :=
  match gzStem name with
  | none => (d, .ok name)
  | some stem =>
    match d name with
    | none => (d, .error "FileNotFoundError")
    | some c => (fun q => if q = stem then some (w.gunzip c).1 else d q, if (w.gunzip c).2 then .ok stem else .error "EOFError")

/-- `cli.py:290`: all files one after the other. -/
def unzipFiles (w : RawTools γ) : RawFolder γ → List String → RawFolder γ × Except String (List String)
  | d, [] => (d, .ok [])
  | d, n :: ns =>
    match unzipFile w d n with
    | (d', .error e) => (d', .error e)
    | (d', .ok m) =>
      match unzipFiles w d' ns with
      | (d'', .error e) => (d'', .error e)
      | (d'', .ok ms) => (d'', .ok (m :: ms))

/-- What a reader is called with: the list of files, the folder, or one file. -/
inductive RawInput (γ : Type) where
  | files (names : List String)
  | folder
  | single (content : γ)

/-- `cli.py:360-368` `_concatenate_`, as the content of the file that is read. An error other than `OSError` stops the run. -/
def concatenateRaw (w : RawTools γ) (contents : List γ) : Except String γ :=
  match contents with
  | [] => .error "IndexError"
  | [c] => .ok c
  | cs =>
    match w.concat cs with
    | .error e => if e = "OSError" then .ok (w.text cs) else .error e
    | .ok c => .ok c

/-- `cli.py:296-353`: how the input of a reader is given. Simplification: `bundle_netcdf_files`, used for the instrument `cl61d`, is the subject of C138 and taken
as `concat` here without the fallback for text. -/
def readerInput (w : RawTools γ) (reader id : String) (d : RawFolder γ) (names : List String) : Except String (RawInput γ) :=
  if reader = "rpg2nc" ∨ reader = "hatpro2nc" ∨ reader = "hatpro2l1c" then .ok .folder
  else if reader = "basta2nc" then
    match names with
    | [n] => match d n with
      | some c => .ok (.single c)
      | none => .error "FileNotFoundError"
    | _ => .error "ValueError: Multiple input files found"
  else if reader = "ceilo2nc" ∧ id = "cl61d" then (w.concat (names.filterMap d)).map .single
  else if reader = "thies2nc" ∨ reader = "ceilo2nc" then (concatenateRaw w (names.filterMap d)).map .single
  else .ok (.files names)

/-- The files a reader finds. Readers of folders look at names, see C150 for HATPRO. -/
def RawInput.Reads (d : RawFolder γ) : RawInput γ → γ → Prop
  | .files names, c => ∃ n ∈ names, d n = some c
  | .folder, c => ∃ n, d n = some c
  | .single content, c => c = content

/-- One run for an instrument: the files of the portal, and whether they are downloaded again. -/
structure RawRun (γ : Type) where
  files : List (String × γ)
  force : Bool

/-- `cli.py:289-290`: the folder after downloading and decompressing, and the names of the files. -/
def RawRun.prepare (w : RawTools γ) (d : RawFolder γ) (r : RawRun γ) : RawFolder γ × Except String (List String) :=
  unzipFiles w (fetchRaw w r.force r.files d) (r.files.map Prod.fst)

/-- The folder after some runs. -/
def folderAfter (w : RawTools γ) (d : RawFolder γ) (runs : List (RawRun γ)) : RawFolder γ := runs.foldl (fun d r => (r.prepare w d).1) d

/-! ### Checksums -/

/-- `iter(lambda: f.read(4096), b"")`: the blocks of a file. -/
def fileBlocks (size : ℕ) (bytes : List UInt8) : List (List UInt8) :=
  if h : bytes = [] ∨ size = 0 then [] else bytes.take size :: fileBlocks size (bytes.drop size)
termination_by bytes.length
decreasing_by
  push Not at h
  have := List.length_pos_iff.2 h.1
  simp only [List.length_drop]
  omega

/-- `cli.py:886-895` `_calc_hash_sum` up to the notation of the digest: the hash is a state that bytes update. -/
def hashFile {σ δ : Type} (start : σ) (update : σ → UInt8 → σ) (digest : σ → δ) (bytes : List UInt8) : δ :=
  digest ((fileBlocks 4096 bytes).foldl (fun s block => block.foldl update s) start)

/-! ### Plots -/

/-- The arguments of the command line that matter for plots. -/
structure PlotArgs where
  plot : Bool
  showFigure : Bool
  names : Option String
  maxY : Option ℤ

/-- The call of `generate_figure`. -/
structure FigureCall where
  file : String
  names : List String
  image : Option String
  maxY : Option ℤ
deriving DecidableEq

/-- `cli.py:663-690` `_plot`: `portal` are the products of the portal with the identifiers of their variables. -/
def plotProduct (portal : List (String × List String)) (file : Option String) (product : String) (a : PlotArgs) : Except String (Option FigureCall) :=
  match file with
  | none => .ok none
  | some f =>
    if !a.plot && !a.showFigure then .ok none
    else
      let image := if a.plot then some (textReplace f ".nc" ".png") else none
      match a.names with
      | some names => .ok (some ⟨f, splitChar ',' names, image, a.maxY⟩)
      | none =>
        match portal.lookup product with
        | none => .error "StopIteration"
        | some ids => .ok (some ⟨f, ids.map fun id => (splitChar '-' id).getLastD "", image, a.maxY⟩)

end Cloudnet
