import Verif.Plot.ImageModel
import Verif.PlotAxes.Model

/-!
A whole figure: `plotting/plotting.py:1109-1190` `generate_figure` with the classes it uses. What is drawn inside of the axes is the subject of properties C145, C146, C147 and C157 and is a parameter
here (`FigWorld.draw`); this model has the choice of panels and of their kinds, marks, titles and axes, what panels share, and the order of the effects of the call.
-/

namespace Cloudnet

/-- A variable of the file, as far as figures use it. -/
structure FigVar where
  name : String
  ndim : ℕ
  longName : Option String
  units : Option String
  source : Option String
deriving DecidableEq

/-- A file. `fileType` is `cloudnet_file_type`, empty if there is none. `rains` tells whether `rain_detected` has a profile with rain. -/
structure FigFile where
  fileType : String
  vars : List FigVar
  source : Option String
  rains : Bool
deriving DecidableEq

/-- `name in file.variables` and `file.variables[name]`. -/
def FigFile.find (f : FigFile) (name : String) : Option FigVar := f.vars.find? fun v => v.name = name

/-- `plotting/plot_meta.py` `PlotMeta`: the label of the colours, and the rest. -/
structure FigMeta where
  clabel : Option String
  rest : String
deriving DecidableEq

/-- `plotting/plotting.py:371-380` `_read_plot_meta`. `given` is the option `plot_meta`, `table` is `ATTRIBUTES` by type of file and name. A variable without units is
`AttributeError`. -/
def readPlotMeta (given : Option FigMeta) (table : String → String → Option FigMeta) (dflt : FigMeta) (fileType : String) (v : FigVar) : Except String FigMeta :=
  let m := match given with
    | some m => m
    | none => (table fileType v.name).getD ((table "fallback" v.name).getD dflt)
  match m.clabel, v.units with
  | some _, _ => .ok m
  | none, none => .error "AttributeError: units"
  | none, some u => .ok { m with clabel := some (reformatUnits u) }

/-- How a panel is drawn (`plotting/plotting.py:1145-1159`). -/
inductive FigDraw where
  | channel (i : ℤ)
  | scene
  | curve
  | image (diameters : Bool)
deriving DecidableEq

/-- `plotting/plotting.py:1145-1159`: the choice. -/
def figDraw (fileType : String) (v : FigVar) (ind : Option ℤ) : FigDraw :=
  match ind, decide (v.name = "tb" ∨ v.name = "irt") with
  | some i, true => .channel i
  | _, _ =>
    if fileType = "cpr-validation" ∧ v.name = "cloud_top_height" then .scene
    else if v.ndim = 1 then .curve
    else .image (v.name = "number_concentration" ∨ v.name = "fall_velocity")

/-- `plotting/plotting.py:187-201` `_get_time`: the variable of the horizontal axis, for the names of all panels. -/
def figTime (fileType : String) (names : List String) : String :=
  if fileType = "cpr-simulation" then "along_track_sat"
  else if (fileType = "cpr-validation" ∧ ("echo_cpr" ∈ names ∨ "v_cpr" ∈ names)) ∨ (fileType = "cpr-tc-validation" ∧ "target_classification_cpr" ∈ names) then "time_cpr"
  else "time"

/-- The limits and ticks of the horizontal axis. -/
inductive FigAxis where
  | track
  | span (times : String)
  | untouched
  | hours (edges : Bool)
deriving DecidableEq

/-- `plotting/plotting.py:262-291` `set_xax`. -/
def figAxis (fileType : String) (edges : Bool) (times : String) (v : FigVar) : FigAxis :=
  if fileType = "cpr-simulation" then .track
  else if (fileType = "cpr-validation" ∧ v.name ≠ "cloud_top_height") ∨ fileType = "cpr-tc-validation" then .span times
  else if fileType = "cpr-validation" then .untouched
  else .hours edges

/-- The options of `PlotParameters` (`plotting/plotting.py:37-71`) used here. -/
structure FigOptions where
  title : Bool
  subtitle : Bool
  grid : Bool
  sources : Bool
  edges : Bool
  plotMeta : Option FigMeta

/-- What can be drawn and what fails. `draw` is the drawing of a panel on the given times: `time_including_gaps` or an exception. `table` is `ATTRIBUTES` of
`plotting/plot_meta.py`, `dflt` is `PlotMeta()`. -/
structure FigWorld (τ : Type) where
  table : String → String → Option FigMeta
  dflt : FigMeta
  height : Option String
  draw : String → FigVar → FigDraw → Except String τ
  subtitle : Option String
  save : Option String

/-- A panel of the figure. -/
structure FigPanel (τ : Type) where
  name : String
  draw : FigDraw
  /-- the times with gaps that the data are drawn at -/
  times : Option τ
  /-- marks of rain (`plotting/plotting.py:667-691`) -/
  rain : Bool
  /-- marks of suspicious cloud tops (`plotting/plotting.py:871-890`) -/
  tops : Bool
  axis : FigAxis
  title : Option String
  grid : Bool
  source : Option String
  look : FigMeta
deriving DecidableEq

/-- `plotting/plotting.py:304-308` `add_title`. -/
def figTitle (v : FigVar) (ind : Option ℤ) : Except String String :=
  match v.longName with
  | none => .error "AttributeError: long_name"
  | some t => match ind with
    | some i => .ok (if v.name = "tb" then t ++ " (channel " ++ toString (i + 1) ++ ")" else t)
    | none => .ok t

/-- `plotting/plotting.py:317-322` `add_sources`: the text, `none` if nothing is shown. An empty attribute counts as absent at the variable. -/
def figSource (f : FigFile) (v : FigVar) : Option String :=
  let source := match v.source with
    | some s => if s = "" then f.source else some s
    | none => f.source
  source.map fun s => "Data " ++ (if '\n' ∈ s.toList then "sources" else "source") ++ ":\n" ++ s

/-- `plotting/plotting.py:1163-1164`. -/
def figTitleStep (title : Bool) (v : FigVar) (ind : Option ℤ) : Except String (Option String) := if title then (figTitle v ind).map some else .ok none

/-- `plotting/plotting.py:1172-1173`; `fails` is the exception of `add_subtitle` (a file without `location` or date). -/
def figSubtitleStep (subtitle : Bool) (fails : Option String) (v last : FigVar) : Except String Unit :=
  match fails with
  | some e => if subtitle = true ∧ v = last then .error e else .ok ()
  | none => .ok ()

/-- `plotting/plotting.py:1139-1173`, one panel. `first` is `figure_data.variables[0]`, `last` is `figure_data.variables[-1]`, the state is `figure_data.time_including_gaps`. Drawing a scene does
not change the state, every other drawing sets it before it is used (`plotting/plotting.py:532`). -/
def figPanel {τ : Type} (w : FigWorld τ) (o : FigOptions) (f : FigFile) (times : String) (first last : FigVar) (v : FigVar) (ind : Option ℤ) (s : τ) :
    Except String (FigPanel τ × τ) :=
  let d := figDraw f.fileType v ind
  (readPlotMeta o.plotMeta w.table w.dflt f.fileType v).bind fun look =>
  (w.draw times v d).bind fun drawn =>
  let s := if d = .scene then s else drawn
  (figTitleStep o.title v ind).bind fun title =>
  (figSubtitleStep o.subtitle w.subtitle v last).bind fun _ =>
  .ok ({ name := v.name
         draw := d
         times := if d = .scene then none else some s
         rain := match d with
           | .image _ => first.name = "signal_source_status" && (f.find "rain_detected").isSome && f.rains
           | _ => false
         tops := match d with
           | .curve | .channel _ => first.name = "cloud_top_height_agl" && (f.find "cloud_top_height_status").isSome
           | _ => false
         axis := figAxis f.fileType o.edges times v
         title := title
         grid := o.grid
         source := if o.sources then figSource f v else none
         look := look }, s)

/-- `plotting/plotting.py:1139-1173`, the loop. -/
def figPanels {τ : Type} (w : FigWorld τ) (o : FigOptions) (f : FigFile) (times : String) (first last : FigVar) : List (FigVar × Option ℤ) → τ → Except String (List (FigPanel τ))
  | [], _ => .ok []
  | p :: l, s => (figPanel w o f times first last p.1 p.2 s).bind fun r => (figPanels w o f times first last l r.2).map (r.1 :: ·)

/-- `plotting/plotting.py:341-349` `set_xlabel`. -/
def figXLabel (fileType : String) : Option String :=
  if fileType = "cpr-validation" then none else if fileType = "cpr-simulation" then some "Distance along track (km)" else some "Time (UTC)"

/-- What a call does: its result (panels, and the label below the last one), whether a figure was made, saved and closed. -/
structure FigOutcome (τ : Type) where
  result : Except String (List (FigPanel τ) × Option String)
  opened : Bool
  saved : Bool
  closed : Bool

/-- `plotting/plotting.py:1131-1137`: the variables that are drawn and the horizontal axis; nothing is drawn yet. -/
def figPlan {τ : Type} (parse : String → Option ℤ) (w : FigWorld τ) (f : FigFile) (names : List String) : Except String (List (FigVar × Option ℤ) × String) :=
  (plotVariables parse (fun n => (f.find n).isSome) names).bind fun l =>
  let vars := l.filterMap fun p => (f.find p.1).map fun v => (v, p.2)
  match w.height with
  | some e => .error e
  | none =>
    let times := figTime f.fileType (vars.map fun v => v.1.name)
    if (f.find times).isSome then .ok (vars, times) else .error "KeyError"

/-- `plotting/plotting.py:1109-1190` `generate_figure`; `output` tells whether there is an `output_filename`. The figure is closed by `finally` if it was made. `empty` is `np.array([])`. -/
def generateFigure {τ : Type} (empty : τ) (parse : String → Option ℤ) (w : FigWorld τ) (o : FigOptions) (f : FigFile) (names : List String) (output : Bool) : FigOutcome τ :=
  match figPlan parse w f names with
  | .error e => ⟨.error e, false, false, false⟩
  | .ok (vars, times) =>
    match vars.head?, vars.getLast? with
    | some first, some last =>
      match figPanels w o f times first.1 last.1 vars empty with
      | .error e => ⟨.error e, true, false, true⟩
      | .ok panels =>
        match (if output then w.save else none) with
        | some e => ⟨.error e, true, false, true⟩
        | none => ⟨.ok (panels, figXLabel f.fileType), true, output, true⟩
    | _, _ => ⟨.error "unreachable", false, false, false⟩

/-! ### Footer -/

/-- The length of words with single spaces (or line breaks) between them. -/
def wordsLength (l : List (List Char)) : ℕ := (l.map List.length).sum + (l.length - 1)

/-- `textwrap.fill` for words without hyphens that are not longer than a line, with single spaces between them: each line takes as many words as fit. -/
def wrapGo (n : ℕ) : List (List Char) → List (List Char) → List (List (List Char))
  | cur, [] => if cur = [] then [] else [cur]
  | cur, w :: ws =>
    if cur = [] then wrapGo n [w] ws
    else if wordsLength (cur ++ [w]) ≤ n then wrapGo n (cur ++ [w]) ws
    else cur :: wrapGo n [w] ws

/-- `plotting/plotting.py:351-358` `show_footer`: the lines of the footer. They replace the text in the options of the caller. -/
def figFooter (lines : List (List (List Char))) : List (List (List Char)) :=
  if 50 < wordsLength lines.flatten then wrapGo 50 [] lines.flatten else lines

end Cloudnet
