import Verif.CliFiles.Model

/-!
Plots of the command line interface: what is drawn, and what an error of a plot does to the run (`cli.py`).
-/

namespace Cloudnet

/-- Exceptions of the functions that draw. -/
inductive FigureError where
  | plotting | value | key | other (name : String)
deriving DecidableEq

/-- Messages. -/
inductive PlotLog where
  | failed (product : String)
  | plotted (product target : String)
deriving DecidableEq

/-- `cli.py:678-690`: the end of `_plot`, where `figure` is `generate_figure`. -/
def plotRun (portal : List (String × List String)) (file : Option String) (product : String) (a : PlotArgs) (figure : FigureCall → Except FigureError Unit) :
    Except (String ⊕ FigureError) (List PlotLog) :=
  match plotProduct portal file product a with
  | .error e => .error (.inl e)
  | .ok none => .ok []
  | .ok (some call) =>
    let done : List PlotLog := match call.image with
      | some image => [.plotted product image]
      | none => []
    match figure call with
    | .ok () => .ok done
    | .error .plotting => .ok (.failed product :: done)
    | .error e => .error (.inr e)

/-- The call of `generate_L3_day_plots`. -/
structure L3Call where
  file : String
  obs : String
  names : Option (List String)
  savePath : Option String
  showFigure : Bool
deriving DecidableEq

/-- `Path(f).parent` as text. Simplification: paths without doubled slashes, dots, or a slash at the end. -/
def pathParent (f : List Char) : List Char :=
  let dir := (f.reverse.dropWhile (· ≠ '/')).reverse
  if dir = [] then ['.'] else if dir = ['/'] then ['/'] else dir.dropLast

/-- `str.removeprefix`. -/
def removePrefix (p s : List Char) : List Char := if p <+: s then s.drop p.length else s

/-- `cli.py:698-712`: the call of `_plot_l3`, if there is one. -/
def plotL3Call (file : Option String) (product : String) (a : PlotArgs) : Option L3Call :=
  match file with
  | none => none
  | some f =>
    if !a.plot && !a.showFigure then none
    else some ⟨f, String.ofList (removePrefix "l3-".toList product.toList), a.names.map (splitChar ','),
      if a.plot then some (String.ofList (pathParent f.toList ++ ['/'])) else none, a.showFigure⟩

/-- `cli.py:693-717` `_plot_l3`, where `figure` is `generate_L3_day_plots`. -/
def plotL3Run (file : Option String) (product : String) (a : PlotArgs) (figure : L3Call → Except FigureError Unit) : Except FigureError (List PlotLog) :=
  match plotL3Call file product a with
  | none => .ok []
  | some call =>
    match figure call with
    | .ok () => .ok (match call.savePath with
      | some dir => [.plotted product dir]
      | none => [])
    | .error (.other e) => .error (.other e)
    | .error _ => .ok [.failed product]

end Cloudnet
