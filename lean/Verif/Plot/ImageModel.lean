import Verif.Plot.Model
import Verif.Cli.Model

/-! What images and axes show (`plotting/plotting.py`). -/

namespace Cloudnet

/-! ### Classes -/

/-- One step of `plotting/plotting.py:718-721` for a value: the class `ind` is masked, higher ones move down. -/
def hideStep (v : Option ℕ) (ind : ℕ) : Option ℕ := v.bind fun x => if x = ind then none else if ind < x then some (x - 1) else some x

/-- `plotting/plotting.py:716-717`: indices of classes that are not shown. -/
def hiddenClasses (labels : List (String × String)) : List ℕ :=
  (List.range labels.length).filter fun i => (labels.getD i ("", "")).1.toList.head? == some '_'

/-- `plotting/plotting.py:710-722` `_hide_segments`: labels and colours that remain. -/
def hideLabels (labels : List (String × String)) : List (String × String) := (hiddenClasses labels).reverse.foldl (fun l i => l.eraseIdx i) labels

/-- `plotting/plotting.py:710-722` `_hide_segments`: a value of the image. -/
def hideValue (labels : List (String × String)) (v : Option ℕ) : Option ℕ := (hiddenClasses labels).reverse.foldl hideStep v

section
variable {α : Type} [Field α] [LinearOrder α]

/-! ### Axes -/

/-- `plotting/plotting.py:834`: number of gates of the image. `np.argmax` of truth values is the first true one, or zero. -/
def shownGates (alt : List α) (maxY : Option α) : ℕ := match maxY with
  | none => alt.length
  | some m =>
    let k := (alt.findIdx? fun h => decide (m < h)).getD 0
    (if k = 0 then alt.length else k) + 1

/-- `plotting/plotting.py:824-836` `_screen_data_by_max_y`: heights and a profile of the image. -/
def screenHeights (alt : List α) (maxY : Option α) (row : PlotRow α) : List α × PlotRow α := (alt.take (shownGates alt maxY), row.take (shownGates alt maxY))

/-- `plotting/plotting.py:1257-1262` `_make_edges`. -/
def makeEdges (c : List α) : Except String (List α) :=
  if c.length < 2 then .error "IndexError"
  else
    let x := fun i => c.getD i 0
    let n := c.length
    .ok ((x 0 - (x 1 - x 0) / 2) :: ((List.range (n - 1)).map fun i => (x i + x (i + 1)) / 2) ++ [x (n - 1) + (x (n - 1) - x (n - 2)) / 2])

/-- `plotting/plotting.py:963-980` `Plot1D._get_y_limits`. -/
def yLimits (data : List (Option α)) : α × α :=
  match data.filterMap id with
  | [] => (-(5 / 100), 5 / 100)
  | x :: l =>
    let lo := l.foldl min x
    let hi := l.foldl max x
    let gap := 5 / 100 * (hi - lo)
    let minY := lo - gap
    let maxY := hi + gap
    if minY = 0 ∧ maxY = 0 then (-(5 / 100), 5 / 100)
    else if minY = maxY then (minY - |minY| * (5 / 100), maxY + |minY| * (5 / 100))
    else (minY, maxY)

/-- `plotting/plotting.py:693-707` `_fill_flagged_data`: ranges of time with flags, shaded. -/
def shaded (time : List α) (flag : ℕ → Bool) : List (α × α) :=
  ((findBatches time.length flag).filter fun b => b.1 != b.2).map fun b => (time.getD b.1 0, time.getD b.2 0)

end

/-! ### Variables -/

/-- `plotting/plotting.py:172-178`: a name and an index. `parse` is `int` (`none` is `ValueError`). -/
def plotVariable (parse : String → Option ℤ) (name : String) : Except String (String × Option ℤ) :=
  if "tb_".toList.isPrefixOf name.toList || "irt_".toList.isPrefixOf name.toList then
    match parse ((splitChar '_' name).getD 1 "") with
    | none => .error "ValueError: invalid literal for int()"
    | some i => .ok ((splitChar '_' name).getD 0 "", some i)
  else .ok (name, none)

/-- `plotting/plotting.py:171-181`: the loop. `has` tells the names in the file. -/
def plotVariablesLoop (parse : String → Option ℤ) (has : String → Bool) : List String → Except String (List (String × Option ℤ))
  | [] => .ok []
  | name :: names => (plotVariable parse name).bind fun p => (plotVariablesLoop parse has names).map fun l => if has p.1 then p :: l else l

/-- `plotting/plotting.py:166-185` `_get_valid_variables_and_indices`. -/
def plotVariables (parse : String → Option ℤ) (has : String → Bool) (names : List String) : Except String (List (String × Option ℤ)) :=
  (plotVariablesLoop parse has names).bind fun l => if l = [] then .error "PlottingError" else .ok l

end Cloudnet
