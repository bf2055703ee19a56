import Verif.CliRun.Model
import Verif.ModelEval.Model
import Mathlib.Analysis.SpecialFunctions.Log.Base

namespace Cloudnet

/-! What the figures of Level 3 files show: `model_evaluation/plotting/plot_tools.py`, `model_evaluation/plotting/plotting.py` and
`model_evaluation/statistics/statistical_methods.py`. Masked and NaN values are `none`; the rounding of percentages to two decimals is left out. -/

/-! ## Names -/

/-- `n.startswith(MODEL_PREFIX)` (`model_metadata.py:33`) -/
def isModelName (n : String) : Bool := "model_".toList.isPrefixOf n.toList

/-- `l.insert(i, x)` -/
def insertAt {β : Type} (i : ℕ) (x : β) (l : List β) : List β := l.take i ++ x :: l.drop i

/-- `plot_tools.py:60-65` `sort_model2first_element` -/
def sortModelFirst (a : List String) : List String :=
  ((a.filter isModelName).zipIdx).foldl (fun a mi => insertAt mi.2 mi.1 (a.erase mi.1)) a

/-- `plot_tools.py:52-57` `parse_dataset_keys`; `vars` are the names in the file. -/
def datasetKeys (vars : List String) (product : String) (advance : Bool) : List String :=
  let names := vars.filter fun n => hasText product n
  if advance then names else names.filter fun n => !hasText "cirrus" n && !hasText "snow" n

/-- `plot_tools.py:39`: `variables or …` -/
def chosenNames (vars : List String) (name : String) (wanted : List String) (advance : Bool) : List String :=
  if wanted = [] then datasetKeys vars name advance else wanted

/-- `plot_tools.py:30-49` `parse_wanted_names`; no variables and `None` are the same. -/
def wantedNames (vars : List String) (name : String) (wanted : List String) (advance : Bool) : List String × List String :=
  let names := chosenNames vars name wanted advance
  let standard := sortModelFirst (names.filter fun n => hasText name n && !hasText "adv" n)
  let advection := names.filter fun n => hasText name n && hasText "adv" n
  let advection := ((names.filter isModelName).zipIdx).foldl (fun a mi => insertAt mi.2 mi.1 a) advection
  if advection.length < standard.length then (standard, [])
  else if advection.length > standard.length then (advection, [])
  else (standard, advection)

/-- `plotting.py:136-147`: the names of each figure. -/
def l3FigureNames (names : List String × List String) (includeAdvection : Bool) : List (List String) :=
  let set := if includeAdvection then [names.1, names.2] else [names.1]
  let unique := set.foldl (fun u ns => if ns ∈ u then u else u ++ [ns]) []
  unique.filter fun ns => ns ≠ []

section
variable {α : Type} [Field α] [LinearOrder α]

/-! ## Data -/

/-- `plot_tools.py:90-96` `mask_small_values`, one value. -/
def maskSmall (name : String) (x : Option α) : Option α :=
  x.bind fun v =>
    if v ≤ 0 then none
    else if hasText "lwc" name && decide (v < 1 / 100000) then none
    else if hasText "iwc" name && decide (v < 1 / 10000000) then none
    else some v

/-- `plot_tools.py:106-112` `create_segment_values`, one pixel. -/
def segmentValue (model obs : Option α) : ℕ :=
  let x := 0
  let x := if model.isNone && obs.isNone then 0 else x
  let x := if !model.isNone && obs.isNone then 1 else x
  let x := if !obs.isNone && model.isNone then 3 else x
  if !model.isNone && !obs.isNone then 2 else x

/-- `plot_tools.py:120-127` `rolling_mean` -/
def rollingMean (n : ℕ) (data : List (Option α)) : List (Option α) :=
  (List.range data.length).map fun i => maskedMean ((data.drop i).take n)

/-- `statistical_methods.py:158-163` `vertical_profile`, one level of a variable. -/
def verticalMean (nT : ℕ) (x : Grid (Option α)) (h : ℕ) : Option α := maskedMean ((List.range nT).map fun t => x t h)

/-- `np.histogram(observation)[-1][-1]`: the upper end of the last of ten bins. -/
def histogramTop (obs : List α) : α :=
  match obs with
  | [] => 1
  | o :: os =>
    let lo := os.foldl min o
    let hi := os.foldl max o
    if lo = hi then hi + 1 / 2 else hi

/-- `statistical_methods.py:135-155` `histogram`; `round` is the rounding to one decimal for cloud fraction and to six for others. -/
def histogramData (round : α → α) (model obs : List (Option α)) : List α × List α :=
  let model := (model.filterMap id).map round
  let obs := (obs.filterMap id).map round
  let top := histogramTop obs
  (model.map fun m => if m > top then top else m, obs)

/-- `plot_tools.py:68-87` `read_data_characters`, `plot_tools.py:130-145` `change2one_dim_axes` and `plotting.py:199-204`: the heights (km) of the
levels of an image of `nT` times and `nH` levels. If a height is masked, the first profile with a height is used for all, else the mean. -/
def meshHeights (nT nH : ℕ) (height : Grid (Option α)) : Except String (List (Option α)) :=
  let row := fun t => (List.range nH).map fun h => (height t h).map fun z => z / 1000
  if (List.range nT).any fun t => (row t).any Option.isNone then
    match ((List.range nT).map row).filter fun r => !r.all Option.isNone with
    | [] => .error "IndexError"
    | r :: _ => .ok r
  else .ok ((List.range nH).map fun h => maskedMean ((List.range nT).map fun t => (height t h).map fun z => z / 1000))

/-! ## Statistics of several variables -/

/-- `plotting.py:259-300` for relative (`rel`) or absolute errors: the errors of the variables that are drawn. `combine_masked_indices` masks the
model data in place, and `_check_data2` ends the loop. -/
def errorPanels (rel : Bool) (n : ℕ) : (ℕ → Option α) → List (ℕ → Option α) → List (ℕ → Option α)
  | _, [] => []
  | model, obs :: rest =>
    let e := if rel then relativeError n model obs else absoluteError n model obs
    if (List.range n).all fun k => (e k).isNone then [] else e :: errorPanels rel n (combineMasked n model obs).1 rest

/-- `statistical_methods.py:122-124`: the model data after `calc_common_area_sum`. -/
def modelAbove (n : ℕ) (model obs : ℕ → Option α) : ℕ → Option α :=
  fun k => (model k).bind fun m => if m < minKnown n obs then none else some m

/-- `plotting.py:259-300` for the common area: the percentage and the classes of the pixels. `calc_common_area_sum` masks the model data in place. -/
def areaPanels (n : ℕ) : (ℕ → Option α) → List (ℕ → Option α) → List (α × (ℕ → ℕ))
  | _, [] => []
  | model, obs :: rest =>
    (commonArea n model obs, fun k => segmentValue (modelAbove n model obs k) (obs k)) :: areaPanels n (modelAbove n model obs) rest

/-- `plotting.py:255-261`, `plotting.py:241-243`: without model data there are no panels (the model is the first of the names). -/
def statisticPanels {β : Type} (panels : (ℕ → Option α) → List (ℕ → Option α) → List β) (n : ℕ) (model : ℕ → Option α)
    (obs : List (ℕ → Option α)) : List β :=
  if (List.range n).all fun k => (model k).isNone then [] else panels model obs

end

/-- `plotting.py:205-211`: a value of an image. -/
noncomputable def meshValue (celsius logScale : Bool) (vmin : ℝ) (x : Option ℝ) : Option ℝ :=
  let x := if celsius then x.map fun v => v - 27315 / 100 else x
  let lim := if logScale then Real.logb 10 vmin else vmin
  let x := if logScale then x.bind fun v => if 0 < v then some (Real.logb 10 v) else none else x
  x.bind fun v => if v < lim then none else some v

end Cloudnet
