import Verif.Droplet.Model
import Mathlib.Analysis.SpecialFunctions.Complex.Arg
import Mathlib.Data.List.Dedup
import Mathlib.Data.List.Sort

/-!
What figures show (`plotting/plotting.py`): gaps, averages, classes and axes, as the data given to matplotlib.
-/

namespace Cloudnet

/-! ### Gaps -/

section
variable {α : Type} [Field α] [LinearOrder α]

/-- A profile of a variable; `none` is masked. A time series has profiles of one value. -/
abbrev PlotRow (α : Type) := List (Option α)

/-- `np.diff` -/
def listDiff : List α → List α
  | a :: b :: l => (b - a) :: listDiff (b :: l)
  | _ => []

/-- `plotting/plotting.py:1235-1244`: minutes without data that make a gap. -/
def maxGapTable : List (String × α) := [("mwr-multi", 35), ("weather-station", 12), ("doppler-lidar-wind", 75), ("doppler-lidar", 75),
  ("epsilon-lidar", 75), ("radar", 5), ("cpr-simulation", 60), ("weather-radar", 20)]

/-- `plotting/plotting.py:1229-1245` `_get_max_gap_in_minutes`. -/
def maxGapMinutes [FloorRing α] (fileType : String) (time : List α) : Except String α :=
  if fileType = "model" then
    match listDiff time with
    | [] => .error "ValueError: zero-size array to reduction operation minimum which has no identity"
    | d :: ds => .ok (npRound (60 * ds.foldl min d) : ℤ)
  else .ok ((maxGapTable.lookup fileType).getD 10)

/-- A profile without any value. -/
def rowMasked (r : PlotRow α) : Bool := r.all fun x => x.isNone

/-- `plotting/plotting.py:1272-1281` `screen_completely_masked_profiles`: the profiles with values and the one after the last of them. -/
def unmaskedProfiles (l : List (α × PlotRow α)) : Except String (List (α × PlotRow α)) :=
  if l.all fun p => p.2.all fun x => x.isSome then .ok l
  else
    let good := (List.range l.length).filter fun i => !rowMasked (l.getD i (0, [])).2
    match good.getLast? with
    | none => .error "PlottingError: All values masked in the file."
    | some k => .ok ((good ++ [k + 1]).map fun i => l.getD (min i (l.length - 1)) (0, []))

/-- `np.insert(l, i, x, axis=0)` for one element. -/
def npInsert {β : Type} (l : List β) (i : ℕ) (x : β) : List β := l.take i ++ x :: l.drop i

/-- `plotting/plotting.py:514` -/
def gapDelta : α := 1 / 1000

/-- `plotting/plotting.py:496`: indices before gaps. -/
def gapIndices (gap : α) (time : List α) : List ℕ := (List.range (time.length - 1)).filter fun i => decide (gap < time.getD (i + 1) 0 - time.getD i 0)

/-- `plotting/plotting.py:515-520`: gaps between profiles, from the last to the first. Times and data are edited together, so that they are
modelled as one list of pairs. -/
def insertGaps (w : ℕ) (time : List α) (inds : List ℕ) (l : List (α × PlotRow α)) : List (α × PlotRow α) :=
  inds.reverse.foldl (fun s ind =>
    npInsert (npInsert s (ind + 1) (time.getD (ind + 1) 0 - gapDelta, List.replicate w none)) (ind + 1)
      (time.getD ind 0 + gapDelta, List.replicate w none)) l

/-- `plotting/plotting.py:481-532` `_mark_gaps` after the screening, for `min_x = 0` (as in all calls): times and data with two masked profiles
in every gap longer than `gap` hours. `w` is the number of gates. -/
def markGaps (w : ℕ) (gap maxX : α) (l : List (α × PlotRow α)) : List (α × PlotRow α) :=
  let time := l.map Prod.fst
  let first := time.getD 0 0
  let last := time.getD (time.length - 1) 0
  let s := insertGaps w time (gapIndices gap time) l
  let s := if gap < first - 0 then npInsert (npInsert s 0 (first - gapDelta, List.replicate w none)) 0 (gapDelta, List.replicate w none) else s
  if gap < maxX - last then
    npInsert (npInsert s s.length (maxX - gapDelta, List.replicate w none)) s.length (last + gapDelta, List.replicate w none)
  else s

/-- `plotting/plotting.py:481-532` `_mark_gaps`. -/
def figureData [FloorRing α] (fileType : String) (w : ℕ) (maxX : α) (l : List (α × PlotRow α)) : Except String (List (α × PlotRow α)) :=
  let time := l.map Prod.fst
  match time with
  | [] => .error "IndexError"
  | first :: _ =>
    if first < 0 ∨ maxX < time.getD (time.length - 1) 0 then .error "ValueError: x-axis values outside the range"
    else (maxGapMinutes fileType time).bind fun gap =>
      (if fileType = "model" then unmaskedProfiles l else .ok l).map fun l => markGaps w (gap / 60) maxX l

/-- `l[i:i+2]` for `i = 0, 2, …` -/
def pairUp {β : Type} : List β → List (List β)
  | [] => []
  | [a] => [[a]]
  | a :: b :: l => [a, b] :: pairUp l

/-- `plotting/plotting.py:446-459` `_fill_between_data_gaps`: the hatched ranges of time. -/
def hatched (timeWithGaps time : List α) : List (List α) :=
  pairUp ((timeWithGaps.filter fun t => decide (t ∉ time)).dedup.insertionSort (· ≤ ·))

end

/-! ### Averages -/

/-- `np.split(x, cuts)` of an array of length `n`: the ranges of indices of the parts. -/
def npSplit (n : ℕ) (cuts : List ℕ) : List (ℕ × ℕ) := (0 :: cuts).zip (cuts ++ [n])

/-- `l[::2]` -/
def everySecond {β : Type} : List β → List β
  | [] => []
  | [a] => [a]
  | a :: _ :: l => a :: everySecond l

/-- `plotting/plotting.py:1028-1030`: ranges of indices of valid samples. -/
def validBlocks (n : ℕ) (invalid : ℕ → Bool) : List (ℕ × ℕ) :=
  let cuts := ((List.range (n - 1)).filter fun i => invalid i != invalid (i + 1)).map (· + 1)
  everySecond ((npSplit n cuts).drop (if invalid 0 then 1 else 0))

/-- `plotting/plotting.py:1265-1269` `find_batches_of_ones` for an array of length `n`: first and last indices. -/
def findBatches (n : ℕ) (flag : ℕ → Bool) : List (ℕ × ℕ) :=
  let before := fun i => if i = 0 then false else flag (i - 1)
  let after := fun i => if i + 1 = n then false else flag (i + 1)
  ((List.range n).filter fun i => !before i && flag i).zip ((List.range n).filter fun i => flag i && !after i)

section
variable {α : Type} [Field α] [LinearOrder α] [FloorRing α]

/-- `plotting/plotting.py:1080-1084`: number of samples of the average. -/
def windowSize (window dt : α) : ℕ :=
  let w := max 1 ⌊window / 60 / dt⌋.toNat
  if w % 2 = 0 then w + 1 else w

/-- `plotting/plotting.py:1085-1087`: `np.convolve` of the padded samples with equal weights. -/
def convolveMean (n : ℕ) (data : ℕ → α) (w : ℕ) : List α :=
  (List.range n).map fun i => ((List.range w).map fun k => 1 / (w : α) * data (min (i + k - w / 2) (n - 1))).sum

/-- `plotting/plotting.py:1073-1087` `_calculate_moving_average` of `n` samples. -/
def movingAverage (n : ℕ) (data time : ℕ → α) (window : α) : Except String (List α) :=
  if n = 0 then .ok []
  else if n = 1 then .ok [data 0]
  else if mdiff n time = 0 then .error "OverflowError: cannot convert float infinity to integer"
  else .ok (convolveMean n data (windowSize window (mdiff n time)))

/-- `plotting/plotting.py:1067-1070` `_find_time_gap_indices`, plus one. -/
def curveCuts (n : ℕ) (time : ℕ → α) (gap : α) : List ℕ :=
  ((List.range (n - 1)).filter fun i => decide (gap / 60 < time (i + 1) - time i)).map (· + 1)

/-- `plotting/plotting.py:1032-1053`: the curves drawn for one block of valid samples: lists of times and averages. -/
def blockCurves (time : ℕ → α) (gap : α) (block : ℕ × ℕ) (sma : List α) : List (List (α × α)) :=
  let n := block.2 - block.1
  (npSplit n (curveCuts n (fun i => time (block.1 + i)) gap)).map fun r =>
    (List.range (r.2 - r.1)).map fun i => (time (block.1 + (r.1 + i)), sma.getD (r.1 + i) 0)

/-- `plotting/plotting.py:1004-1053` `_plot_moving_average` (not of wind directions) of `n ≥ 1` samples: all curves. -/
def averageCurves (n : ℕ) (data time : ℕ → α) (invalid : ℕ → Bool) (gap : α) : Except String (List (List (α × α))) :=
  ((validBlocks n invalid).mapM fun b =>
    (movingAverage (b.2 - b.1) (fun i => data (b.1 + i)) (fun i => time (b.1 + i)) 5).map (blockCurves time gap b)).map List.flatten

end

/-- `plotting/plotting.py:1090-1106` `_calculate_average_wind_direction` of `n` samples; `none` is not drawn (NaN). -/
noncomputable def averageDirection (n : ℕ) (speed direction time : ℕ → ℝ) (window : ℝ) : Except String (List (Option ℝ)) :=
  let u := fun i => speed i * Real.cos (direction i * (Real.pi / 180))
  let v := fun i => speed i * Real.sin (direction i * (Real.pi / 180))
  (movingAverage n u time window).bind fun us => (movingAverage n v time window).map fun vs =>
    let data := (us.zip vs).map fun p =>
      let a := Complex.arg ⟨p.1, p.2⟩ * (180 / Real.pi)
      a - 360 * ⌊a / 360⌋
    (List.range data.length).map fun i =>
      if i + 1 < data.length ∧ 300 < |data.getD (i + 1) 0 - data.getD i 0| then none else some (data.getD i 0)

end Cloudnet
