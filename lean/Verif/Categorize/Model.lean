import Verif.Interp.Model
import Verif.Times.Model
import Verif.Rebin.Model

namespace Cloudnet

/-! Putting the sources on one grid and collecting the output in `categorize/categorize.py` and
`categorize/lidar.py`. -/

section
variable {α : Type} [Field α] [LinearOrder α]

/-- `RegularGridInterpolator(method="nearest", bounds_error=False)` along one axis of `m ≥ 1` strictly ascending
points: the interval containing `v` and the nearer of its ends, the lower one if `v` is in the middle; `none` (NaN)
outside the axis. SciPy searches the interval with `find_interval_ascending`. -/
def regularNearest (m : ℕ) (x : ℕ → α) (v : α) : Option ℕ :=
  if v < x 0 ∨ x (m - 1) < v then none
  else if m = 1 then some 0
  else
    let i := min (((List.range m).filter fun k => decide (x k ≤ v)).length - 1) (m - 2)
    some (if (v - x i) / (x (i + 1) - x i) ≤ 1 / 2 then i else i + 1)

/-- `lidar.py:27-66` `interpolate_to_grid` with `utils.py:409-441` `interpolate_2d_nearest`: the interpolated field and the
time indices without lidar data. Without any profile SciPy fails, as for axes that are not strictly ascending (strictly
descending axes, which SciPy flips, are not modelled). -/
def lidarToGrid (nT : ℕ) (time : ℕ → α) (nH : ℕ) (height : ℕ → α) (beta : Grid (Option α)) (nTn : ℕ) (timeNew : ℕ → α)
    (nHn : ℕ) (heightNew : ℕ → α) : Except String (Grid (Option α) × List ℕ) :=
  let indices := (List.range nT).filter fun t => (List.range nH).any fun h => (beta t h).isSome
  let m := indices.length
  let x : ℕ → α := fun i => time (indices.getD i 0)
  if m = 0 ∨ nH = 0 then .error "IndexError"
  else if (List.range (m - 1)).any (fun i => decide (x (i + 1) ≤ x i)) ||
      (List.range (nH - 1)).any (fun i => decide (height (i + 1) ≤ height i)) then
    .error "ValueError: The points must be strictly ascending or descending"
  else
    let interp : Grid (Option α) := fun t h =>
      (regularNearest m x (timeNew t)).bind fun i =>
        (regularNearest nH height (heightNew h)).bind fun j => beta (indices.getD i 0) j
    let timeGap := getGapInd m x nTn timeNew (1 / 60)
    let heightGap := getGapInd nH height nHn heightNew 100
    let interp := interp.assign (fun t _ => decide (t ∈ timeGap)) none
    let interp := interp.assign (fun _ h => decide (h ∈ heightGap)) none
    .ok (interp, timeGap)

end

/-- `utils.py:1074-1078` `find_masked_profiles_indices`. -/
def findMaskedProfiles {β : Type} (n nH : ℕ) (x : Grid (Option β)) : List ℕ :=
  (List.range n).filter fun t => decide (((List.range nH).filter fun h => (x t h).isSome).length = 0)

/-- `categorize.py:101-102`: the time indices without gaps. -/
def validIndices (n : ℕ) (radarGap lidarGap modelGap : List ℕ) : List ℕ :=
  (List.range n).filter fun i => decide (i ∉ radarGap ++ lidarGap ++ modelGap)

/-- The observations: for each source with a dictionary `data` (in the order of the fields), the variables; the dense
model fields, and the time of the radar. -/
structure CatData (α : Type) where
  sources : List (String × List (String × NdArray α))
  modelDense : List (String × List (List α))
  radarTime : List α

/-- `categorize.py:111-122`, one variable. Arrays of length one count as scalars (`utils.isscalar`). -/
def screenProfiles {α : Type} (n : ℕ) (valid : List ℕ) (a : NdArray α) : Except String (NdArray α) :=
  if a.len? = none ∨ a.len? = some 1 then .ok a
  else if a.len? = some n then
    match a with
    | .d1 xs => ((Selector.idx valid).take xs).map .d1
    | .d2 xs => ((Selector.idx valid).take xs).map .d2
    | a => .ok a
  else .ok a

/-- `categorize.py:104-124` `_screen_bad_time_indices` -/
def screenBadTimeIndices {α : Type} (time : List α) (valid : List ℕ) (d : CatData α) : Except String (CatData α) := do
  let radarTime ← (Selector.idx valid).take time
  let sources ← d.sources.mapM fun s => do
    let vars ← s.2.mapM fun v => do
      let a ← screenProfiles time.length valid v.2
      pure (v.1, a)
    pure (s.1, vars)
  let dense ← d.modelDense.mapM fun v => do
    let a ← (Selector.idx valid).take v.2
    pure (v.1, a)
  pure { sources := sources, modelDense := dense, radarTime := radarTime }

/-- `categorize.py:186-190`: screening in the main function. -/
def screenObservations {α : Type} (time : List α) (radarGap lidarGap modelGap : List ℕ) (d : CatData α) :
    Except String (CatData α) :=
  let valid := validIndices time.length radarGap lidarGap modelGap
  if valid.length < 2 then .error "ValidTimeStampError" else screenBadTimeIndices time valid d

/-! Python dictionaries, as lists in insertion order. -/

section
variable {β : Type}

/-- `d[k] = v` -/
def dictSet (d : List (String × β)) (k : String) (v : β) : List (String × β) :=
  if d.any fun p => p.1 == k then d.map fun p => if p.1 == k then (k, v) else p else d ++ [(k, v)]

/-- `{**a, **b}` -/
def dictMerge (a b : List (String × β)) : List (String × β) := b.foldl (fun d p => dictSet d p.1 p.2) a

/-- `d.pop(k, None)` -/
def dictPop (d : List (String × β)) (k : String) : List (String × β) := d.filter fun p => p.1 != k

/-- The results of the processing that `_prepare_output` adds: `time`, `height` and `radar_frequency` of the radar,
attenuations, bits, probabilities. -/
structure CatResults (β : Type) where
  time : β
  height : β
  radarFrequency : β
  gasAtten : β
  liquidAtten : β
  rainAtten : β
  meltingAtten : β
  qualityBits : β
  insectProb : β
  rainDetected : β
  categoryBits : β
  liquidProb : Option β

/-- The order in which `_prepare_output` appends the results (`radar.py:321-324`, `categorize.py:134-148`). -/
def CatResults.toList (r : CatResults β) : List (String × β) :=
  [("time", r.time), ("height", r.height), ("radar_frequency", r.radarFrequency)]

def CatResults.liquidProbList (r : CatResults β) : List (String × β) :=
  match r.liquidProb with
  | some x => [("liquid_prob", x)]
  | none => []

def CatResults.toList2 (r : CatResults β) : List (String × β) :=
  [("radar_gas_atten", r.gasAtten), ("radar_liquid_atten", r.liquidAtten), ("radar_rain_atten", r.rainAtten),
    ("radar_melting_atten", r.meltingAtten), ("quality_bits", r.qualityBits), ("insect_prob", r.insectProb),
    ("rain_detected", r.rainDetected), ("category_bits", r.categoryBits)] ++ r.liquidProbList

/-- `model.py:132-135` `screen_sparse_fields`; a missing field is a `KeyError`. -/
def screenSparseFields (d : List (String × β)) : Except String (List (String × β)) :=
  ["temperature", "pressure", "q", "uwind", "vwind"].mapM fun k =>
    match d.lookup k with
    | some x => .ok (k, x)
    | none => .error "KeyError"

/-- `categorize.py:126-157` `_prepare_output` -/
def prepareOutput (radar lidar model sparse : List (String × β)) (mwr disdrometer : Option (List (String × β)))
    (r : CatResults β) : Except String (List (String × β)) := do
  let radar := r.toList.foldl (fun d p => dictSet d p.1 p.2) radar
  let sparse ← screenSparseFields sparse
  let radar := if disdrometer.isSome then dictPop radar "rainfall_rate" else radar
  let disdrometer := disdrometer.map fun d => dictPop d "n_particles"
  let radar := r.toList2.foldl (fun d p => dictSet d p.1 p.2) radar
  pure (dictMerge (dictMerge (dictMerge (dictMerge (dictMerge radar lidar) model) sparse) (mwr.getD []))
    (disdrometer.getD []))

end

end Cloudnet
