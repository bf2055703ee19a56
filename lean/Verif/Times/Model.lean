import Verif.Interp.Model

namespace Cloudnet

/-! Time stamps: `utils.find_valid_time_indices`, `utils.screen_by_time`, and the time screening of
`instruments/cloudnet_instrument.py`. -/

/-- A NumPy array (or number) stored under a key: its dimension and its elements. `dn` is an array of
four or more dimensions, of which only the rows are kept. -/
inductive NdArray (α : Type) where
  | d0 (x : α)
  | d1 (xs : List α)
  | d2 (xs : List (List α))
  | d3 (xs : List (List (List α)))
  | dn (xs : List (List (List (List α))))
  deriving DecidableEq

/-- `array.shape[0]`, if the array has a dimension. -/
def NdArray.len? {α : Type} : NdArray α → Option ℕ
  | .d0 _ => none
  | .d1 xs => some xs.length
  | .d2 xs => some xs.length
  | .d3 xs => some xs.length
  | .dn xs => some xs.length

/-- An index argument of NumPy: a list of (non-negative) positions or a Boolean mask. -/
inductive Selector where
  | idx (ind : List ℕ)
  | mask (keep : List Bool)

/-- `xs[sel]` along the first axis: positions must exist, a mask must have the length of the axis. -/
def Selector.take {β : Type} (s : Selector) (xs : List β) : Except String (List β) :=
  match s with
  | .idx ind => if ind.all fun i => decide (i < xs.length) then .ok (ind.filterMap fun i => xs[i]?)
      else .error "IndexError"
  | .mask keep => if keep.length = xs.length then .ok (((xs.zip keep).filter (·.2)).map (·.1))
      else .error "IndexError"

/-- `array[sel]`, `array[sel, :]`, `array[sel, :, :]`; other dimensions are left alone
(`cloudnet_instrument.py:73-79`, `utils.py:978-983`). -/
def NdArray.select {α : Type} (s : Selector) : NdArray α → Except String (NdArray α)
  | .d0 x => .ok (.d0 x)
  | .d1 xs => (s.take xs).map .d1
  | .d2 xs => (s.take xs).map .d2
  | .d3 xs => (s.take xs).map .d3
  | .dn xs => .ok (.dn xs)

/-- The part of `CloudnetInstrument` that the time screening touches: the dictionary `data` (in insertion
order) and the attribute `time`. -/
structure Instrument (α : Type) where
  data : List (String × NdArray α)
  time : List α

/-- `cloudnet_instrument.py:83-87` `_get_time`: `data["time"]` (a vector) if present, else `self.time`. -/
def Instrument.getTime {α : Type} (d : Instrument α) : List α :=
  match d.data.lookup "time" with
  | some (.d1 xs) => xs
  | _ => d.time

/-- Is the selection empty? `cloudnet_instrument.py:62-67` (`nTime` is the length of the time vector). -/
def Selector.isEmpty (s : Selector) (nTime : ℕ) : Bool :=
  match s with
  | .idx ind => ind.isEmpty
  | .mask keep => keep.isEmpty || (keep.length == nTime && !keep.any id)

/-- `not utils.isscalar(array) and array.shape[0] == n_time` (`cloudnet_instrument.py:72`; an array of
length one counts as scalar, `utils.py:749-750`). -/
def NdArray.followsTime {α : Type} (nTime : ℕ) (a : NdArray α) : Bool :=
  match a.len? with
  | none => false
  | some n => n != 1 && n == nTime

/-- `cloudnet_instrument.py:59-81` `screen_time_indices`. -/
def Instrument.screenTimeIndices {α : Type} (d : Instrument α) (s : Selector) :
    Except String (Instrument α) := do
  let nTime := d.getTime.length
  if s.isEmpty nTime then throw "ValidTimeStampError: All timestamps screened"
  let data ← d.data.mapM fun kv => do
    let a ← if kv.2.followsTime nTime then kv.2.select s else pure kv.2
    pure (kv.1, a)
  let time ← if 0 < d.time.length then s.take d.time else pure d.time
  pure { data := data, time := time }

section
variable {α : Type} [Field α] [LinearOrder α]

/-- The list `ts` as a vector. -/
def vec (ts : List α) : ℕ → α := fun i => ts.getD i 0

/-- `cloudnet_instrument.py:49-52` `remove_duplicate_timestamps`. -/
def Instrument.removeDuplicateTimestamps (d : Instrument α) : Except String (Instrument α) :=
  d.screenTimeIndices (.idx (uniqueIndex d.getTime.length (vec d.getTime)))

/-- `cloudnet_instrument.py:54-57` `sort_timestamps`, where `ind` is what `argsort` returned (NumPy's
default sort is not stable, so for equal times any order is possible). -/
def Instrument.sortTimestamps (d : Instrument α) (ind : List ℕ) : Except String (Instrument α) :=
  d.screenTimeIndices (.idx ind)

/-- `utils.seconds2date(t, epoch).date()` (`utils.py:68`) as a day number; `epoch` in seconds since day
0. Rounding of `timedelta` to microseconds is not modelled. -/
def dateOf [FloorRing α] (epoch t : α) : ℤ := ⌊(epoch + t) / 86400⌋

/-- `utils.py:987-1017` `find_valid_time_indices`; `indSorted` is what `np.argsort(time)` returned. -/
def findValidTimeIndices [FloorRing α] (time : ℕ → α) (indSorted : List ℕ) (epoch : α)
    (expected : ℤ) : Except String (List ℕ) :=
  let indValid := indSorted.foldl (fun (acc : List ℕ) i =>
    if dateOf epoch (time i) = expected ∧ ¬ (time i ∈ acc.map time) then acc ++ [i] else acc) []
  if indValid = [] then .error "ValidTimeStampError" else .ok indValid

/-- A value of the dictionary given to `screen_by_time`: a list or an array. -/
inductive DictValue (α : Type) where
  | list (xs : List α)
  | array (a : NdArray α)

/-- `utils.py:967-984` `screen_by_time`, with `time` the vector under the key "time". -/
def screenByTime [FloorRing α] (data : List (String × DictValue α)) (time : List α)
    (indSorted : List ℕ) (epoch : α) (expected : ℤ) : Except String (List (String × DictValue α)) := do
  let validInd ← findValidTimeIndices (vec time) indSorted epoch expected
  data.mapM fun kv =>
    match kv.2 with
    | .list xs => if 1 < xs.length then throw "ValueError" else pure kv
    | .array a =>
      if a.len? = some time.length then do
        let b ← a.select (.idx validInd)
        pure (kv.1, .array b)
      else pure kv

end

end Cloudnet
