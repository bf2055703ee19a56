import Mathlib.Tactic
import Verif.Station.Pipe

/-!
PollyXT Raman lidar (`cloudnetpy/instruments/pollyxt.py`): pairing of files, choice of the channel, concatenation and screening. Screening by
date (`get_date_and_time`) and the writing of the file are modelled elsewhere. Within a file, all variables have one row for each time.
-/

namespace Cloudnet

variable {α : Type}

/-- `pollyxt.py:191`. -/
inductive PollyChannel where
  | ch1064
  | ch532
  | ch355
  deriving DecidableEq

/-- The number in the name of the channel. -/
def PollyChannel.wavelength : PollyChannel → ℕ
  | .ch1064 => 1064
  | .ch532 => 532
  | .ch355 => 355

/-- A profile of a file with attenuated backscatter. -/
structure PollyProfile (α : Type) where
  time : α
  beta : PollyChannel → List (Option α)
  snr : PollyChannel → List (Option α)

/-- A file with attenuated backscatter; heights are rounded. -/
structure PollyBsc (α : Type) where
  heights : List (Option ℤ)
  epoch : ℤ
  hasBeta : PollyChannel → Bool
  hasSnr : PollyChannel → Bool
  calibration : PollyChannel → α
  profiles : List (PollyProfile α)

/-- A file with volume depolarisation: times and profiles. -/
structure PollyVol (α : Type) where
  heights : List (Option ℤ)
  profiles : List (α × List (Option α))

/-- One profile of the concatenated data. -/
structure PollyRow (α : Type) where
  time : α
  beta : List (Option α)
  depol : List (Option α)
  snr : List (Option α)
  calibration : α
  deriving DecidableEq

/-- `pollyxt.py:219-221`: sum of the rounded heights; masked if all are. -/
def pollySum (h : List (Option ℤ)) : Option ℤ := if h.all Option.isNone then none else some (h.map fun x => x.getD 0).sum

/-- `pollyxt.py:231`: `Counter(…).most_common(1)`: of the values with the largest number, the first one met. -/
def pollyMostCommon (l : List ℤ) : Option ℤ := l.find? fun x => l.all fun y => l.count y ≤ l.count x

/-- `pollyxt.py:216-244` (`_fetch_files_with_same_range`). -/
def pollyPairs (bsc : List (PollyBsc α)) (vol : List (PollyVol α)) : List (PollyBsc α × PollyVol α) :=
  let sums := (bsc.map fun f => pollySum f.heights) ++ vol.map fun f => pollySum f.heights
  match pollyMostCommon (sums.filterMap id) with
  | none => []
  | some m => (bsc.zip vol).filter fun p => pollySum p.1.heights = some m ∧ pollySum p.2.heights = some m

/-- Sum of the valid values. -/
def pollyTotal [AddCommMonoid α] (l : List (Option α)) : α := (l.filterMap id).sum

/-- `pollyxt.py:260-262` (`_only_zeros_or_masked`). -/
def pollyOnlyZeros [AddCommMonoid α] [DecidableEq α] (ch : PollyChannel) (f : PollyBsc α) : Bool :=
  (f.profiles.map fun p => pollyTotal (p.beta ch)).sum = 0

/-- `pollyxt.py:193-206`, the loop over the files for one channel. -/
def pollyWorks [AddCommMonoid α] [DecidableEq α] (ch : PollyChannel) : List (PollyBsc α) → Except String Bool
  | [] => .ok false
  | f :: rest =>
    if !f.hasBeta ch then .error "KeyError" else if !pollyOnlyZeros ch f then .ok true else pollyWorks ch rest

/-- `pollyxt.py:190-208` (`_get_valid_beta_channel`). -/
def pollyChannel [AddCommMonoid α] [DecidableEq α] (files : List (PollyBsc α)) : Except String PollyChannel :=
  go [.ch1064, .ch532, .ch355]
where
  go : List PollyChannel → Except String PollyChannel
    | [] => .error "ValidTimeStampError"
    | ch :: rest =>
      match pollyWorks ch files with
      | .error e => .error e
      | .ok true => .ok ch
      | .ok false => go rest

/-- `pollyxt.py:247-257` (`_read_array_from_file_pair`): `assert_almost_equal` with two decimals. -/
def pollyTimesAgree [Field α] [LinearOrder α] (b : PollyBsc α) (v : PollyVol α) : Bool :=
  b.profiles.length = v.profiles.length ∧
    (b.profiles.zip v.profiles).all fun p => |p.1.time - p.2.1| < 15 / 1000

/-- `pollyxt.py:157-180`: the rows of a pair of files. -/
def pollyRows (ch : PollyChannel) (b : PollyBsc α) (v : PollyVol α) : List (PollyRow α) :=
  (b.profiles.zip v.profiles).map fun p => ⟨p.1.time, p.1.beta ch, p.2.2, p.1.snr ch, b.calibration ch⟩

/-- `pollyxt.py:139-180`: the loop over the pairs. -/
def pollyLoop [Field α] [LinearOrder α] (ch : PollyChannel) : List (PollyBsc α × PollyVol α) → Except String (List (PollyRow α))
  | [] => .ok []
  | (b, v) :: rest =>
    if !pollyTimesAgree b v then pollyLoop ch rest
    else if !b.hasBeta ch then .error "KeyError"
    else if !b.hasSnr ch then pollyLoop ch rest
    else (pollyLoop ch rest).map fun rows => pollyRows ch b v ++ rows

/-- `pollyxt.py:205`: the wavelength of the instrument is stored in `instruments.POLLYXT`, one object for the whole process. -/
def pollyWavelength (stored : ℕ) (ch : PollyChannel) : ℕ := if ch ≠ .ch1064 then ch.wavelength else stored

/-- The data after `fetch_data`, with the epoch that it returns. -/
structure PollyData (α : Type) where
  channel : PollyChannel
  epoch : ℤ
  rows : List (PollyRow α)
  deriving DecidableEq

/-- `pollyxt.py:121-182` (`fetch_data`), lists of files sorted by name; also the wavelength stored in the process afterwards. The epoch is
that of the last pair of the loop. -/
def pollyFetch [Field α] [LinearOrder α] (stored : ℕ) (bsc : List (PollyBsc α)) (vol : List (PollyVol α)) : Except String (PollyData α) × ℕ :=
  if bsc = [] then (.error "RuntimeError", stored)
  else if bsc.length ≠ vol.length then (.error "InconsistentDataError", stored)
  else
    let pairs := pollyPairs bsc vol
    match pairs.getLast? with
    | none => (.error "InconsistentDataError", stored)
    | some last =>
      match pollyChannel (pairs.map Prod.fst) with
      | .error e => (.error e, stored)
      | .ok ch => ((pollyLoop ch pairs).map fun rows => ⟨ch, last.1.epoch, rows⟩, pollyWavelength stored ch)

/-- `pollyxt.py:92-101` (`calc_screened_products`), one value of `beta`. A masked signal-to-noise ratio masks the value. -/
def pollyBeta [Field α] [LinearOrder α] (limit : α) (snr raw : Option α) : Option α :=
  let x := match snr with
    | none => none
    | some s => if s < limit then none else raw
  x.bind fun v => if v < 0 then none else some v

/-- `pollyxt.py:92-101`, one value of `depolarisation`. -/
def pollyDepol [Field α] [LinearOrder α] (limit : α) (snr raw : Option α) : Option α :=
  let x := match snr with
    | none => none
    | some s => if s < limit then none else raw
  let x := x.bind fun v => if 1 < v then none else some v
  x.bind fun v => if v < 0 then none else some v

/-- `pollyxt.py:104-106` (`fetch_zenith_angle`). -/
def pollyZenith [Field α] (metadata : List (String × α)) : α := (metadata.lookup "zenith_angle").getD 5

/-- `pollyxt.py:63-66` with `ceilometer.py:29`: `self.metadata` is empty and stays so, whatever `site_meta` has. -/
def pollyZenithOf [Field α] (_siteMeta : List (String × α)) : α := pollyZenith (α := α) []

/-- `pollyxt.py:184-188` (`screen_completely_masked_profiles`): profiles without raw backscatter are dropped from every array whose first
dimension has the length of the time, here the rows and the heights. -/
def pollyScreen (range : List α) (rows : List (PollyRow α)) : List α × List (PollyRow α) :=
  let valid : List ℕ := (List.range rows.length).filter fun i => (rows[i]?.map fun r => r.beta.any Option.isSome) = some true
  (if range.length = rows.length then pickRows valid range else range, pickRows valid rows)

end Cloudnet
