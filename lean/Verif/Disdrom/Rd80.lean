import Mathlib.Analysis.SpecialFunctions.Log.Base
import Verif.Station.Toa5
import Verif.Precip.Model
import Verif.Cli.Model

namespace Cloudnet

/-! RD-80 disdrometers: `disdronator/rd80.py` and `instruments/disdrometer/rd80.py`. -/

/-- `datetime.strptime(text, "%Y-%m-%d %H:%M:%S")` as a date and hours since midnight, `int` and `float`; `none` is a
`ValueError`. -/
structure RdParsers (D α : Type) where
  time : String → Option (D × α)
  int : String → Option ℤ
  float : String → Option α

/-- One row of a file: time, counts of the 20 classes, interval (s), rain rate (mm/h), rain amount (mm), total amount (mm). -/
structure RdRecord (D α : Type) where
  time : D × α
  n : List ℤ
  interval : ℤ
  rate : α
  amount : α
  total : α
  deriving DecidableEq

section
variable {D α : Type}

/-- `line.rstrip("\r\n").split("\t")` (`disdronator/rd80.py:20`, `disdronator/rd80.py:23`). -/
def rdFields (line : String) : List String :=
  splitChar '\t' (String.ofList ((line.toList.reverse.dropWhile fun c => decide (c = '\r' ∨ c = '\n')).reverse))

/-- `row[key].replace(",", ".")` -/
def commaToPoint (s : String) : String := String.ofList (s.toList.map fun c => if c = ',' then '.' else c)

/-- `disdronator/rd80.py:29`: `n1` to `n20`. -/
def rdClasses : List String :=
  ["n1", "n2", "n3", "n4", "n5", "n6", "n7", "n8", "n9", "n10", "n11", "n12", "n13", "n14", "n15", "n16", "n17", "n18", "n19",
    "n20"]

/-- `disdronator/rd80.py:26-32`: the values of a row; `none` is a `KeyError` or a `ValueError`. -/
def rdRecord (p : RdParsers D α) (row : List (String × String)) : Option (RdRecord D α) :=
  (row.lookup "YYYY-MM-DD").bind fun date => (row.lookup "hh:mm:ss").bind fun clock =>
    (p.time (date ++ " " ++ clock)).bind fun t =>
    (rdClasses.mapM fun key => (row.lookup key).bind p.int).bind fun n =>
    ((row.lookup "Interval [s]").bind p.int).bind fun interval =>
    ((row.lookup "RI [mm/h]").bind fun v => p.float (commaToPoint v)).bind fun rate =>
    ((row.lookup "RA [mm]").bind fun v => p.float (commaToPoint v)).bind fun amount =>
    ((row.lookup "RAT [mm]").bind fun v => p.float (commaToPoint v)).map fun total =>
      ⟨t, n, interval, rate, amount, total⟩

/-- `disdronator/rd80.py:21-32`: one line; a line with another number of fields than the header is skipped. -/
def rdLine (p : RdParsers D α) (keys : List String) (acc : List (RdRecord D α)) (line : String) :
    Except String (List (RdRecord D α)) :=
  if (rdFields line).length ≠ keys.length then .ok acc
  else match rdRecord p (dictZip keys (rdFields line)) with
    | none => .error "KeyError or ValueError"
    | some r => .ok (acc ++ [r])

/-- `disdronator/rd80.py:10-33` `read_rd80`; `lines` are all lines of the file. -/
def readRd80 (p : RdParsers D α) (lines : List String) : Except String (List (RdRecord D α)) :=
  (lines.drop 1).foldlM (rdLine p (rdFields (lines.headD ""))) []

/-- `instruments/disdrometer/rd80.py:82-91` `_read_data`. The counts of a file without records are a vector and not a matrix:
they cannot be joined with those of other files, and without any record the sum over the classes (line 122) fails later.
(Nothing of what happens before that is visible outside.) -/
def rdRead (p : RdParsers D α) (files : List (List String)) : Except String (List (RdRecord D α)) :=
  (files.mapM (readRd80 p)).bind fun rs =>
    if rs.isEmpty || rs.any List.isEmpty then .error "ValueError" else .ok rs.flatten

/-- `instruments/disdrometer/rd80.py:93-101` `_screen_time`; without an expected date the date is that of `self.time[0]`, and
`self.time` is the empty array of `cloudnet_instrument.py:19`. -/
def rdScreen [DecidableEq D] (expected : Option D) (rs : List (RdRecord D α)) : Except String (List (RdRecord D α)) :=
  match expected with
  | none => .error "IndexError"
  | some d => .ok (rs.filter fun r => decide (r.time.1 = d))

/-- `instruments/disdrometer/rd80.py:103-106` `sort_and_dedup_timestamps`. -/
def rdUnique [Field α] [LinearOrder α] (rs : List (RdRecord D α)) : List (RdRecord D α) :=
  pickRows (uniqueIndex rs.length (vec (rs.map fun r => r.time.2))) rs

/-- `disdronator/rd80.py:38-41` (mm). -/
def rdMid : List ℚ :=
  [359/1000, 455/1000, 551/1000, 656/1000, 771/1000, 913/1000, 1116/1000, 1331/1000, 1506/1000, 1665/1000, 1912/1000,
    2259/1000, 2584/1000, 2869/1000, 3198/1000, 3544/1000, 3916/1000, 4350/1000, 4859/1000, 5373/1000]

/-- `disdronator/rd80.py:42-45` (mm). -/
def rdSpread : List ℚ :=
  [92/1000, 100/1000, 91/1000, 119/1000, 112/1000, 172/1000, 233/1000, 197/1000, 153/1000, 166/1000, 329/1000,
    364/1000, 286/1000, 284/1000, 374/1000, 319/1000, 423/1000, 446/1000, 572/1000, 455/1000]

/-- `disdronator/rd80.py:46-49` (mm). -/
def rdLow : List ℚ :=
  [313/1000, 405/1000, 505/1000, 596/1000, 715/1000, 827/1000, 999/1000, 1232/1000, 1429/1000, 1582/1000, 1748/1000,
    2077/1000, 2441/1000, 2727/1000, 3011/1000, 3385/1000, 3704/1000, 4127/1000, 4573/1000, 5145/1000]

/-- `disdronator/rd80.py:50`: `np.append(Dlow[1:], Dlow[-1] + Dspr[-1])` -/
def rdUpp : List ℚ := rdLow.drop 1 ++ [rdLow.getLastD 0 + rdSpread.getLastD 0]

/-- `disdronator/rd80.py:51-54` (m/s). -/
def rdSpeed : List ℚ :=
  [1435/1000, 1862/1000, 2267/1000, 2692/1000, 3154/1000, 3717/1000, 4382/1000, 4986/1000, 5423/1000, 5793/1000, 6315/1000,
    7009/1000, 7546/1000, 7903/1000, 8258/1000, 8556/1000, 8784/1000, 8965/1000, 9076/1000, 9137/1000]

/-- `disdronator/rd80.py:55` (m²). -/
def rdArea : ℚ := 5 / 1000

/-- A record of the output. -/
structure RdOut where
  hour : ℝ
  interval : ℤ
  rate : ℝ
  particles : ℤ
  concentration : List ℝ
  reflectivity : Option ℝ

/-- `instruments/disdrometer/rd80.py:125`: `n / (A * dt[:, np.newaxis] * Vmid * Dspr)` -/
noncomputable def rdConcentration (n : List ℤ) (dt : ℤ) : List ℝ :=
  (n.zip (rdSpeed.zip rdSpread)).map fun q => (q.1 : ℝ) / ((rdArea : ℝ) * (dt : ℝ) * (q.2.1 : ℝ) * (q.2.2 : ℝ))

/-- `instruments/disdrometer/rd80.py:126`: `np.sum(n / Vmid * Dmid**6, axis=1) / (A * dt)` -/
noncomputable def rdZ (n : List ℤ) (dt : ℤ) : ℝ :=
  ((n.zip (rdSpeed.zip rdMid)).map fun q => (q.1 : ℝ) / (q.2.1 : ℝ) * (q.2.2 : ℝ) ^ 6).sum / ((rdArea : ℝ) * (dt : ℝ))

open Classical in
/-- `instruments/disdrometer/rd80.py:127-128`: in dB, without zeros and values below -10 dBZ. -/
noncomputable def rdDb (z : ℝ) : Option ℝ :=
  if z = 0 then none else if 10 * Real.logb 10 z < -10 then none else some (10 * Real.logb 10 z)

/-- `instruments/disdrometer/rd80.py:114-143` `convert_to_cloudnet_arrays`, for a record. Rounding to 32 bits is not modelled, and
neither are records with an interval of zero, which give infinite values. -/
noncomputable def rdConvert (r : RdRecord D ℝ) : RdOut :=
  ⟨r.time.2, r.interval, r.rate / (3600 / (1 / 1000)), r.n.sum, rdConcentration r.n r.interval, rdDb (rdZ r.n r.interval)⟩

/-- `instruments/disdrometer/rd80.py:50-62` `rd802nc`: the records of the output. -/
noncomputable def rd802nc [DecidableEq D] (p : RdParsers D ℝ) (expected : Option D) (files : List (List String)) :
    Except String (List RdOut) :=
  (rdRead p files).bind fun rs => (rdScreen expected rs).map fun rs => (rdUnique rs).map rdConvert

end

end Cloudnet
