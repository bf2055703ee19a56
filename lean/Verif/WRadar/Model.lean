import Verif.Basic
import Verif.Interp.Model
import Verif.Times.Model
import Mathlib.Analysis.SpecialFunctions.Log.Base
import Mathlib.Analysis.SpecialFunctions.Pow.Real
import Mathlib.Data.List.Dedup

namespace Cloudnet

/-! Weather radar files (OPERA HDF5): `instruments/weather_radar.py`. Times are seconds since the epoch,
dates are days since the epoch. -/

/-! ### Reading a file -/

/-- One quantity of a file as stored: raw numbers of each ray and gate with their coding. -/
structure OperaGroup where
  quantity : String
  offset : ℝ
  gain : ℝ
  nodata : ℝ
  undetect : ℝ
  nRays : ℕ
  raw : ℕ → ℕ → ℝ

/-- `weather_radar.py:213-229`: one gate of one quantity. Numbers equal to `nodata` or `undetect` are
masked, the others decoded; `ma.mean` over the rays, as linear power for quantities in decibels. -/
noncomputable def operaGate (g : OperaGroup) (h : ℕ) : Option ℝ :=
  let isDb := g.quantity = "ZDR" ∨ g.quantity = "SNR"
  let decoded := (List.range g.nRays).filterMap fun r =>
    if g.raw r h = g.nodata ∨ g.raw r h = g.undetect then none
    else some (g.offset + g.gain * g.raw r h)
  open Classical in
  if decoded = [] then none
  else if isDb then
    some (10 * Real.logb 10 ((decoded.map fun x => (10 : ℝ) ^ (x / 10)).sum / decoded.length))
  else some (decoded.sum / decoded.length)

/-- `weather_radar.py:196-200`: the range of a gate in metres (`rstart` is in kilometres). -/
noncomputable def operaRange (rstart rscale : ℝ) (h : ℕ) : ℝ := rstart * 1000 + rscale / 2 + rscale * h

/-- `weather_radar.py:203-204`: files that reach beyond 100 km are not used (`nbins ≥ 1`). -/
noncomputable def operaTooLong (rstart rscale : ℝ) (nbins : ℕ) : Prop :=
  100000 < operaRange rstart rscale (nbins - 1)

/-- `weather_radar.py:234`: the reflectivity from the signal to noise ratio. -/
noncomputable def operaDbzh (snr : Option ℝ) (nez rng : ℝ) : Option ℝ :=
  snr.map fun s => s + nez + 20 * Real.logb 10 (rng * (1 / 1000))

/-! ### Merging files -/

/-- A file that has been read: time, ranges and profiles of the quantities. -/
structure WrFile (α : Type) where
  time : α
  nRange : ℕ
  range : ℕ → α
  data : List (String × (ℕ → Option α))

section
variable {α : Type} [Field α] [LinearOrder α]

/-- `weather_radar.py:86`: `max(ranges, key=lambda rng: rng[-1])`, the first of the longest. -/
def targetFile (first : WrFile α) (rest : List (WrFile α)) : WrFile α :=
  rest.foldl (fun best f => if best.range (best.nRange - 1) < f.range (f.nRange - 1) then f else best) first

/-- `np.array_equal(src_range, target_range)`. -/
def sameRange (f g : WrFile α) : Bool :=
  decide (f.nRange = g.nRange) && (List.range f.nRange).all fun h => decide (f.range h = g.range h)

/-- `weather_radar.py:88-98`: the profile of one quantity of one file on the target ranges. -/
def wrBlock (target f : WrFile α) (key : String) : ℕ → Option α :=
  match f.data.lookup key with
  | some v =>
    if !sameRange f target then fun h => interpolateAlongY f.nRange f.range (fun _ => v) 0 (target.range h)
    else v
  | none => fun _ => none

/-- The attributes `raw_time`, `raw_range` (as a file) and `raw_data`. -/
structure WrRaw (α : Type) where
  times : List α
  target : WrFile α
  data : List (String × List (ℕ → Option α))

/-- `weather_radar.py:70-102` `_read_data`; `none` is a file with invalid ranges, which is skipped. -/
def wrReadData (files : List (Option (WrFile α))) : Except String (WrRaw α) :=
  match files.filterMap id with
  | [] => .error "ValidTimeStampError"
  | first :: rest =>
    let used := first :: rest
    let target := targetFile first rest
    let keys := (used.flatMap fun f => f.data.map (·.1)).dedup
    .ok { times := used.map (·.time), target := target,
          data := keys.map fun key => (key, used.map fun f => wrBlock target f key) }

/-- Elements of a list where the mask is true (boolean indexing). -/
def maskSelect {β : Type} (mask : List Bool) (l : List β) : List β :=
  ((l.zip mask).filter (·.2)).map (·.1)

/-- Elements of a list at given positions. -/
def takeAt {β : Type} (ind : List ℕ) (l : List β) : List β := ind.filterMap fun i => l[i]?

/-- The date of a time. -/
def dayOf [FloorRing α] (t : α) : ℤ := ⌊t / 86400⌋

/-- `weather_radar.py:104-112` `_screen_time`: the date of the file and the profiles left. -/
def wrScreenTime [FloorRing α] (raw : WrRaw α) (expected : Option ℤ) : ℤ × WrRaw α :=
  match expected with
  | none => (dayOf (raw.times.headD 0), raw)
  | some date =>
    let isValid := raw.times.map fun t => decide (dayOf t = date)
    (date, { raw with times := maskSelect isValid raw.times,
                      data := raw.data.map fun kv => (kv.1, maskSelect isValid kv.2) })

/-- `weather_radar.py:114-117` `sort_and_dedup_timestamps`. -/
def wrSortDedup (raw : WrRaw α) : WrRaw α :=
  let ind := uniqueIndex raw.times.length (vec raw.times)
  { raw with times := takeAt ind raw.times, data := raw.data.map fun kv => (kv.1, takeAt ind kv.2) }

/-- The output of `wr2nc`: the date, times in hours, gates and two dimensional variables. -/
structure WrOut (α : Type) where
  date : ℤ
  hours : List α
  nRange : ℕ
  range : ℕ → α
  height : ℕ → α
  vars : List (String × Grid (Option α))

/-- Names of the output variables and of the quantities they come from (`weather_radar.py:133-138`). -/
def wrNames : List (String × String) :=
  [("SNR", "SNR"), ("Zh", "DBZH"), ("v", "VRADH"), ("width", "WRADH"), ("zdr", "ZDR"), ("rho_hv", "RHOHV")]

/-- One of the assignments in `weather_radar.py:133-138`. -/
def wrVariable (raw : WrRaw α) (nq : String × String) : Except String (String × Grid (Option α)) :=
  match raw.data.lookup nq.2 with
  | none => .error s!"KeyError: {nq.2}"
  | some l => .ok (nq.1, (fun t h => (l.getD t fun _ => none) h : Grid (Option α)))

/-- `weather_radar.py:126-138` `convert_to_cloudnet_arrays`. -/
def wrConvert (altitude : α) (date : ℤ) (raw : WrRaw α) : Except String (WrOut α) := do
  let vars ← wrNames.mapM (wrVariable raw)
  pure { date := date, hours := raw.times.map fun t => (t - date * 86400) / 3600,
         nRange := raw.target.nRange, range := raw.target.range,
         height := fun h => altitude + raw.target.range h, vars := vars }

/-! ### Screening -/

/-- The field with a name. -/
def WrOut.field (o : WrOut α) (name : String) : Grid (Option α) :=
  (o.vars.lookup name).getD fun _ _ => none

/-- `weather_radar.py:157-159`: reflectivity of a profile and gate for the mean, if it is used. -/
def wrUsed (z v : Grid (Option α)) (h t : ℕ) : Option α :=
  match v t h with
  | some x => if x < -1 then none else z t h
  | none => none

/-- `weather_radar.py:157-160`: mean reflectivity of a gate over profiles without rain (profiles with an
unknown velocity are left out too, as `masked_where` treats an unknown condition as true). -/
def wrMeanZ (nT : ℕ) (z v : Grid (Option α)) (h : ℕ) : Option α :=
  let used := (List.range nT).filterMap (wrUsed z v h)
  if used = [] then none else some (used.sum / used.length)

/-- `weather_radar.py:161`: is a gate clutter? -/
def wrIsClutter (nT : ℕ) (z v : Grid (Option α)) (h : ℕ) : Bool :=
  match wrMeanZ nT z v h with
  | some m => decide (-10 < m)
  | none => false

/-- `weather_radar.py:161-169`: one more than the last clutter gate among the first ten. -/
def wrClutterTop (nT nH : ℕ) (z v : Grid (Option α)) : ℕ :=
  let high := (List.range (min nH 10)).filter (wrIsClutter nT z v)
  match high.getLast? with
  | some h => h + 1
  | none => 0

/-- `weather_radar.py:149-170` `screen_clutter`. -/
def wrScreenClutter (o : WrOut α) : WrOut α :=
  let top := wrClutterTop o.hours.length o.nRange (o.field "Zh") (o.field "v")
  { o with vars := o.vars.map fun kv => (kv.1, fun t h => if h < top then none else kv.2 t h) }

/-- `weather_radar.py:172-174` `screen_noise`: the comparison uses the numbers under the mask where the
signal to noise ratio is masked; `under` tells where these are negative. -/
def wrScreenNoise (under : Grid Bool) (o : WrOut α) : WrOut α :=
  let isNoise : Grid Bool := fun t h => match o.field "SNR" t h with
    | some s => decide (s < 0)
    | none => under t h
  { o with vars := o.vars.map fun kv => (kv.1, fun t h => if isNoise t h then none else kv.2 t h) }

/-- `weather_radar.py:45-47`: reading, sorting and converting. -/
def wrMerge [FloorRing α] (files : List (Option (WrFile α))) (expected : Option ℤ) (altitude : α) :
    Except String (WrOut α) := do
  let raw ← wrReadData files
  let (date, raw) := wrScreenTime raw expected
  wrConvert altitude date (wrSortDedup raw)

/-- `weather_radar.py:20-54` `wr2nc` up to the two dimensional data. -/
def wr2nc [FloorRing α] (files : List (Option (WrFile α))) (expected : Option ℤ) (altitude : α)
    (under : Grid Bool) : Except String (WrOut α) := do
  let out ← wrMerge files expected altitude
  pure (wrScreenNoise under (wrScreenClutter out))

end

end Cloudnet
