import Mathlib.Algebra.Order.Floor.Ring
import Mathlib.Algebra.Order.Field.Basic
import Verif.Arrays.Model
import Verif.Droplet.Model
import Verif.Disdro.Model

namespace Cloudnet

/-! RPG cloud radars and microwave radiometers: `instruments/rpg.py`, `instruments/rpg_reader.py`,
`instruments/hatpro.py`. -/

/-! ## Angles -/

section
variable {α : Type} [Field α] [LinearOrder α] [IsStrictOrderedRing α] [FloorRing α]

/-- `np.sign` -/
def npSign (x : α) : α := if x < 0 then -1 else if 0 < x then 1 else 0

/-- `rpg_reader.py:126-165` `_decode_angles` for one value: elevation and azimuth. `a // b` is the floor of the quotient. -/
def decodeAngles (version : ℕ) (x : α) : Except String (α × α) :=
  if version = 1 then
    let offset : α := if 1000000 ≤ x then 100 else 0
    let x := if 1000000 ≤ x then x - 1000000 else x
    let azi : α := (⌊|x| / 100⌋ : α) / 10
    .ok (x - npSign x * azi * 1000 + offset, azi)
  else if version = 2 then
    let ele : α := npSign x * (⌊|x| / 100000⌋ : α) / 100
    .ok (ele, (|x| - |ele| * 10000000) / 100)
  else .error "NotImplementedError"

end

/-! ## Chirps -/

section
variable {α : Type}

/-- `np.repeat(v_nyq, seg_lengths)` for lists of the same length; negative lengths raise. -/
def npRepeat : List α → List ℤ → Except String (List α)
  | [], [] => .ok []
  | v :: vs, n :: ns =>
    if n < 0 then .error "ValueError"
    else
      match npRepeat vs ns with
      | .ok rest => .ok (List.replicate n.toNat v ++ rest)
      | .error e => .error e
  | _, _ => .error "ValueError"

/-- `rpg.py:139-152` `_expand_nyquist`, one profile. The row is assigned to `nRange` gates: a single value is repeated, any
other length is an error. A different number of starts and velocities is modelled as an error (NumPy accepts a single
start for several velocities). -/
def expandNyquistRow (nRange : ℕ) (starts : List (Option ℤ)) (v : List (Option α)) : Except String (List α) :=
  let starts := starts.filterMap id
  let v := v.filterMap id
  let ends := starts.tail ++ [(nRange : ℤ)]
  match npRepeat v (List.zipWith (fun e s => e - s) ends starts) with
  | .error e => .error e
  | .ok row =>
    if row.length = nRange then .ok row
    else
      match row with
      | [x] => .ok (List.replicate nRange x)
      | _ => .error "ValueError"

/-- `rpg.py:246-262` `_pad_chirp_related_fields`: a field with one value per chirp, padded to `n` chirps. -/
def padChirps (n : ℕ) (x : List (Option α)) : List (Option α) := x ++ List.replicate (n - x.length) none

/-- `rpg.py:236-243` `_interpolate_chirp_start_indices`, for `m ≥ 1` target gates; `range` are the old gates. -/
def interpolateStarts [Field α] [LinearOrder α] (range : ℕ → α) (m : ℕ) (target : ℕ → α) (starts : List ℕ) : List ℕ :=
  let indices := starts.map fun s => argmin (fun i => |target i - range s|) (m - 1)
  match indices with
  | [] => []
  | _ :: rest => 0 :: rest

end

/-! ## Fill values and zenith angles of the radar -/

section
variable {α : Type} [Field α] [LinearOrder α]

/-- `np.isclose(x, v)` with `rtol=1e-5`. -/
def isClose (atol x v : α) : Bool := decide (|x - v| ≤ atol + 1 / 100000 * |v|)

/-- `rpg.py:173-190` `_mask_invalid_data`, one value of a field that is screened. -/
def maskInvalid (x : Option α) : Option α :=
  let x := x.bind fun v => if v = 0 then none else some v
  [-999, 1 / 10000000000].foldl (fun x fill =>
    let x := x.bind fun v => if v = fill then none else some v
    x.bind fun v => if isClose (1 / 100000000) v fill then none else some v) x

/-- `rpg.py:336-344` `mask_invalid_ldr`, one value; the threshold is -35 for `ldr` and -40 for `sldr`. -/
def maskInvalidLdr (threshold : α) (x : Option α) : Option α := x.bind fun v => if v ≤ threshold then none else some v

/-- `rpg.py:346-356` `mask_invalid_width`, one pixel of a variable; `under` tells whether the data under the mask of a masked
width is below the limit. -/
def maskInvalidWidth (under : Bool) (width x : Option α) : Option α :=
  if width.elim under (fun w => decide (w < 5 / 1000)) then none else x

/-- `rpg.py:405-419` `_filter_zenith_angle`: the profiles that are kept. (If only masked angles have data close to zenith,
NumPy compares with a masked median; modelled as none kept.) -/
def filterZenith (z : List (Option α)) : List Bool :=
  let close := (z.filterMap id).filter fun v => decide (-5 < v) && decide (v < 15)
  if close = [] then z.map fun _ => false
  else z.map fun v => v.elim false fun v => isClose (1 / 10) v (median close)

/-- `rpg.py:358-373` `add_zenith_angle`: zenith angles and the profiles that are kept. -/
def addZenithAngle (elevation : List (Option α)) : Except String (List (Option α) × List Bool) :=
  let zenith := elevation.map fun e => e.map fun e => 90 - e
  let valid := filterZenith zenith
  if valid.length - valid.count true = zenith.length then .error "ValidTimeStampError" else .ok (zenith, valid)

end

/-! ## HATPRO -/

section
variable {α : Type}

/-- A record of a HATPRO file: time in seconds, quality flag, measured value and zenith angle. -/
structure HatproRec (α β : Type) where
  time : ℤ
  flag : BitVec 8
  value : β
  zenith : α

/-- `rpg_reader.py:217-219` `_remove_duplicate_timestamps`: `np.unique` returns the first index of every time, in the order
of the times. -/
def hatproUnique (recs : List (HatproRec α α)) : List (HatproRec α α) :=
  ((recs.map HatproRec.time).dedup.insertionSort (· ≤ ·)).filterMap fun t => recs.find? fun r => r.time == t

/-- The quality class of a record is low (`QUALITY_LOW << 1`). -/
def hatproBad {β : Type} (r : HatproRec α β) : Bool := (r.flag &&& 6#8) == 3#8 <<< 1

/-- `rpg_reader.py:195-215` `screen_bad_profiles`. -/
def screenHatpro [Zero α] [DecidableEq α] (recs : List (HatproRec α α)) :
    Except String (List (HatproRec α (Option α))) :=
  if recs.all fun r => decide (r.value = 0) then .ok (recs.map fun r => { r with value := none })
  else if (recs.filter hatproBad).length = recs.length then .error "ValidTimeStampError: All data are low quality"
  else .ok (recs.map fun r => { r with value := if hatproBad r then none else some r.value })

/-- `hatpro.py:260-274` `_validate_date`; `day` is the expected day since the epoch, `utc` the time reference. -/
def hatproDate {β : Type} (utc : Bool) (epoch day : ℤ) (recs : List (HatproRec α β)) :
    Except String (List (HatproRec α β)) :=
  if !utc then .error "ValueError: Can not validate non-UTC dates"
  else
    let kept := recs.filter fun r => decide ((r.time + epoch) / 86400 = day)
    if kept = [] then .error "ValueError: No valid timestamps found" else .ok kept

/-- A row of two joined files. -/
structure HatproRow (α : Type) where
  time : ℤ
  value1 : Option α
  value2 : Option α
  zenith : Option α

/-- `rpg_reader.py:319-333`, `rpg_reader.py:343-347`: two files are joined by time (`join_by(..., "outer")`); the zenith
angles have to agree at common times. -/
def hatproJoin [DecidableEq α] (f1 f2 : List (HatproRec α (Option α))) : Except String (List (HatproRow α)) :=
  let times := (f1.map HatproRec.time ++ f2.map HatproRec.time).dedup.insertionSort (· ≤ ·)
  let rows := times.map fun t => (t, f1.find? fun r => r.time == t, f2.find? fun r => r.time == t)
  if rows.all (fun r => r.2.1.all fun a => r.2.2.all fun b => decide (a.zenith = b.zenith)) = true then
    .ok (rows.map fun r => ⟨r.1, r.2.1.bind HatproRec.value, r.2.2.bind HatproRec.value,
      (r.2.1.map HatproRec.zenith).or (r.2.2.map HatproRec.zenith)⟩)
  else .error "ValueError: Inconsistent values"

/-- The data of one or two combined files: times and columns by name. -/
structure HatproObject (α : Type) where
  times : List ℤ
  columns : List (String × List (Option α))

/-- `rpg_reader.py:309-340` `HatproBinCombined` for files with the names of their variables (`lwp`, `iwv`;
two files of one variable get other names and are not modelled). -/
def hatproCombined [DecidableEq α] (files : List (String × List (HatproRec α (Option α)))) :
    Except String (HatproObject α) :=
  match files with
  | [f] => .ok ⟨f.2.map HatproRec.time, [(f.1, f.2.map HatproRec.value), ("zenith_angle", f.2.map fun r => some r.zenith)]⟩
  | [f1, f2] =>
    match hatproJoin f1.2 f2.2 with
    | .error e => .error e
    | .ok rows => .ok ⟨rows.map HatproRow.time, [(f1.1, rows.map HatproRow.value1), (f2.1, rows.map HatproRow.value2),
        ("zenith_angle", rows.map HatproRow.zenith)]⟩
  | _ => .error "NotImplementedError: Only implemented up to 2 files"

/-- `hatpro.py:277-285` `_add_missing_variables` for one object. -/
def addMissingVariables (keys : List String) (o : HatproObject α) : HatproObject α :=
  { o with columns := keys.foldl (fun cols key =>
      if cols.any fun p => p.1 == key then cols else dictSet cols key (List.replicate o.times.length none)) o.columns }

/-- `rpg.py:155-171` `_stack_rpg_data` for the objects of one day. -/
def stackHatpro (objects : List (HatproObject α)) : HatproObject α :=
  ⟨objects.flatMap HatproObject.times, combineFiles (objects.map HatproObject.columns)⟩

end

end Cloudnet
