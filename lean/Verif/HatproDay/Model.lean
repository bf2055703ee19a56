import Verif.Rpg.Model
import Verif.Times.Model

/-! A day of HATPRO files: `instruments/hatpro.py:157-258` with the readers of `rpg_reader.py`. -/

namespace Cloudnet

section
variable {α : Type} [Field α] [LinearOrder α] [FloorRing α]

/-- A record as it is in a file: time, quality flag, value and encoded angles. -/
structure HatproRaw (α : Type) where
  time : ℤ
  flag : BitVec 8
  value : α
  angles : α

/-- A file in the directory: `filename.stem` and `filename.suffix`, the file code and time reference of the header (`none` if the file is shorter than
a header), and the records that `np.fromfile` returns. -/
structure HatproFile (α : Type) where
  stem : String
  suffix : String
  header : Option (ℤ × ℤ)
  records : List (HatproRaw α)

/-- What is known of the suffix: variable, file codes of versions 1 and 2, and factor (`rpg_reader.py:232-306`, `hatpro.py:232-239`; `G_TO_KG` is 0.001). -/
def hatproKind (suffix : String) : Option (String × ℤ × ℤ × α) :=
  let extension := suffix.toUpper
  if extension = ".LWP" then some ("lwp", 934501978, 934501000, 1 / 1000)
  else if extension = ".IWV" then some ("iwv", 594811068, 594811000, 1)
  else none

/-- A file that has been read: the file, its variable and its records. -/
structure HatproRead (α : Type) where
  file : HatproFile α
  name : String
  records : List (HatproRec α (Option α))

/-- `rpg_reader.py:224-229` and `rpg_reader.py:257-268`: the record with units and zenith angle. -/
def hatproRecord (version : ℕ) (factor : α) (r : HatproRaw α) : HatproRec α α :=
  ⟨r.time, r.flag, r.value * factor, match decodeAngles version r.angles with
    | .ok (ele, _) => 90 - ele
    | .error _ => 0⟩

/-- `hatpro.py:229-247`, one file. `none`: the file is not of HATPRO, or it is ignored with a warning (`ValueError` and `ValidTimeStampError`). An
`IndexError` of the header (`rpg_reader.py:120-122`) is not caught. `epoch` is 2001-01-01 in seconds since day zero. -/
def readHatpro (epoch : ℤ) (date : Option ℤ) (f : HatproFile α) : Except String (Option (HatproRead α)) :=
  match hatproKind f.suffix with
  | none => .ok none
  | some (name, code1, code2, factor) =>
    match f.header with
    | none => .error "IndexError"
    | some (code, reference) =>
      if code = code1 ∨ code = code2 then
        let recs := hatproUnique (f.records.map (hatproRecord (if code = code1 then 1 else 2) factor))
        match screenHatpro recs with
        | .error _ => .ok none
        | .ok recs =>
          match date with
          | none => .ok (some ⟨f, name, recs⟩)
          | some day =>
            match hatproDate (reference == 1) epoch day recs with
            | .error _ => .ok none
            | .ok recs => .ok (some ⟨f, name, recs⟩)
      else .ok none

/-- The files read for one stem as the argument of `HatproBinCombined`. `join_by` adds 1 and 2 to equal names. -/
def hatproNames (objs : List (HatproRead α)) : List (String × List (HatproRec α (Option α))) :=
  match objs with
  | [a, b] => if a.name = b.name then [(a.name ++ "1", a.records), (b.name ++ "2", b.records)] else [(a.name, a.records), (b.name, b.records)]
  | l => l.map fun o => (o.name, o.records)

/-- `hatpro.py:249-258`, the objects of the stems in order and the files used. `ValueError` is caught, `NotImplementedError` is not. -/
def combineStems (objs : List (HatproRead α)) : List String → Except String (List (HatproObject α) × List (HatproFile α))
  | [] => .ok ([], [])
  | stem :: stems => do
    let mine := objs.filter fun o => o.file.stem == stem
    if 2 < mine.length then throw "NotImplementedError: Only implemented up to 2 files"
    let (os, fs) ← combineStems objs stems
    match hatproCombined (hatproNames mine) with
    | .ok o => pure (o :: os, mine.map HatproRead.file ++ fs)
    | .error _ => pure (os, fs)

/-- `hatpro.py:224-258` `_get_hatpro_objects`. -/
def hatproObjects (epoch : ℤ) (date : Option ℤ) (files : List (HatproFile α)) : Except String (List (HatproObject α) × List (HatproFile α)) := do
  let read ← files.mapM (readHatpro epoch date)
  let objs := read.filterMap id
  combineStems objs ((objs.map fun o => o.file.stem).dedup.insertionSort (· ≤ ·))

/-- Times in hours and columns of the file that is made. -/
structure HatproTable (α : Type) where
  hours : List α
  columns : List (String × List (Option α))

/-- `cloudnet_instrument.py:59-81` `screen_time_indices` for columns; those without the length of time are left alone. -/
def HatproTable.take (t : HatproTable α) (ind : List ℕ) : HatproTable α :=
  ⟨ind.filterMap fun i => t.hours[i]?,
    t.columns.map fun c => (c.1, if c.2.length = t.hours.length then ind.filterMap fun i => c.2[i]? else c.2)⟩

/-- `hatpro.py:203-217`, the data and the date (`rpg.py:313-320`) of `hatpro2nc`; `argsort` is what NumPy returns for the hours. -/
def hatproDay (epoch : ℤ) (argsort : List α → List ℕ) (objects : List (HatproObject α)) (files : List (HatproFile α)) :
    Except String (ℤ × HatproTable α) := do
  if (files.any fun f => f.suffix == ".LWP") = false then throw "ValidTimeStampError"
  let objects := if files.any fun f => f.suffix == ".IWV" then objects.map (addMissingVariables ["lwp", "iwv"]) else objects
  let day := stackHatpro objects
  match day.times with
  | [] => throw "IndexError"
  | first :: _ =>
    let hours ← seconds2hours day.times.length (vec (day.times.map fun t : ℤ => (t : α)))
    let table : HatproTable α := ⟨(List.range day.times.length).map hours, day.columns⟩
    let sorted := table.take (argsort table.hours)
    pure ((first + epoch) / 86400, sorted.take (uniqueIndex sorted.hours.length (vec sorted.hours)))

/-- `hatpro.py:157-221` `hatpro2nc`: date, data and the list of files used. -/
def hatpro2nc (epoch : ℤ) (argsort : List α → List ℕ) (date : Option ℤ) (files : List (HatproFile α)) :
    Except String (ℤ × HatproTable α × List (HatproFile α)) := do
  let (objects, used) ← hatproObjects epoch date files
  let (d, table) ← hatproDay epoch argsort objects used
  pure (d, table, used)

end

end Cloudnet
