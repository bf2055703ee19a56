import Verif.Concat.Model
import Verif.Geo.Model
import Verif.Times.Model

/-!
Daily files (`concat_lib.py:336-385` `bundle_netcdf_files`), shortened files (`concat_lib.py:22-59` `truncate_netcdf_file`) and joined
text files (`concat_lib.py:328-333`).
-/

namespace Cloudnet

/-- `datetime.date.toordinal` of CPython: days before the year, before the month, and of the month. -/
def dateOrdinal (c : CivilDate) : ℤ :=
  (c.year - 1) * 365 + (c.year - 1) / 4 - (c.year - 1) / 100 + (c.year - 1) / 400 +
    ((List.range (c.month - 1).toNat).map fun k : ℕ => daysInMonth c.year ((k : ℤ) + 1)).sum + c.day

/-- A file on disk: `none` cannot be opened (`OSError`). Otherwise its dimensions, units and values of the variable `time` (`none` if
there is none; values are assumed to be known), and the data as concatenation sees them. -/
structure BundleFile (α : Type) where
  dimensions : List String
  time : Option (String × List α)
  content : NcFile α

/-- What is written: a copy of a file, or the concatenation along a dimension. -/
inductive BundleOutput (α : Type) where
  | copy (file : BundleFile α)
  | joined (dimension : String) (file : NcFile α)

section
variable {α : Type} [Field α] [LinearOrder α] [FloorRing α]

/-- `concat_lib.py:358-371`: is the file taken? -/
def bundleTakes (int : String → Option ℤ) (currentYear : ℤ) (date : CivilDate) (f : Option (BundleFile α)) : Except String Bool :=
  match f with
  | none => .ok false
  | some f => match f.time with
    | none => .error "KeyError"
    | some (units, times) => (getEpoch int currentYear units).map fun epoch =>
      times.any fun t => decide (dateOf ((dateOrdinal epoch : α) * 86400) t = dateOrdinal date)

/-- `concat_lib.py:369-371`: add the file to the list. -/
def bundleAdd {ν : Type} (name : ν) (f : Option (BundleFile α)) (taken : Bool) (l : List (ν × BundleFile α)) : List (ν × BundleFile α) :=
  match f with
  | none => l
  | some c => if taken then (name, c) :: l else l

/-- `concat_lib.py:358-371`: the files with a time stamp of the date. -/
def bundleSelect {ν : Type} (int : String → Option ℤ) (currentYear : ℤ) (date : CivilDate) :
    List (ν × Option (BundleFile α)) → Except String (List (ν × BundleFile α))
  | [] => .ok []
  | f :: l => (bundleTakes int currentYear date f.2).bind fun b => (bundleSelect int currentYear date l).map fun r =>
    bundleAdd f.1 f.2 b r

/-- `concat_lib.py:376-382` -/
def bundleIgnore : List String := ["minimum", "maximum", "number_integrated_samples", "Min_LWP", "Max_LWP"]

/-- `concat_lib.py:336-385` `bundle_netcdf_files`: output and returned files. `concatenateFiles` is written for the dimension `time`,
another one plays the same role; a file without variable `range` raises `IndexError`, which is not modelled. -/
def bundleFiles {ν : Type} [LinearOrder ν] (int : String → Option ℤ) (currentYear : ℤ) (dimensions : List String) (keep : Option (List String))
    (date : CivilDate) (files : List (ν × Option (BundleFile α))) : Except String (BundleOutput α × List ν) :=
  match files with
  | [] => .error "IndexError"
  | (_, none) :: _ => .error "OSError"
  | (name, some first) :: rest =>
    match dimensions.find? fun d => decide (d ∈ first.dimensions) with
    | none => .error "KeyError"
    | some d =>
      if rest = [] then .ok (.copy first, [name])
      else (bundleSelect int currentYear date files).bind fun valid =>
        (concatenateFiles (valid.map fun v => (v.1, v.2.content)) keep bundleIgnore).map fun r => (.joined d r.1, valid.map Prod.fst)

end

/-- A variable for `truncate_netcdf_file`: its dimensions and the slices along the first one (one for a scalar). -/
structure TruncVar (β : Type) where
  dimensions : List String
  rows : List β

/-- `concat_lib.py:45-53`: what is written into the new variable, where `sizes` are the lengths of the dimensions of the file; `none`:
nothing, so it has fill values only. A number of rows other than the length of a limited dimension raises an error. -/
def truncateVar {β : Type} (dimName : String) (n : ℕ) (v : TruncVar β) : Except String (Option (List β)) :=
  match v.dimensions with
  | [] => .ok (some v.rows)
  | d :: ds =>
    if dimName.toList <:+: d.toList then
      if ds.length ≤ 1 then
        if d ≠ dimName ∧ (v.rows.take n).length ≠ v.rows.length then .error "IndexError: shape mismatch" else .ok (some (v.rows.take n))
      else .ok none
    else .ok (some v.rows)

/-- `concat_lib.py:328-333` `concatenate_text_files`: bytes of the output. `none` is a file that cannot be read; what was written before
stays. -/
def concatenateText : List (Option (List UInt8)) → List UInt8 × Bool
  | [] => ([], true)
  | none :: _ => ([], false)
  | some b :: l => (b ++ (concatenateText l).1, (concatenateText l).2)

end Cloudnet
