import Verif.Save.Model
import Verif.Interp.Model

/-!
Microwave radiometer files beyond Level 1b: `instruments/hatpro.py` `hatpro2l1c` and `products/mwr_tools.py`. The retrievals of the
package mwrpy are not part of the model: their results are arguments.
-/

namespace Cloudnet

variable {β : Type} {α : Type} [Field α] [LinearOrder α] [IsStrictOrderedRing α]

/-- `s.replace(old, new)` for a text `old` that is not empty; `skip` characters belong to the last occurrence. -/
def replaceFrom (old new : List Char) : ℕ → List Char → List Char
  | _, [] => []
  | skip + 1, _ :: cs => replaceFrom old new skip cs
  | 0, c :: cs =>
    if old.isPrefixOf (c :: cs) then new ++ replaceFrom old new (old.length - 1) cs else c :: replaceFrom old new 0 cs

/-- `s.replace(old, new)`. -/
def textReplace (s old new : String) : String := String.ofList (replaceFrom old.toList new.toList 0 s.toList)

/-! ### Level 1c -/

/-- `hatpro.py:85-107`: the checks of `hatpro2l1c`. `flags` are all quality flags, a masked one is `none`. The sum of masked flags only is
masked and compares to nothing. A date is the number of days since the epoch. -/
def l1cCheck [FloorRing α] (flags : List (Option ℤ)) (date : Option ℤ) (times : List α) : Except String Unit :=
  let bad := flags.countP fun x => x.any (· != 0)
  if 90 * flags.length < 100 * bad then .error "HatproDataError"
  else
    match date with
    | none => .ok ()
    | some d =>
      if ((times.zip times.tail).all fun p => decide (0 < p.2 - p.1)) = false then .error "RuntimeError"
      else
        match (times.map fun t => ⌊t / 86400⌋).dedup with
        | [x] => if d ≠ x then .error "RuntimeError" else .ok ()
        | _ => .error "RuntimeError"

/-- `hatpro.py:109`: the times in the file. -/
def l1cHours [FloorRing α] (times : List α) : Except String (List α) :=
  (seconds2hours times.length fun i => times.getD i 0).map fun h => (List.range times.length).map h

/-- `hatpro.py:112-117`: zenith angles from elevation angles. -/
def l1cZenith (data : List (String × List (Option α))) : List (String × List (Option α)) :=
  ["elevation_angle", "ir_elevation_angle"].foldl (fun d key =>
    match d.lookup key with
    | none => d
    | some e => dictSet d (textReplace key "elevation" "zenith") (e.map fun x => x.map (90 - ·))) data

/-- `hatpro.py:129-139`: the changes of the global attributes of the saved file. `links`: `site_meta["coefficientLinks"]`. -/
def l1cGlobals (mwrpyVersion : String) (links : Option (List String)) (lidar : Option (DiskFile β)) (f : DiskFile β) : Saving β :=
  let f := f.set "cloudnet_file_type" "mwr-l1c"
  match f.globals.lookup "title" with
  | none => (f, some "AttributeError")
  | some title =>
    let f := f.set "title" (textReplace title "radiometer" "radiometer Level 1c")
    let f := f.set "mwrpy_version" mwrpyVersion
    match links with
    | none => (f, some "KeyError")
    | some links =>
      let f := f.set "mwrpy_coefficients" (String.ofList (joinWith ", ".toList (links.map String.toList)))
      match f.globals.lookup "history" with
      | none => (f, some "AttributeError")
      | some history =>
        let f := f.set "history" (textReplace history "mwr" "mwr-l1c")
        match lidar with
        | none => (f, none)
        | some lidar =>
          match f.globals.lookup "source", lidar.globals.lookup "source" with
          | some a, some b =>
            let f := f.set "source" (a ++ "\n" ++ b)
            match f.globals.lookup "history", lidar.globals.lookup "history" with
            | some a, some b => (f.set "history" (a ++ "\n" ++ b), none)
            | _, _ => (f, some "AttributeError")
          | _, _ => (f, some "AttributeError")

/-- `hatpro.py:40-140` `hatpro2l1c` after mwrpy has read the data: `disk` is the file then on disk, `o` what is saved. -/
def hatpro2l1c [FloorRing α] (fits : List ℕ → List ℕ → Bool) (version stamp mwrpyVersion : String) (flags : List (Option ℤ))
    (date : Option ℤ) (times : List α) (o : L1bObject β) (links : Option (List String)) (lidar : Option (DiskFile β)) (uuid : String)
    (disk : Option (DiskFile β)) : Option (DiskFile β) × Option String :=
  match l1cCheck flags date times with
  | .error e => (disk, some e)
  | .ok _ =>
    match saveLevel1b fits version stamp o uuid disk with
    | (some f, none) => let s := l1cGlobals mwrpyVersion links lidar f; (some s.1, s.2)
    | r => r

/-! ### Level 2 -/

/-- `s.split(", ")`; `skip` as above. -/
def splitCommaFrom : List Char → List Char → List (List Char)
  | acc, [] => [acc.reverse]
  | acc, ',' :: ' ' :: cs => acc.reverse :: splitCommaFrom [] cs
  | acc, c :: cs => splitCommaFrom (c :: acc) cs

/-- `mwr_tools.py:177-186` `_read_mwrpy_coeffs`: the files written to the folder, and the paths. `get` is the answer of the server. -/
def readCoefficients (get : String → β) (folder : String) (links : String) : List (String × β) × List String :=
  let links := (splitCommaFrom [] links.toList).map String.ofList
  let path (link : String) : String := folder ++ "/" ++ String.ofList ((link.toList.splitOn '/').getLastD [])
  (links.foldl (fun files link => dictSet files (path link) (get link)) [], links.map path)

/-- `setattr(variable, attribute, value)` for the variables of a name. -/
def DiskFile.setVar (f : DiskFile β) (name : String) (change : (AttrName → Option String) → AttrName → Option String) : DiskFile β :=
  { f with vars := f.vars.map fun v => if v.name = name then { v with attr := change v.attr } else v }

/-- `output.py:520-529` `replace_attribute_with_standard_value`; `common` are the `COMMON_ATTRIBUTES`. -/
def replaceAttributes (common : String → Option MetaData) (keys : List String) (attributes : List AttrName) (f : DiskFile β) : DiskFile β :=
  keys.foldl (fun f key =>
    match common key with
    | none => f
    | some m => f.setVar key fun attr a => if a ∈ attributes then (m.value a).or (attr a) else attr a) f

/-- `output.py:511-517` `fix_time_attributes`. -/
def fixTimeAttributes (f : DiskFile β) : Saving β :=
  match f.var "time" with
  | none => (f, some "KeyError")
  | some _ =>
    let f := f.setVar "time" fun attr a =>
      if a = .standardName then some "time" else if a = .longName then some "Time UTC"
      else if a = .calendar then some "standard" else attr a
    match f.globals.lookup "year", f.globals.lookup "month", f.globals.lookup "day" with
    | some y, some m, some d =>
      (f.setVar "time" fun attr a =>
        if a = .units then some ("hours since " ++ y ++ "-" ++ m ++ "-" ++ d ++ " 00:00:00 +00:00") else attr a, none)
    | _, _, _ => (f, some "AttributeError")

/-- `x.attribute` for a global attribute of another file. -/
def Saving.withGlobal (s : Saving β) (other : DiskFile β) (key : String) (step : String → DiskFile β → Saving β) : Saving β :=
  s.next fun f => match other.globals.lookup key with
    | none => (f, some "AttributeError")
    | some v => step v f

/-- `mwr_tools.py:123-174` `Mwr.harmonize`; `multi`: the product is `multi`, otherwise `single`. -/
def mwrHarmonize (common : String → Option MetaData) (version mwrpyVersion stamp uuid : String) (multi : Bool) (l1c l2 : DiskFile β) :
    Saving β :=
  let kind := if multi then "multiple-pointing" else "single-pointing"
  let f : DiskFile β := { l2 with globals := [] }
  let f := copyGlobals l1c f ["year", "month", "day", "location", "source"]
  let f := replaceAttributes common ["lwp", "iwv", "temperature", "azimuth_angle", "latitude", "longitude", "altitude"]
    [.units, .longName, .standardName] f
  let f := ((f.set "Conventions" "CF-1.8").set "cloudnetpy_version" version).set "file_uuid" uuid
  let s : Saving β := (f, none)
  let s := s.withGlobal l1c "location" fun location f =>
    fixTimeAttributes ((f.set "title" ("MWR " ++ kind ++ " from " ++ location)).set "cloudnet_file_type"
      (if multi then "mwr-multi" else "mwr-single"))
  let s := s.withGlobal l1c "history" fun history f =>
    (f.set "history" (stamp ++ " - MWR " ++ kind ++ " file created \n" ++ history), none)
  let s := s.withGlobal l1c "file_uuid" fun id f => ((f.set "source_file_uuids" id).set "mwrpy_version" mwrpyVersion, none)
  s.withGlobal l1c "instrument_pid" fun pid f => (f.set "instrument_pid" pid, none)

/-- Kinds of radiometer products. -/
inductive MwrProduct where
  | single | multi | lhumpro
  deriving DecidableEq

/-- `mwr_tools.py:87-117` `_generate_product` after mwrpy has written `l2`, which may fail with `MissingInputData` (`none`); `flags name` are
the values of a variable of `l2`. -/
def mwrGenerate (common : String → Option MetaData) (version mwrpyVersion stamp uuid : String) (product : MwrProduct) (l1c : DiskFile β)
    (l2 : Option (DiskFile β)) (flags : String → Option (List (Option ℤ))) (old : Option (DiskFile β)) :
    Option (DiskFile β) × Option String :=
  match l2 with
  | none => (old, some "ValidTimeStampError")
  | some l2 =>
    let multi := decide (product = .multi)
    match flags (if multi then "temperature_quality_flag" else "lwp_quality_flag") with
    | none => (some l2, some "KeyError")
    | some flags =>
      if flags.any (fun x => x == some 0) = false then (some l2, some "ValidTimeStampError")
      else let s := mwrHarmonize common version mwrpyVersion stamp uuid multi l1c l2; (some s.1, s.2)

end Cloudnet
