import Verif.CliRun.Model
import Verif.CeiloDay.Model
import Verif.Mira.Model

/-!
Settings that the command line interface gives to the functions that read instruments (`cli.py:273-399`): coordinates of the site and
calibration of the instrument from the data portal.
-/

namespace Cloudnet

/-- A value of the portal (JSON), of the settings of a site, or a list of names: nothing, a number, a text, coefficients (for each entry its
links, if there are any), names, or something else that counts as true. -/
inductive CalValue (α : Type) where
  | null
  | number (x : α)
  | text (s : String)
  | coefficients (l : List (Option (List String)))
  | names (l : List String)
  | other

/-- The dictionary `site_meta` or the calibration. -/
abbrev Settings (α : Type) := List (String × CalValue α)

/-- What the portal says when it is asked for the calibration: an error of the API, another exception (no connection), or an object with
or without `data`. -/
inductive PortalAnswer (α : Type) where
  | refused
  | failed (e : String)
  | answered (data : Option (Settings α))

section
variable {α : Type} [Field α] [DecidableEq α]

/-- `bool(value)` -/
def CalValue.truthy : CalValue α → Bool
  | .null => false
  | .number x => decide (x ≠ 0)
  | .text s => decide (s ≠ "")
  | .coefficients l => !l.isEmpty
  | .names l => !l.isEmpty
  | .other => true

/-- `cli.py:389-399` `_get_calibration`. (If `data` is null there, the next use raises; not modelled.) -/
def getCalibration : PortalAnswer α → Except String (Settings α)
  | .refused => .ok []
  | .failed e => .error e
  | .answered d => .ok (d.getD [])

/-- `cli.py:282-288`: the settings before those of the instrument. -/
def siteSettings (name : String) (latitude longitude altitude : CalValue α) : Settings α :=
  [("name", .text name), ("latitude", latitude), ("longitude", longitude), ("altitude", altitude)]

/-- `Path(link).name`: the last part of a path that is not empty and not a dot. -/
def pathName (path : String) : String :=
  String.ofList (((path.toList.splitOn '/').filter fun part => decide (part ≠ []) && decide (part ≠ ['.'])).getLastD [])

/-- `cli.py:379-385`: the loop over links; files in the folder and the paths so far. `get` is the content behind a link; a folder
cannot be written as a file. -/
def fetchLinks {β : Type} (get : String → Option β) (folder : String) : List String → List (String × β) × List String →
    Except String (List (String × β) × List String)
  | [], s => .ok s
  | link :: links, s =>
    match get link with
    | none => .error "HTTPError"
    | some content =>
      if pathName link = "" ∨ pathName link = ".." then .error "IsADirectoryError"
      else fetchLinks get folder links
        (dictSet s.1 (folder ++ "/" ++ pathName link) content, s.2 ++ [folder ++ "/" ++ pathName link])

/-- `cli.py:371-386` `_fetch_coefficient_files`: the files of the folder, the paths and the links. Values of other types than a list of
entries with lists of links are errors. -/
def fetchCoefficients {β : Type} (get : String → Option β) (folder : String) (disk : List (String × β)) (cal : Settings α) :
    Except String (List (String × β) × List String × List String) :=
  match cal.lookup "retrieval_coefficients" with
  | none | some .null => .error "ValueError: No calibration coefficients found"
  | some (.coefficients l) =>
    match l with
    | some (link :: links) :: _ =>
      (fetchLinks get folder (link :: links) (disk, [])).map fun s => (s.1, s.2, link :: links)
    | _ => .error "ValueError: No calibration coefficients found"
  | some _ => .error "TypeError"

/-- `cli.py:295-356`: the settings given to the function that reads the instrument, for each of the cases of the match statement. -/
def instrumentSettings {β : Type} (answer : PortalAnswer α) (get : String → Option β) (folder : String) (disk : List (String × β))
    (product id : String) (base : Settings α) : Except String (Settings α) := do
  let cal ← getCalibration answer
  match readerOf product id with
  | none => throw "UnboundLocalError"
  | some reader =>
    if reader = "mira2nc" then
      return dictSet base "range_correction_factor" ((cal.lookup "range_correction_factor").getD .null)
    else if reader = "pollyxt2nc" then
      return dictSet base "snr_limit" ((cal.lookup "snr_limit").getD (.number 25))
    else if reader = "ceilo2nc" then
      if id = "cl61d" then return dictSet base "model" (.text id)
      else
        let factor := (cal.lookup "calibration_factor").getD .null
        let base := dictSet base "model" (.text id)
        return if factor.truthy then dictSet base "calibration_factor" factor else base
    else if reader = "hatpro2l1c" then
      let (_, paths, links) ← fetchCoefficients get folder disk cal
      return dictSet (dictSet (dictMerge base cal) "coefficientFiles" (.names paths)) "coefficientLinks" (.names links)
    else return base

/-- `site_meta.get(key)` where a number is expected (`ceilo.py:85`, `mira.py:84-85`, `nc_radar.py:56`); other types are not modelled. -/
def Settings.number? (m : Settings α) (key : String) : Option α :=
  match m.lookup key with
  | some (.number x) => some x
  | _ => none

/-- `mira.py:135-145`: the model of a MIRA radar. A value that is no text is no model. -/
def Settings.miraModel (m : Settings α) : String :=
  match m.lookup "model" with
  | none => "mira-35"
  | some (.text s) => s
  | some _ => ""

/-- The settings used by `mira2nc` (`mira.py:84-85`, `mira.py:108-109`, `mira.py:135-145`). -/
def Settings.mira (m : Settings α) (o : MiraOptions α) : MiraOptions α :=
  { o with model := m.miraModel, snrLimit := m.number? "snr_limit", zenithOffset := m.number? "zenith_offset",
           azimuthOffset := m.number? "azimuth_offset" }

end

end Cloudnet
