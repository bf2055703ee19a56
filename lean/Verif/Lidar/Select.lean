import Mathlib.Analysis.SpecialFunctions.Pow.Real
import Verif.Ceilo.Model

/-!
Choice of the reader of a ceilometer file and the steps around the noise screening (`cloudnetpy/instruments/ceilo.py`), and the readers of
netCDF files (`lufft.py`, `cl61d.py`, `nc_lidar.py`).
-/

namespace Cloudnet

variable {α : Type}

/-- The classes of `ceilo.py:181-191`. -/
inductive CeiloClass where
  | cl
  | ct25k
  | cl61d
  | da10
  | cs135
  | lufft
  deriving DecidableEq

/-- What `_find_ceilo_model` sees of a file: the title and the base name of a netCDF file, both in lower case, or the lines of another
file, bytes as characters. -/
inductive CeiloFile where
  | netcdf (title : Option (List Char)) (basename : List Char)
  | text (lines : List (List Char))

/-- `ceilo.py:209-213`: one line of a text file. -/
def ceiloLine (m : Option String) (l : List Char) : Option String :=
  if ['\x01', 'C', 'L'].isPrefixOf l then some "cl31_or_cl51" else if ['\x01', 'C', 'T'].isPrefixOf l then some "ct25k" else m

/-- `ceilo.py:194-217` (`_find_ceilo_model`). A missing title is an `AttributeError`, which is not caught. -/
def ceiloFind : CeiloFile → Except String String
  | .netcdf none _ => .error "AttributeError"
  | .netcdf (some title) base =>
    if ["cl61d", "cl61-d"].any fun i => i.toList <:+: title ∨ i.toList <:+: base then .ok "cl61d" else .ok "chm15k"
  | .text lines =>
    match (lines.take 100).foldl ceiloLine none with
    | some m => .ok m
    | none => .error "RuntimeError"

/-- `ceilo.py:158-191` (`_initialize_ceilo`). -/
def ceiloClass (given : Option String) (file : CeiloFile) : Except String CeiloClass :=
  let model : Except String String := match given with
    | some m =>
      if m ∉ ["cl31", "cl51", "cl61d", "ct25k", "chm15k", "cs135", "da10"] then .error "ValueError"
      else if m ∈ ["cl31", "cl51"] then .ok "cl31_or_cl51" else .ok m
    | none => ceiloFind file
  match model with
  | .error e => .error e
  | .ok m => .ok (if m = "cl31_or_cl51" then .cl else if m = "ct25k" then .ct25k else if m = "cl61d" then .cl61d
      else if m = "da10" then .da10 else if m = "cs135" then .cs135 else .lufft)

/-- `ceilo.py:146-155` (`_get_n_negatives`); the model in lower case. -/
def ceiloNegatives (oldChm : Bool) (model : String) : ℕ := if oldChm ∨ model ∈ ["ct25k", "cl31"] then 20 else 5

/-- `ceilo.py:120-126`: the models whose backscatter is that of the raw data; the model in lower case. -/
def ceiloUsesSmooth (model : String) (rangeCorrected : Bool) : Bool :=
  (["cl61", "chm15k", "chm15kx", "cl51", "cl31", "da10"].any fun i => i.toList <:+: model.toList) && rangeCorrected

/-- A value of a masked array with the data below the mask. -/
structure MaPixel (α : Type) where
  data : α
  masked : Bool

/-- What a reader of the array sees. -/
def MaPixel.value (p : MaPixel α) : Option α := if p.masked then none else some p.data

/-- Division of masked arrays (`numpy.ma`): where the divisor is zero or one of the values is masked, the result is masked and its data
is that of the dividend. Simplified: divisors that are tiny compared to the dividend also count as zero in numpy. -/
def pixelDivide [Field α] [DecidableEq α] (a b : MaPixel α) : MaPixel α :=
  if a.masked ∨ b.masked ∨ b.data = 0 then ⟨a.data, true⟩ else ⟨a.data / b.data, false⟩

variable [Field α] [LinearOrder α]

/-- `ceilo.py:105-129`: one value of `beta`, from the raw data, the screened data and the screened smooth data. -/
def ceiloBeta (model : String) (rangeCorrected : Bool) (raw screened smooth : Option α) : Option α :=
  if ceiloUsesSmooth model rangeCorrected then
    let masked := if smooth = none then none else raw
    masked.bind fun v => if v ≤ 0 then none else some v
  else screened

/-- `cl61d.py:53-55`, `ceilo.py:130-132`: one value of `depolarisation`. Assigning to `.mask` replaces the mask. -/
def ceiloDepol (model : String) (rangeCorrected : Bool) (xPol pPol : MaPixel α) (beta : Option α) : Option α :=
  let d := pixelDivide xPol pPol
  screenDepol (if ceiloUsesSmooth model rangeCorrected then (⟨d.data, beta.isNone⟩ : MaPixel α).value else d.value)

/-- The attribute `software_version` of a file (`lufft.py:66-79`). -/
inductive LufftVersion where
  | number
  | words (l : List (List Char))
  | other

/-- `lufft.py:62-79` (`_get_old_software_version`): whether the data are taken as not corrected for range. -/
def lufftOld : LufftVersion → Except String Bool
  | .number => .ok true
  | .words l =>
    match l[2]? with
    | none => .error "IndexError"
    | some firmware => .ok (decide (firmware < "0.702".toList))
  | .other => .error "RuntimeError"

/-- `lufft.py:81-92` (`_get_nn`): normalisation of the detector for one value of nn1, with the median of all values. -/
noncomputable def lufftNn (med nn1 : ℝ) : ℝ :=
  if 120 < med ∧ med < 160 then (124 / 100 : ℝ) ^ (-(nn1 - 140) / 5)
  else if 3200 < med ∧ med < 4000 then (1035 / 1000 : ℝ) ^ (-(nn1 - 3685) / 1)
  else 1

/-- `lufft.py:41-60` (`_fetch_beta_raw`): one value of the raw backscatter. -/
noncomputable def lufftBeta (factor : Option ℝ) (old : Bool) (med nn1 std range raw : ℝ) : ℝ :=
  let c := factor.getD (3 / 10 ^ 12)
  if old then raw * (std / lufftNn med nn1) * range ^ 2 * c else raw * c

end Cloudnet
