import Verif.Times.Model
import Verif.Radar.Model

/-! The Nyquist velocity (velocity of folding) from raw files of MIRA to the Level 1b file, and from any radar file to the pixels of a categorize
file. -/

namespace Cloudnet

/-- One axis of `np.broadcast_to`: as long as needed, or a single element. -/
def stretch {β : Type} (n : ℕ) (xs : List β) : Except String (List β) :=
  if xs.length = n then .ok xs else match xs with
    | [x] => .ok (List.replicate n x)
    | _ => .error "ValueError: operands could not be broadcast together"

/-- `np.broadcast_to(array, (nRow, nCol))` (NumPy). The netCDF library does the same when an array is assigned to a variable of two dimensions
(`output.py:457`). -/
def broadcastTo {β : Type} (nRow nCol : ℕ) : NdArray β → Except String (List (List β))
  | .d0 x => .ok (List.replicate nRow (List.replicate nCol x))
  | .d1 xs => (stretch nCol xs).map (List.replicate nRow)
  | .d2 rows => (rows.mapM (stretch nCol)).bind (stretch nRow)
  | .d3 _ => .error "ValueError: input operand has more dimensions than allowed"
  | .dn _ => .error "ValueError: input operand has more dimensions than allowed"

/-! ### MIRA -/

/-- An element of a masked array: the mask and the number below. -/
structure MaCell (β : Type) where
  masked : Bool
  number : β

/-- `mira.py:165-170` `broadcast_nyquist_velocity`; `ma.getdata` drops the mask. -/
def broadcastNyquist {β : Type} : NdArray (MaCell β) → NdArray (MaCell β)
  | .d1 xs => .d2 (xs.map fun c => [⟨false, c.number⟩])
  | .d0 x => .d0 x
  | .d2 xs => .d2 xs
  | .d3 xs => .d3 xs
  | .dn xs => .dn xs

/-- `cloudnet_instrument.py:59-81` `screen_time_indices`, several times after each other, for one array of the dictionary; `n` is the number of
times. -/
def screenings {γ : Type} (n : ℕ) : List Selector → NdArray γ → Except String (ℕ × NdArray γ)
  | [], a => .ok (n, a)
  | s :: ss, a =>
    if s.isEmpty n then .error "ValidTimeStampError: All timestamps screened"
    else match s.take (List.range n), (if a.followsTime n then a.select s else .ok a) with
      | .ok kept, .ok a' => screenings kept.length ss a'
      | _, _ => .error "IndexError"

/-- `mira.py:73-116` for the Nyquist velocity: the selections before line 103 (date, order, duplicates, power), `broadcast_nyquist_velocity`, the
selection by pointing (line 111) and writing with the dimensions `time` and `range` (`metadata.py:120-124`). -/
def miraNyquist {β : Type} (nTime nRange : ℕ) (before after : List Selector) (raw : NdArray (MaCell β)) : Except String (List (List (MaCell β))) :=
  match screenings nTime before raw with
  | .error e => .error e
  | .ok (n, a) => match screenings n after (broadcastNyquist a) with
    | .error e => .error e
    | .ok (m, b) => broadcastTo m nRange b

/-! ### Categorize -/

/-- Variables of a radar file that tell the velocity of folding. -/
structure FoldingFile (β : Type) where
  nT : ℕ
  nH : ℕ
  nyquist : Option (NdArray β)
  prf : Option (List β)
  frequency : β
  starts : Option (NdArray ℤ)

/-- `utils.py:733-750` `isscalar`. -/
def singleValue {β : Type} (a : NdArray β) : Bool := match a.len? with
  | none => true
  | some n => n == 1

/-- `fvel.shape == (n_time, n_height)` (`categorize/radar.py:406`). -/
def fullRows {β : Type} (nT nH : ℕ) : NdArray β → Option (List (List β))
  | .d2 rows => if rows.length = nT ∧ ∀ r ∈ rows, r.length = nH then some rows else none
  | _ => none

section
variable {β : Type} [Field β]

/-- `categorize/radar.py:394-401` and `categorize/radar.py:433-438` `_prf_to_folding_velocity`. -/
def foldingVelocity (f : FoldingFile β) : Except String (NdArray β) :=
  match f.nyquist, f.prf with
  | some x, _ => .ok x
  | none, some [p] => .ok (.d0 (p * 299792458 / (4 * f.frequency * 1000000000)))
  | none, _ => .error "RuntimeError: Unable to determine folding velocity"

/-- Element of rows. -/
def rowsAt {γ : Type} (rows : List (List γ)) (default : γ) : Grid γ := fun t h => (rows.getD t []).getD h default

/-- `categorize/radar.py:413-416`: the number of chirps. -/
def chirpCount : NdArray ℤ → Except String ℕ
  | .d1 xs => .ok xs.length
  | .d2 rows => .ok (rows.headD []).length
  | _ => .error "IndexError: tuple index out of range"

/-- `categorize/radar.py:393-430` `_get_expanded_folding_velocity`. -/
def expandedFolding (f : FoldingFile β) : Except String (Grid β) :=
  (foldingVelocity f).bind fun fvel =>
    match fullRows f.nT f.nH fvel with
    | some rows => .ok (rowsAt rows 0)
    | none =>
      if singleValue fvel then (broadcastTo f.nT f.nH fvel).map fun rows => rowsAt rows 0
      else match f.starts with
        | none => .error "KeyError: Missing variable chirp_start_indices in the input file."
        | some s =>
          (chirpCount s).bind fun n =>
          (broadcastTo f.nT n s).bind fun starts =>
          (broadcastTo f.nT n fvel).bind fun v =>
          if n = 0 then .error "IndexError: index 0 is out of bounds"
          else expandFolding f.nT f.nH n (rowsAt starts 0) (rowsAt v 0) 0

end

end Cloudnet
