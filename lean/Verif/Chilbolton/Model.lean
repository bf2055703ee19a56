import Verif.NcRadar.Model
import Verif.Times.Model

namespace Cloudnet

/-! The radars Copernicus and Galileo of Chilbolton and BASTA: `instruments/copernicus.py`, `instruments/galileo.py`,
`instruments/basta.py`. -/

section
variable {α : Type} [Field α] [LinearOrder α]

/-- The range gates and the time-height variables of a file. -/
structure GateData (α : Type) where
  nGates : ℕ
  range : ℕ → α
  zh : Grid (Option α)
  v : Grid (Option α)
  width : Grid (Option α)
  ldr : Grid (Option α)
  snr : Grid (Option α)

/-- All time-height variables masked at some pixels. -/
def GateData.mask (bad : ℕ → ℕ → Bool) (d : GateData α) : GateData α :=
  let f := fun (x : Grid (Option α)) t h => if bad t h then none else x t h
  { d with zh := f d.zh, v := f d.v, width := f d.width, ldr := f d.ldr, snr := f d.snr }

/-- The range gates number `gates` of all variables. -/
def GateData.select (gates : List ℕ) (d : GateData α) : GateData α :=
  let f := fun (x : Grid (Option α)) t k => (gates[k]?).bind fun h => x t h
  ⟨gates.length, fun k => d.range (gates.getD k 0), f d.zh, f d.v, f d.width, f d.ldr, f d.snr⟩

/-- What the site and the file say about Copernicus: calibration offset and range offset (of the site, and those already
applied in the file), data under the mask of `width`, and the result of comparisons with a masked SNR. -/
structure CopernicusOptions (α : Type) where
  zhApplied : α
  zhOffset : Option α
  rangeApplied : α
  rangeOffset : Option α
  widthUnder : Grid α
  junk : ℕ → ℕ → Bool

/-- `copernicus.py:133-142` `calibrate_reflectivity`. -/
def copernicusCalibrate (o : CopernicusOptions α) (d : GateData α) : GateData α :=
  { d with zh := fun t h => (d.zh t h).map fun z => z - o.zhApplied + o.zhOffset.getD (-(1495 / 10)) }

/-- `copernicus.py:157-167` `mask_corrupted_values`. -/
def copernicusCorrupted (o : CopernicusOptions α) (d : GateData α) : GateData α :=
  let v1 : Grid (Option α) := fun t h => if 3 < |(d.width t h).getD (o.widthUnder t h)| then none else d.v t h
  { d with v := fun t h => (v1 t h).bind fun x => if 9 < |x| then none else some x }

/-- `copernicus.py:144-155` `fix_range_offset`. -/
def copernicusRange (o : CopernicusOptions α) (d : GateData α) : GateData α :=
  { d with range := fun h => d.range h - o.rangeApplied + o.rangeOffset.getD (-720) }

/-- `copernicus.py:169-180` `screen_negative_ranges`. -/
def copernicusPositive (d : GateData α) : GateData α :=
  d.select ((List.range d.nGates).filter fun h => decide (0 ≤ d.range h))

/-- `nc_radar.py:83-90` `mask_invalid_data`. -/
def GateData.maskInvalid (d : GateData α) : GateData α := d.mask fun t h => (d.zh t h).isNone || (d.v t h).isNone

/-- `copernicus.py:96-102`: from the calibration to the range gates. The selection of times is C38 and C51. -/
def copernicusProcess (o : CopernicusOptions α) (d : GateData α) : GateData α :=
  let d := copernicusCalibrate o d
  let d := { d with zh := screenTopGates d.nGates 2 o.junk d.snr d.zh }
  let d := copernicusCorrupted o d
  let d := { d with v := maskFirstGates 150 d.range d.v }
  let d := d.maskInvalid
  let d := copernicusRange o d
  copernicusPositive d

/-- `galileo.py:139-151` `screen_negative_altitudes`, for the range gates of the variables (see `galileoSelect`). -/
def galileoPositive (d : GateData α) : Except String (GateData α) :=
  let valid := (List.range d.nGates).filter fun h => decide (0 < d.range h)
  if valid = [] then .error "ValueError: No valid altitudes found."
  else if valid.length = d.nGates then .ok d
  else .ok (d.select valid)

/-- `galileo.py:131-137` `mask_clutter`. The expression `np.where(a) and np.where(b)` is `np.where(b)`, because a non-empty
tuple counts as true. `under` is the data under the mask of `ldr`. -/
def galileoClutter (under : Grid α) (d : GateData α) : GateData α :=
  { d with v := fun t h => if h < 15 ∧ -5 < (d.ldr t h).getD (under t h) then none else d.v t h }

/-- `galileo.py:95-99`: from the range gates to the masks; `snrUnder` is the data under the mask of the SNR. -/
def galileoProcess (snrLimit : Option α) (snrUnder ldrUnder : Grid α) (d : GateData α) : Except String (GateData α) := do
  let d ← galileoPositive d
  let d := d.mask fun t h => decide ((d.snr t h).getD (snrUnder t h) < snrLimit.getD 3)
  let d := galileoClutter ldrUnder d
  return d.maskInvalid

/-- `galileo.py:146-151`: the loop body of `screen_negative_altitudes` for an array of the file: arrays whose last dimension
is that of `range`. (Arrays with four dimensions do not occur.) -/
def galileoSelect {β : Type} (nRange : ℕ) (valid : List ℕ) : NdArray β → NdArray β
  | .d0 x => .d0 x
  | .d1 xs => if xs.length ≠ 1 ∧ xs.length = nRange then .d1 (valid.filterMap fun i => xs[i]?) else .d1 xs
  | .d2 xs => if xs.length ≠ 1 ∧ ∀ row ∈ xs, row.length = nRange then
      .d2 (xs.map fun row => valid.filterMap fun i => row[i]?) else .d2 xs
  | a => a

/-- `basta.py:95-100` `screen_data`, one pixel of a time-height variable; the background mask is assumed to be known. -/
def bastaScreen (background : Grid ℤ) (x : Grid (Option α)) : Grid (Option α) :=
  fun t h => if background t h ≠ 1 then none else x t h

end

end Cloudnet
