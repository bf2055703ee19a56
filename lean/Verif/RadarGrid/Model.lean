import Verif.Radar.Model
import Verif.Components.Model
import Verif.Categorize.Model
import Verif.Source.Model

/-! Radar data of a categorize file, from the radar file to the classification (`categorize/radar.py`, `categorize/categorize.py:90-103,183-199`). -/

namespace Cloudnet

/-- Variables of a radar file with `nT` profiles of `nH` gates. `ldr` and `sldr` come with their units, `nyquist` is the folding velocity at all
pixels (`expandFolding`), `prf` tells whether there is a pulse repetition frequency of one value instead. -/
structure RadarInput where
  nT : ℕ
  time : ℕ → ℝ
  nH : ℕ
  zh : Grid (Option ℝ)
  v : Grid (Option ℝ)
  ldr : Option (Grid (Option ℝ) × String)
  width : Option (Grid (Option ℝ))
  sldr : Option (Grid (Option ℝ) × String)
  rain : Option (ℕ → Option ℝ)
  nyquist : Option (Grid (Option ℝ))
  prf : Bool
  bits : Dealiased

/-- `categorize/radar.py:59-62`: to linear units, `CloudnetArray.rebin_data` (`cloudnetarray.py:61-77`, of two dimensions), to decibels. -/
noncomputable def rebinDecibels (nIn : ℕ) (time : ℕ → ℝ) (x : Grid (Option ℝ)) (units : String) (n : ℕ) (timeNew : ℕ → ℝ) :
    Except String (Grid (Option ℝ) × List ℕ) :=
  (rebin2d maMean nIn time (fun t => (UnitArray.mk (x t) units).db2lin.data) n timeNew 1 false).map fun r =>
    (fun t => (UnitArray.mk (r.result t) (UnitArray.mk (x t) units).db2lin.units).lin2db.data, r.emptyBins)

/-- Fields on the new times. -/
structure RadarGridded where
  z : Grid (Option ℝ)
  sigma : Grid (Option ℝ)
  v : Grid (Option ℝ)
  ldr : Option (Grid (Option ℝ))
  width : Option (Grid (Option ℝ))
  sldr : Option (Grid (Option ℝ))
  rain : Option (ℕ → Option ℝ)
  nyquist : Grid (Option ℝ)

/-- For a variable that may be missing. -/
def ifPresent {β γ : Type} (x : Option β) (f : β → Except String γ) : Except String (Option γ) := match x with
  | none => .ok none
  | some x => (f x).map some

/-- `categorize/radar.py:393-400` with the loop of lines 56-81: without `nyquist_velocity` in the file, `_rebin_velocity` adds it to the dictionary
over which the loop runs. -/
def foldingOf (f : RadarInput) : Except String (Grid (Option ℝ)) := match f.nyquist, f.prf, f.bits with
  | some x, _, _ => .ok x
  | none, true, .partly => .error "NotImplementedError"
  | none, true, _ => .error "RuntimeError: dictionary changed size during iteration"
  | none, false, _ => .error "RuntimeError: Unable to determine folding velocity"

/-- `categorize/radar.py:49-82` `rebin_to_grid`, in the order of the dictionary (lines 342-348): fields and the times without data. -/
noncomputable def radarToGrid (f : RadarInput) (n : ℕ) (timeNew : ℕ → ℝ) : Except String (RadarGridded × List ℕ) := do
  let z ← rebinDecibels f.nT f.time f.zh "dBZ" n timeNew
  let sigma ← rebin2d maStd f.nT f.time f.v n timeNew 1 true
  let folding ← foldingOf f
  let v ← rebinVelocity f.nT f.time f.v folding n timeNew f.bits
  let nyquist ← rebin2d maMax f.nT f.time folding n timeNew 1 false
  let ldr ← ifPresent f.ldr fun p => rebinDecibels f.nT f.time p.1 p.2 n timeNew
  let width ← ifPresent f.width fun w => rebin2d maMean f.nT f.time w n timeNew 1 false
  let sldr ← ifPresent f.sldr fun p => rebinDecibels f.nT f.time p.1 p.2 n timeNew
  let rain ← ifPresent f.rain fun r => rebin1d maMean f.nT f.time r n timeNew
  return ({ z := z.1, sigma := sigma.result, v := v, ldr := ldr.map Prod.fst, width := width.map Rebinned.result, sldr := sldr.map Prod.fst, rain := rain,
            nyquist := nyquist.result }, ((sldr.map Prod.snd).or (ldr.map Prod.snd)).getD z.2)

/-- `categorize/categorize.py:103-125` for the radar: the valid times. -/
def RadarGridded.screen (valid : List ℕ) (g : RadarGridded) : RadarGridded :=
  let at' : Grid (Option ℝ) → Grid (Option ℝ) := fun x t => x (valid.getD t 0)
  { z := at' g.z, sigma := at' g.sigma, v := at' g.v, ldr := g.ldr.map at', width := g.width.map at', sldr := g.sldr.map at',
    rain := g.rain.map fun r t => r (valid.getD t 0), nyquist := at' g.nyquist }

/-- `cloudnetarray.py:108-117` `filter_vertical_stripes`. -/
def filterSpeckle (nT nH : ℕ) (x : Grid (Option ℝ)) : Grid (Option ℝ) :=
  let isData : Grid Bool := fun t h => (x t h).isSome
  fun t h => if filterXPixels nT nH isData t h then x t h else none

/-- `categorize/categorize.py:191`: the radars with artefacts. -/
def hasSpeckle (source : String) : Bool := decide ("rpg".toList <:+: pyLower source) || decide ("basta".toList <:+: pyLower source)

/-- `categorize/categorize.py:191-195`, `categorize/radar.py:103-119`. -/
noncomputable def RadarGridded.unspeckled (nT nH : ℕ) (source : String) (g : RadarGridded) : RadarGridded :=
  if hasSpeckle source then
    { g with z := filterSpeckle nT nH g.z, v := filterFirstGate (filterSpeckle nT nH g.v), width := g.width.map (filterSpeckle nT nH),
             ldr := g.ldr.map (filterSpeckle nT nH), sigma := filterSpeckle nT nH g.sigma }
  else g

/-- `categorize/categorize.py:196-197`: stripes found in `v`, `v_sigma` and `ldr`. -/
def RadarGridded.unstriped (nT nH : ℕ) (g : RadarGridded) : RadarGridded :=
  let s1 := filterStripes nT nH ⟨g.z, g.v, none⟩
  let s2 := filterStripes nT nH ⟨g.z, s1.v, some g.sigma⟩
  let g := { g with v := s2.v, sigma := s2.other.getD g.sigma }
  match g.ldr with
  | none => g
  | some l =>
    let s3 := filterStripes nT nH ⟨g.z, g.v, some l⟩
    { g with v := s3.v, ldr := some (s3.other.getD l) }

/-- The dictionary of variables, in order. -/
def RadarGridded.entries (g : RadarGridded) : List (String × RadarArray ℝ) :=
  [("Z", .field g.z), ("v_sigma", .field g.sigma), ("v", .field g.v)] ++ (g.ldr.map fun x => ("ldr", RadarArray.field x)).toList ++
    (g.width.map fun x => ("width", RadarArray.field x)).toList ++ (g.sldr.map fun x => ("sldr", RadarArray.field x)).toList ++
    (g.rain.map fun x => ("rainfall_rate", RadarArray.vector x)).toList ++ [("nyquist_velocity", .field g.nyquist)]

/-- `categorize/categorize.py:90-125,183-198`: the radar data before the classification, with the valid times. -/
noncomputable def radarForCategorize (f : RadarInput) (source : String) (n : ℕ) (timeNew : ℕ → ℝ) (lidarGap modelGap : List ℕ) :
    Except String (List ℕ × List (String × RadarArray ℝ)) := do
  let r ← radarToGrid f n timeNew
  let valid := validIndices n r.2 lidarGap modelGap
  if valid.length < 2 then .error "ValidTimeStampError"
  else do
    let out ← removeIncompletePixels (((r.1.screen valid).unspeckled valid.length f.nH source).unstriped valid.length f.nH).entries
    return (valid, out)

end Cloudnet
