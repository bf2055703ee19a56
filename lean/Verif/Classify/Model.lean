import Verif.Bits.Model
import Verif.Arrays.Model
import Verif.Components.Model
import Verif.Melting.Model
import Verif.Insects.Model
import Verif.Falling.Model

namespace Cloudnet

/-! The classification: `categorize/classify.py`. -/

/-- `classify.py:195-203` `_remove_false_radar_liquid`. -/
def removeFalseRadarLiquid (nT nH : ℕ) (fromRadar fromLidar : Grid Bool) : Grid Bool :=
  (whereGrid nT nH (findCloudBases fromLidar)).foldl (fun (liquid : Grid Bool) (px : Pixel) =>
    fun t h => if t = px.1 ∧ h < px.2 then false else liquid t h) fromRadar

/-- `classify.py:235-256` `_find_drizzle_and_falling`: 1, 2 or masked (`none`). -/
def drizzleAndFalling (bits : CategoryBits) : Grid (Option ℕ) :=
  let fallingDry : Grid Bool := fun t h => bits.falling t h && !bits.droplet t h
  let supercooled : Grid Bool := fun t h => bits.droplet t h && bits.freezing t h
  let drizzle : Grid Bool := fun t h => fallingDry t h && !bits.freezing t h
  let sum : Grid ℕ := fun t h => (fallingDry t h).toNat + (drizzle t h).toNat
  let sum := sum.assign supercooled 1
  fun t h => bif sum t h == 0 then none else some (sum t h)

/-- `classify.py:230`: the difference of neighbouring gates is -1; the data of the masked comparison is false where
one of them is masked. -/
def isTransition (a b : Option ℕ) : Bool := a.elim false fun a => b.elim false fun b => decide ((b : ℤ) - a = -1)

section
variable {α : Type} [Field α] [LinearOrder α]

/-- `classify.py:226-233` `_fix_undetected_melting_layer`. -/
def fixUndetectedMelting (lwp : ℕ → Option α) (bits : CategoryBits) : CategoryBits :=
  let d := drizzleAndFalling bits
  let transition : Grid Bool := fun t i => isTransition (d t i) (d t (i + 1))
  let allow : ℕ → Bool := fun t => (lwp t).elim true fun x => decide (5 / 1000 < x)
  { bits with melting := bits.melting.assign (fun t h => decide (1 ≤ h) && transition t (h - 1) && allow t) true }

/-- Index `x + k - 5` of an axis of length `nT`; a negative index counts from the end. -/
def wrapIndex (nT x k : ℕ) : ℕ := if 5 ≤ x + k then x + k - 5 else nT + x + k - 5

/-- `classify.py:275-289`, one melting pixel. `st` is the falling and the insect array. If five or less falling
gates are below, nothing is done; this includes the gates `y < 5` where the first indices are negative. An index beyond
the last profile raises in the second step, which is caught. -/
def filterInsectsAt (nT nH : ℕ) (original : Grid Bool) (st : Grid Bool × Grid Bool) (px : Pixel) :
    Grid Bool × Grid Bool :=
  let nDrizzle := ((List.range px.2).filter fun h => st.1 px.1 h).length
  if nDrizzle ≤ 5 then st
  else
    let below : Grid Bool := fun t h => decide (t = px.1 ∧ px.2 - 5 ≤ h ∧ h < px.2) && original t h
    let st : Grid Bool × Grid Bool := (st.1.assign below true, st.2.assign below false)
    if nT ≤ px.1 + 5 then st
    else
      let beside : Grid Bool := fun t h =>
        (List.range 11).any (fun k => decide (t = wrapIndex nT px.1 k)) && original t px.2 &&
          decide (px.2 - 1 ≤ h ∧ h < px.2 + 2 ∧ h < nH)
      (st.1.assign beside true, st.2.assign beside false)

/-- `classify.py:259-292` `_filter_insects`. -/
def filterInsects (nT nH : ℕ) (bits : CategoryBits) : CategoryBits :=
  let above := ffillGrid bits.melting false
  let ind : Grid Bool := fun t h => bits.insect t h && above t h
  let falling := bits.falling.assign ind true
  let insect := bits.insect.assign ind false
  let st := (whereGrid nT nH bits.melting).foldl (filterInsectsAt nT nH insect) (falling, insect)
  { bits with falling := st.1, insect := st.2 }

/-- `classify.py:206-223` `_find_aerosols`. -/
def findAerosols (beta : Grid (Option α)) (bits : CategoryBits) : Grid Bool :=
  fun t h => (beta t h).isSome && !bits.falling t h && !bits.droplet t h

/-- `classify.py:187-192` `_fix_super_cold_liquid`. -/
def fixSuperColdLiquid (tw : Grid α) (bits : CategoryBits) : CategoryBits :=
  let ind : Grid Bool := fun t h => decide (tw t h < zeroCelsius - 38) && bits.droplet t h
  { bits with droplet := bits.droplet.assign ind false, falling := bits.falling.assign ind true }

/-- `classify.py:129-148` `_reclassify_ice_with_high_ldr`. -/
def reclassifyHighLdr (ldr : Option (Grid (Option α))) (tw : Grid α) (beta : Grid (Option α)) (bits : CategoryBits) :
    CategoryBits :=
  match ldr with
  | none => bits
  | some ldr =>
    let isIce : Grid Bool := fun t h =>
      bits.falling t h && bits.freezing t h && !bits.droplet t h && !bits.melting t h
    let highLdr : Grid Bool := fun t h => (ldr t h).elim false fun x => decide (-13 < x)
    let warm : Grid Bool := fun t h => decide (zeroCelsius - 10 < tw t h)
    let above := ffillGrid bits.melting false
    let ind : Grid Bool := fun t h => isIce t h && highLdr t h && warm t h && !above t h
    { bits with
      insect := bits.insect.assign ind true
      falling := bits.falling.assign ind false
      aerosol := bits.aerosol.assign (fun t h => ind t h && (beta t h).isSome) true }

/-- `ndimage.binary_dilation` with the cross-shaped structure, one iteration: a pixel is set if it or one of its
neighbours inside the array is. -/
def dilate (nT nH : ℕ) (m : Grid Bool) : Grid Bool := fun t h =>
  m t h || (decide (0 < t) && m (t - 1) h) || (decide (t + 1 < nT) && m (t + 1) h) ||
    (decide (0 < h) && m t (h - 1)) || (decide (h + 1 < nH) && m t (h + 1))

/-- `classify.py:151-184` `_filter_insects_in_falling`, for regions of at least 100 pixels, dilated twice. Without
any falling pixel the masks are empty and nothing changes, so the early return is not modelled. -/
def filterInsectsInFalling (nT nH : ℕ) (bits : CategoryBits) : CategoryBits :=
  let large := removeSmallObjects nT nH bits.falling 99 1
  let near := (dilate nT nH)^[2] large
  let ind : Grid Bool := fun t h => bits.insect t h && bits.freezing t h && near t h
  { bits with
    falling := bits.falling.assign ind true
    insect := bits.insect.assign ind false
    aerosol := bits.aerosol.assign ind false }

/-- `classify.py:316-335` `_filter_falling`. -/
def filterFalling (nT nH : ℕ) (beta : Grid (Option α)) (bits : CategoryBits) : CategoryBits :=
  let out : Grid Bool := fun t h => bits.falling t h && !removeSmallObjects nT nH bits.falling 10 1 t h
  let isBeta : Grid Bool := fun t h => (beta t h).isSome
  let aerosol := bits.aerosol.assign (fun t h => out t h && !bits.freezing t h && isBeta t h) true
  { bits with
    falling := bits.falling.assign out false
    insect := bits.insect.assign (fun t h => out t h && !bits.freezing t h) true
    aerosol := aerosol.assign (fun t h => out t h && bits.freezing t h && isBeta t h) true }

/-- `classify.py:295-313` `_remove_clutter_in_liquid`: the remaining clutter and the bits. -/
def removeClutterInLiquid (nT nH : ℕ) (clutter : Grid Bool) (bits : CategoryBits) : Grid Bool × CategoryBits :=
  let near := dilate nT nH fun t h => bits.droplet t h || bits.falling t h
  let wrong : Grid Bool := fun t h => clutter t h && near t h
  (clutter.assign wrong false, { bits with falling := bits.falling.assign wrong true })

/-- The observations used by the refinement of the bits. -/
structure RefineInput (α : Type) where
  nT : ℕ
  nH : ℕ
  beta : Grid (Option α)
  tw : Grid α
  ldr : Option (Grid (Option α))
  lwp : ℕ → Option α
  clutter : Grid Bool

/-- `classify.py:88-97`: the refinement of the first estimates of `find_...`. -/
def refineBits (o : RefineInput α) (bits : CategoryBits) : Grid Bool × CategoryBits :=
  let bits := (fun b => filterInsects o.nT o.nH (fixUndetectedMelting o.lwp b))^[5] bits
  let bits := { bits with aerosol := findAerosols o.beta bits }
  let bits := fixSuperColdLiquid o.tw bits
  let bits := reclassifyHighLdr o.ldr o.tw o.beta bits
  let bits := filterInsectsInFalling o.nT o.nH bits
  let bits := filterFalling o.nT o.nH o.beta bits
  removeClutterInLiquid o.nT o.nH o.clutter bits

end

/-- The fields of `ClassData` (`containers.py:31-88`). The temperature is taken as unmasked; `liquidProb` is the result
of VoodooNet if raw radar files are given, an external neural network. `smoothV` is the Gaussian filtered velocity. -/
structure Observation where
  nT : ℕ
  nH : ℕ
  time : ℕ → ℝ
  height : ℕ → ℝ
  altitude : ℝ
  z : Masked ℝ
  v : Masked ℝ
  vSigma : Grid (Option ℝ)
  width : Option (Masked ℝ)
  ldr : Option (Masked ℝ)
  sldr : Option (Masked ℝ)
  beta : Grid (Option ℝ)
  tw : Grid ℝ
  lwp : ℕ → Option ℝ
  disdrometer : Option (DisdrometerData ℝ)
  gdas : Bool
  mira : Bool
  rpg : Bool
  smoothV : Grid ℝ
  liquidProb : Option (Grid ℝ)

/-- The result of `classify_measurements`: `ClassificationResult` (`containers.py:20-28`). -/
structure ClassificationResult where
  bits : CategoryBits
  isRain : ℕ → Option ℤ
  isClutter : Grid Bool
  insectProb : Grid (Option ℝ)

def Observation.rainInput (o : Observation) : RainInput ℝ :=
  { nT := o.nT, nH := o.nH, z := o.z, v := o.v, ldr := o.ldr, sldr := o.sldr, tw := fun t h => some (o.tw t h),
    disdrometer := o.disdrometer }

def Observation.meltingInput (o : Observation) : MeltingInput ℝ :=
  { nT := o.nT, nH := o.nH, tw := o.tw, z := o.z, v := o.v, ldr := o.ldr, width := o.width, height := o.height,
    gdas := o.gdas }

def Observation.insectInput (o : Observation) (isRain : ℕ → Option ℤ) : InsectInput :=
  { nT := o.nT, time := o.time, z := o.z.get, v := o.v.get, vSigma := o.vSigma, width := o.width.map (·.get),
    ldr := o.ldr.map (·.get), sldr := o.sldr.map (·.get), tw := fun t h => some (o.tw t h), lwp := o.lwp,
    isRain := fun t => decide (isRain t = some 1), smoothV := o.smoothV, mira := o.mira }

def Observation.fallingInput (o : Observation) (clutter : Grid Bool) : FallingInput ℝ :=
  { nT := o.nT, nH := o.nH, z := o.z.get, beta := o.beta, tw := o.tw, height := o.height, altitude := o.altitude,
    clutter := clutter }

def Observation.refineInput (o : Observation) (clutter : Grid Bool) : RefineInput ℝ :=
  { nT := o.nT, nH := o.nH, beta := o.beta, tw := o.tw, ldr := o.ldr.map (·.get), lwp := o.lwp, clutter := clutter }

/-- `classify.py:61-84`: liquid from the lidar and, in the freezing region, from the radar. -/
noncomputable def combineLiquid (o : Observation) (freezing fromLidar : Grid Bool) : Except String (Grid Bool) :=
  match o.liquidProb with
  | none => .ok fromLidar
  | some p =>
    if !o.rpg then .error "NotImplementedError"
    else
      let fromRadar : Grid Bool := fun t h => decide (55 / 100 < p t h)
      let fromRadar := removeFalseRadarLiquid o.nT o.nH fromRadar fromLidar
      let fromRadar := fromRadar.assign (fun t h => !freezing t h) false
      .ok fun t h => fromRadar t h || fromLidar t h

/-- `classify.py:57-87`: the first estimates. -/
noncomputable def firstEstimates (o : Observation) (isRain : ℕ → Option ℤ) (clutter : Grid Bool) :
    Except String (CategoryBits × Grid (Option ℝ)) := do
  let melting ← findMeltingLayer o.meltingInput true
  let freezing ← findFreezingRegion o.nT o.nH o.time o.height o.tw melting
  let fromLidar ← findLiquid defaultLiquidParameters o.nT o.nH o.time o.height o.beta o.lwp
  let liquid ← combineLiquid o freezing fromLidar
  let droplet ← correctLiquidTop o.nT o.nH o.z.get (nElements o.nH o.height 500).toNat liquid freezing
  let (insect, insectProb) ← findInsects (o.insectInput isRain) melting droplet
  let falling ← findFallingHydrometeors (o.fallingInput clutter) droplet insect
  return ({ droplet := droplet, falling := falling, freezing := freezing, melting := melting,
            aerosol := fun _ _ => false, insect := insect }, insectProb)

/-- `classify.py:25-105` `classify_measurements`. -/
noncomputable def classifyMeasurements (o : Observation) : Except String ClassificationResult := do
  let (isRain, clutter) ← o.rainInput.rainAndClutter
  let (bits, insectProb) ← firstEstimates o isRain clutter
  let (remaining, bits) := refineBits (o.refineInput clutter) bits
  return { bits := bits, isRain := isRain, isClutter := remaining, insectProb := insectProb }

end Cloudnet
