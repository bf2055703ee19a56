import Verif.Basic
import Mathlib.Data.Int.Bitwise

namespace Cloudnet

/-- `cloudnetpy/utils.py:263-290` `isbit`: tests `array & (1 << nth_bit) > 0` (Python parses this as
`(array & mask) > 0`) for one array element; a negative bit number raises `ValueError`.
Integers are unbounded two's complement numbers (NumPy: 64 bit). -/
def isbit (array : ℤ) (nthBit : ℤ) : Except String Bool :=
  if nthBit < 0 then .error "Negative bit number"
  else
    let mask : ℤ := 2 ^ nthBit.toNat
    .ok (decide (Int.land array mask > 0))

/-- `cloudnetpy/utils.py:293-321` `setbit`: `array |= 1 << nth_bit` for one array element. -/
def setbit (array : ℤ) (nthBit : ℤ) : Except String ℤ :=
  if nthBit < 0 then .error "Negative bit number"
  else
    let mask : ℤ := 2 ^ nthBit.toNat
    .ok (Int.lor array mask)

/-- `cloudnetpy/products/product_tools.py:66-73` `CategoryBits`: six boolean arrays, in the order of
the dataclass fields. -/
structure CategoryBits where
  droplet : Grid Bool
  falling : Grid Bool
  freezing : Grid Bool
  melting : Grid Bool
  aerosol : Grid Bool
  insect : Grid Bool

/-- `cloudnetpy/products/product_tools.py:76-87` `QualityBits`: ten boolean arrays, in the order of
the dataclass fields. -/
structure QualityBits where
  radar : Grid Bool
  lidar : Grid Bool
  clutter : Grid Bool
  molecular : Grid Bool
  attenuatedLiquid : Grid Bool
  correctedLiquid : Grid Bool
  attenuatedRain : Grid Bool
  correctedRain : Grid Bool
  attenuatedMelting : Grid Bool
  correctedMelting : Grid Bool

/-- `dataclasses.fields(data)` of a `CategoryBits` (`categorize/categorize.py:268`). -/
def CategoryBits.fields (c : CategoryBits) : List (Grid Bool) :=
  [c.droplet, c.falling, c.freezing, c.melting, c.aerosol, c.insect]

/-- `dataclasses.fields(data)` of a `QualityBits` (`categorize/categorize.py:268`). -/
def QualityBits.fields (q : QualityBits) : List (Grid Bool) :=
  [q.radar, q.lidar, q.clutter, q.molecular, q.attenuatedLiquid, q.correctedLiquid,
   q.attenuatedRain, q.correctedRain, q.attenuatedMelting, q.correctedMelting]

/-- The loop of `cloudnetpy/categorize/categorize.py:268-269`, started at field number `i` with the
value `quality` accumulated so far: `quality |= (1 << i) * field`. -/
def classesToBitsLoop : List (Grid Bool) → ℕ → Grid ℤ → Grid ℤ
  | [], _, quality => quality
  | f :: fs, i, quality =>
    classesToBitsLoop fs (i + 1)
      (fun t h => Int.lor (quality t h) (2 ^ i * (if f t h then 1 else 0)))

/-- `cloudnetpy/categorize/categorize.py:265-270` `_classes_to_bits`. -/
def classesToBits (fields : List (Grid Bool)) : Grid ℤ :=
  classesToBitsLoop fields 0 (Grid.const 0)

/-- `utils.isbit(bits, n)` on a whole array (`product_tools.py:100-121`): raises once, or gives the
elementwise test. -/
def isbitGrid (bits : Grid ℤ) (n : ℤ) : Except String (Grid Bool) :=
  if n < 0 then .error "Negative bit number"
  else .ok (fun t h => decide (Int.land (bits t h) (2 ^ n.toNat) > 0))

/-- `cloudnetpy/products/product_tools.py:96-106` `CategorizeBits._read_category_bits`. -/
def readCategoryBits (bits : Grid ℤ) : Except String CategoryBits := do
  return {
    droplet := ← isbitGrid bits 0
    falling := ← isbitGrid bits 1
    freezing := ← isbitGrid bits 2
    melting := ← isbitGrid bits 3
    aerosol := ← isbitGrid bits 4
    insect := ← isbitGrid bits 5 }

/-- `cloudnetpy/products/product_tools.py:108-122` `CategorizeBits._read_quality_bits`. -/
def readQualityBits (bits : Grid ℤ) : Except String QualityBits := do
  return {
    radar := ← isbitGrid bits 0
    lidar := ← isbitGrid bits 1
    clutter := ← isbitGrid bits 2
    molecular := ← isbitGrid bits 3
    attenuatedLiquid := ← isbitGrid bits 4
    correctedLiquid := ← isbitGrid bits 5
    attenuatedRain := ← isbitGrid bits 6
    correctedRain := ← isbitGrid bits 7
    attenuatedMelting := ← isbitGrid bits 8
    correctedMelting := ← isbitGrid bits 9 }

end Cloudnet
