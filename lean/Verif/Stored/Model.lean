import Mathlib.Data.Int.Log
import Mathlib.Algebra.Order.Field.Basic
import Mathlib.Algebra.Order.Floor.Ring

/-!
The types in which values are written to a file, and what is read back: `cloudnetarray.py` `_init_data_type`, `output.py` `_write_vars2nc`. Numbers are exact; NaN and
infinities are not modelled except that numbers too large for a type are stored as infinite.
-/

namespace Cloudnet

/-- Types of NumPy arrays. -/
inductive NpType where
  | bool | int8 | uint8 | int16 | uint16 | int32 | uint32 | int64 | float32 | float64
deriving DecidableEq

/-- Types of variables of netCDF files. -/
inductive NcType where
  | i2 | i4 | f4 | f8
deriving DecidableEq

/-- `cloudnetarray.py:141-146` `_init_data_type`. -/
def initDataType : NpType → NcType
  | .float32 => .f4
  | .float64 => .f4
  | .int16 => .i2
  | _ => .i4

/-- Conversion of integers to an integer of some bits in two's complement (`astype` of NumPy). -/
def wrapInt (bits : ℕ) (v : ℤ) : ℤ := (v + 2 ^ (bits - 1)) % 2 ^ bits - 2 ^ (bits - 1)

/-- An integer in a variable of an integer type. Simplification: for the other types it is stored as it is. -/
def storeInt : NcType → ℤ → ℤ
  | .i2, v => wrapInt 16 v
  | .i4, v => wrapInt 32 v
  | _, v => v

/-- `netCDF4.default_fillvals` of the integer types. -/
def fillInt : NcType → ℤ
  | .i2 => -32767
  | _ => -2147483647

/-- `output.py:441-462` `_write_vars2nc`, one value: masked values are written as the fill value. -/
def writeInt (t : NcType) : Option ℤ → ℤ
  | none => fillInt t
  | some v => storeInt t v

/-- Reading with netCDF4: if the variable has a fill value, which it has if the array was masked (`output.py:444-447`), this value is missing. -/
def readInt (masked : Bool) (t : NcType) (v : ℤ) : Option ℤ := if masked && decide (v = fillInt t) then none else some v

section
variable {α : Type} [Field α] [LinearOrder α] [FloorRing α]

/-- Rounding to the nearest integer, halves to the even one (IEEE 754). -/
def halfEven (q : α) : ℤ :=
  if q - ⌊q⌋ < 1 / 2 then ⌊q⌋ else if 1 / 2 < q - ⌊q⌋ then ⌊q⌋ + 1 else if ⌊q⌋ % 2 = 0 then ⌊q⌋ else ⌊q⌋ + 1

/-- A format of floating point numbers: digits, least exponent of the last digit, and the power of two that is too large. -/
structure FloatFormat where
  digits : ℕ
  least : ℤ
  limit : ℤ

/-- IEEE 754, 32 and 64 bits. -/
def NcType.format : NcType → FloatFormat
  | .f8 => ⟨53, -1074, 1024⟩
  | _ => ⟨24, -149, 128⟩

/-- The exponent of the last digit. -/
def lastExponent (f : FloatFormat) (x : α) : ℤ := max (Int.log 2 |x| - (f.digits - 1)) f.least

/-- The floating point number for `x`, without a limit of size. -/
def roundFloat (f : FloatFormat) (x : α) : α := (halfEven (x / 2 ^ lastExponent f x) : α) * 2 ^ lastExponent f x

/-- A number in a variable; `none` is infinite. -/
def storeFloat (t : NcType) (x : α) : Option α := if |roundFloat t.format x| < 2 ^ t.format.limit then some (roundFloat t.format x) else none

/-- `netCDF4.default_fillvals` of the types f4 and f8: 9.969209968386869e36. -/
def fillFloat : α := 15 / 8 * 2 ^ (122 : ℤ)

/-- As `writeInt`. -/
def writeFloat (t : NcType) : Option α → Option α
  | none => some fillFloat
  | some x => storeFloat t x

/-- As `readInt`, for numbers that are not infinite. -/
def readFloat (masked : Bool) (x : α) : Option α := if masked && decide (x = fillFloat) then none else some x

end

end Cloudnet
