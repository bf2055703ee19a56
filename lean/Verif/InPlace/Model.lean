import Verif.Bits.Model
import Verif.L3Figs.Model

/-! Functions of the library that change the arrays of the caller: what a sequence of calls on the same arrays does. -/

namespace Cloudnet

/-- `statistical_methods.py:54-67` `DayStatistics._get_method_attr`: the methods. -/
inductive StatMethod where
  | error
  | aerror
  | area
  | hist
  | vertical
  deriving DecidableEq

/-- The two arrays given to `DayStatistics` (`statistical_methods.py:41-52`), flattened. Masked elements and NaN are both `none`. -/
structure StatArrays (α : Type) where
  model : ℕ → Option α
  obs : ℕ → Option α

section
variable {α : Type} [Field α] [LinearOrder α] [IsStrictOrderedRing α]

/-- `statistical_methods.py:69-76` `DayStatistics(method, product_info, model, observation)` for arrays with `n` elements: the caller's arrays after
the call. `combine_masked_indices` (`:100-110`) and `calc_common_area_sum` (`:113-132`) assign to elements of their arguments, `histogram` (`:135-155`)
and `vertical_profile` (`:158-163`) work on new arrays. -/
def afterStatistics (n : ℕ) (s : StatArrays α) : StatMethod → StatArrays α
  | .error => ⟨(combineMasked n s.model s.obs).1, (combineMasked n s.model s.obs).2⟩
  | .aerror => ⟨(combineMasked n s.model s.obs).1, (combineMasked n s.model s.obs).2⟩
  | .area => ⟨modelAbove n s.model s.obs, s.obs⟩
  | .hist => s
  | .vertical => s

/-- The caller's arrays after a sequence of calls. -/
def afterAll (n : ℕ) (s : StatArrays α) (calls : List StatMethod) : StatArrays α := calls.foldl (afterStatistics n) s

end

/-! ### `setbit` -/

/-- Integer arrays in memory: for each array its elements. -/
abbrev IntHeap := ℕ → ℕ → ℤ

/-- `utils.py:293-321` `setbit(array, nth_bit)` for a NumPy array: `array |= mask` changes the elements of the array in memory, and the same array is
returned. -/
def setbitArray (mem : IntHeap) (array : ℕ) (nthBit : ℤ) : Except String (IntHeap × ℕ) :=
  if nthBit < 0 then .error "Negative bit number"
  else .ok (Function.update mem array fun i => Int.lor (mem array i) (2 ^ nthBit.toNat), array)

/-- A sequence of calls of `setbit`, each for one array and one bit. -/
def setbitCalls (mem : IntHeap) : List (ℕ × ℤ) → Except String IntHeap
  | [] => .ok mem
  | (array, bit) :: rest => (setbitArray mem array bit).bind fun r => setbitCalls r.1 rest

end Cloudnet
