/-
Shared vocabulary of the model: two-dimensional (time, height) arrays and NumPy-style mask
assignment.
-/
import Mathlib.Order.Basic

namespace Cloudnet

/-- A two-dimensional array indexed by (time, height), as used for every profile variable of
cloudnetpy. Sizes are passed separately where the code looks at them; entries outside the sizes are
never read by the code. -/
abbrev Grid (α : Type*) := ℕ → ℕ → α

/-- NumPy in-place assignment through a boolean mask, `a[mask] = v`, as a functional update. -/
def Grid.assign {α : Type*} (a : Grid α) (mask : Grid Bool) (v : α) : Grid α :=
  fun t h => bif mask t h then v else a t h

@[simp] theorem Grid.assign_apply {α : Type*} (a : Grid α) (mask : Grid Bool) (v : α) (t h : ℕ) :
    a.assign mask v t h = bif mask t h then v else a t h := rfl

/-- `np.zeros(shape, dtype=int)`, and any other constant array. -/
def Grid.const {α : Type*} (v : α) : Grid α := fun _ _ => v

@[simp] theorem Grid.const_apply {α : Type*} (v : α) (t h : ℕ) : Grid.const v t h = v := rfl

end Cloudnet
