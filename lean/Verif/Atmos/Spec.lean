import Verif.Basic

/-! Independent specification of clouds in a profile. -/

namespace Cloudnet.Spec

/-- `[base, top]` is a maximal run of set gates in a profile of `n` gates. -/
structure IsLayer (n : ℕ) (a : ℕ → Bool) (base top : ℕ) : Prop where
  base_le_top : base ≤ top
  top_lt : top < n
  full : ∀ h, base ≤ h → h ≤ top → a h = true
  below : base = 0 ∨ a (base - 1) = false
  above : top + 1 = n ∨ a (top + 1) = false

end Cloudnet.Spec
