import Verif.Basic
import Mathlib.Logic.Relation
import Mathlib.Data.Finset.Card

/-!
Independent specification of connected pixels: reachability through set pixels by single steps.
-/

namespace Cloudnet.Spec

/-- A set pixel of an `nT` x `nH` mask. -/
def IsSet (nT nH : ℕ) (mask : Grid Bool) (p : ℕ × ℕ) : Prop :=
  p.1 < nT ∧ p.2 < nH ∧ mask p.1 p.2 = true

/-- Two pixels share a face. -/
def FaceNeighbours (p q : ℕ × ℕ) : Prop :=
  (p.1 = q.1 ∧ (p.2 + 1 = q.2 ∨ q.2 + 1 = p.2)) ∨
  (p.2 = q.2 ∧ (p.1 + 1 = q.1 ∨ q.1 + 1 = p.1))

/-- Two different pixels share a face or a corner. -/
def Neighbours8 (p q : ℕ × ℕ) : Prop :=
  p ≠ q ∧ (p.1 ≤ q.1 + 1 ∧ q.1 ≤ p.1 + 1) ∧ (p.2 ≤ q.2 + 1 ∧ q.2 ≤ p.2 + 1)

/-- `q` can be reached from `p` by steps between neighbouring set pixels. -/
def Connected (nb : ℕ × ℕ → ℕ × ℕ → Prop) (nT nH : ℕ) (mask : Grid Bool) (p q : ℕ × ℕ) : Prop :=
  Relation.ReflTransGen (fun a b => nb a b ∧ IsSet nT nH mask b) p q

/-- The object of pixel `p` has more than `n` pixels: there are more than `n` different pixels
connected to `p`. -/
def ObjectLargerThan (nb : ℕ × ℕ → ℕ × ℕ → Prop) (nT nH : ℕ) (mask : Grid Bool) (n : ℕ)
    (p : ℕ × ℕ) : Prop :=
  ∃ s : Finset (ℕ × ℕ), (∀ q ∈ s, Connected nb nT nH mask p q) ∧ n < s.card

end Cloudnet.Spec
