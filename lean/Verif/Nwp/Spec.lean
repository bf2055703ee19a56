import Verif.Nwp.Model
import Verif.Interp.Props

/-! Specification for C136 and C137. -/

namespace Cloudnet.Spec

variable {α : Type} [Field α] [LinearOrder α]

/-- The point `(u, v)` is a weighted mean (weights are not negative and sum to one) of the valid points of the grid that are
listed in `cs`. -/
structure Combination (n : ℕ) (x : ℕ → α) (m : ℕ) (y : ℕ → α) (valid : ℕ → ℕ → Bool) (u v : α) (cs : List (Corner α)) : Prop where
  points : ∀ c ∈ cs, c.row < n ∧ c.column < m ∧ valid c.row c.column = true ∧ 0 ≤ c.weight
  total : (cs.map fun c => c.weight).sum = 1
  first : (cs.map fun c => c.weight * x c.row).sum = u
  second : (cs.map fun c => c.weight * y c.column).sum = v

/-- The point `(u, v)` is in the convex hull of the valid points. -/
def InHull (n : ℕ) (x : ℕ → α) (m : ℕ) (y : ℕ → α) (valid : ℕ → ℕ → Bool) (u v : α) : Prop :=
  ∃ cs, Combination n x m y valid u v cs

/-- What is assumed of `griddata`: there is a triangulation unless all valid points are on a line; a point in the convex hull is
expressed by valid points (the corners of its triangle), by itself if it is one; other points are in no triangle. -/
structure Delaunay (n : ℕ) (x : ℕ → α) (m : ℕ) (y : ℕ → α) (delaunay : (ℕ → ℕ → Bool) → Option (Triangulation α)) : Prop where
  exists_iff : ∀ valid, delaunay valid = none ↔ ∃ a b c : α, (a ≠ 0 ∨ b ≠ 0) ∧
    ∀ i < n, ∀ j < m, valid i j = true → a * x i + b * y j = c
  triangle : ∀ valid tri, delaunay valid = some tri → ∀ u v cs, tri u v = some cs → Combination n x m y valid u v cs
  outside : ∀ valid tri, delaunay valid = some tri → ∀ u v, tri u v = none → ¬ InHull n x m y valid u v
  node : ∀ valid tri, delaunay valid = some tri → ∀ i < n, ∀ j < m, valid i j = true → ∀ cs, tri (x i) (y j) = some cs →
    ∀ c ∈ cs, c.weight ≠ 0 → c.row = i ∧ c.column = j

/-- `r` is the bilinear mean of the four values around a point with relative position `s`, `t` in its cell. -/
def fourCorners (s t z00 z01 z10 z11 : α) : α :=
  (1 - s) * (1 - t) * z00 + (1 - s) * t * z01 + s * (1 - t) * z10 + s * t * z11

/-- `w` is the part of the data around `(u, v)` that is masked: the bilinear mean of 1 (masked) and 0 at the corners of the
cell of the point, which is first moved to the edge if it is outside of the grid. -/
def MaskedPart (n : ℕ) (x : ℕ → α) (m : ℕ) (y : ℕ → α) (z : Grid (Option α)) (u v w : α) : Prop :=
  ∃ i j u' v', u' = max (x 0) (min u (x (n - 1))) ∧ v' = max (y 0) (min v (y (m - 1))) ∧ i + 1 < n ∧ j + 1 < m ∧
    x i ≤ u' ∧ u' ≤ x (i + 1) ∧ y j ≤ v' ∧ v' ≤ y (j + 1) ∧
    w = fourCorners ((u' - x i) / (x (i + 1) - x i)) ((v' - y j) / (y (j + 1) - y j))
      (if z i j = none then 1 else 0) (if z i (j + 1) = none then 1 else 0) (if z (i + 1) j = none then 1 else 0)
      (if z (i + 1) (j + 1) = none then 1 else 0)

/-- The value at `v` of the line through `(a, p)` and `(b, q)`. -/
def lineAt (a p b q v : α) : α := p + (v - a) / (b - a) * (q - p)

/-- Number of targets of a profile for which `P` holds is at least two. -/
def AtLeastTwo (n : ℕ) (P : ℕ → Prop) : Prop := ∃ p q, p < q ∧ q < n ∧ P p ∧ P q

/-- `w` occurs in `name`. -/
def OccursIn (w name : String) : Prop := ∃ a b, name = a ++ w ++ b

/-- The altitude of the surface of the model: its own field, from the geopotential if there is no other, else the altitude of the
site. -/
def Surface (f : ModelFile α) (site : α) (i : ℕ) (s : α) : Prop :=
  (∃ h, f.sfcHeight = some h ∧ s = h i) ∨
  (f.sfcHeight = none ∧ ∃ g, f.sfcGeopotential = some g ∧ s * (980665 / 100000) = g i) ∨
  (f.sfcHeight = none ∧ f.sfcGeopotential = none ∧ s = site)

/-- The arithmetic mean of the heights of a level is `r`. -/
def MeanOver (nT : ℕ) (h : ℕ → α) (r : α) : Prop := ((List.range nT).map h).sum = nT * r

/-- At least two profiles have a known value. -/
def TwoProfiles (nT nH : ℕ) (a : Grid (Option α)) : Prop := AtLeastTwo nT fun i => ∃ k < nH, a i k ≠ none

/-- All known values are at points of the grid that are on a line. -/
def OnLine (n : ℕ) (x : ℕ → α) (m : ℕ) (y : ℕ → α) (a : Grid (Option α)) : Prop :=
  ∃ p q c : α, (p ≠ 0 ∨ q ≠ 0) ∧ ∀ i < n, ∀ j < m, a i j ≠ none → p * x i + q * y j = c

end Cloudnet.Spec
