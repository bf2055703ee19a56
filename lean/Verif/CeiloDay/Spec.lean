import Verif.CeiloDay.Model

/-! What the day of a lidar is to be. -/

namespace Cloudnet.Spec

section
variable {α : Type}

/-- The value in row `k` and column `j`, if there is one. -/
def cell {β : Type} (m : List (List β)) (k j : ℕ) : Option β := m[k]?.bind fun row => row[j]?

/-- There is a value in row `k` and column `j`, and it is not masked. -/
def Valid {β : Type} (m : List (List (Option β))) (k j : ℕ) : Prop := ∃ v, cell m k j = some (some v)

/-- The array has `n` rows of `w` values. -/
def IsMatrix {β : Type} (n w : ℕ) (m : List (List β)) : Prop := m.length = n ∧ ∀ row ∈ m, row.length = w

/-- The variables of the file have the dimensions they should have. -/
def LidarShape (f : NcLidarFile α) : Prop :=
  IsMatrix f.times.length f.range.length f.beta ∧
  match f.kind with
  | .cl61d _ x p => IsMatrix f.times.length f.range.length x ∧ IsMatrix f.times.length f.range.length p
  | .da10 _ => True
  | .lufft _ _ std nn1 => std.length = f.times.length ∧ nn1.length = f.times.length

variable [Field α] [LinearOrder α]

/-- The factor between the backscatter in the file, profile `i`, and that in physical units, at range `r`. -/
def LidarScale (nn : α → α → α) (calibration : Option α) (f : NcLidarFile α) (i : ℕ) (r s : α) : Prop :=
  match f.kind with
  | .cl61d _ _ _ => s = calibration.getD 1
  | .da10 _ => s = calibration.getD 1
  | .lufft _ version std nn1 =>
    (lufftOld version = .ok false ∧ s = calibration.getD (3 / 10 ^ 12)) ∨
    (lufftOld version = .ok true ∧ ∃ a b, std[i]? = some a ∧ nn1[i]? = some b ∧ s = a / nn (median nn1) b * r ^ 2 * calibration.getD (3 / 10 ^ 12))

/-- Row `k` of every variable is made of profile `src[k]` of the file. -/
structure FromProfiles (nn : α → α → α) (calibration : Option α) (f : NcLidarFile α) (src : List ℕ) (out : NcLidarDay α) : Prop where
  exist : ∀ i ∈ src, i < f.times.length
  gates : out.range.length = f.range.length
  time : out.time.length = src.length
  raw : IsMatrix src.length f.range.length out.betaRaw
  beta : IsMatrix src.length f.range.length out.beta
  smooth : IsMatrix src.length f.range.length out.betaSmooth
  hour : ∀ k i : ℕ, src[k]? = some i → ∃ t h, f.times[i]? = some t ∧ out.time[k]? = some h ∧ 0 ≤ h ∧ h ≤ 24 ∧ ∃ days : ℤ, t = 86400 * days + 3600 * h
  value : ∀ (k i j : ℕ) (b : α), src[k]? = some i → cell f.beta i j = some b →
    ∃ r s, out.range[j]? = some r ∧ LidarScale nn calibration f i r s ∧ cell out.betaRaw k j = some (b * s)
  depol : match f.kind with
    | .cl61d _ x p => ∃ raw dep, out.depolRaw = some raw ∧ out.depol = some dep ∧ IsMatrix src.length f.range.length raw ∧
        IsMatrix src.length f.range.length dep ∧ ∀ (k i j : ℕ) (a b : MaPixel α), src[k]? = some i → cell x i j = some a → cell p i j = some b →
          cell raw k j = some (if a.masked = true ∨ b.masked = true ∨ b.data = 0 then none else some (a.data / b.data))
    | _ => out.depolRaw = none ∧ out.depol = none

/-- The backscatter can be read. -/
def LidarReadable (f : NcLidarFile α) : Prop :=
  2 ≤ f.range.length ∧
  match f.kind with
  | .cl61d allMasked _ _ => allMasked = false
  | .da10 allMasked => allMasked = false
  | .lufft _ version _ _ => lufftOld version = .ok false ∨ lufftOld version = .ok true ∧ 2 ≤ f.times.length

/-- The time is on the day. -/
def LidarOn (f : NcLidarFile α) (d : ℤ) (t : α) : Prop := (d : α) * 86400 ≤ (f.epochDay : α) * 86400 + t ∧ (f.epochDay : α) * 86400 + t < ((d : α) + 1) * 86400

end

end Cloudnet.Spec
