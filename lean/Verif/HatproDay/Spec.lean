import Verif.HatproDay.Model

/-! What the day of HATPRO files is to be. -/

namespace Cloudnet.Spec

section
variable {α : Type} [Field α] [LinearOrder α] [FloorRing α]

/-- The known formats: suffix, file code, variable, version and the factor to SI units (liquid water path is in g m-2 in the file). -/
inductive HatproFormat (α : Type) [Field α] : String → ℤ → String → ℕ → α → Prop
  | lwp1 : HatproFormat α ".LWP" 934501978 "lwp" 1 (1 / 1000)
  | lwp2 : HatproFormat α ".LWP" 934501000 "lwp" 2 (1 / 1000)
  | iwv1 : HatproFormat α ".IWV" 594811068 "iwv" 1 1
  | iwv2 : HatproFormat α ".IWV" 594811000 "iwv" 2 1

/-- The record counts: it is the first of the file with its time. -/
def FirstInFile (f : HatproFile α) (r : HatproRaw α) : Prop :=
  ∃ before after, f.records = before ++ r :: after ∧ ∀ b ∈ before, b.time ≠ r.time

/-- Bits 1 and 2 of the flag. -/
def LowQuality (r : HatproRaw α) : Prop := r.flag.getLsbD 1 = true ∧ r.flag.getLsbD 2 = true

/-- All values are zero. -/
def AllZero (f : HatproFile α) : Prop := ∀ r, FirstInFile f r → r.value = 0

/-- The time is on the expected day, if there is one. -/
def OnExpectedDay (epoch : ℤ) (date : Option ℤ) (t : ℤ) : Prop :=
  ∀ day, date = some day → day * 86400 ≤ t + epoch ∧ t + epoch < (day + 1) * 86400

/-- The file can be used: its format is known, not all data are bad, and it has records (in UTC) of the expected day. -/
def UsableHatpro (epoch : ℤ) (date : Option ℤ) (f : HatproFile α) : Prop :=
  ∃ code reference name version factor, f.header = some (code, reference) ∧ HatproFormat α f.suffix.toUpper code name version factor ∧
    (AllZero f ∨ ∃ r, FirstInFile f r ∧ ¬ LowQuality r) ∧
    (date ≠ none → reference = 1 ∧ ∃ r, FirstInFile f r ∧ OnExpectedDay epoch date r.time)

/-- The file says: the variable `name` has this value (or it is masked) at time `t`, under this zenith angle. -/
def HatproSays (epoch : ℤ) (date : Option ℤ) (f : HatproFile α) (name : String) (t : ℤ) (value : Option α) (zenith : α) : Prop :=
  ∃ r code reference version factor azimuth, f.header = some (code, reference) ∧
    HatproFormat α f.suffix.toUpper code name version factor ∧ FirstInFile f r ∧ r.time = t ∧ OnExpectedDay epoch date t ∧
    decodeAngles version r.angles = .ok (90 - zenith, azimuth) ∧
    ((AllZero f ∨ LowQuality r) → value = none) ∧ (¬ (AllZero f ∨ LowQuality r) → value = some (r.value * factor))

/-- The time of day in hours; midnight is 0 or 24. -/
def HourOfDay (t : ℤ) (h : α) : Prop := 0 ≤ h ∧ h ≤ 24 ∧ ∃ days : ℤ, (t : α) = 86400 * days + 3600 * h

end

end Cloudnet.Spec
