import Verif.Classification.Spec
import Mathlib.Tactic.Linarith
import Mathlib.Tactic.Ring
import Mathlib.Tactic.NormNum

set_option linter.unusedSectionVars false
set_option linter.unusedSimpArgs false

namespace Cloudnet

variable {α : Type*} [Field α] [LinearOrder α] [IsStrictOrderedRing α]

theorem filled0_eq (x : Option α) : filled0 x = x.elim 0 id := by cases x <;> rfl

theorem strong_iff (d : AttenuationInput α) (t h : ℕ) :
    (attenuationClasses d).severe t h = true ↔ (15 < Spec.totalAt d t h ∨ Spec.strongAt d t) := by
  have hz1 : ¬ ((0 : α) > 1) := not_lt.2 zero_le_one
  have hz3 : ¬ ((0 : α) > 3) := not_lt.2 (by norm_num)
  simp only [attenuationClasses, Bool.or_eq_true, decide_eq_true_eq, Spec.strongAt, Spec.totalAt,
    filled0_eq, gt_iff_lt]
  rw [or_assoc]
  apply or_congr Iff.rfl
  by_cases hf : d.radarFrequency < 90
  · have : ¬ (90 ≤ d.radarFrequency) := not_le.2 hf
    cases d.lwp <;> cases d.rainfallRate <;> simp [hf, hz1, hz3]
  · have h90 : 90 ≤ d.radarFrequency := not_lt.1 hf
    simp only [hf, h90, true_and, decide_false, Bool.false_eq_true, if_false]
    apply or_congr
    · cases hl : d.lwp with
      | none => simp [hz1]
      | some f =>
        cases hx : f t with
        | none => simp [hx, hz1]
        | some x => simp [hx]
    · cases hl : d.rainfallRate with
      | none => simp [hz3]
      | some f =>
        cases hx : f t with
        | none => simp [hx, hz3]
        | some x =>
          have : x * 3600000 = x * 3600 * 1000 := by ring
          simp [hx, this]

theorem uncorrected_mask (q : QualityBits) (t h : ℕ) :
    gand (gnot (isCorrectedMask q)) (isAttenuatedMask q) t h = true ↔ Spec.uncorrectedAt q t h := by
  simp only [isAttenuatedMask, isCorrectedMask, gand_apply, gor_apply, gnot_apply,
    Spec.uncorrectedAt]
  generalize q.attenuatedLiquid t h = a5
  generalize q.correctedLiquid t h = a6
  generalize q.attenuatedRain t h = a7
  generalize q.correctedRain t h = a8
  generalize q.attenuatedMelting t h = a9
  generalize q.correctedMelting t h = a10
  revert a5 a6 a7 a8 a9 a10
  decide

end Cloudnet
