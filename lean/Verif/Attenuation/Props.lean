import Verif.Attenuation.Model
import Verif.Atmos.Props
import Verif.Ice.Props
import Mathlib.Analysis.SpecialFunctions.Pow.NNReal

/-!
Properties C03 (corrected flags), C47 (two-way attenuation), C48 (attenuation bookkeeping), C49 (radar
echo correction), C69 (l2norm).
-/

set_option linter.unusedSectionVars false
set_option linter.unusedSimpArgs false

namespace Cloudnet

section
variable {α : Type*} [Field α] [LinearOrder α] [IsStrictOrderedRing α]

/-- Length (m) of the path through gate `h`: from the gate below, or from the ground. -/
def Spec.gateDepth (height : ℕ → α) (h : ℕ) : α := height h - if h = 0 then 0 else height (h - 1)

theorem pathLengths_eq (height : ℕ → α) (h : ℕ) :
    pathLengthsFromGround height h = Spec.gateDepth height h := by
  cases h <;> simp [pathLengthsFromGround, Spec.gateDepth]

/-- C47. Two-way attenuation (dB) at an unmasked gate is twice the sum of specific attenuation
(dB/km) times gate depth (km) from the ground up to and including the gate, masked gates counting as
zero; a masked gate stays masked. -/
theorem C47_two_way (height : ℕ → α) (specific : Grid (Option α)) (t h : ℕ) :
    (specific t h = none → (calcTwoWayAttenuation height specific).toOption t h = none) ∧
    ((specific t h).isSome = true → (calcTwoWayAttenuation height specific).toOption t h =
      some (2 * ∑ i ∈ Finset.range (h + 1),
        (specific t i).getD 0 * (Spec.gateDepth height i / 1000))) := by
  constructor
  · intro hs; simp [calcTwoWayAttenuation, MaGrid.toOption, hs]
  · intro hs
    obtain ⟨s, hs⟩ := Option.isSome_iff_exists.1 hs
    simp only [calcTwoWayAttenuation, MaGrid.toOption, hs]
    simp only [Option.isNone_some, Bool.false_eq_true, if_false]
    rw [cumsum_eq_sum, mul_comm]
    congr 2
    apply Finset.sum_congr rfl
    intro i _
    rw [pathLengths_eq]
    cases specific t i <;> simp [div_eq_mul_inv]

/-- C47. For non-negative specific attenuation and an increasing height grid above ground the two-way
attenuation is non-negative and does not decrease with height. -/
theorem C47_non_decreasing (height : ℕ → α) (specific : Grid (Option α)) (t h h' : ℕ) (hh : h ≤ h')
    (hs : ∀ i ≤ h', ∀ s, specific t i = some s → 0 ≤ s)
    (hd : ∀ i ≤ h', 0 ≤ Spec.gateDepth height i) (v v' : α)
    (hv : (calcTwoWayAttenuation height specific).toOption t h = some v)
    (hv' : (calcTwoWayAttenuation height specific).toOption t h' = some v') : 0 ≤ v ∧ v ≤ v' := by
  have hsome : ∀ h v, (calcTwoWayAttenuation height specific).toOption t h = some v →
      v = 2 * ∑ i ∈ Finset.range (h + 1),
        (specific t i).getD 0 * (Spec.gateDepth height i / 1000) := by
    intro h v hv
    cases hc : specific t h with
    | none => rw [(C47_two_way height specific t h).1 hc] at hv; cases hv
    | some s =>
      rw [(C47_two_way height specific t h).2 (by simp [hc])] at hv
      exact (Option.some.inj hv).symm
  have hterm : ∀ i ≤ h', 0 ≤ (specific t i).getD 0 * (Spec.gateDepth height i / 1000) := by
    intro i hi
    apply mul_nonneg
    · cases hc : specific t i with
      | none => simp
      | some s => simpa using hs i hi s hc
    · have := hd i hi; positivity
  rw [hsome h v hv, hsome h' v' hv']
  constructor
  · apply mul_nonneg (by norm_num)
    apply Finset.sum_nonneg
    intro i hi; rw [Finset.mem_range] at hi; exact hterm i (by omega)
  · apply mul_le_mul_of_nonneg_left _ (by norm_num)
    apply Finset.sum_le_sum_of_subset_of_nonneg
    · intro i hi; rw [Finset.mem_range] at *; omega
    · intro i hi _; rw [Finset.mem_range] at hi; exact hterm i (by omega)

/-- C47. Gas attenuation: every pixel is attenuated, none is uncorrected, the amount is the two-way
integral of the saturated rate in droplet pixels and of the unsaturated rate elsewhere, and its error
is a tenth of it. -/
theorem C47_gas (d : AttenuationData α) (t h : ℕ) :
    ∃ v, (calcGasAttenuation d).amount t h = some v ∧
      v = 2 * ∑ i ∈ Finset.range (h + 1),
        (if d.droplet t i then d.specificSaturatedGas t i else d.specificGas t i) *
          (Spec.gateDepth d.heightAgl i / 1000) ∧
      (calcGasAttenuation d).error t h = some (v / 10) ∧
      (calcGasAttenuation d).attenuated t h = true ∧
      (calcGasAttenuation d).uncorrected t h = false := by
  refine ⟨_, ?_, rfl, ?_, rfl, rfl⟩
  · simp only [calcGasAttenuation]
    rw [(C47_two_way _ _ t h).2 (by simp)]
    simp
  · simp only [calcGasAttenuation]
    rw [(C47_two_way _ _ t h).2 (by simp)]
    simp [div_eq_mul_inv]

/-- Specific attenuation 3 dB/km through two 500 m gates: 3 and 6 dB two-way. -/
example : (calcTwoWayAttenuation (fun h => (500 * (h + 1) : ℚ)) (fun _ _ => some 3)).toOption 0 0 =
    some 3 ∧
    (calcTwoWayAttenuation (fun h => (500 * (h + 1) : ℚ)) (fun _ _ => some 3)).toOption 0 1 =
    some 6 := by decide +kernel

/-- Reasonable observations: positive lapse rate, positive heights that increase, non-negative
attenuation coefficients, at least two profiles. -/
structure Spec.Physical (d : AttenuationData α) : Prop where
  two_profiles : 2 ≤ d.nT
  gradient : ∀ t h, 0 < d.g (d.temperature t h) (d.pressure t h)
  first_gate : 0 < d.heightAgl 0
  increasing : ∀ h, h + 1 < d.nH → d.heightAgl h < d.heightAgl (h + 1)
  gas : ∀ t h, 0 ≤ d.specificGas t h
  saturatedGas : ∀ t h, 0 ≤ d.specificSaturatedGas t h
  liquid : ∀ t h, 0 ≤ d.specificLiquid t h
  rain_zero : d.kRain 0 = 0
  rain_pos : ∀ r, 0 < r → 0 < d.kRain r
  melt_zero : d.kMelt 0 = 0
  melt_pos : ∀ r, 0 < r → 0 < d.kMelt r
  rate_nonneg : ∀ f, d.rainRate = some f → ∀ t r, f t = some r → 0 ≤ r

/-- Measured liquid water path of a profile, if any. -/
def Spec.measuredLwp (d : AttenuationData α) (t : ℕ) : Option α := d.lwp.bind (· t)

/-- Measured rain rate of a profile, if any. -/
def Spec.measuredRain (d : AttenuationData α) (t : ℕ) : Option α := d.rainRate.bind (· t)

theorem gateDepth_pos {d : AttenuationData α} (hp : Spec.Physical d) {i : ℕ} (hi : i < d.nH) :
    0 < Spec.gateDepth d.heightAgl i := by
  unfold Spec.gateDepth
  cases i with
  | zero => simpa using hp.first_gate
  | succ i => have := hp.increasing i hi; simp; linarith

theorem ffillGrid_bool (a : Grid Bool) (t h : ℕ) :
    ffillGrid a false t h = true ↔ ∃ k ≤ h, a t k = true := ffill_bool (a t) h

/-- The liquid attenuation step. -/
theorem liquid_spec (d : AttenuationData α) (hp : Spec.Physical d) :
    ∃ a, calcLiquidAttenuation d = .ok a ∧ ∀ t < d.nT, ∀ h < d.nH,
      (a.attenuated t h = true ↔ ∃ k ≤ h, d.droplet t k = true) ∧
      (a.uncorrected t h = true ↔
        (∃ k ≤ h, d.droplet t k = true) ∧ Spec.measuredLwp d t = none) ∧
      ((a.amount t h).isSome = true ↔
        (∃ k ≤ h, d.droplet t k = true) ∧ (Spec.measuredLwp d t).isSome = true) ∧
      (∀ v, a.amount t h = some v → 0 ≤ v) ∧
      (∀ v, a.error t h = some v → ∃ k ≤ h, d.droplet t k = true) := by
  set lwp : ℕ → Option α := d.lwp.getD fun _ => none with hlwp
  set lwpE : ℕ → Option α := d.lwpError.getD fun _ => none with hlwpE
  have hmeas : ∀ t, lwp t = Spec.measuredLwp d t := by
    intro t; rw [hlwp]; unfold Spec.measuredLwp; cases d.lwp <;> rfl
  set dz := fillCloudsWithLwcDz d.g d.nT d.nH d.temperature d.pressure d.droplet with hdz
  set ad := calcAdiabaticLwc dz d.heightAgl with had
  have hpos := C20_positive_iff_liquid d.g d.nT d.nH d.temperature d.pressure d.droplet d.heightAgl
    hp.gradient hp.first_gate hp.increasing
  have hn1 : ¬ d.nT ≤ 1 := by have := hp.two_profiles; omega
  unfold calcLiquidAttenuation
  simp only [normalizeLwcByLwp, if_neg hn1, bind, Except.bind, pure, Except.pure, ← hlwp, ← hlwpE,
    ← hdz, ← had]
  refine ⟨_, rfl, ?_⟩
  intro t ht h hh
  simp only [liquidTwoWay, Grid.assign_apply, gnot_apply, gand_apply]
  set S := ∑ h ∈ Finset.range d.nH, ad t h * pathLengthsFromGround d.heightAgl h with hS
  have hatt := ffillGrid_bool d.droplet t h
  have hSpos : (∃ k ≤ h, d.droplet t k = true) → 0 < S := by
    rintro ⟨k, hk, hkd⟩
    rw [hS]
    apply Finset.sum_pos'
    · intro i hi
      rw [Finset.mem_range] at hi
      rw [pathLengths_eq]
      exact mul_nonneg (hpos t i ht hi).1 (le_of_lt (gateDepth_pos hp hi))
    · refine ⟨k, Finset.mem_range.2 (by omega), mul_pos ((hpos t k ht (by omega)).2.2 hkd) ?_⟩
      rw [pathLengths_eq]; exact gateDepth_pos hp (by omega)
  set spec : Grid (Option α) := fun t h => ((mdiv (clipLwp lwp t)
      (∑ h ∈ Finset.range d.nH, ad t h * pathLengthsFromGround d.heightAgl h)).map
        fun s => ad t h * s).map fun x => d.specificLiquid t h * x * 1000 with hspec
  have hsome : (∃ k ≤ h, d.droplet t k = true) →
      ((calcTwoWayAttenuation d.heightAgl spec).toOption t h).isSome =
        (Spec.measuredLwp d t).isSome := by
    intro hk
    have hs : (spec t h).isSome = (Spec.measuredLwp d t).isSome := by
      rw [← hmeas]
      simp only [hspec, ← hS, clipLwp]
      cases lwp t <;> simp [mdiv, ne_of_gt (hSpos hk)]
    cases hc : spec t h with
    | none =>
      rw [(C47_two_way _ spec t h).1 hc, ← hs, hc]
    | some v =>
      rw [(C47_two_way _ spec t h).2 (by simp [hc]), ← hs, hc]; rfl
  have hnonneg : ∀ i ≤ h, ∀ s, spec t i = some s → 0 ≤ s := by
    intro i hi s hs
    simp only [hspec, ← hS] at hs
    cases hl : lwp t with
    | none => simp [clipLwp, hl, mdiv] at hs
    | some x =>
      by_cases hS0 : S = 0
      · simp [clipLwp, hl, mdiv, hS0] at hs
      · simp only [clipLwp, hl, mdiv, hS0, Option.map_some, if_false, Option.some.injEq] at hs
        rw [← hs]
        have hSnn : 0 ≤ S := by
          rw [hS]
          apply Finset.sum_nonneg
          intro j hj
          rw [Finset.mem_range] at hj
          rw [pathLengths_eq]
          exact mul_nonneg (hpos t j ht hj).1 (le_of_lt (gateDepth_pos hp hj))
        apply mul_nonneg _ (by norm_num)
        apply mul_nonneg (hp.liquid t i)
        apply mul_nonneg (hpos t i ht (by omega)).1
        apply div_nonneg _ hSnn
        split
        · exact le_refl _
        · linarith
  refine ⟨hatt, ?_, ?_, ?_, ?_⟩
  · by_cases hk : ∃ k ≤ h, d.droplet t k = true
    · have h1 := hatt.2 hk
      have h2 := hsome hk
      simp only [h1, Bool.not_true, cond_false, Bool.true_and]
      simp only [hk, true_and]
      cases hm : Spec.measuredLwp d t with
      | none => rw [hm] at h2; simpa using h2
      | some x => rw [hm] at h2; simp only [reduceCtorEq, iff_false]
                  intro hc; rw [Option.isNone_iff_eq_none] at hc; rw [hc] at h2; simp at h2
    · have h1 : ffillGrid d.droplet false t h = false := by
        rw [Bool.eq_false_iff, Ne, hatt]; exact hk
      simp [h1, hk]
  · by_cases hk : ∃ k ≤ h, d.droplet t k = true
    · have h1 := hatt.2 hk
      simp only [h1, Bool.not_true, cond_false, hk, true_and]
      rw [hsome hk]
    · have h1 : ffillGrid d.droplet false t h = false := by
        rw [Bool.eq_false_iff, Ne, hatt]; exact hk
      simp [h1, hk]
  · intro v hv
    by_cases hk : ∃ k ≤ h, d.droplet t k = true
    · rw [hatt.2 hk] at hv
      simp only [Bool.not_true, cond_false] at hv
      exact (C47_non_decreasing d.heightAgl spec t h h (le_refl _) hnonneg
        (fun i hi => le_of_lt (gateDepth_pos hp (by omega))) v v hv hv).1
    · have h1 : ffillGrid d.droplet false t h = false := by
        rw [Bool.eq_false_iff, Ne, hatt]; exact hk
      simp [h1] at hv
  · intro v hv
    by_contra hk
    have h1 : ffillGrid d.droplet false t h = false := by
      rw [Bool.eq_false_iff, Ne, hatt]; exact hk
    simp [h1] at hv

/-- The rain attenuation step. -/
theorem rain_spec (d : AttenuationData α) (hp : Spec.Physical d) :
    ∃ a, calcRainAttenuation d = .ok a ∧ ∀ t < d.nT, ∀ h < d.nH,
      (a.attenuated t h = true ↔ d.isRain t = true) ∧
      (a.uncorrected t h = true ↔ d.isRain t = true ∧ d.rainRate.isNone = true) ∧
      (∀ k ≤ h, d.isRain t = true → d.freezing t k = false →
        (∀ i, k < i → i ≤ h → d.freezing t i = true) → ∀ r, Spec.measuredRain d t = some r → 0 < r →
        a.amount t h = some (2 * d.kRain r * d.heightAgl k / 1000)) ∧
      ((d.isRain t = false ∨ Spec.measuredRain d t = none ∨ Spec.measuredRain d t = some 0 ∨
        ∀ k ≤ h, d.freezing t k = true) → a.amount t h = none) ∧
      (∀ v, a.amount t h = some v → 0 < v ∧ a.error t h = some (v / 5)) ∧
      (a.amount t h = none → a.error t h = none) := by
  have hn1 : ¬ d.nT ≤ 1 := by have := hp.two_profiles; omega
  cases hrr : d.rainRate with
  | none =>
    unfold calcRainAttenuation
    simp only [if_neg hn1, hrr]
    refine ⟨_, rfl, ?_⟩
    intro t _ h _
    refine ⟨Iff.rfl, by simp, ?_, ?_, ?_, ?_⟩
    · intro k _ _ _ _ r hr
      simp [Spec.measuredRain, hrr] at hr
    · intro _; rfl
    · intro v hv; cases hv
    · intro _; rfl
  | some rate =>
    unfold calcRainAttenuation
    simp only [if_neg hn1, hrr]
    refine ⟨_, rfl, ?_⟩
    intro t _ h hh
    have hmeas : Spec.measuredRain d t = rate t := by simp [Spec.measuredRain, hrr]
    rw [hmeas]
    set data0 : Grid α := (calcTwoWayAttenuation d.heightAgl (fun t _ =>
      ((if d.isRain t then rate t else none).map d.kRain))).data.assign
        (gnot (gand (gnot d.freezing) (fun t _ => d.isRain t))) 0 with hdata0
    -- value of the working array at each gate
    have hsum : ∀ k, ∑ i ∈ Finset.range (k + 1), pathLengthsFromGround d.heightAgl i =
        d.heightAgl k := by
      intro k
      have := sum_pathLengths d.heightAgl 0 k (by omega)
      rw [Finset.range_eq_Ico, this]; simp
    have hval : ∀ k, data0 t k = if d.isRain t = true ∧ d.freezing t k = false then
        (match rate t with
          | some r => 2 * d.kRain r * d.heightAgl k / 1000
          | none => 0) else 0 := by
      intro k
      simp only [hdata0, Grid.assign_apply, gnot_apply, gand_apply, calcTwoWayAttenuation]
      cases hr : d.isRain t
      · simp
      · cases hf : d.freezing t k
        · simp only [Bool.not_false, Bool.true_and, Bool.not_true, cond_false, if_true, and_self]
          rw [cumsum_eq_sum]
          cases hrt : rate t with
          | none => simp
          | some r =>
            simp only [Option.map_some]
            rw [← hsum k, ← Finset.mul_sum, ← Finset.sum_mul]
            ring
        · simp
    have hheight : ∀ k, k < d.nH → 0 < d.heightAgl k := by
      intro k hk
      rw [← hsum k]
      apply Finset.sum_pos
      · intro i hi; rw [Finset.mem_range] at hi
        rw [pathLengths_eq]; exact gateDepth_pos hp (by omega)
      · simp
    have hff : ∀ k ≤ h, d.isRain t = true → d.freezing t k = false →
        (∀ i, k < i → i ≤ h → d.freezing t i = true) → ∀ r, rate t = some r → 0 < r →
        ffillGrid data0 0 t h = 2 * d.kRain r * d.heightAgl k / 1000 ∧
        0 < 2 * d.kRain r * d.heightAgl k / 1000 := by
      intro k hk hr hf hl r hrt hr0
      have hpos : 0 < 2 * d.kRain r * d.heightAgl k / 1000 := by
        have := hp.rain_pos r hr0; have := hheight k (by omega); positivity
      have hk' : data0 t k = 2 * d.kRain r * d.heightAgl k / 1000 := by
        rw [hval, if_pos ⟨hr, hf⟩, hrt]
      refine ⟨?_, hpos⟩
      show ffill (data0 t) 0 h = _
      rw [ffill_eq_of_last (data0 t) 0 hk (by rw [hk']; exact ne_of_gt hpos), hk']
      intro i h1 h2
      rw [hval, if_neg]; rintro ⟨_, h3⟩; rw [hl i h1 h2] at h3; simp at h3
    have hzero : (d.isRain t = false ∨ rate t = none ∨ rate t = some 0 ∨
        ∀ k ≤ h, d.freezing t k = true) → ffillGrid data0 0 t h = 0 := by
      intro hc
      show ffill (data0 t) 0 h = 0
      apply ffill_eq_of_none
      intro i hi
      rw [hval]
      rcases hc with hc | hc | hc | hc
      · rw [if_neg]; rintro ⟨h1, _⟩; rw [hc] at h1; simp at h1
      · rw [hc]; simp
      · rw [hc]; simp [hp.rain_zero]
      · rw [if_neg]; rintro ⟨_, h1⟩; rw [hc i hi] at h1; simp at h1
    refine ⟨Iff.rfl, by simp, ?_, ?_, ?_, ?_⟩
    · intro k hk hr hf hl r hrt hr0
      obtain ⟨h1, h2⟩ := hff k hk hr hf hl r hrt hr0
      simp only [h1, if_neg (ne_of_gt h2)]
    · intro hc
      simp only [hzero hc, if_true]
    · intro v hv
      by_cases hz : d.isRain t = false ∨ rate t = none ∨ rate t = some 0 ∨
        ∀ k ≤ h, d.freezing t k = true
      · simp only [hzero hz, if_true] at hv; cases hv
      · push Not at hz
        obtain ⟨z1, z2, z3, z4⟩ := hz
        obtain ⟨r, hr⟩ := Option.ne_none_iff_exists'.1 z2
        have hr0 : 0 < r := by
          rcases lt_or_eq_of_le (hp.rate_nonneg rate hrr t r hr) with h1 | h1
          · exact h1
          · rw [← h1] at hr; exact absurd hr z3
        rcases exists_last_ne (d.freezing t) true h with h1 | ⟨k, hk, h2, h3⟩
        · obtain ⟨k, hk, hk'⟩ := z4; exact absurd (h1 k hk) hk'
        · obtain ⟨g1, g2⟩ := hff k hk (by simpa using z1) (by simpa using h2) h3 r hr hr0
          simp only [g1, if_neg (ne_of_gt g2), Option.some.injEq] at hv ⊢
          rw [← hv]
          refine ⟨g2, ?_⟩
          simp only [Option.map_some, Option.some.injEq]; ring
    · intro hn
      by_cases hz : ffillGrid data0 0 t h = 0
      · simp [hz]
      · simp [hz] at hn

/-- The melting layer attenuation step. -/
theorem melting_spec (d : AttenuationData α) (hp : Spec.Physical d) (e : α) :
    ∃ a, calcMeltingAttenuation d e = .ok a ∧ ∀ t h,
      (d.rainRate = none →
        (a.attenuated t h = true ↔ d.freezing t h = true ∧ d.isRain t = true ∧
          ∃ k ≤ h, d.melting t k = true) ∧
        a.uncorrected t h = a.attenuated t h ∧ a.amount t h = none ∧ a.error t h = none) ∧
      (d.rainRate ≠ none →
        (a.attenuated t h = true ↔ d.freezing t h = true ∧ d.isRain t = true ∧
          Spec.measuredRain d t ≠ some 0) ∧
        (a.uncorrected t h = true ↔ d.freezing t h = true ∧ d.isRain t = true ∧
          Spec.measuredRain d t = none) ∧
        (∀ v, a.amount t h = some v ↔ ∃ r, Spec.measuredRain d t = some r ∧ r ≠ 0 ∧
          d.freezing t h = true ∧ d.isRain t = true ∧ v = d.kMelt r) ∧
        a.error t h = (a.amount t h).map (· * e)) := by
  have hn1 : ¬ d.nT ≤ 1 := by have := hp.two_profiles; omega
  cases hrr : d.rainRate with
  | none =>
    unfold calcMeltingAttenuation
    simp only [hrr]
    refine ⟨_, rfl, ?_⟩
    intro t h
    refine ⟨fun _ => ⟨?_, rfl, rfl, rfl⟩, fun hc => absurd rfl hc⟩
    simp only [Grid.assign_apply, gnot_apply]
    rw [← ffillGrid_bool]
    cases d.isRain t <;> cases d.freezing t h <;> cases ffillGrid d.melting false t h <;> simp
  | some rate =>
    unfold calcMeltingAttenuation
    simp only [hrr, if_neg hn1]
    refine ⟨_, rfl, ?_⟩
    intro t h
    refine ⟨fun hc => absurd hc (by simp), fun _ => ?_⟩
    have hmeas : Spec.measuredRain d t = rate t := by simp [Spec.measuredRain, hrr]
    rw [hmeas]
    simp only [Grid.assign_apply, gand_apply]
    have hk : ∀ r, rate t = some r → (d.kMelt r = 0 ↔ r = 0) := by
      intro r hr
      constructor
      · intro h0
        by_contra hne
        have := hp.melt_pos r (lt_of_le_of_ne (hp.rate_nonneg rate hrr t r hr) (Ne.symm hne))
        rw [h0] at this; exact lt_irrefl _ this
      · rintro rfl; exact hp.melt_zero
    rcases Bool.eq_false_or_eq_true (d.isRain t) with hrain | hrain
    swap
    · simp [hrain, hp.melt_zero]
    · rcases Bool.eq_false_or_eq_true (d.freezing t h) with hf | hf
      swap
      · have : ∀ o : Option α, o = none ∨ ∃ r, o = some r := fun o => by cases o <;> simp
        rcases this (rate t) with hr | ⟨r, hr⟩ <;> simp [hrain, hf, hr]
      · simp only [hrain, hf, if_true, true_and]
        clear hmeas
        revert hk
        generalize rate t = rt
        intro hk
        rcases hr : rt with _ | r
        · simp
        · by_cases h0 : r = 0
          · subst h0; simp [hp.melt_zero]
          · have : d.kMelt r ≠ 0 := fun hc => h0 ((hk r hr).1 hc)
            simp only [Option.map_some, one_mul, Option.some.injEq, this, h0]
            refine ⟨by simp [h0], by simp, ?_, by simp⟩
            intro v
            constructor
            · intro hv; simp at hv; exact ⟨r, rfl, h0, hv.symm⟩
            · rintro ⟨r', rfl, _, rfl⟩; simp

/-- C48. Bookkeeping of the attenuation step, for every classification and every combination of
available instruments:
liquid attenuation affects a pixel iff its profile is rain-free and a droplet pixel lies at or below
it, it is uncorrected iff in addition no LWP was measured, and it then has no amount;
rain attenuation affects exactly the rainy profiles and is uncorrected exactly when there is no
disdrometer; no pixel is affected by both; uncorrected implies attenuated for every cause. -/
theorem C48_bookkeeping (d : AttenuationData α) (hp : Spec.Physical d) (e : α) :
    ∃ a, getAttenuations d e = .ok a ∧ ∀ t < d.nT, ∀ h < d.nH,
      (a.liquid.attenuated t h = true ↔
        d.isRain t = false ∧ ∃ k ≤ h, d.droplet t k = true) ∧
      (a.liquid.uncorrected t h = true ↔
        a.liquid.attenuated t h = true ∧ Spec.measuredLwp d t = none) ∧
      ((a.liquid.amount t h).isSome = true ↔
        a.liquid.attenuated t h = true ∧ (Spec.measuredLwp d t).isSome = true) ∧
      (a.rain.attenuated t h = true ↔ d.isRain t = true) ∧
      (a.rain.uncorrected t h = true ↔ d.isRain t = true ∧ d.rainRate = none) ∧
      ¬ (a.liquid.attenuated t h = true ∧ a.rain.attenuated t h = true) ∧
      (a.melting.uncorrected t h = true → a.melting.attenuated t h = true) ∧
      (d.rainRate = none →
        a.melting.uncorrected t h = a.melting.attenuated t h ∧ a.rain.amount t h = none ∧
        a.melting.amount t h = none ∧
        (a.melting.attenuated t h = true ↔ d.freezing t h = true ∧ d.isRain t = true ∧
          ∃ k ≤ h, d.melting t k = true)) ∧
      (d.rainRate ≠ none →
        (a.melting.attenuated t h = true ↔ d.freezing t h = true ∧ d.isRain t = true ∧
          Spec.measuredRain d t ≠ some 0) ∧
        (a.melting.uncorrected t h = true ↔ d.freezing t h = true ∧ d.isRain t = true ∧
          Spec.measuredRain d t = none)) := by
  obtain ⟨l, hl, hl'⟩ := liquid_spec d hp
  obtain ⟨r, hr, hr'⟩ := rain_spec d hp
  obtain ⟨m, hm, hm'⟩ := melting_spec d hp e
  unfold getAttenuations
  simp only [hl, hr, hm, bind, Except.bind, pure, Except.pure]
  refine ⟨_, rfl, ?_⟩
  intro t ht h hh
  obtain ⟨l1, l2, l3, _, _⟩ := hl' t ht h hh
  obtain ⟨r1, r2, r3, r4, _⟩ := hr' t ht h hh
  obtain ⟨m1, m2⟩ := hm' t h
  simp only [Grid.assign_apply]
  refine ⟨?_, ?_, ?_, r1, ?_, ?_, ?_, ?_, ?_⟩
  · cases hrt : d.isRain t
    · have : r.attenuated t h = false := by
        rw [Bool.eq_false_iff, Ne, r1, hrt]; simp
      simp [this, l1]
    · simp [r1.2 hrt]
  · cases hra : r.attenuated t h
    · simp [l1, l2]
    · simp
  · cases hra : r.attenuated t h
    · simp [l1, l3]
    · simp
  · rw [r2]; simp
  · cases hra : r.attenuated t h <;> simp
  · intro hu
    by_cases hrr : d.rainRate = none
    · rw [← (m1 hrr).2.1]; exact hu
    · rw [(m2 hrr).1]
      obtain ⟨a, b, c⟩ := (m2 hrr).2.1.1 hu
      exact ⟨a, b, by rw [c]; simp⟩
  · intro hrr
    refine ⟨(m1 hrr).2.1, r4 (Or.inr (Or.inl ?_)), (m1 hrr).2.2.1, (m1 hrr).1⟩
    simp [Spec.measuredRain, hrr]
  · intro hrr
    exact ⟨(m2 hrr).1, (m2 hrr).2.1⟩

/-- C48. The rain attenuation amount with a disdrometer: in a rainy profile with rain rate `r > 0`
every gate gets the two-way attenuation `2 k(r) h/1000` accumulated up to the highest warm gate at or
below it (height `h`); without a warm gate, a measured rate or rain the amount is masked. -/
theorem C48_rain_amount (d : AttenuationData α) (hp : Spec.Physical d) (e : α) :
    ∃ a, getAttenuations d e = .ok a ∧ ∀ t < d.nT, ∀ h < d.nH,
      (∀ k ≤ h, d.isRain t = true → d.freezing t k = false →
        (∀ i, k < i → i ≤ h → d.freezing t i = true) → ∀ r, Spec.measuredRain d t = some r → 0 < r →
        a.rain.amount t h = some (2 * d.kRain r * d.heightAgl k / 1000)) ∧
      ((d.isRain t = false ∨ Spec.measuredRain d t = none ∨ Spec.measuredRain d t = some 0 ∨
        ∀ k ≤ h, d.freezing t k = true) → a.rain.amount t h = none) ∧
      a.rain.error t h = (a.rain.amount t h).map (fun v => v / 5) := by
  obtain ⟨l, hl, hl'⟩ := liquid_spec d hp
  obtain ⟨r, hr, hr'⟩ := rain_spec d hp
  obtain ⟨m, hm, hm'⟩ := melting_spec d hp e
  unfold getAttenuations
  simp only [hl, hr, hm, bind, Except.bind, pure, Except.pure]
  refine ⟨_, rfl, ?_⟩
  intro t ht h hh
  obtain ⟨_, _, r3, r4, r5, r6⟩ := hr' t ht h hh
  refine ⟨r3, r4, ?_⟩
  cases ha : r.amount t h with
  | none => simpa using r6 ha
  | some v => simpa using (r5 v ha).2

/-- C48. The melting layer amount: with a disdrometer, in freezing pixels of rainy profiles with a
measured non-zero rain rate `r` it is the value of the melting formula at `r`, and masked elsewhere;
without a disdrometer it is masked everywhere. The error is the given fraction of the amount. -/
theorem C48_melting_amount (d : AttenuationData α) (hp : Spec.Physical d) (e : α) :
    ∃ a, getAttenuations d e = .ok a ∧ ∀ t h,
      (∀ v, a.melting.amount t h = some v ↔ ∃ r, Spec.measuredRain d t = some r ∧ r ≠ 0 ∧
        d.freezing t h = true ∧ d.isRain t = true ∧ v = d.kMelt r) ∧
      a.melting.error t h = (a.melting.amount t h).map (fun v => v * e) := by
  obtain ⟨l, hl, hl'⟩ := liquid_spec d hp
  obtain ⟨r, hr, hr'⟩ := rain_spec d hp
  obtain ⟨m, hm, hm'⟩ := melting_spec d hp e
  unfold getAttenuations
  simp only [hl, hr, hm, bind, Except.bind, pure, Except.pure]
  refine ⟨_, rfl, ?_⟩
  intro t h
  obtain ⟨m1, m2⟩ := hm' t h
  by_cases hrr : d.rainRate = none
  · obtain ⟨_, _, h1, h2⟩ := m1 hrr
    simp [h1, h2, Spec.measuredRain, hrr]
  · obtain ⟨_, _, h1, h2⟩ := m2 hrr
    exact ⟨h1, h2⟩

/-- Profile `A` is the unscaled adiabatic liquid water content of profile `t`: zero outside liquid, and
in a liquid layer the gradient at its base times the height gained since the lower edge of the base. -/
def Spec.Adiabatic (d : AttenuationData α) (t : ℕ) (A : ℕ → α) : Prop :=
  (∀ h < d.nH, d.droplet t h = false → A h = 0) ∧
  ∀ b p h, Spec.IsLayer d.nH (d.droplet t) b p → b ≤ h → h ≤ p →
    A h = d.g (d.temperature t b) (d.pressure t b) *
      (d.heightAgl h - if b = 0 then 0 else d.heightAgl (b - 1))

/-- Profile `A` is the gradient profile of `t`: zero outside liquid, and constant (the gradient at the
base) in a liquid layer. -/
def Spec.BaseGradient (d : AttenuationData α) (t : ℕ) (A : ℕ → α) : Prop :=
  (∀ h < d.nH, d.droplet t h = false → A h = 0) ∧
  ∀ b p h, Spec.IsLayer d.nH (d.droplet t) b p → b ≤ h → h ≤ p →
    A h = d.g (d.temperature t b) (d.pressure t b)

theorem Spec.Adiabatic.unique {d : AttenuationData α} {t : ℕ} {A B : ℕ → α}
    (hA : Spec.Adiabatic d t A) (hB : Spec.Adiabatic d t B) : ∀ h < d.nH, A h = B h := by
  intro h hh
  cases hd : d.droplet t h
  · rw [hA.1 h hh hd, hB.1 h hh hd]
  · obtain ⟨b, p, hl, h1, h2⟩ := exists_layer hh hd
    rw [hA.2 b p h hl h1 h2, hB.2 b p h hl h1 h2]

theorem Spec.BaseGradient.unique {d : AttenuationData α} {t : ℕ} {A B : ℕ → α}
    (hA : Spec.BaseGradient d t A) (hB : Spec.BaseGradient d t B) : ∀ h < d.nH, A h = B h := by
  intro h hh
  cases hd : d.droplet t h
  · rw [hA.1 h hh hd, hB.1 h hh hd]
  · obtain ⟨b, p, hl, h1, h2⟩ := exists_layer hh hd
    rw [hA.2 b p h hl h1 h2, hB.2 b p h hl h1 h2]

/-- Two-way attenuation (dB) of a liquid profile `L` (kg m-3) up to gate `h`. -/
def Spec.liquidTwoWay (d : AttenuationData α) (t : ℕ) (L : ℕ → α) (h : ℕ) : α :=
  2 * ∑ i ∈ Finset.range (h + 1), d.specificLiquid t i * L i * Spec.gateDepth d.heightAgl i

theorem twoWay_scaled (d : AttenuationData α) (A : ℕ → α) (t h : ℕ) (hh : h < d.nH)
    (G : Grid α) (hG : ∀ i < d.nH, G t i = A i) (M : ℕ → Option α) :
    (calcTwoWayAttenuation d.heightAgl fun t' h' =>
      ((M t').map fun s => G t' h' * s).map fun x => d.specificLiquid t' h' * x * 1000).toOption
        t h =
      (M t).map fun s => Spec.liquidTwoWay d t (fun i => A i * s) h := by
  cases hm : M t with
  | none => rw [(C47_two_way _ _ t h).1 (by simp [hm])]; rfl
  | some v =>
    rw [(C47_two_way _ _ t h).2 (by simp [hm])]
    simp only [hm, Option.map_some, Option.getD_some, Spec.liquidTwoWay]
    congr 2
    apply Finset.sum_congr rfl
    intro i hi
    rw [Finset.mem_range] at hi
    rw [hG i (by omega)]
    field_simp

/-- C48. Liquid attenuation in a rain-free profile, at and above its lowest droplet pixel. The amount
is the two-way attenuation of the adiabatic profile scaled to the measured LWP (0 if negative). The
error is the two-way attenuation of the base-gradient profile scaled to the LWP error. In rainy
profiles and below the lowest droplet pixel both are masked. -/
theorem C48_liquid_amount (d : AttenuationData α) (hp : Spec.Physical d) (e : α) :
    ∃ a, getAttenuations d e = .ok a ∧ ∀ t < d.nT, ∀ h < d.nH, ∀ A G,
      Spec.Adiabatic d t A → Spec.BaseGradient d t G →
      (d.isRain t = false → (∃ k ≤ h, d.droplet t k = true) →
        a.liquid.amount t h = (d.lwp.bind (· t)).map (fun w => Spec.liquidTwoWay d t
          (fun i => A i * (max w 0 /
            ∑ j ∈ Finset.range d.nH, A j * Spec.gateDepth d.heightAgl j)) h) ∧
        a.liquid.error t h = (d.lwpError.bind (· t)).map (fun w => Spec.liquidTwoWay d t
          (fun i => G i * (w /
            ∑ j ∈ Finset.range d.nH, G j * Spec.gateDepth d.heightAgl j)) h)) ∧
      (d.isRain t = true ∨ (∀ k ≤ h, d.droplet t k = false) →
        a.liquid.amount t h = none ∧ a.liquid.error t h = none) := by
  obtain ⟨r, hr, hr'⟩ := rain_spec d hp
  obtain ⟨m, hm, hm'⟩ := melting_spec d hp e
  have hn1 : ¬ d.nT ≤ 1 := by have := hp.two_profiles; omega
  set dz := fillCloudsWithLwcDz d.g d.nT d.nH d.temperature d.pressure d.droplet with hdz
  set ad := calcAdiabaticLwc dz d.heightAgl with had
  unfold getAttenuations calcLiquidAttenuation
  simp only [hr, hm, normalizeLwcByLwp, if_neg hn1, bind, Except.bind, pure, Except.pure, ← hdz,
    ← had]
  refine ⟨_, rfl, ?_⟩
  intro t ht h hh A G hA hG
  have hadA : ∀ i < d.nH, ad t i = A i := by
    apply Spec.Adiabatic.unique _ hA
    exact C20_adiabatic_lwc d.g d.nT d.nH d.temperature d.pressure d.droplet d.heightAgl
      hp.gradient hp.first_gate hp.increasing t ht
  have hdzG : ∀ i < d.nH, dz t i = G i := by
    apply Spec.BaseGradient.unique _ hG
    exact ⟨fun h _ hl => fillCloudsWithLwcDz_clear _ _ _ _ _ _ hl, fun b p h hl h1 h2 =>
      fillCloudsWithLwcDz_layer _ _ _ _ _ _ ht hl h1 h2 (ne_of_gt (hp.gradient t b))⟩
  have hatt := ffillGrid_bool d.droplet t h
  obtain ⟨r1, _⟩ := hr' t ht h hh
  have hcl : ∀ w : α, (if w < 0 then 0 else w) = max w 0 := by
    intro w; split
    · next hw => rw [max_eq_right (le_of_lt hw)]
    · next hw => rw [max_eq_left (not_lt.1 hw)]
  have hsumA : ∑ j ∈ Finset.range d.nH, ad t j * pathLengthsFromGround d.heightAgl j =
      ∑ j ∈ Finset.range d.nH, A j * Spec.gateDepth d.heightAgl j := by
    apply Finset.sum_congr rfl
    intro i hi; rw [Finset.mem_range] at hi; rw [hadA i hi, pathLengths_eq]
  have hsumG : ∑ j ∈ Finset.range d.nH, dz t j * pathLengthsFromGround d.heightAgl j =
      ∑ j ∈ Finset.range d.nH, G j * Spec.gateDepth d.heightAgl j := by
    apply Finset.sum_congr rfl
    intro i hi; rw [Finset.mem_range] at hi; rw [hdzG i hi, pathLengths_eq]
  simp only [Grid.assign_apply, gnot_apply]
  constructor
  · intro hrain hk
    have hra : r.attenuated t h = false := by
      rw [Bool.eq_false_iff, Ne, r1, hrain]; simp
    simp only [hra, cond_false, hatt.2 hk, Bool.not_true, liquidTwoWay]
    have hpos : ∀ F : ℕ → α, (∀ i < d.nH, 0 ≤ F i) → (∀ i < d.nH, d.droplet t i = true → 0 < F i) →
        ∑ j ∈ Finset.range d.nH, F j * Spec.gateDepth d.heightAgl j ≠ 0 := by
      intro F h1 h2
      obtain ⟨k, hk, hkd⟩ := hk
      apply ne_of_gt
      apply Finset.sum_pos'
      · intro i hi; rw [Finset.mem_range] at hi
        exact mul_nonneg (h1 i hi) (le_of_lt (gateDepth_pos hp hi))
      · exact ⟨k, Finset.mem_range.2 (by omega), mul_pos (h2 k (by omega) hkd)
          (gateDepth_pos hp (by omega))⟩
    have hApos := C20_positive_iff_liquid d.g d.nT d.nH d.temperature d.pressure d.droplet
      d.heightAgl hp.gradient hp.first_gate hp.increasing
    have hA0 := hpos A (fun i hi => by rw [← hadA i hi]; exact (hApos t i ht hi).1)
      (fun i hi hid => by rw [← hadA i hi]; exact (hApos t i ht hi).2.2 hid)
    have hGl : ∀ i < d.nH, d.droplet t i = true → 0 < G i := by
      intro i hi hid
      obtain ⟨b, p, hl, h1, h2⟩ := exists_layer hi hid
      rw [hG.2 b p i hl h1 h2]; exact hp.gradient t b
    have hG0 := hpos G (fun i hi => by
      cases hid : d.droplet t i
      · rw [hG.1 i hi hid]
      · exact le_of_lt (hGl i hi hid)) hGl
    constructor
    · rw [twoWay_scaled d A t h hh ad hadA fun t => mdiv (clipLwp (d.lwp.getD fun _ => none) t)
        (∑ h ∈ Finset.range d.nH, ad t h * pathLengthsFromGround d.heightAgl h)]
      simp only [hsumA]
      cases d.lwp with
      | none => simp [clipLwp, mdiv]
      | some l => cases hl : l t <;> simp [clipLwp, mdiv, hl, hA0, hcl]
    · rw [twoWay_scaled d G t h hh dz hdzG fun t => mdiv ((d.lwpError.getD fun _ => none) t)
        (∑ h ∈ Finset.range d.nH, dz t h * pathLengthsFromGround d.heightAgl h)]
      simp only [hsumG]
      cases d.lwpError with
      | none => simp [mdiv]
      | some l => cases hl : l t <;> simp [mdiv, hl, hG0]
  · intro hc
    rcases hc with hc | hc
    · simp [r1.2 hc]
    · have h1 : ffillGrid d.droplet false t h = false := by
        rw [Bool.eq_false_iff, Ne, hatt]
        rintro ⟨k, hk, hkd⟩; rw [hc k hk] at hkd; simp at hkd
      simp [h1]

/-- The data of the example: two profiles of two gates, droplets in gate 0, gate 1 freezing, rain in
profile 1 only, LWP and rain rate measured. -/
def exampleData (rate : Option (ℕ → Option ℚ)) : AttenuationData ℚ where
  nT := 2
  nH := 2
  heightAgl := fun h => 1000 * (h + 1)
  temperature := fun _ _ => 280
  pressure := fun _ _ => 80000
  specificGas := fun _ _ => 1
  specificSaturatedGas := fun _ _ => 2
  specificLiquid := fun _ _ => 1
  droplet := fun _ h => h == 0
  freezing := fun _ h => h == 1
  melting := fun _ _ => false
  isRain := fun t => t == 1
  lwp := some (fun _ => some 1)
  lwpError := some (fun _ => some 1)
  rainRate := rate
  g := fun _ _ => 1
  kRain := id
  kMelt := id

theorem exampleData_physical (rate : Option (ℕ → Option ℚ))
    (h : ∀ f, rate = some f → ∀ t r, f t = some r → 0 ≤ r) : Spec.Physical (exampleData rate) where
  two_profiles := le_refl _
  gradient := fun _ _ => by show (0 : ℚ) < 1; norm_num
  first_gate := by show (0 : ℚ) < 1000 * ((0 : ℕ) + 1); norm_num
  increasing := fun h _ => by
    show (1000 * ((h : ℕ) + 1) : ℚ) < 1000 * (((h + 1 : ℕ) : ℚ) + 1); push_cast; linarith
  gas := fun _ _ => by show (0 : ℚ) ≤ 1; norm_num
  saturatedGas := fun _ _ => by show (0 : ℚ) ≤ 2; norm_num
  liquid := fun _ _ => by show (0 : ℚ) ≤ 1; norm_num
  rain_zero := rfl
  rain_pos := fun _ h => h
  melt_zero := rfl
  melt_pos := fun _ h => h
  rate_nonneg := h

example : Spec.Physical (exampleData none) := exampleData_physical none (by simp)

example : (∃ A, Spec.Adiabatic (exampleData none) 0 A ∧ A 0 = 1000 ∧ A 1 = 0) ∧
    ∃ G, Spec.BaseGradient (exampleData none) 0 G ∧ G 0 = 1 := by
  have hp := exampleData_physical none (by simp)
  have hl : Spec.IsLayer 2 ((exampleData none).droplet 0) 0 0 :=
    ⟨le_refl _, by decide, fun h _ h1 => by rw [show h = 0 by omega]; rfl, Or.inl rfl, Or.inr rfl⟩
  have ha := C20_adiabatic_lwc (exampleData none).g 2 2 (exampleData none).temperature
    (exampleData none).pressure (exampleData none).droplet (exampleData none).heightAgl
    hp.gradient hp.first_gate hp.increasing 0 (by decide)
  refine ⟨⟨_, ha, ?_, ?_⟩, ⟨fillCloudsWithLwcDz (exampleData none).g 2 2
    (exampleData none).temperature (exampleData none).pressure (exampleData none).droplet 0,
    ⟨fun h _ hl => fillCloudsWithLwcDz_clear _ _ _ _ _ _ hl, fun b p h hl h1 h2 =>
      fillCloudsWithLwcDz_layer _ _ _ _ _ _ (by decide) hl h1 h2 (ne_of_gt (hp.gradient 0 b))⟩,
    ?_⟩⟩
  · rw [ha.2 0 0 0 hl (le_refl _) (le_refl _)]; simp [exampleData]
  · exact ha.1 1 (by decide) rfl
  · exact fillCloudsWithLwcDz_layer _ _ _ _ _ _ (by decide) hl (le_refl _) (le_refl _)
      (ne_of_gt (hp.gradient 0 0))

/-- Rain 3 (in units where `k` is the identity) in profile 1: gate 0 gets `2·3·1`, the freezing gate 1
keeps that value; profile 0 is liquid attenuated instead. -/
example : (match getAttenuations (exampleData (some fun _ => some 3)) (1 / 5) with
    | .ok a => decide (a.rain.amount 1 0 = some 6 ∧ a.rain.amount 1 1 = some 6 ∧
        a.liquid.attenuated 0 1 = true ∧ a.liquid.attenuated 1 1 = false ∧
        a.melting.amount 1 1 = some 3 ∧ a.liquid.amount 0 0 = some 2)
    | .error _ => false) = true := by decide +kernel

/-- C03. Whatever the attenuation results: in the quality bits a corrected flag implies the attenuated
flag of the same cause; an attenuated pixel is corrected iff the attenuation step did not report it
uncorrected; radar and lidar bits mark exactly the pixels with data; the molecular bit is never set. -/
theorem C03_corrected_subset {β γ : Type*} (z : Grid (Option β)) (beta : Grid (Option γ))
    (clutter : Grid Bool) (a : RadarAttenuation α) (t h : ℕ) :
    let q := fetchQuality z beta clutter a
    (q.correctedLiquid t h = true → q.attenuatedLiquid t h = true) ∧
    (q.correctedRain t h = true → q.attenuatedRain t h = true) ∧
    (q.correctedMelting t h = true → q.attenuatedMelting t h = true) ∧
    (q.attenuatedLiquid t h = true →
      (q.correctedLiquid t h = true ↔ a.liquid.uncorrected t h = false)) ∧
    (q.attenuatedRain t h = true →
      (q.correctedRain t h = true ↔ a.rain.uncorrected t h = false)) ∧
    (q.attenuatedMelting t h = true →
      (q.correctedMelting t h = true ↔ a.melting.uncorrected t h = false)) ∧
    (q.radar t h = true ↔ ∃ v, z t h = some v) ∧
    (q.lidar t h = true ↔ ∃ v, beta t h = some v) ∧
    q.clutter t h = clutter t h ∧ q.molecular t h = false := by
  simp only [fetchQuality, gand_apply, gnot_apply, Grid.const_apply]
  refine ⟨?_, ?_, ?_, ?_, ?_, ?_, ?_, ?_, trivial, trivial⟩
  · intro h1; rw [Bool.and_eq_true] at h1; exact h1.1
  · intro h1; rw [Bool.and_eq_true] at h1; exact h1.1
  · intro h1; rw [Bool.and_eq_true] at h1; exact h1.1
  · intro h1; rw [h1]; simp
  · intro h1; rw [h1]; simp
  · intro h1; rw [h1]; simp
  · rw [Option.isSome_iff_exists]
  · rw [Option.isSome_iff_exists]

/-- C03, through the attenuation step: the six attenuation bits of every pixel in terms of the
classification and of what was measured. -/
theorem C03_quality_bits {β γ : Type*} (d : AttenuationData α) (hp : Spec.Physical d) (e : α)
    (z : Grid (Option β)) (beta : Grid (Option γ)) (clutter : Grid Bool) :
    ∃ a, getAttenuations d e = .ok a ∧ ∀ t < d.nT, ∀ h < d.nH,
      let q := fetchQuality z beta clutter a
      (q.attenuatedLiquid t h = true ↔
        d.isRain t = false ∧ ∃ k ≤ h, d.droplet t k = true) ∧
      (q.correctedLiquid t h = true ↔ d.isRain t = false ∧ (∃ k ≤ h, d.droplet t k = true) ∧
        (Spec.measuredLwp d t).isSome = true) ∧
      (q.attenuatedRain t h = true ↔ d.isRain t = true) ∧
      (q.correctedRain t h = true ↔ d.isRain t = true ∧ d.rainRate ≠ none) ∧
      (q.correctedMelting t h = true ↔ d.freezing t h = true ∧ d.isRain t = true ∧
        ∃ r, Spec.measuredRain d t = some r ∧ r ≠ 0) := by
  obtain ⟨a, ha, hb⟩ := C48_bookkeeping d hp e
  refine ⟨a, ha, ?_⟩
  intro t ht h hh
  obtain ⟨b1, b2, b3, b4, b5, b6, b7, b8, b9⟩ := hb t ht h hh
  simp only [fetchQuality, gand_apply, gnot_apply]
  refine ⟨b1, ?_, b4, ?_, ?_⟩
  · rw [Bool.and_eq_true, b1, Bool.not_eq_true']
    constructor
    · rintro ⟨⟨h1, h2⟩, h3⟩
      refine ⟨h1, h2, ?_⟩
      by_contra hc
      have : a.liquid.uncorrected t h = true :=
        b2.2 ⟨b1.2 ⟨h1, h2⟩, by simpa using hc⟩
      rw [h3] at this; simp at this
    · rintro ⟨h1, h2, h3⟩
      refine ⟨⟨h1, h2⟩, ?_⟩
      rw [Bool.eq_false_iff, Ne, b2]
      rintro ⟨_, h4⟩; rw [h4] at h3; simp at h3
  · rw [Bool.and_eq_true, b4, Bool.not_eq_true', Bool.eq_false_iff, Ne, b5]
    constructor
    · rintro ⟨h1, h2⟩; exact ⟨h1, fun hc => h2 ⟨h1, hc⟩⟩
    · rintro ⟨h1, h2⟩; exact ⟨h1, fun hc => h2 hc.2⟩
  · by_cases hrr : d.rainRate = none
    · obtain ⟨c1, _, _, _⟩ := b8 hrr
      rw [c1]
      have : Spec.measuredRain d t = none := by simp [Spec.measuredRain, hrr]
      rw [this]; simp
    · obtain ⟨c1, c2⟩ := b9 hrr
      rw [Bool.and_eq_true, c1, Bool.not_eq_true', Bool.eq_false_iff, Ne, Ne, c2]
      cases hm : Spec.measuredRain d t with
      | none => simp only [reduceCtorEq, not_false_eq_true, ne_eq, and_true]
                constructor
                · rintro ⟨h1, h2⟩; exact absurd h1 h2
                · rintro ⟨_, _, r, hr, _⟩; cases hr
      | some r =>
        simp only [reduceCtorEq, and_false, not_false_eq_true, and_true]
        constructor
        · rintro ⟨h1, h2, h3⟩; exact ⟨h1, h2, r, rfl, fun hc => h3 (by rw [hc])⟩
        · rintro ⟨h1, h2, r', hr', h3⟩
          refine ⟨h1, h2, fun hc => ?_⟩
          obtain rfl := Option.some.inj hr'
          exact h3 (Option.some.inj hc)

/-- C48. Defect shown by the model: with a disdrometer, a rainy profile whose rain rate is missing is
reported as attenuated by rain *and corrected*, although no amount is available and nothing is added to
the echo. -/
theorem C48_missing_rain_rate_flagged_corrected :
    ∃ a, getAttenuations (exampleData (some fun _ => none)) (1 / 5) = .ok a ∧
      a.rain.attenuated 1 0 = true ∧ a.rain.uncorrected 1 0 = false ∧ a.rain.amount 1 0 = none ∧
      (fetchQuality (fun _ _ => some ()) (fun _ _ => some ()) (Grid.const false) a).correctedRain 1 0 =
        true := by
  have hp := exampleData_physical (some fun _ => none) (by
    intro f hf t r hr
    obtain rfl := Option.some.inj hf
    cases hr)
  obtain ⟨a, ha, hb⟩ := C48_bookkeeping _ hp (1 / 5)
  obtain ⟨a', ha', hb'⟩ := C48_rain_amount _ hp (1 / 5)
  rw [ha] at ha'
  obtain rfl := Except.ok.inj ha'
  obtain ⟨_, _, _, b4, b5, _⟩ := hb 1 (by decide) 0 (by decide)
  have h1 : a.rain.attenuated 1 0 = true := b4.2 rfl
  have h2 : a.rain.uncorrected 1 0 = false := by
    rw [Bool.eq_false_iff, Ne, b5]; rintro ⟨_, h⟩; cases h
  refine ⟨a, ha, h1, h2, (hb' 1 (by decide) 0 (by decide)).2.1 (Or.inr (Or.inl rfl)), ?_⟩
  simp [fetchQuality, h1, h2]

/-- C49. The corrected echo of every pixel is the measured echo plus the gas amount plus those of the
liquid, rain and melting amounts that are available; a pixel has a corrected echo iff it had an echo
(and a gas amount, which always exists by `C47_gas`). -/
theorem C49_correct_atten (z : Grid (Option α)) (a : RadarAttenuation α) (t h : ℕ) (g : α)
    (hg : a.gas.amount t h = some g) :
    correctAtten z a t h = (z t h).map fun x =>
      x + g + (a.liquid.amount t h).getD 0 + (a.rain.amount t h).getD 0 +
        (a.melting.amount t h).getD 0 := by
  have hadd : ∀ (z' amount : Grid (Option α)),
      addWhere z' amount t h = (z' t h).map (· + (amount t h).getD 0) := by
    intro z' amount
    unfold addWhere
    cases amount t h with
    | none => cases z' t h <;> simp
    | some v =>
      by_cases hv : v = 0
      · subst hv; cases z' t h <;> simp
      · cases z' t h <;> simp [madd, hv]
  unfold correctAtten
  simp only [hadd, hg]
  cases z t h <;> simp [madd]

/-- C49. With the attenuation amounts of the attenuation step, the correction never lowers the echo. -/
theorem C49_never_lowers (d : AttenuationData α) (hp : Spec.Physical d) (e : α)
    (z : Grid (Option α)) :
    ∃ a, getAttenuations d e = .ok a ∧ ∀ t < d.nT, ∀ h < d.nH,
      ((z t h = none ∧ correctAtten z a t h = none) ∨
        ∃ x y, z t h = some x ∧ correctAtten z a t h = some y ∧ x ≤ y) := by
  obtain ⟨l, hl, hl'⟩ := liquid_spec d hp
  obtain ⟨r, hr, hr'⟩ := rain_spec d hp
  obtain ⟨m, hm, hm'⟩ := melting_spec d hp e
  unfold getAttenuations
  simp only [hl, hr, hm, bind, Except.bind, pure, Except.pure]
  refine ⟨_, rfl, ?_⟩
  intro t ht h hh
  obtain ⟨g, hg, hgv, _⟩ := C47_gas d t h
  have hg0 : 0 ≤ g := by
    rw [hgv]
    apply mul_nonneg (by norm_num)
    apply Finset.sum_nonneg
    intro i hi
    rw [Finset.mem_range] at hi
    apply mul_nonneg
    · split
      · exact hp.saturatedGas t i
      · exact hp.gas t i
    · have := gateDepth_pos hp (show i < d.nH by omega); positivity
  rw [C49_correct_atten z _ t h g hg]
  cases hz : z t h with
  | none => left; exact ⟨rfl, rfl⟩
  | some x =>
    right
    refine ⟨x, _, rfl, rfl, ?_⟩
    have h1 : 0 ≤ ((l.amount.assign r.attenuated none) t h).getD 0 := by
      simp only [Grid.assign_apply]
      cases r.attenuated t h
      · cases hv : l.amount t h with
        | none => simp
        | some v => simpa [hv] using (hl' t ht h hh).2.2.2.1 v hv
      · simp
    have h2 : 0 ≤ (r.amount t h).getD 0 := by
      cases hv : r.amount t h with
      | none => simp
      | some v => simpa [hv] using le_of_lt ((hr' t ht h hh).2.2.2.2.1 v hv).1
    have h3 : 0 ≤ (m.amount t h).getD 0 := by
      cases hv : m.amount t h with
      | none => simp
      | some v =>
        by_cases hrr : d.rainRate = none
        · rw [((hm' t h).1 hrr).2.2.1] at hv; cases hv
        · obtain ⟨r0, hr0, hr1, _, _, rfl⟩ := (((hm' t h).2 hrr).2.2.1 v).1 hv
          obtain ⟨f, hf⟩ := Option.ne_none_iff_exists'.1 hrr
          have hf' : f t = some r0 := by simpa [Spec.measuredRain, hf] using hr0
          have := hp.rate_nonneg f hf t r0 hf'
          simpa using le_of_lt (hp.melt_pos r0 (lt_of_le_of_ne this (Ne.symm hr1)))
    simp only at h1 ⊢
    linarith

example : (match getAttenuations (exampleData (some fun _ => some 3)) (1 / 5) with
    | .ok a => decide (correctAtten (fun _ h => if h = 0 then some (-20) else none) a 1 0 =
        some (-20 + 4 + 6) ∧ correctAtten (fun _ h => if h = 0 then some (-20) else none) a 1 1 = none)
    | .error _ => false) = true := by decide +kernel

end

theorem l2norm_foldl (args : List (Option ℝ)) (s : Option ℝ) :
    args.foldl (fun ss arg => madd ss (arg.map (· ^ 2))) s =
      if none ∈ args then none
      else s.map (· + (args.map fun a => (a.getD 0) ^ 2).sum) := by
  induction args generalizing s with
  | nil => simp
  | cons x xs ih =>
    rw [List.foldl_cons, ih]
    cases x with
    | none => cases s <;> simp [madd]
    | some v =>
      cases s with
      | none => simp [madd]
      | some w =>
        by_cases h : none ∈ xs
        · simp [h]
        · simp [h, madd]; ring

/-- C69. `l2norm` of any number of terms: masked iff some term is masked, otherwise the square root of
the sum of the squares. -/
theorem C69_l2norm (args : List (Option ℝ)) :
    (none ∈ args → l2norm args = none) ∧
    (none ∉ args → l2norm args = some (Real.sqrt (args.map fun a => (a.getD 0) ^ 2).sum)) := by
  unfold l2norm
  rw [l2norm_foldl]
  constructor
  · intro h; simp [h]
  · intro h; simp [h]

/-- C69. The norm is at least the magnitude of every term, and does not depend on the order of the
terms. -/
theorem C69_l2norm_bounds (args : List (Option ℝ)) (v : ℝ) (hv : l2norm args = some v) :
    0 ≤ v ∧ (∀ x, some x ∈ args → |x| ≤ v) ∧
      ∀ args', args.Perm args' → l2norm args' = some v := by
  have hnone : none ∉ args := by
    intro h; rw [(C69_l2norm args).1 h] at hv; cases hv
  rw [(C69_l2norm args).2 hnone] at hv
  have hv' := (Option.some.inj hv).symm
  refine ⟨by rw [hv']; exact Real.sqrt_nonneg _, ?_, ?_⟩
  · intro x hx
    rw [hv', ← Real.sqrt_sq_eq_abs]
    apply Real.sqrt_le_sqrt
    have hmem : x ^ 2 ∈ args.map fun a => (a.getD 0) ^ 2 := List.mem_map.2 ⟨some x, hx, rfl⟩
    exact List.single_le_sum (by
      intro y hy
      obtain ⟨a, _, rfl⟩ := List.mem_map.1 hy
      exact sq_nonneg _) _ hmem
  · intro args' hp
    rw [(C69_l2norm args').2 (fun h => hnone (hp.mem_iff.2 h)), hv']
    rw [(hp.map _).sum_eq]

example : l2norm [some 3, some (-4)] = some 5 := by
  rw [(C69_l2norm _).2 (by simp)]
  congr 1
  rw [Real.sqrt_eq_iff_mul_self_eq (by norm_num) (by norm_num)]
  norm_num

/-- C49. The echo error of a pixel is masked iff the precision of the radar is unknown there or some
attenuation is uncorrected; otherwise it is the root of the sum of the squares of the radar precision
and of those attenuation errors (liquid, rain, melting) that are available. -/
theorem C49_error (p : Grid (Option ℝ)) (a : RadarAttenuation ℝ) (t h : ℕ) :
    (zError p a t h = none ↔ p t h = none ∨ a.liquid.uncorrected t h = true ∨
      a.rain.uncorrected t h = true ∨ a.melting.uncorrected t h = true) ∧
    ∀ v, zError p a t h = some v → ∃ x, p t h = some x ∧
      v = Real.sqrt (x ^ 2 + ((a.liquid.error t h).getD 0) ^ 2 + ((a.rain.error t h).getD 0) ^ 2 +
        ((a.melting.error t h).getD 0) ^ 2) := by
  unfold zError
  simp only [Grid.assign_apply, gor_apply]
  cases hu : (a.liquid.uncorrected t h || a.rain.uncorrected t h || a.melting.uncorrected t h)
  · simp only [Bool.or_eq_false_iff] at hu
    obtain ⟨⟨u1, u2⟩, u3⟩ := hu
    simp only [cond_false, u1, u2, u3, Bool.false_eq_true, or_false]
    cases hp : p t h with
    | none => rw [(C69_l2norm _).1 (by simp)]; simp
    | some x =>
      rw [(C69_l2norm _).2 (by simp)]
      refine ⟨by simp, ?_⟩
      intro v hv
      refine ⟨x, rfl, ?_⟩
      rw [← Option.some.inj hv]
      congr 1
      simp only [List.map_cons, List.map_nil, List.sum_cons, List.sum_nil, Option.getD_some]
      ring
  · simp only [cond_true, true_iff]
    constructor
    · simp only [Bool.or_eq_true] at hu; tauto
    · intro v hv; cases hv

/-- C48. The melting layer formula meets the hypotheses of `Spec.Physical` at both supported bands, and
raises at X band and at unsupported frequencies. -/
theorem C48_melting_formula (f : ℝ) :
    ((27 < f ∧ f < 40 ∨ 75 < f ∧ f < 110) → ∃ k : ℝ → ℝ,
      (∀ r, meltingFormula f r = .ok (k r)) ∧ k 0 = 0 ∧ ∀ r, 0 < r → 0 < k r) ∧
    (¬ (27 < f ∧ f < 40 ∨ 75 < f ∧ f < 110) → ∀ r, ∃ e, meltingFormula f r = .error e) := by
  obtain ⟨hX, hKa, hW, herr, hall⟩ := C63_wl_band f
  constructor
  · rintro (h | h)
    · refine ⟨fun r => 0.97 * (r * 3600000) ^ (0.61 : ℝ), ?_, ?_, ?_⟩
      · intro r; simp [meltingFormula, hKa.2 h, bind, Except.bind, pure, Except.pure]
      · norm_num
      · intro r hr; positivity
    · refine ⟨fun r => 2.9 * (r * 3600000) ^ (0.42 : ℝ), ?_, ?_, ?_⟩
      · intro r; simp [meltingFormula, hW.2 h, bind, Except.bind, pure, Except.pure]
      · norm_num
      · intro r hr; positivity
  · intro h r
    by_cases h8 : 8 < f ∧ f < 12
    · exact ⟨"ValueError: Radar frequency not supported", by
        simp [meltingFormula, hX.2 h8, bind, Except.bind, throw, throwThe, MonadExceptOf.throw]⟩
    · push Not at h
      refine ⟨"ValueError: Unknown band", ?_⟩
      have := herr.2 ⟨h8, fun hc => absurd hc.2 (not_lt.2 (h.1 hc.1)),
        fun hc => absurd hc.2 (not_lt.2 (h.2 hc.1))⟩
      simp [meltingFormula, this, bind, Except.bind]

end Cloudnet
