import Verif.Insects.Model
import Verif.Arrays.Props

namespace Cloudnet

/-! C45 (insects are screened; probabilities). -/

open ProbabilityTheory MeasureTheory

theorem normCdf_nonneg (x : ℝ) : 0 ≤ normCdf x := cdf_nonneg _ x

theorem normCdf_le_one (x : ℝ) : normCdf x ≤ 1 := cdf_le_one _ x

theorem normCdf_mono {x y : ℝ} (h : x ≤ y) : normCdf x ≤ normCdf y := monotone_cdf _ h

theorem normCdf_zero : normCdf 0 = 1 / 2 := by
  have hneg : (gaussianReal 0 1).real (Set.Ici 0) = (gaussianReal 0 1).real (Set.Iic 0) := by
    have h1 : (gaussianReal 0 1).map (fun x : ℝ => -x) = gaussianReal 0 1 := by
      rw [gaussianReal_map_neg, neg_zero]
    have h2 : (gaussianReal 0 1) (Set.Iic 0) = (gaussianReal 0 1) (Set.Ici 0) := by
      conv_lhs => rw [← h1]
      rw [Measure.map_apply measurable_neg measurableSet_Iic]
      congr 1
      ext x
      simp
    simp only [Measure.real, h2]
  have hadd : (gaussianReal 0 1).real (Set.Iic 0) + (gaussianReal 0 1).real (Set.Ici 0) = 1 := by
    have h0 : (gaussianReal 0 1) (Set.Ici (0 : ℝ)) = (gaussianReal 0 1) (Set.Ioi (0 : ℝ)) := by
      haveI := noAtoms_gaussianReal (μ := 0) (v := 1) one_ne_zero
      exact measure_congr Ioi_ae_eq_Ici.symm
    have h1 : (gaussianReal 0 1).real (Set.Ici (0 : ℝ)) = (gaussianReal 0 1).real (Set.Iic (0 : ℝ))ᶜ := by
      rw [Set.compl_Iic]
      simp only [Measure.real, h0]
    rw [h1]
    exact probReal_add_probReal_compl measurableSet_Iic
  unfold normCdf
  rw [cdf_eq_real]
  linarith

/-- C45. `array_to_probability` gives a number between 0 and 1 that grows with the value (falls if inverted), is
1/2 at the location and 0 for masked values. -/
theorem C45_array_to_probability (loc scale : ℝ) (hs : 0 < scale) (invert : Bool) :
    (∀ x, 0 ≤ arrayToProbability x loc scale invert ∧ arrayToProbability x loc scale invert ≤ 1) ∧
    arrayToProbability none loc scale invert = 0 ∧
    arrayToProbability (some loc) loc scale invert = 1 / 2 ∧
    (∀ x y, x ≤ y → if invert then
        arrayToProbability (some y) loc scale invert ≤ arrayToProbability (some x) loc scale invert
      else arrayToProbability (some x) loc scale invert ≤ arrayToProbability (some y) loc scale invert) := by
  refine ⟨?_, rfl, ?_, ?_⟩
  · intro x
    unfold arrayToProbability
    cases x with
    | none => exact ⟨le_rfl, zero_le_one⟩
    | some x =>
      simp only
      split
      · exact ⟨normCdf_nonneg _, normCdf_le_one _⟩
      · exact ⟨normCdf_nonneg _, normCdf_le_one _⟩
  · unfold arrayToProbability
    simp [normCdf_zero]
  · intro x y hxy
    cases invert with
    | true =>
      simp only [arrayToProbability, if_true]
      exact normCdf_mono (div_le_div_of_nonneg_right (by linarith) hs.le)
    | false =>
      simp only [arrayToProbability, Bool.false_eq_true, if_false]
      exact normCdf_mono (div_le_div_of_nonneg_right (by linarith) hs.le)

theorem prob_unit (x : Option ℝ) (loc scale : ℝ) (invert : Bool) :
    0 ≤ arrayToProbability x loc scale invert ∧ arrayToProbability x loc scale invert ≤ 1 := by
  unfold arrayToProbability
  cases x with
  | none => exact ⟨le_rfl, zero_le_one⟩
  | some x =>
    simp only
    split
    · exact ⟨normCdf_nonneg _, normCdf_le_one _⟩
    · exact ⟨normCdf_nonneg _, normCdf_le_one _⟩

theorem probWidth_unit (o : InsectInput) (loc scale : ℝ) (t h : ℕ) :
    0 ≤ o.probWidth loc scale t h ∧ o.probWidth loc scale t h ≤ 1 := by
  unfold InsectInput.probWidth
  cases o.width with
  | none => exact ⟨zero_le_one, le_rfl⟩
  | some w => exact prob_unit _ _ _ _

theorem mul_unit {a b : ℝ} (ha : 0 ≤ a ∧ a ≤ 1) (hb : 0 ≤ b ∧ b ≤ 1) : 0 ≤ a * b ∧ a * b ≤ 1 ∧ a * b ≤ b ∧ a * b ≤ a :=
  ⟨mul_nonneg ha.1 hb.1, mul_le_one₀ ha.2 hb.1 hb.2, by nlinarith [ha.1, ha.2, hb.1, hb.2],
    by nlinarith [ha.1, ha.2, hb.1, hb.2]⟩

theorem max_unit {a b : ℝ} (ha : 0 ≤ a ∧ a ≤ 1) (hb : 0 ≤ b ∧ b ≤ 1) : 0 ≤ max a b ∧ max a b ≤ 1 :=
  ⟨le_max_of_le_left ha.1, max_le ha.2 hb.2⟩

/-- The wet bulb probability bounds the probability from the depolarization. -/
theorem probFromLdr_bounds (o : InsectInput) (t h : ℕ) :
    0 ≤ o.probFromLdr t h ∧ o.probFromLdr t h ≤ 1 ∧
      (o.probFromLdr t h ≤ arrayToProbability (o.tw t h) 265 3 false ∨
        o.probFromLdr t h ≤ arrayToProbability (o.tw t h) 268 2 false) := by
  unfold InsectInput.probFromLdr
  cases o.ldr with
  | some ldr =>
    have := mul_unit (prob_unit (ldr t h) (-25) 5 false) (prob_unit (o.tw t h) 268 2 false)
    exact ⟨this.1, this.2.1, Or.inr this.2.2.1⟩
  | none =>
    cases o.sldr with
    | none =>
      exact ⟨le_rfl, zero_le_one, Or.inl (prob_unit _ _ _ _).1⟩
    | some sldr =>
      simp only
      split
      · have := mul_unit (prob_unit (sldr t h) (-25) 5 false) (prob_unit (o.tw t h) 268 2 false)
        exact ⟨this.1, this.2.1, Or.inr this.2.2.1⟩
      · have hecho : 0 ≤ (if (o.vSigma t h).isNone = true then arrayToProbability (o.z t h) (-30) 5 true else 0) ∧
            (if (o.vSigma t h).isNone = true then arrayToProbability (o.z t h) (-30) 5 true else 0) ≤ 1 := by
          split
          · exact prob_unit _ _ _ _
          · exact ⟨le_rfl, zero_le_one⟩
        have hp := max_unit (prob_unit (sldr t h) (-25) 5 false)
          (max_unit (prob_unit (o.vSigma t h) 0.2 0.15 false) hecho)
        have hq := mul_unit hp (probWidth_unit o 0.3 0.1 t h)
        have := mul_unit ⟨hq.1, hq.2.1⟩ (prob_unit (o.tw t h) 265 3 false)
        exact ⟨this.1, this.2.1, Or.inl this.2.2.1⟩

theorem probFromOthers_bounds (o : InsectInput) (t h : ℕ) :
    0 ≤ o.probFromOthers t h ∧ o.probFromOthers t h ≤ 1 ∧
      o.probFromOthers t h ≤ arrayToProbability (o.tw t h) 274 1 false := by
  unfold InsectInput.probFromOthers
  simp only
  have h1 := mul_unit (prob_unit (o.z t h) (-20) 8 true) (prob_unit (o.tw t h) 274 1 false)
  have h2 := mul_unit ⟨h1.1, h1.2.1⟩ (probWidth_unit o 1 0.3 t h)
  have h3 := mul_unit ⟨h2.1, h2.2.1⟩
    (prob_unit ((o.v t h).map fun _ => o.smoothV t h) (-3.5) 2 false)
  split
  · have h4 := mul_unit ⟨h3.1, h3.2.1⟩
      (prob_unit (some (interpolateLwp o.nT o.time o.lwp t)) 0.15 0.05 true)
    exact ⟨h4.1, h4.2.1, le_trans h4.2.2.2 (le_trans h3.2.2.2 (le_trans h2.2.2.2 h1.2.2.1))⟩
  · exact ⟨h3.1, h3.2.1, le_trans h3.2.2.2 (le_trans h2.2.2.2 h1.2.2.1)⟩

/-- A pixel is screened: in a liquid layer, at or above a melting layer, in a rainy profile, or at or above a
liquid layer while the probability without the depolarization is positive. -/
def Spec.InsectScreened (melting liquid : Grid Bool) (isRain : ℕ → Bool) (probNoLdr : Grid ℝ) (t h : ℕ) : Prop :=
  liquid t h = true ∨ (∃ i ≤ h, melting t i = true) ∨ isRain t = true ∨
    ((∃ i ≤ h, liquid t i = true) ∧ 0 < probNoLdr t h)

theorem screenInsects_spec (p q : Grid ℝ) (melting liquid : Grid Bool) (isRain : ℕ → Bool) (t h : ℕ) :
    (Spec.InsectScreened melting liquid isRain q t h → screenInsects p q melting liquid isRain t h = 0) ∧
    (¬ Spec.InsectScreened melting liquid isRain q t h → screenInsects p q melting liquid isRain t h = p t h) := by
  have hm := C25_ffill_mask melting t h
  have hl := C25_ffill_mask liquid t h
  unfold screenInsects Spec.InsectScreened Grid.assign
  rw [← hm, ← hl]
  simp only [cond_eq_ite, Bool.and_eq_true, decide_eq_true_eq]
  constructor
  · rintro (h1 | h1 | h1 | h1)
    · simp [h1]
    · simp [h1]
    · simp [h1]
    · simp [h1]
  · intro hn
    push Not at hn
    obtain ⟨h1, h2, h3, h4⟩ := hn
    rw [if_neg h3, if_neg (by rintro ⟨a, b⟩; exact absurd b (not_lt.2 (h4 a))), if_neg h2, if_neg h1]

/-- C45. `find_insects` with at least two profiles: no insects in screened pixels, whose probability is masked;
elsewhere the probability is the larger of the two estimates (masked if zero), and insects are the pixels with
a probability above 0.8. -/
theorem C45_find_insects (o : InsectInput) (hT : 2 ≤ o.nT) (melting liquid : Grid Bool) :
    ∃ insects prob, findInsects o melting liquid = .ok (insects, prob) ∧ ∀ t h,
      (Spec.InsectScreened melting liquid o.isRain o.probFromOthers t h →
        insects t h = false ∧ prob t h = none) ∧
      (¬ Spec.InsectScreened melting liquid o.isRain o.probFromOthers t h →
        (insects t h = true ↔ 0.8 < max (o.probFromLdr t h) (o.probFromOthers t h)) ∧
        (max (o.probFromLdr t h) (o.probFromOthers t h) = 0 → prob t h = none) ∧
        (max (o.probFromLdr t h) (o.probFromOthers t h) ≠ 0 →
          prob t h = some (max (o.probFromLdr t h) (o.probFromOthers t h)))) := by
  unfold findInsects
  rw [if_neg (by omega)]
  refine ⟨_, _, rfl, ?_⟩
  intro t h
  have hs := screenInsects_spec (fun t h => max (o.probFromLdr t h) (o.probFromOthers t h)) o.probFromOthers
    melting liquid o.isRain t h
  constructor
  · intro hscr
    simp only [hs.1 hscr]
    norm_num
  · intro hscr
    simp only [hs.2 hscr, decide_eq_true_eq, true_and]
    exact ⟨fun he => by rw [if_pos he], fun he => by rw [if_neg he]⟩

/-- C45. The two estimates: with a depolarization field, it is multiplied by the temperature; the other estimate is
the product of the probabilities of weak echo, warm temperature, narrow width and small fall velocity (and low
liquid water path for MIRA radars). -/
theorem C45_estimates (o : InsectInput) (t h : ℕ) :
    (∀ ldr, o.ldr = some ldr → o.probFromLdr t h =
      arrayToProbability (ldr t h) (-25) 5 false * arrayToProbability (o.tw t h) 268 2 false) ∧
    (o.ldr = none → o.sldr = none → o.probFromLdr t h = 0) ∧
    (∀ w, o.width = some w → o.mira = false → o.probFromOthers t h =
      arrayToProbability (o.z t h) (-20) 8 true * arrayToProbability (o.tw t h) 274 1 false *
        arrayToProbability (w t h) 1 0.3 true *
        arrayToProbability ((o.v t h).map fun _ => o.smoothV t h) (-3.5) 2 false) ∧
    (o.mira = true → o.probFromOthers t h =
      ({ o with mira := false } : InsectInput).probFromOthers t h *
        arrayToProbability (some (interpolateLwp o.nT o.time o.lwp t)) 0.15 0.05 true) := by
  refine ⟨?_, ?_, ?_, ?_⟩
  · intro ldr hl
    simp only [InsectInput.probFromLdr, hl]
  · intro h1 h2
    simp only [InsectInput.probFromLdr, h1, h2]
  · intro w hw hm
    simp only [InsectInput.probFromOthers, InsectInput.probWidth, hw, hm]
    simp
  · intro hm
    simp only [InsectInput.probFromOthers, hm, InsectInput.probWidth]
    simp

/-- C45. With a slanted depolarization field only: the field times the temperature if this is above 0.9. Otherwise the largest of the field, erratic
motion and (where the motion is unknown) weak echo, times narrow width (if there is one) and a stricter temperature. -/
theorem C45_slanted (o : InsectInput) (sldr : Grid (Option ℝ)) (hl : o.ldr = none) (hs : o.sldr = some sldr) (t h : ℕ) :
    let depolarization := arrayToProbability (sldr t h) (-25) 5 false
    let sure := depolarization * arrayToProbability (o.tw t h) 268 2 false
    let proxy := max depolarization (match o.vSigma t h with
      | some s => max (arrayToProbability (some s) 0.2 0.15 false) 0
      | none => arrayToProbability (o.z t h) (-30) 5 true)
    (0.9 < sure → o.probFromLdr t h = sure) ∧
    (sure ≤ 0.9 → ∀ w, o.width = some w → o.probFromLdr t h =
      proxy * arrayToProbability (w t h) 0.3 0.1 true * arrayToProbability (o.tw t h) 265 3 false) ∧
    (sure ≤ 0.9 → o.width = none → o.probFromLdr t h = proxy * arrayToProbability (o.tw t h) 265 3 false) := by
  intro depolarization sure proxy
  have hproxy : max depolarization (max (arrayToProbability (o.vSigma t h) 0.2 0.15 false)
      (if (o.vSigma t h).isNone then arrayToProbability (o.z t h) (-30) 5 true else 0)) = proxy := by
    simp only [proxy]
    cases hv : o.vSigma t h with
    | some s => rfl
    | none =>
      simp only [Option.isNone_none, if_true]
      rw [show arrayToProbability none 0.2 0.15 false = 0 from rfl, max_eq_right (prob_unit (o.z t h) (-30) 5 true).1]
  refine ⟨fun h1 => ?_, fun h1 w hw => ?_, fun h1 hw => ?_⟩
  · simp only [InsectInput.probFromLdr, hl, hs]
    exact if_pos h1
  · simp only [InsectInput.probFromLdr, hl, hs, InsectInput.probWidth, hw]
    rw [if_neg (not_lt.2 h1), ← hproxy]
  · simp only [InsectInput.probFromLdr, hl, hs, InsectInput.probWidth, hw]
    rw [if_neg (not_lt.2 h1), ← hproxy, mul_one]

/-- C45. Every probability given is in (0, 1]. -/
theorem C45_probability_range (o : InsectInput) (melting liquid : Grid Bool) (insects : Grid Bool)
    (prob : Grid (Option ℝ)) (hf : findInsects o melting liquid = .ok (insects, prob)) (t h : ℕ) (p : ℝ)
    (hp : prob t h = some p) : 0 < p ∧ p ≤ 1 := by
  have hT : 2 ≤ o.nT := by
    by_contra hc
    unfold findInsects at hf
    rw [if_pos (by omega)] at hf
    cases hf
  obtain ⟨i', p', h1, h2⟩ := C45_find_insects o hT melting liquid
  rw [hf] at h1
  cases h1
  by_cases hs : Spec.InsectScreened melting liquid o.isRain o.probFromOthers t h
  · rw [((h2 t h).1 hs).2] at hp; cases hp
  · obtain ⟨-, g1, g2⟩ := (h2 t h).2 hs
    have hb := max_unit ⟨(probFromLdr_bounds o t h).1, (probFromLdr_bounds o t h).2.1⟩
      ⟨(probFromOthers_bounds o t h).1, (probFromOthers_bounds o t h).2.1⟩
    by_cases h0 : max (o.probFromLdr t h) (o.probFromOthers t h) = 0
    · rw [g1 h0] at hp; cases hp
    · rw [g2 h0] at hp
      cases hp
      exact ⟨lt_of_le_of_ne hb.1 (Ne.symm h0), hb.2⟩

theorem prob_gt_half {x : Option ℝ} {loc scale : ℝ} (hs : 0 < scale)
    (h : 1 / 2 < arrayToProbability x loc scale false) : ∃ v, x = some v ∧ loc < v := by
  cases x with
  | none =>
    simp only [arrayToProbability] at h
    norm_num at h
  | some v =>
    refine ⟨v, rfl, ?_⟩
    by_contra hc
    push Not at hc
    have := (C45_array_to_probability loc scale hs false).2.2.2 v loc hc
    simp only [Bool.false_eq_true, if_false] at this
    rw [(C45_array_to_probability loc scale hs false).2.2.1] at this
    linarith

/-- C45. Insects are only found where the wet bulb temperature is known and above 265 K. -/
theorem C45_insects_are_warm (o : InsectInput) (melting liquid : Grid Bool) (insects : Grid Bool)
    (prob : Grid (Option ℝ)) (hf : findInsects o melting liquid = .ok (insects, prob)) (t h : ℕ)
    (hi : insects t h = true) : ∃ tw, o.tw t h = some tw ∧ 265 < tw := by
  have hT : 2 ≤ o.nT := by
    by_contra hc
    unfold findInsects at hf
    rw [if_pos (by omega)] at hf
    cases hf
  obtain ⟨i', p', h1, h2⟩ := C45_find_insects o hT melting liquid
  rw [hf] at h1
  cases h1
  by_cases hs : Spec.InsectScreened melting liquid o.isRain o.probFromOthers t h
  · rw [((h2 t h).1 hs).1] at hi; cases hi
  · have hgt := ((h2 t h).2 hs).1.1 hi
    rcases lt_max_iff.1 hgt with hg | hg
    · rcases (probFromLdr_bounds o t h).2.2 with hb | hb
      · obtain ⟨v, e, hv⟩ := prob_gt_half (x := o.tw t h) (loc := 265) (scale := 3) (by norm_num) (by
          norm_num at hg ⊢; linarith)
        exact ⟨v, e, hv⟩
      · obtain ⟨v, e, hv⟩ := prob_gt_half (x := o.tw t h) (loc := 268) (scale := 2) (by norm_num) (by
          norm_num at hg ⊢; linarith)
        exact ⟨v, e, by linarith⟩
    · obtain ⟨v, e, hv⟩ := prob_gt_half (x := o.tw t h) (loc := 274) (scale := 1) (by norm_num) (by
        have := (probFromOthers_bounds o t h).2.2
        norm_num at hg ⊢; linarith)
      exact ⟨v, e, by linarith⟩

/-- C45. Insects are only found where the radar has data: if all radar fields are masked in a pixel, it is not
an insect. -/
theorem C45_insects_need_radar (o : InsectInput) (melting liquid : Grid Bool) (insects : Grid Bool)
    (prob : Grid (Option ℝ)) (hf : findInsects o melting liquid = .ok (insects, prob)) (t h : ℕ)
    (hz : o.z t h = none) (hv : o.vSigma t h = none) (hl : ∀ l, o.ldr = some l → l t h = none)
    (hsl : ∀ l, o.sldr = some l → l t h = none) : insects t h = false := by
  have hT : 2 ≤ o.nT := by
    by_contra hc
    unfold findInsects at hf
    rw [if_pos (by omega)] at hf
    cases hf
  obtain ⟨i', p', h1, h2⟩ := C45_find_insects o hT melting liquid
  rw [hf] at h1
  cases h1
  by_cases hs : Spec.InsectScreened melting liquid o.isRain o.probFromOthers t h
  · exact ((h2 t h).1 hs).1
  · have h0 : o.probFromOthers t h = 0 := by
      simp only [InsectInput.probFromOthers, hz, arrayToProbability, zero_mul, ite_self]
    have h0' : o.probFromLdr t h = 0 := by
      unfold InsectInput.probFromLdr
      cases hld : o.ldr with
      | some l => simp only [hl l hld, arrayToProbability, zero_mul]
      | none =>
        cases hsd : o.sldr with
        | none => rfl
        | some l =>
          simp only [hsl l hsd, hv, hz, arrayToProbability, max_self, ite_self, zero_mul]
    cases hb : insects t h with
    | false => rfl
    | true =>
      have := ((h2 t h).2 hs).1.1 hb
      rw [h0, h0', max_self] at this
      norm_num at this

/-- Insects exist: a warm pixel with a high enough depolarization, without melting layer, liquid or rain, is
classified as insect. -/
example : ∃ (o : InsectInput) (insects : Grid Bool) (prob : Grid (Option ℝ)),
    findInsects o (fun _ _ => false) (fun _ _ => false) = .ok (insects, prob) ∧ insects 0 0 = true := by
  have htend := tendsto_cdf_atTop (gaussianReal 0 1)
  obtain ⟨x, hx⟩ := ((tendsto_order.1 htend).1 0.95 (by norm_num)).exists
  have hx' : (0.95 : ℝ) < normCdf x := hx
  let o : InsectInput :=
    { nT := 2, time := fun t => t, z := fun _ _ => none, v := fun _ _ => none, vSigma := fun _ _ => none,
      width := none, ldr := some fun _ _ => some (5 * x - 25), sldr := none, tw := fun _ _ => some (2 * x + 268),
      lwp := fun _ => none, isRain := fun _ => false, smoothV := fun _ _ => 0, mira := false }
  obtain ⟨i, p, h1, h2⟩ := C45_find_insects o (by simp [o]) (fun _ _ => false) (fun _ _ => false)
  refine ⟨o, i, p, h1, ?_⟩
  have hs : ¬ Spec.InsectScreened (fun _ _ => false) (fun _ _ => false) o.isRain o.probFromOthers 0 0 := by
    simp [Spec.InsectScreened, o]
  rw [((h2 0 0).2 hs).1]
  apply lt_max_of_lt_left
  rw [(C45_estimates o 0 0).1 (fun _ _ => some (5 * x - 25)) rfl]
  have e1 : arrayToProbability (some (5 * x - 25)) (-25) 5 false = normCdf x := by
    simp only [arrayToProbability, Bool.false_eq_true, if_false]
    congr 1; ring
  have e2 : arrayToProbability (o.tw 0 0) 268 2 false = normCdf x := by
    simp only [arrayToProbability, o, Bool.false_eq_true, if_false]
    congr 1; ring
  rw [e1, e2]
  norm_num at hx' ⊢
  nlinarith

end Cloudnet
