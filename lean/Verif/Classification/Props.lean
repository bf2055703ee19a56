import Verif.Classification.Model
import Verif.Classification.Lemmas
import Verif.Bits.Props
import Verif.Arrays.Props

/-!
Properties C05, C06, C07, C10, C11: the pixel tables of the classification product.
-/

set_option linter.unusedSectionVars false
set_option linter.unusedSimpArgs false

namespace Cloudnet

/-- C05. The target class of every pixel is the one of the decision table `Spec.target`, applied to
the pixel's own six class bits and clutter bit. -/
theorem C05_target_classification (c : CategoryBits) (clutter : Grid Bool) (t h : ℕ) :
    targetClassification c clutter t h =
      Spec.target (c.droplet t h) (c.falling t h) (c.freezing t h) (c.melting t h) (c.aerosol t h)
        (c.insect t h) (clutter t h) := by
  simp only [targetClassification, Grid.assign_apply, Grid.const_apply, gand_apply, gnot_apply]
  generalize c.droplet t h = a1
  generalize c.falling t h = a2
  generalize c.freezing t h = a3
  generalize c.melting t h = a4
  generalize c.aerosol t h = a5
  generalize c.insect t h = a6
  generalize clutter t h = a7
  revert a1 a2 a3 a4 a5 a6 a7
  decide

/-- C05. The class is always one of `0..10`, and all eleven occur. -/
theorem C05_target_range (c : CategoryBits) (clutter : Grid Bool) (t h : ℕ) :
    targetClassification c clutter t h ≤ 10 := by
  rw [C05_target_classification]
  generalize c.droplet t h = a1
  generalize c.falling t h = a2
  generalize c.freezing t h = a3
  generalize c.melting t h = a4
  generalize c.aerosol t h = a5
  generalize c.insect t h = a6
  generalize clutter t h = a7
  revert a1 a2 a3 a4 a5 a6 a7
  decide

/-- C05 end to end: the product computed from the two bit fields stored in a categorize file that was
written from the masks `c` and `q`. -/
theorem C05_target_from_file (c : CategoryBits) (q : QualityBits) (t h : ℕ) :
    (do let c' ← readCategoryBits (classesToBits c.fields)
        let q' ← readQualityBits (classesToBits q.fields)
        return targetClassification c' q'.clutter t h) =
      .ok (Spec.target (c.droplet t h) (c.falling t h) (c.freezing t h) (c.melting t h)
        (c.aerosol t h) (c.insect t h) (q.clutter t h)) := by
  rw [C01_category_bits_round_trip, C02_quality_bits_round_trip]
  simp only [bind, Except.bind, pure, Except.pure, C05_target_classification]

example : ∀ n ≤ 10, ∃ d f z m a i x : Bool, Spec.target d f z m a i x = n := by decide

/-- C06. The detection status of every pixel is the one of the decision table `Spec.detection`: a
pixel is attenuated if any of the three attenuation bits is set, and corrected if it is attenuated
and every attenuation that is present has its corrected bit set. -/
theorem C06_detection_status (q : QualityBits) (t h : ℕ) :
    detectionStatus q t h =
      Spec.detection (q.radar t h) (q.lidar t h) (q.clutter t h) (q.molecular t h)
        (decide (q.attenuatedLiquid t h = true ∨ q.attenuatedRain t h = true ∨
          q.attenuatedMelting t h = true))
        (decide ((q.attenuatedLiquid t h = true → q.correctedLiquid t h = true) ∧
          (q.attenuatedRain t h = true → q.correctedRain t h = true) ∧
          (q.attenuatedMelting t h = true → q.correctedMelting t h = true))) := by
  simp only [detectionStatus, isAttenuatedMask, isCorrectedMask, Grid.assign_apply,
    Grid.const_apply, gand_apply, gor_apply, gnot_apply]
  generalize q.radar t h = a1
  generalize q.lidar t h = a2
  generalize q.clutter t h = a3
  generalize q.molecular t h = a4
  generalize q.attenuatedLiquid t h = a5
  generalize q.correctedLiquid t h = a6
  generalize q.attenuatedRain t h = a7
  generalize q.correctedRain t h = a8
  generalize q.attenuatedMelting t h = a9
  generalize q.correctedMelting t h = a10
  revert a1 a2 a3 a4 a5 a6 a7 a8 a9 a10
  decide +kernel

/-- C06. The status is always one of `0..9`. -/
theorem C06_detection_range (q : QualityBits) (t h : ℕ) : detectionStatus q t h ≤ 9 := by
  rw [C06_detection_status]
  generalize decide (q.attenuatedLiquid t h = true ∨ q.attenuatedRain t h = true ∨
    q.attenuatedMelting t h = true) = x
  generalize decide ((q.attenuatedLiquid t h = true → q.correctedLiquid t h = true) ∧
    (q.attenuatedRain t h = true → q.correctedRain t h = true) ∧
    (q.attenuatedMelting t h = true → q.correctedMelting t h = true)) = y
  generalize q.radar t h = a1
  generalize q.lidar t h = a2
  generalize q.clutter t h = a3
  generalize q.molecular t h = a4
  revert a1 a2 a3 a4 x y
  decide

/-- C06. A radar echo with liquid attenuation corrected but rain attenuation not corrected is
reported as uncertain, not as corrected. -/
example : ∃ q : QualityBits, q.radar 0 0 = true ∧ q.correctedLiquid 0 0 = true ∧
    detectionStatus q 0 0 = 2 :=
  ⟨⟨fun _ _ => true, fun _ _ => false, fun _ _ => false, fun _ _ => false, fun _ _ => true,
    fun _ _ => true, fun _ _ => true, fun _ _ => false, fun _ _ => false, fun _ _ => false⟩,
    by decide⟩

example : ∀ n ≤ 9, ∃ r l c m a k : Bool, Spec.detection r l c m a k = n := by decide

/-- C07. The signal source of every pixel is 1 iff both instruments have signal, 2 iff only the
radar, 3 iff only the lidar, 0 iff none. -/
theorem C07_signal_source (q : QualityBits) (t h : ℕ) :
    signalSourceStatus q t h = Spec.signalSource (q.radar t h) (q.lidar t h) := by
  simp only [signalSourceStatus, Grid.assign_apply, Grid.const_apply, gand_apply, gnot_apply]
  generalize q.radar t h = a1
  generalize q.lidar t h = a2
  revert a1 a2
  decide

/-- C07. The four codes partition the pixels. -/
theorem C07_signal_source_iff (q : QualityBits) (t h : ℕ) :
    (signalSourceStatus q t h = 0 ↔ q.radar t h = false ∧ q.lidar t h = false) ∧
    (signalSourceStatus q t h = 1 ↔ q.radar t h = true ∧ q.lidar t h = true) ∧
    (signalSourceStatus q t h = 2 ↔ q.radar t h = true ∧ q.lidar t h = false) ∧
    (signalSourceStatus q t h = 3 ↔ q.radar t h = false ∧ q.lidar t h = true) := by
  rw [C07_signal_source]
  generalize q.radar t h = a1
  generalize q.lidar t h = a2
  revert a1 a2
  decide

example : ∃ q : QualityBits, signalSourceStatus q 0 0 = 2 ∧ signalSourceStatus q 0 1 = 3 :=
  ⟨⟨fun _ h => h == 0, fun _ h => h == 1, fun _ _ => false, fun _ _ => false, fun _ _ => true,
    fun _ _ => true, fun _ _ => true, fun _ _ => false, fun _ _ => false, fun _ _ => false⟩,
    by decide⟩

section
variable {α : Type*} [Field α] [LinearOrder α] [IsStrictOrderedRing α]

/-- C10. The radar attenuation status of a pixel is 6 (undetected) iff some pixel below it in the
same profile is severely attenuated and the pixel itself is not; otherwise it is the pixel's own
status by the table `Spec.attenuation`. -/
theorem C10_radar_attenuation_status (d : AttenuationInput α) (q : QualityBits) (t h : ℕ) :
    ((∃ k < h, Spec.ownStatus d q t k = 4) ∧ Spec.ownStatus d q t h ≠ 4 →
      radarAttenuationStatus d q t h = 6) ∧
    (¬ ((∃ k < h, Spec.ownStatus d q t k = 4) ∧ Spec.ownStatus d q t h ≠ 4) →
      radarAttenuationStatus d q t h = Spec.ownStatus d q t h) := by
  have hown : ∀ h, ((((((Grid.const 0 : Grid ℕ).assign q.radar 1).assign
      (gand (attenuationClasses d).small q.radar) 2).assign
      (gand (attenuationClasses d).moderate q.radar) 3).assign
      (gand (attenuationClasses d).severe q.radar) 4).assign
      (gand (gand (gnot (isCorrectedMask q)) (isAttenuatedMask q)) q.radar) 5) t h
      = Spec.ownStatus d q t h := by
    intro h
    have hs : (attenuationClasses d).small t h = true ↔ 0 < Spec.totalAt d t h := by
      simp [attenuationClasses, Spec.totalAt, filled0_eq]
    have hm : (attenuationClasses d).moderate t h = true ↔ 10 ≤ Spec.totalAt d t h := by
      simp [attenuationClasses, Spec.totalAt, filled0_eq]
    have hsev := strong_iff d t h
    have hu := uncorrected_mask q t h
    have h1510 : 15 < Spec.totalAt d t h → 10 ≤ Spec.totalAt d t h := fun h' => by linarith
    have h100 : 10 ≤ Spec.totalAt d t h → 0 < Spec.totalAt d t h := fun h' => by linarith
    simp only [Spec.ownStatus, Spec.attenuation, Grid.assign_apply, Grid.const_apply]
    rw [gand_apply (gand (gnot (isCorrectedMask q)) (isAttenuatedMask q)),
      gand_apply (attenuationClasses d).severe, gand_apply (attenuationClasses d).moderate,
      gand_apply (attenuationClasses d).small]
    classical
    have hs' := Bool.eq_iff_iff.2 (hs.trans decide_eq_true_iff.symm)
    have hm' := Bool.eq_iff_iff.2 (hm.trans decide_eq_true_iff.symm)
    have hsev' := Bool.eq_iff_iff.2 (hsev.trans decide_eq_true_iff.symm)
    have hu' := Bool.eq_iff_iff.2 (hu.trans decide_eq_true_iff.symm)
    rw [hs', hm', hsev', hu']
    cases hr : q.radar t h
    · simp
    · by_cases c1 : Spec.uncorrectedAt q t h <;> by_cases c2 : Spec.strongAt d t <;>
        by_cases c3 : 15 < Spec.totalAt d t h <;> by_cases c4 : 10 ≤ Spec.totalAt d t h <;>
        simp [c1, c2, c3, c4, Bool.cond_eq_ite]
  have hff : ffillGrid (fun t h => Spec.ownStatus d q t h == 4) false t h = true ↔
      ∃ k ≤ h, Spec.ownStatus d q t k = 4 := by
    rw [C25_ffill_mask]; simp
  have hfun : ffillGrid (fun t h => ((((((Grid.const 0 : Grid ℕ).assign q.radar 1).assign
      (gand (attenuationClasses d).small q.radar) 2).assign
      (gand (attenuationClasses d).moderate q.radar) 3).assign
      (gand (attenuationClasses d).severe q.radar) 4).assign
      (gand (gand (gnot (isCorrectedMask q)) (isAttenuatedMask q)) q.radar) 5) t h == 4) false t h
      = ffillGrid (fun t h => Spec.ownStatus d q t h == 4) false t h := by
    unfold ffillGrid
    congr 1
    funext k
    simp only [hown]
  have hmain : radarAttenuationStatus d q t h =
      if (∃ k ≤ h, Spec.ownStatus d q t k = 4) ∧ Spec.ownStatus d q t h ≠ 4 then 6
      else Spec.ownStatus d q t h := by
    unfold radarAttenuationStatus
    rw [Grid.assign_apply, gand_apply, gnot_apply, hfun, hown]
    by_cases h1 : ∃ k ≤ h, Spec.ownStatus d q t k = 4
    · rw [hff.2 h1]
      by_cases h2 : Spec.ownStatus d q t h = 4 <;> simp [h1, h2, Bool.cond_eq_ite]
    · have : ffillGrid (fun t h => Spec.ownStatus d q t h == 4) false t h = false := by
        rw [← Bool.not_eq_true, hff]; exact h1
      rw [this]; simp [h1]
  have hlt : (∃ k < h, Spec.ownStatus d q t k = 4) ∧ Spec.ownStatus d q t h ≠ 4 ↔
      (∃ k ≤ h, Spec.ownStatus d q t k = 4) ∧ Spec.ownStatus d q t h ≠ 4 := by
    constructor
    · rintro ⟨⟨k, hk, e⟩, h2⟩; exact ⟨⟨k, by omega, e⟩, h2⟩
    · rintro ⟨⟨k, hk, e⟩, h2⟩
      rcases Nat.lt_or_ge k h with h3 | h3
      · exact ⟨⟨k, h3, e⟩, h2⟩
      · obtain rfl : k = h := by omega
        exact absurd e h2
  rw [hmain, hlt]
  constructor
  · intro hc; rw [if_pos hc]
  · intro hc; rw [if_neg hc]

/-- C10. Below 90 GHz the liquid water path and the rain rate have no influence at all. -/
theorem C10_low_frequency (d d' : AttenuationInput α) (q : QualityBits)
    (hf : d.radarFrequency < 90) (hf' : d'.radarFrequency < 90)
    (h1 : d.liquidAtten = d'.liquidAtten) (h2 : d.rainAtten = d'.rainAtten)
    (h3 : d.meltingAtten = d'.meltingAtten) :
    radarAttenuationStatus d q = radarAttenuationStatus d' q := by
  have : attenuationClasses d = attenuationClasses d' := by
    simp only [attenuationClasses, hf, hf', h1, h2, h3, decide_true, if_true]
    cases d.lwp <;> cases d'.lwp <;> cases d.rainfallRate <;> cases d'.rainfallRate <;> rfl
  unfold radarAttenuationStatus
  rw [this]

/-- A profile with a severely attenuated gate 1 (16 dB): negligible, severe, undetected, and the
undetected status also hides the radar echo of gate 3. -/
example : ∃ (d : AttenuationInput ℚ) (q : QualityBits), q.radar 0 3 = true ∧
    (List.range 4).map (radarAttenuationStatus d q 0) = [1, 4, 6, 6] :=
  ⟨⟨fun _ h => if h = 1 then some 16 else none, fun _ _ => some 0, fun _ _ => none, 94, none, none⟩,
   ⟨fun _ h => h != 2, fun _ _ => false, fun _ _ => false, fun _ _ => false, fun _ _ => false,
    fun _ _ => false, fun _ _ => false, fun _ _ => false, fun _ _ => false, fun _ _ => false⟩,
   by decide +kernel, by decide +kernel⟩

/-- C11. If the cloud top of a profile is the height of gate `k` of a strictly increasing height
grid, the cloud top status is: 4 (above range) if `k` is the last gate; else 2 if the radar
attenuation status of gate `k` is uncorrected (5), 3 if severe (4), 1 if moderate (3), 0 otherwise. -/
theorem C11_cloud_top_status (height : ℕ → α) (nH k : ℕ) (attStatus : ℕ → ℕ) (hk : k < nH)
    (hinc : ∀ i j, i < j → j < nH → height i < height j) :
    cloudTopStatus height nH (height k) attStatus =
      if k = nH - 1 then 4
      else match attStatus k with
        | 5 => 2
        | 4 => 3
        | 3 => 1
        | _ => 0 := by
  have hne : ∀ i, i < nH → i ≠ k → height i ≠ height k := by
    intro i hi hik
    rcases Nat.lt_or_gt_of_ne hik with h | h
    · exact ne_of_lt (hinc i k h hk)
    · exact ne_of_gt (hinc k i h hi)
  have harg : argmin (fun h => |height h - height k|) (nH - 1) = k := by
    apply argmin_unique
    · omega
    · intro i hi; simp
    · intro i hi
      simp only [sub_self, abs_zero]
      exact abs_pos.2 (sub_ne_zero.2 (hne i (by omega) (by omega)))
  simp only [cloudTopStatus, harg]
  by_cases hl : k = nH - 1
  · subst hl; simp
  · have : ¬ (height k ≥ height (nH - 1)) := not_le.2 (hinc k (nH - 1) (by omega) (by omega))
    rw [if_neg this, if_neg hl]
    generalize attStatus k = s
    rcases s with _ | _ | _ | _ | _ | _ | s <;> simp

/-- C11. In general the gate looked up is the one nearest to the cloud top. -/
theorem C11_cloud_top_nearest (height : ℕ → α) (nH : ℕ) (top : α) (attStatus : ℕ → ℕ) (hn : 0 < nH)
    (hlow : top < height (nH - 1)) :
    ∃ k < nH, (∀ i < nH, |height k - top| ≤ |height i - top|) ∧
      cloudTopStatus height nH top attStatus = (match attStatus k with
        | 5 => 2
        | 4 => 3
        | 3 => 1
        | _ => 0) := by
  obtain ⟨h1, h2, _⟩ := argmin_spec (fun h => |height h - top|) (nH - 1)
  refine ⟨argmin (fun h => |height h - top|) (nH - 1), by omega, fun i hi => h2 i (by omega), ?_⟩
  simp only [cloudTopStatus]
  rw [if_neg (not_le.2 hlow)]
  generalize attStatus _ = s
  rcases s with _ | _ | _ | _ | _ | _ | s <;> simp

example : cloudTopStatus (fun h => (100 : ℚ) + 30 * h) 5 160 (fun h => h + 2) = 3 := by decide +kernel

end

end Cloudnet
