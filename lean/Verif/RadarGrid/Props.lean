import Verif.RadarGrid.Model
import Verif.Radar.Props
import Verif.Components.Props
import Verif.Categorize.Props
import Verif.Source.Props
import Mathlib.Tactic

/-! C148: radar data on the grid of the categorize file. -/

namespace Cloudnet

/-! ### Specification -/

namespace Spec

/-- The decibels `y` of the mean, over the profiles with a value in gate `h`, in linear units; missing if there are none (or the mean is not positive).
`db` tells whether the values are decibels. -/
def MeanInDecibels (db : Prop) [Decidable db] (x : Grid (Option ℝ)) (h : ℕ) (profiles : Finset ℕ) (y : Option ℝ) : Prop :=
  let measured := unmasked x h profiles
  let linear : ℕ → ℝ := fun i => if db then (10 : ℝ) ^ ((x i h).getD 0 / 10) else (x i h).getD 0
  ∀ w, y = some w ↔ measured.Nonempty ∧ (10 : ℝ) ^ (w / 10) = (∑ i ∈ measured, linear i) / measured.card

/-- The mean of the measured values. -/
def MeanOrMissing (x : Grid (Option ℝ)) (h : ℕ) (profiles : Finset ℕ) (y : Option ℝ) : Prop :=
  let measured := unmasked x h profiles
  ∀ w, y = some w ↔ measured.Nonempty ∧ w = (∑ i ∈ measured, (x i h).getD 0) / measured.card

/-- A value that is kept: it has a value before or after it. -/
def HasNeighbour {β : Type} (nT : ℕ) (x : Grid (Option β)) (t h : ℕ) : Prop :=
  (t + 1 < nT ∧ x (t + 1) h ≠ none) ∨ (0 < t ∧ x (t - 1) h ≠ none)

/-- `y` is `x` without the values alone in time. -/
def Unspeckled {β : Type} (nT nH : ℕ) (x y : Grid (Option β)) : Prop :=
  ∀ t < nT, ∀ h < nH, (HasNeighbour nT x t h → y t h = x t h) ∧ (¬ HasNeighbour nT x t h → y t h = none)

/-- Number of profiles with a value. -/
noncomputable def profilesWithData {β : Type} (nT nH : ℕ) (x : Grid (Option β)) : ℕ :=
  open Classical in ((Finset.range nT).filter fun t => ∃ h < nH, x t h ≠ none).card

/-- The velocity `w` is `v` without the stripes that `data` shows, if there are enough profiles. -/
def StripesFromVelocity {β : Type} (nT nH : ℕ) (data z v w : Grid (Option β)) : Prop :=
  (profilesWithData nT nH data < 300 → w = v) ∧
  (300 ≤ profilesWithData nT nH data → Without v w fun t h => IsolatedProfile nT nH data z t h ∨ IsolatedGate nT nH data z t h)

/-- `y` is `x` without its own stripes: first of profiles, then of gates. -/
def OwnStripes {β : Type} (nT nH : ℕ) (x y : Grid (Option β)) : Prop :=
  (profilesWithData nT nH x < 300 → y = x) ∧
  (300 ≤ profilesWithData nT nH x → ∃ u, Without x u (IsolatedProfile nT nH x x) ∧ Without u y (IsolatedGate nT nH x u))

/-- `RPG` and `BASTA` radars. -/
def SpeckledSource (source : String) : Prop :=
  "rpg".toList <:+: source.toList.map Char.toLower ∨ "basta".toList <:+: source.toList.map Char.toLower

end Spec

/-! ### Means in linear units -/

theorem ten_rpow_pos (y : ℝ) : (0 : ℝ) < 10 ^ y := Real.rpow_pos_of_pos (by norm_num) y

theorem rebin2d_mean_gaps {nIn : ℕ} {time : ℕ → ℝ} {x : Grid (Option ℝ)} {n : ℕ} (hn : 2 ≤ n) {timeNew : ℕ → ℝ} {d : ℝ}
    (hx : Spec.EvenlySpaced n timeNew d) :
    ∃ r, rebin2d maMean nIn time x n timeNew 1 false = .ok r ∧
      (∀ k, k ∈ r.emptyBins ↔ k < n ∧ Spec.profilesInBin nIn time (timeNew k) d = ∅) ∧
      ∀ k < n, ∀ h, Spec.MeanOrMissing x h (Spec.profilesInBin nIn time (timeNew k) d) (r.result k h) := by
  obtain ⟨r, hr, h1, h2⟩ := C30_rebin_2d_mean nIn time x hn hx (nMin := 1) le_rfl
  refine ⟨r, hr, fun k => ?_, fun k hk h => ?_⟩
  · by_cases hk : k < n
    · have := (h1 k hk 0).1
      simp only [Nat.lt_one_iff, Finset.card_eq_zero] at this
      simp [hk, this]
    · rw [h2 k (by omega)]
      constructor
      · rintro ⟨-, s, -, h3, h4⟩
        omega
      · rintro ⟨h3, -⟩
        exact absurd h3 hk
  · obtain ⟨-, h3, h4⟩ := h1 k hk h
    set profiles := Spec.profilesInBin nIn time (timeNew k) d
    have hne : (Spec.unmasked x h profiles).Nonempty ↔ r.result k h ≠ none := by
      rw [Ne, h3]
      simp only [Nat.lt_one_iff, Finset.card_eq_zero, Spec.unmasked, Finset.filter_nonempty_iff]
      constructor
      · rintro ⟨i, hi, hs⟩ (h5 | h5)
        · rw [h5] at hi
          simp at hi
        · rw [h5 i hi] at hs
          simp at hs
      · intro h5
        push Not at h5
        obtain ⟨i, hi, hs⟩ := h5.2
        exact ⟨i, hi, Option.isSome_iff_ne_none.2 hs⟩
    intro w
    show r.result k h = some w ↔ (Spec.unmasked x h profiles).Nonempty ∧ _
    rw [hne]
    constructor
    · intro h5
      exact ⟨by simp [h5], h4 w h5⟩
    · rintro ⟨h5, h6⟩
      obtain ⟨w', hw'⟩ := Option.ne_none_iff_exists'.1 h5
      rw [hw', h6, h4 w' hw']

/-- **C148.** A variable is averaged in linear units and returned in decibels, whatever its units; the reported times are those without a profile. -/
theorem C148_decibels (nIn : ℕ) (time : ℕ → ℝ) (x : Grid (Option ℝ)) (units : String) {n : ℕ} (hn : 2 ≤ n) {timeNew : ℕ → ℝ} {d : ℝ}
    (hx : Spec.EvenlySpaced n timeNew d) :
    ∃ y gaps, rebinDecibels nIn time x units n timeNew = .ok (y, gaps) ∧
      (∀ k, k ∈ gaps ↔ k < n ∧ Spec.profilesInBin nIn time (timeNew k) d = ∅) ∧
      ∀ k < n, ∀ h, Spec.MeanInDecibels ("db".toList <:+: units.toList.map Char.toLower) x h (Spec.profilesInBin nIn time (timeNew k) d) (y k h) := by
  obtain ⟨r, hr, h1, h2⟩ := rebin2d_mean_gaps (nIn := nIn) (time := time) (x := fun t => (UnitArray.mk (x t) units).db2lin.data) hn hx
  refine ⟨_, _, by rw [rebinDecibels, hr]; rfl, h1, fun k hk h => ?_⟩
  have h3 := h2 k hk h
  set profiles := Spec.profilesInBin nIn time (timeNew k) d
  have hdb : inDb (UnitArray.mk (x k) units).db2lin.units = false := (C101_db2lin _).1
  have hun : Spec.unmasked (fun t => (UnitArray.mk (x t) units).db2lin.data) h profiles = Spec.unmasked x h profiles := by
    apply Finset.filter_congr
    intro i _
    by_cases hd : inDb units = true <;> simp [UnitArray.db2lin, hd]
  have hlin : ∀ i ∈ Spec.unmasked x h profiles, ((UnitArray.mk (x i) units).db2lin.data h).getD 0 =
      if "db".toList <:+: units.toList.map Char.toLower then (10 : ℝ) ^ ((x i h).getD 0 / 10) else (x i h).getD 0 := by
    intro i hi
    obtain ⟨a, ha⟩ := Option.isSome_iff_exists.1 (Finset.mem_filter.1 hi).2
    by_cases hd : "db".toList <:+: units.toList.map Char.toLower
    · have : inDb units = true := decide_eq_true hd
      rw [if_pos hd]
      simp [UnitArray.db2lin, this, ha]
    · have : inDb units = false := decide_eq_false hd
      rw [if_neg hd]
      simp [UnitArray.db2lin, this, ha]
  intro w
  have h4 := (C101_lin2db (UnitArray.mk (r.result k) (UnitArray.mk (x k) units).db2lin.units)).2.2.2 hdb h w
  rw [h4]
  simp only [Spec.MeanOrMissing, hun] at h3
  rw [Finset.sum_congr rfl hlin] at h3
  constructor
  · rintro ⟨a, ha, h5, h6⟩
    obtain ⟨h7, h8⟩ := (h3 a).1 ha
    exact ⟨h7, by rw [← h6, h8]⟩
  · rintro ⟨h7, h8⟩
    exact ⟨_, (h3 _).2 ⟨h7, h8⟩, ten_rpow_pos _, rfl⟩

/-- **C148.** Measured decibels never get lost: the mean is missing only if no profile of the time has a value. It lies between the smallest and the
largest of the values and is at least their mean in decibels. -/
theorem C148_bounds (x : Grid (Option ℝ)) (h : ℕ) (profiles : Finset ℕ) (y : Option ℝ) (hy : Spec.MeanInDecibels True x h profiles y) :
    let measured := Spec.unmasked x h profiles
    (y = none ↔ ∀ i ∈ profiles, x i h = none) ∧
    ∀ w, y = some w →
      (∀ lo, (∀ i ∈ profiles, ∀ a, x i h = some a → lo ≤ a) → lo ≤ w) ∧
      (∀ hi, (∀ i ∈ profiles, ∀ a, x i h = some a → a ≤ hi) → w ≤ hi) ∧
      (∑ i ∈ measured, (x i h).getD 0) / measured.card ≤ w := by
  intro measured
  simp only [Spec.MeanInDecibels, if_true] at hy
  have hmem : ∀ i, i ∈ measured ↔ i ∈ profiles ∧ ∃ a, x i h = some a := fun i => by
    simp [measured, Spec.unmasked, Option.isSome_iff_exists]
  have hone : (1 : ℝ) < 10 := by norm_num
  refine ⟨?_, fun w hw => ?_⟩
  · constructor
    · intro hn i hi
      by_contra hc
      obtain ⟨a, ha⟩ := Option.ne_none_iff_exists'.1 hc
      have hne : measured.Nonempty := ⟨i, (hmem i).2 ⟨hi, a, ha⟩⟩
      have hpos : 0 < (∑ i ∈ measured, (10 : ℝ) ^ ((x i h).getD 0 / 10)) / measured.card :=
        div_pos (Finset.sum_pos (fun _ _ => ten_rpow_pos _) hne) (by exact_mod_cast hne.card_pos)
      have := (hy (10 * Real.logb 10 ((∑ i ∈ measured, (10 : ℝ) ^ ((x i h).getD 0 / 10)) / measured.card))).2 ⟨hne, by
        rw [mul_div_cancel_left₀ _ (by norm_num : (10 : ℝ) ≠ 0), Real.rpow_logb (by norm_num) (by norm_num) hpos]⟩
      rw [hn] at this
      cases this
    · intro hall
      rcases hyy : y with _ | w
      · rfl
      · obtain ⟨⟨i, hi⟩, -⟩ := (hy w).1 hyy
        obtain ⟨h1, a, h2⟩ := (hmem i).1 hi
        rw [hall i h1] at h2
        cases h2
  · obtain ⟨hne, he⟩ := (hy w).1 hw
    have hc : (0 : ℝ) < measured.card := by exact_mod_cast hne.card_pos
    have he' : (10 : ℝ) ^ (w / 10) * measured.card = ∑ i ∈ measured, (10 : ℝ) ^ ((x i h).getD 0 / 10) := by
      rw [he]
      exact div_mul_cancel₀ _ hc.ne'
    refine ⟨fun lo hlo => ?_, fun hi hhi => ?_, ?_⟩
    · have : (measured.card : ℝ) * 10 ^ (lo / 10) ≤ ∑ i ∈ measured, (10 : ℝ) ^ ((x i h).getD 0 / 10) := by
        rw [← nsmul_eq_mul, ← Finset.sum_const]
        apply Finset.sum_le_sum
        intro i hi
        obtain ⟨h1, a, h2⟩ := (hmem i).1 hi
        rw [h2, Option.getD_some]
        exact (Real.rpow_le_rpow_left_iff hone).2 (by have := hlo i h1 a h2; linarith)
      have h2 : (10 : ℝ) ^ (lo / 10) ≤ 10 ^ (w / 10) := by
        rw [← he'] at this
        nlinarith
      have := (Real.rpow_le_rpow_left_iff hone).1 h2
      linarith
    · have : ∑ i ∈ measured, (10 : ℝ) ^ ((x i h).getD 0 / 10) ≤ (measured.card : ℝ) * 10 ^ (hi / 10) := by
        rw [← nsmul_eq_mul, ← Finset.sum_const]
        apply Finset.sum_le_sum
        intro i hi'
        obtain ⟨h1, a, h2⟩ := (hmem i).1 hi'
        rw [h2, Option.getD_some]
        exact (Real.rpow_le_rpow_left_iff hone).2 (by have := hhi i h1 a h2; linarith)
      have h2 : (10 : ℝ) ^ (w / 10) ≤ 10 ^ (hi / 10) := by
        rw [← he'] at this
        nlinarith
      have := (Real.rpow_le_rpow_left_iff hone).1 h2
      linarith
    · -- `10 ^ a ≥ 10 ^ w (1 + (a - w) log 10)`
      have hlog : 0 < Real.log 10 := Real.log_pos hone
      have key : ∀ a : ℝ, (10 : ℝ) ^ (w / 10) * (1 + (a - w) / 10 * Real.log 10) ≤ 10 ^ (a / 10) := by
        intro a
        have h1 : (10 : ℝ) ^ (a / 10) = 10 ^ (w / 10) * 10 ^ ((a - w) / 10) := by
          rw [← Real.rpow_add (by norm_num)]
          congr 1
          ring
        rw [h1]
        apply mul_le_mul_of_nonneg_left _ (ten_rpow_pos _).le
        rw [Real.rpow_def_of_pos (by norm_num)]
        have := Real.add_one_le_exp (Real.log 10 * ((a - w) / 10))
        linarith
      have hsum := Finset.sum_le_sum fun i (_ : i ∈ measured) => key ((x i h).getD 0)
      rw [← he', ← Finset.mul_sum] at hsum
      have h2 : ∑ i ∈ measured, (1 + ((x i h).getD 0 - w) / 10 * Real.log 10) =
          measured.card + ((∑ i ∈ measured, (x i h).getD 0) - measured.card * w) / 10 * Real.log 10 := by
        rw [Finset.sum_add_distrib, Finset.sum_const, nsmul_eq_mul, mul_one, ← Finset.sum_mul, ← Finset.sum_div, Finset.sum_sub_distrib,
          Finset.sum_const, nsmul_eq_mul]
      rw [h2] at hsum
      have h3 : (measured.card : ℝ) + ((∑ i ∈ measured, (x i h).getD 0) - measured.card * w) / 10 * Real.log 10 ≤ measured.card :=
        le_of_mul_le_mul_left (by linarith) (ten_rpow_pos (w / 10))
      have h4 : ((∑ i ∈ measured, (x i h).getD 0) - measured.card * w) * Real.log 10 ≤ 0 := by linarith
      have h5 : (∑ i ∈ measured, (x i h).getD 0) - measured.card * w ≤ 0 := by
        by_contra hcon
        push Not at hcon
        have := mul_pos hcon hlog
        linarith
      rw [div_le_iff₀ hc]
      linarith

/-- **C148.** The result does not depend on the scale of the variable in the file: values in linear units give the same decibels. -/
theorem C148_scale (nIn : ℕ) (time : ℕ → ℝ) (x : Grid (Option ℝ)) {n : ℕ} (hn : 2 ≤ n) {timeNew : ℕ → ℝ} {d : ℝ} (hx : Spec.EvenlySpaced n timeNew d) :
    ∃ y y' gaps, rebinDecibels nIn time x "dB" n timeNew = .ok (y, gaps) ∧
      rebinDecibels nIn time (fun t h => (x t h).map fun a => (10 : ℝ) ^ (a / 10)) "1" n timeNew = .ok (y', gaps) ∧ ∀ k < n, y k = y' k := by
  obtain ⟨y, gaps, h1, -, h3⟩ := C148_decibels nIn time x "dB" hn hx
  have e : ∀ t, (UnitArray.mk (x t) "dB").db2lin.data = (UnitArray.mk (fun h => (x t h).map fun a => (10 : ℝ) ^ (a / 10)) "1").db2lin.data := by
    intro t
    have a1 : inDb "dB" = true := by decide +kernel
    have a2 : inDb "1" = false := by decide +kernel
    simp [UnitArray.db2lin, a1, a2]
  obtain ⟨y', gaps', h4, -, h6⟩ := C148_decibels nIn time (fun t h => (x t h).map fun a => (10 : ℝ) ^ (a / 10)) "1" hn hx
  have hg : gaps = gaps' := by
    rw [rebinDecibels] at h1 h4
    simp only [e] at h1
    cases hr : rebin2d maMean nIn time (fun t => (UnitArray.mk (fun h => (x t h).map fun a => (10 : ℝ) ^ (a / 10)) "1").db2lin.data) n timeNew 1 false with
    | error => rw [hr] at h1; cases h1
    | ok r =>
      rw [hr] at h1 h4
      injection h1 with h1
      injection h4 with h4
      rw [← (Prod.mk.inj h1).2, ← (Prod.mk.inj h4).2]
  subst hg
  refine ⟨y, y', gaps, h1, h4, fun k hk => funext fun h => ?_⟩
  have b1 := h3 k hk h
  have b2 := h6 k hk h
  set profiles := Spec.profilesInBin nIn time (timeNew k) d
  have c1 : "db".toList <:+: "dB".toList.map Char.toLower := by decide +kernel
  have c2 : ¬ "db".toList <:+: "1".toList.map Char.toLower := by decide +kernel
  simp only [Spec.MeanInDecibels, c1, c2, if_true, if_false] at b1 b2
  have hun : Spec.unmasked (fun t h => (x t h).map fun a => (10 : ℝ) ^ (a / 10)) h profiles = Spec.unmasked x h profiles := by
    simp [Spec.unmasked]
  rw [hun] at b2
  have hs : ∑ i ∈ Spec.unmasked x h profiles, ((x i h).map fun a => (10 : ℝ) ^ (a / 10)).getD 0 =
      ∑ i ∈ Spec.unmasked x h profiles, (10 : ℝ) ^ ((x i h).getD 0 / 10) := by
    apply Finset.sum_congr rfl
    intro i hi
    obtain ⟨a, ha⟩ := Option.isSome_iff_exists.1 (Finset.mem_filter.1 hi).2
    simp [ha]
  rw [hs] at b2
  ext w
  rw [b1 w, b2 w]


/-! ### All variables -/

theorem std_or_missing {nIn : ℕ} {time : ℕ → ℝ} {x : Grid (Option ℝ)} {n : ℕ} (hn : 2 ≤ n) {timeNew : ℕ → ℝ} {d : ℝ}
    (hx : Spec.EvenlySpaced n timeNew d) :
    ∃ r, rebin2d maStd nIn time x n timeNew 1 true = .ok r ∧ ∀ k < n, ∀ h,
      let measured := Spec.unmasked x h (Spec.profilesInBin nIn time (timeNew k) d)
      ∀ s, r.result k h = some s ↔ measured.Nonempty ∧ s ≠ 0 ∧ Spec.IsStd measured (fun i => (x i h).getD 0) s := by
  obtain ⟨r0, hr0, h1, -⟩ := C30_rebin_2d_std nIn time x hn hx (nMin := 1) le_rfl
  obtain ⟨r, hr, -, h2⟩ := C30_mask_zeros maStd nIn time x n timeNew 1 r0 hr0
  refine ⟨r, hr, fun k hk h => ?_⟩
  obtain ⟨-, h3, h4⟩ := h1 k hk h
  intro measured s
  have hne : measured.Nonempty ↔ r0.result k h ≠ none := by
    rw [Ne, h3]
    simp only [Nat.lt_one_iff, Finset.card_eq_zero, measured, Spec.unmasked, Finset.filter_nonempty_iff]
    constructor
    · rintro ⟨i, hi, hs⟩ (h5 | h5)
      · rw [h5] at hi
        simp at hi
      · rw [h5 i hi] at hs
        simp at hs
    · intro h5
      push Not at h5
      obtain ⟨i, hi, hs⟩ := h5.2
      exact ⟨i, hi, Option.isSome_iff_ne_none.2 hs⟩
  rw [h2, hne]
  constructor
  · rintro ⟨h5, h6⟩
    exact ⟨by simp [h5], h6, h4 s h5⟩
  · rintro ⟨h5, h6, h7⟩
    obtain ⟨s', hs'⟩ := Option.ne_none_iff_exists'.1 h5
    have h8 := h4 s' hs'
    have : s = s' := by
      have e : s ^ 2 = s' ^ 2 := by rw [h7.2, h8.2]
      exact (pow_left_inj₀ h7.1 h8.1 (by norm_num)).1 e
    exact ⟨by rw [hs', this], h6⟩

namespace Spec

/-- The mean velocity `r` of a time: the plain mean if the file says that all values are dealiased, otherwise the mean on the circle of the largest
folding velocity. -/
def RadarVelocity (bits : Dealiased) (v folding : Grid (Option ℝ)) (h : ℕ) (profiles : Finset ℕ) (r : Option ℝ) : Prop :=
  let measured := unmasked v h profiles
  (bits = .every → MeanOrMissing v h profiles r) ∧
  (bits ≠ .every →
    ((∀ i ∈ profiles, folding i h = none) → r = none) ∧
    ∀ V, 0 < V → IsMax (unmasked folding h profiles) (fun i => (folding i h).getD 0) V →
      (r = none ↔ measured = ∅) ∧ ∀ w, r = some w → w = circularMean measured (fun i => (v i h).getD 0) V ∧ |w| ≤ V)

/-- Variables on the grid against those of the file. -/
structure OnRadarGrid (f : RadarInput) (folding : Grid (Option ℝ)) (n : ℕ) (timeNew : ℕ → ℝ) (d : ℝ) (g : RadarGridded) : Prop where
  z : ∀ k < n, ∀ h, MeanInDecibels True f.zh h (profilesInBin f.nT f.time (timeNew k) d) (g.z k h)
  sigma : ∀ k < n, ∀ h s, g.sigma k h = some s ↔ (unmasked f.v h (profilesInBin f.nT f.time (timeNew k) d)).Nonempty ∧ s ≠ 0 ∧
    IsStd (unmasked f.v h (profilesInBin f.nT f.time (timeNew k) d)) (fun i => (f.v i h).getD 0) s
  v : ∀ k < n, ∀ h, RadarVelocity f.bits f.v folding h (profilesInBin f.nT f.time (timeNew k) d) (g.v k h)
  ldr : (f.ldr = none → g.ldr = none) ∧ ∀ x units, f.ldr = some (x, units) → ∃ y, g.ldr = some y ∧ ∀ k < n, ∀ h,
    MeanInDecibels ("db".toList <:+: units.toList.map Char.toLower) x h (profilesInBin f.nT f.time (timeNew k) d) (y k h)
  width : (f.width = none → g.width = none) ∧ ∀ x, f.width = some x → ∃ y, g.width = some y ∧ ∀ k < n, ∀ h,
    MeanOrMissing x h (profilesInBin f.nT f.time (timeNew k) d) (y k h)
  sldr : (f.sldr = none → g.sldr = none) ∧ ∀ x units, f.sldr = some (x, units) → ∃ y, g.sldr = some y ∧ ∀ k < n, ∀ h,
    MeanInDecibels ("db".toList <:+: units.toList.map Char.toLower) x h (profilesInBin f.nT f.time (timeNew k) d) (y k h)
  rain : (f.rain = none → g.rain = none) ∧ ∀ x, f.rain = some x → ∃ y, g.rain = some y ∧ Rebinned1d IsMean f.nT f.time x n timeNew d y
  nyquist : ∀ k < n, ∀ h,
    (g.nyquist k h = none ↔ ∀ i ∈ profilesInBin f.nT f.time (timeNew k) d, folding i h = none) ∧
    ∀ V, g.nyquist k h = some V → IsMax (unmasked folding h (profilesInBin f.nT f.time (timeNew k) d)) (fun i => (folding i h).getD 0) V

end Spec

theorem meanInDecibels_congr {p q : Prop} [Decidable p] [Decidable q] (hpq : p ↔ q) {x : Grid (Option ℝ)} {h : ℕ} {s : Finset ℕ} {y : Option ℝ}
    (hm : Spec.MeanInDecibels p x h s y) : Spec.MeanInDecibels q x h s y := by
  unfold Spec.MeanInDecibels at *
  simpa [hpq] using hm

/-- **C148.** With a folding velocity in the file and data that are not partly dealiased, each variable has on the grid the mean (in linear units for
quantities in decibels, on the circle for the velocity, the standard deviation for the variability) of the profiles of each time, and the reported times
are those without a profile, whatever the variables. -/
theorem C148_on_grid (f : RadarInput) (folding : Grid (Option ℝ)) (hf : f.nyquist = some folding) (hb : f.bits ≠ .partly) {n : ℕ} (hn : 2 ≤ n)
    {timeNew : ℕ → ℝ} {d : ℝ} (hx : Spec.EvenlySpaced n timeNew d) :
    ∃ g gaps, radarToGrid f n timeNew = .ok (g, gaps) ∧ Spec.OnRadarGrid f folding n timeNew d g ∧
      ∀ k, k ∈ gaps ↔ k < n ∧ Spec.profilesInBin f.nT f.time (timeNew k) d = ∅ := by
  obtain ⟨z, gaps, hz, hgap, hz2⟩ := C148_decibels f.nT f.time f.zh "dBZ" hn hx
  obtain ⟨s, hs, hs2⟩ := std_or_missing (nIn := f.nT) (time := f.time) (x := f.v) hn hx
  obtain ⟨ny, hny, hny2, -⟩ := C30_rebin_2d_max f.nT f.time folding hn hx (nMin := 1) le_rfl
  have hv : ∃ v, rebinVelocity f.nT f.time f.v folding n timeNew f.bits = .ok v ∧ ∀ k < n, ∀ h,
      Spec.RadarVelocity f.bits f.v folding h (Spec.profilesInBin f.nT f.time (timeNew k) d) (v k h) := by
    by_cases he : f.bits = .every
    · obtain ⟨r, hr, -, hr2⟩ := rebin2d_mean_gaps (nIn := f.nT) (time := f.time) (x := f.v) hn hx
      refine ⟨r.result, ?_, fun k hk h => ⟨fun _ => hr2 k hk h, fun h => absurd he h⟩⟩
      rw [he]
      unfold rebinVelocity
      simp only [hny, hr, bind, Except.bind, pure, Except.pure]
    · obtain ⟨v, hv, hv2⟩ := C70_velocity f.nT f.time f.v folding hn hx f.bits (by
        cases hbb : f.bits <;> simp_all)
      exact ⟨v, hv, fun k hk h => ⟨fun h => absurd h he, fun _ => hv2 k hk h⟩⟩
  obtain ⟨v, hv, hv2⟩ := hv
  have hdb : ∀ p : Option (Grid (Option ℝ) × String), ∃ q, ifPresent p (fun p => rebinDecibels f.nT f.time p.1 p.2 n timeNew) = .ok q ∧
      (p = none → q = none) ∧ ∀ x units, p = some (x, units) → ∃ y gaps, q = some (y, gaps) ∧
        (∀ k, k ∈ gaps ↔ k < n ∧ Spec.profilesInBin f.nT f.time (timeNew k) d = ∅) ∧ ∀ k < n, ∀ h,
        Spec.MeanInDecibels ("db".toList <:+: units.toList.map Char.toLower) x h (Spec.profilesInBin f.nT f.time (timeNew k) d) (y k h) := by
    intro p
    rcases p with _ | ⟨x, units⟩
    · exact ⟨none, rfl, fun _ => rfl, fun _ _ h => by cases h⟩
    · obtain ⟨y, gaps, h1, h2, h3⟩ := C148_decibels f.nT f.time x units hn hx
      refine ⟨some (y, gaps), by simp only [ifPresent, h1]; rfl, fun h => (by cases h), fun x' u' h => ?_⟩
      cases h
      exact ⟨y, gaps, rfl, h2, h3⟩
  obtain ⟨l, hl, hl0, hl1⟩ := hdb f.ldr
  obtain ⟨sl, hsl, hsl0, hsl1⟩ := hdb f.sldr
  have hw : ∃ w, ifPresent f.width (fun w => rebin2d maMean f.nT f.time w n timeNew 1 false) = .ok w ∧
      (f.width = none → w = none) ∧ ∀ x, f.width = some x → ∃ y, w = some y ∧ ∀ k < n, ∀ h,
        Spec.MeanOrMissing x h (Spec.profilesInBin f.nT f.time (timeNew k) d) (y.result k h) := by
    rcases f.width with _ | x
    · exact ⟨none, rfl, fun _ => rfl, fun _ h => by cases h⟩
    · obtain ⟨r, hr, -, hr2⟩ := rebin2d_mean_gaps (nIn := f.nT) (time := f.time) (x := x) hn hx
      refine ⟨some r, by simp only [ifPresent, hr]; rfl, fun h => (by cases h), fun x' h => ?_⟩
      cases h
      exact ⟨r, rfl, hr2⟩
  obtain ⟨w, hw, hw0, hw1⟩ := hw
  have hr : ∃ r, ifPresent f.rain (fun r => rebin1d maMean f.nT f.time r n timeNew) = .ok r ∧
      (f.rain = none → r = none) ∧ ∀ x, f.rain = some x → ∃ y, r = some y ∧ Spec.Rebinned1d Spec.IsMean f.nT f.time x n timeNew d y := by
    rcases f.rain with _ | x
    · exact ⟨none, rfl, fun _ => rfl, fun _ h => by cases h⟩
    · obtain ⟨r, hr, hr2⟩ := C31_rebin_1d_mean f.nT f.time x hn hx
      refine ⟨some r, by simp only [ifPresent, hr]; rfl, fun h => (by cases h), fun x' h => ?_⟩
      cases h
      exact ⟨r, rfl, hr2⟩
  obtain ⟨r, hr, hr0, hr1⟩ := hr
  have hfold : foldingOf f = .ok folding := by simp [foldingOf, hf]
  refine ⟨_, _, by
    unfold radarToGrid
    simp only [hz, hs, hfold, hv, hny, hl, hw, hsl, hr, bind, Except.bind, pure, Except.pure]; rfl, ⟨?_, hs2, hv2, ?_, ?_, ?_, ⟨hr0, hr1⟩, ?_⟩, ?_⟩
  · intro k hk h
    exact meanInDecibels_congr (by decide +kernel) (hz2 k hk h)
  · refine ⟨fun h => by simp [hl0 h], fun x u h => ?_⟩
    obtain ⟨y, gaps, h1, -, h2⟩ := hl1 x u h
    exact ⟨y, by simp [h1], h2⟩
  · refine ⟨fun h => by simp [hw0 h], fun x h => ?_⟩
    obtain ⟨y, h1, h2⟩ := hw1 x h
    exact ⟨y.result, by simp [h1], h2⟩
  · refine ⟨fun h => by simp [hsl0 h], fun x u h => ?_⟩
    obtain ⟨y, gaps, h1, -, h2⟩ := hsl1 x u h
    exact ⟨y, by simp [h1], h2⟩
  · intro k hk h
    obtain ⟨-, h1, h2⟩ := hny2 k hk h
    refine ⟨?_, h2⟩
    rw [h1]
    simp only [Nat.lt_one_iff, Finset.card_eq_zero]
    constructor
    · rintro (h3 | h3)
      · intro i hi
        rw [h3] at hi
        simp at hi
      · exact h3
    · exact Or.inr
  · rcases hp : f.sldr with _ | ⟨x, u⟩
    · rcases hq : f.ldr with _ | ⟨x, u⟩
      · simpa [hsl0 hp, hl0 hq] using hgap
      · obtain ⟨y, gaps, h1, h2, -⟩ := hl1 x u hq
        simpa [hsl0 hp, h1] using h2
    · obtain ⟨y, gaps, h1, h2, -⟩ := hsl1 x u hp
      simpa [h1] using h2

/-- **C148.** The variability of the velocity is missing where at most one profile of the time has a velocity, or all have the same. -/
theorem C148_variability (f : RadarInput) (folding : Grid (Option ℝ)) (n : ℕ) (timeNew : ℕ → ℝ) (d : ℝ) (g : RadarGridded)
    (hg : Spec.OnRadarGrid f folding n timeNew d g) (k : ℕ) (hk : k < n) (h : ℕ) :
    let measured := Spec.unmasked f.v h (Spec.profilesInBin f.nT f.time (timeNew k) d)
    (g.sigma k h = none ↔ ∀ i ∈ measured, ∀ j ∈ measured, f.v i h = f.v j h) ∧
    ∀ s, g.sigma k h = some s → 0 < s ∧ 2 ≤ measured.card := by
  intro measured
  have h1 := hg.sigma k hk h
  have hval : ∀ i ∈ measured, f.v i h = some ((f.v i h).getD 0) := by
    intro i hi
    obtain ⟨a, ha⟩ := Option.isSome_iff_exists.1 (Finset.mem_filter.1 hi).2
    simp [ha]
  -- the standard deviation of the values
  set m := (∑ j ∈ measured, (f.v j h).getD 0) / measured.card with hm
  have hstd : measured.Nonempty → (∀ i ∈ measured, ∀ j ∈ measured, f.v i h = f.v j h) → ∀ s, Spec.IsStd measured (fun i => (f.v i h).getD 0) s → s = 0 := by
    intro hne heq s hs
    obtain ⟨i0, hi0⟩ := hne
    have hc : (measured.card : ℝ) ≠ 0 := by
      have := Finset.card_pos.2 ⟨i0, hi0⟩
      positivity
    have hmean : m = (f.v i0 h).getD 0 := by
      rw [hm, Finset.sum_congr rfl fun i hi => by rw [heq i hi i0 hi0], Finset.sum_const, nsmul_eq_mul, mul_div_cancel_left₀ _ hc]
    have h2 := hs.2
    simp only [← hm] at h2
    rw [Finset.sum_eq_zero fun i hi => by rw [heq i hi i0 hi0, hmean]; ring] at h2
    simpa using h2
  have key : g.sigma k h = none ↔ ∀ i ∈ measured, ∀ j ∈ measured, f.v i h = f.v j h := by
    constructor
    · intro hn i hi j hj
      have hne : measured.Nonempty := ⟨i, hi⟩
      have hc : (0 : ℝ) < measured.card := by exact_mod_cast hne.card_pos
      set q := (∑ i ∈ measured, ((f.v i h).getD 0 - m) ^ 2) / measured.card with hq
      have hq0 : 0 ≤ q := by positivity
      have hz : Real.sqrt q = 0 := by
        by_contra hc'
        have := (h1 (Real.sqrt q)).2 ⟨hne, hc', Real.sqrt_nonneg q, Real.sq_sqrt hq0⟩
        rw [hn] at this
        cases this
      have hq1 : q = 0 := by
        have := Real.sq_sqrt hq0
        rw [hz] at this
        simpa using this.symm
      have hsum : ∑ i ∈ measured, ((f.v i h).getD 0 - m) ^ 2 = 0 := by
        rw [hq, div_eq_zero_iff] at hq1
        exact hq1.resolve_right hc.ne'
      have hall := (Finset.sum_eq_zero_iff_of_nonneg fun i _ => sq_nonneg ((f.v i h).getD 0 - m)).1 hsum
      have e : ∀ i ∈ measured, (f.v i h).getD 0 = m := fun i hi => by
        have := pow_eq_zero_iff (two_ne_zero) |>.1 (hall i hi)
        linarith
      rw [hval i hi, hval j hj, e i hi, e j hj]
    · intro heq
      rcases hs : g.sigma k h with _ | s
      · rfl
      · obtain ⟨h2, h3, h4⟩ := (h1 s).1 hs
        exact absurd (hstd h2 heq s h4) h3
  refine ⟨key, fun s hs => ?_⟩
  obtain ⟨h2, h3, h4⟩ := (h1 s).1 hs
  refine ⟨lt_of_le_of_ne h4.1 (Ne.symm h3), ?_⟩
  by_contra hc
  have hone : measured.card = 1 := by
    have : 0 < measured.card := h2.card_pos
    omega
  obtain ⟨i, hi⟩ := Finset.card_eq_one.1 hone
  exact h3 (hstd h2 (by rw [hi]; simp) s h4)

/-- **C148.** A file whose folding velocity would have to be derived from the pulse repetition frequency is never accepted (and one without either
fails as well), nor is a file of partly dealiased data. -/
theorem C148_rejected (f : RadarInput) {n : ℕ} (hn : 2 ≤ n) {timeNew : ℕ → ℝ} {d : ℝ} (hx : Spec.EvenlySpaced n timeNew d) :
    (f.nyquist = none → ∃ e, radarToGrid f n timeNew = .error e ∧
      (f.prf = false → e = "RuntimeError: Unable to determine folding velocity") ∧
      (f.prf = true → f.bits ≠ .partly → e = "RuntimeError: dictionary changed size during iteration")) ∧
    (f.bits = .partly → ∃ e, radarToGrid f n timeNew = .error e) := by
  obtain ⟨z, gaps, hz, -⟩ := C148_decibels f.nT f.time f.zh "dBZ" hn hx
  obtain ⟨s, hs, -⟩ := std_or_missing (nIn := f.nT) (time := f.time) (x := f.v) hn hx
  constructor
  · intro h0
    unfold radarToGrid
    simp only [hz, hs, bind, Except.bind]
    cases hp : f.prf <;> cases hb : f.bits <;> simp [foldingOf, h0, hp, hb]
  · intro hb
    unfold radarToGrid
    simp only [hz, hs, bind, Except.bind]
    rcases hny : f.nyquist with _ | folding
    · cases hp : f.prf <;> simp [foldingOf, hny, hp, hb]
    · obtain ⟨⟨e, he⟩, -⟩ := C70_dealiased f.nT f.time f.v folding hn hx
      simp [foldingOf, hny, hb, he]

/-! ### Filters -/

theorem filterSpeckle_spec (nT nH : ℕ) (x : Grid (Option ℝ)) : Spec.Unspeckled nT nH x (filterSpeckle nT nH x) := by
  intro t ht h hh
  have h1 := C27_filter_x nT nH (fun t h => (x t h).isSome) t h ht hh
  simp only [Option.isSome_iff_ne_none] at h1
  by_cases hx : x t h = none
  · simp [filterSpeckle, hx]
  · have h2 : filterXPixels nT nH (fun t h => (x t h).isSome) t h = true ↔ Spec.HasNeighbour nT x t h := by
      rw [h1]
      simp [hx, Spec.HasNeighbour]
    constructor
    · intro h3
      simp [filterSpeckle, h2.2 h3]
    · intro h3
      have : filterXPixels nT nH (fun t h => (x t h).isSome) t h = false := by
        rw [← Bool.not_eq_true, h2]
        exact h3
      simp [filterSpeckle, this]

theorem filterStripes_own (nT nH : ℕ) (z v : Grid (Option ℝ)) :
    Spec.StripesFromVelocity nT nH v z v (filterStripes nT nH ⟨z, v, none⟩).v := by
  obtain ⟨h1, h2⟩ := C83_stripes nT nH ⟨z, v, none⟩
  constructor
  · intro h3
    rw [h1 (by simpa [Spec.profilesWithData] using h3)]
  · intro h3
    exact (h2 (by simpa [Spec.profilesWithData] using h3)).2.1

theorem filterStripes_other (nT nH : ℕ) (z v x : Grid (Option ℝ)) :
    Spec.StripesFromVelocity nT nH x z v (filterStripes nT nH ⟨z, v, some x⟩).v ∧
    ∃ y, (filterStripes nT nH ⟨z, v, some x⟩).other = some y ∧ Spec.OwnStripes nT nH x y := by
  obtain ⟨h1, h2⟩ := C83_stripes nT nH ⟨z, v, some x⟩
  constructor
  · constructor
    · intro h3
      rw [h1 (by simpa [Spec.profilesWithData] using h3)]
    · intro h3
      exact (h2 (by simpa [Spec.profilesWithData] using h3)).2.1
  · by_cases h3 : Spec.profilesWithData nT nH x < 300
    · refine ⟨x, by rw [h1 (by simpa [Spec.profilesWithData] using h3)], fun _ => rfl, fun h => by omega⟩
    · obtain ⟨x1, x2, h4, h5, h6⟩ := (h2 (by simpa [Spec.profilesWithData] using h3)).2.2.2 x rfl
      exact ⟨x2, h4, fun h => by omega, fun _ => ⟨x1, h5, h6⟩⟩

namespace Spec

/-- Fields of the valid times, before and after the removal of speckle and of the artefact of the first gate. -/
structure WithoutSpeckle (source : String) (nT nH : ℕ) (g : RadarGridded) (z v s : Grid (Option ℝ)) (w l : Option (Grid (Option ℝ))) : Prop where
  clean : ¬ SpeckledSource source → z = g.z ∧ v = g.v ∧ s = g.sigma ∧ w = g.width ∧ l = g.ldr
  speckled : SpeckledSource source →
    Unspeckled nT nH g.z z ∧ Unspeckled nT nH g.sigma s ∧
    (∃ u, Unspeckled nT nH g.v u ∧ Without u v fun t h => h = 0 ∧ ∃ x, u t 0 = some x ∧ 4 < x) ∧
    (g.width = none → w = none) ∧ (∀ x, g.width = some x → ∃ y, w = some y ∧ Unspeckled nT nH x y) ∧
    (g.ldr = none → l = none) ∧ (∀ x, g.ldr = some x → ∃ y, l = some y ∧ Unspeckled nT nH x y)

/-- Stripes found in the velocity, its variability and the depolarisation, in this order. -/
structure WithoutStripes (nT nH : ℕ) (z v s : Grid (Option ℝ)) (l : Option (Grid (Option ℝ))) (v' s' : Grid (Option ℝ)) (l' : Option (Grid (Option ℝ))) : Prop where
  sigma : OwnStripes nT nH s s'
  ldr : (l = none → l' = none) ∧ ∀ x, l = some x → ∃ y, l' = some y ∧ OwnStripes nT nH x y
  v : ∃ v1 v2, StripesFromVelocity nT nH v z v v1 ∧ StripesFromVelocity nT nH s z v1 v2 ∧ (l = none → v' = v2) ∧
    ∀ x, l = some x → StripesFromVelocity nT nH x z v2 v'

/-- A field of the result: `x` at the pixels where reflectivity, velocity and (if it is measured) width are known. -/
def CompleteField (z v : Grid (Option ℝ)) (w : Option (Grid (Option ℝ))) (x : Grid (Option ℝ)) (r : Option (RadarArray ℝ)) : Prop :=
  ∃ y, r = some (.field y) ∧ Without x y fun t h => ¬ CompletePixel z v w t h

end Spec

theorem hasSpeckle_iff (source : String) : hasSpeckle source = true ↔ Spec.SpeckledSource source := by
  simp only [hasSpeckle, Bool.or_eq_true, Spec.SpeckledSource, pyLower]
  exact or_congr decide_eq_true_iff decide_eq_true_iff

theorem unspeckled_spec (source : String) (nT nH : ℕ) (g : RadarGridded) :
    let r := g.unspeckled nT nH source
    Spec.WithoutSpeckle source nT nH g r.z r.v r.sigma r.width r.ldr ∧ r.sldr = g.sldr ∧ r.rain = g.rain ∧ r.nyquist = g.nyquist := by
  by_cases hs : hasSpeckle source = true
  · simp only [RadarGridded.unspeckled, if_pos hs, and_true]
    constructor
    · intro h
      exact absurd ((hasSpeckle_iff source).1 hs) h
    · intro _
      refine ⟨filterSpeckle_spec _ _ _, filterSpeckle_spec _ _ _, ⟨_, filterSpeckle_spec _ _ _, fun t h => C83_first_gate _ t h⟩, fun h => (by simp [h]),
        fun x hx => ⟨_, by simp [hx], filterSpeckle_spec _ _ _⟩, fun h => by simp [h], fun x hx => ⟨_, by simp [hx], filterSpeckle_spec _ _ _⟩⟩
  · simp only [RadarGridded.unspeckled, if_neg hs, and_true]
    exact ⟨fun _ => ⟨rfl, rfl, rfl, rfl, rfl⟩, fun h => absurd ((hasSpeckle_iff source).2 h) hs⟩

theorem unstriped_spec (nT nH : ℕ) (g : RadarGridded) :
    let r := g.unstriped nT nH
    Spec.WithoutStripes nT nH g.z g.v g.sigma g.ldr r.v r.sigma r.ldr ∧ r.z = g.z ∧ r.width = g.width ∧ r.sldr = g.sldr ∧ r.rain = g.rain ∧
      r.nyquist = g.nyquist := by
  have h1 := filterStripes_own nT nH g.z g.v
  obtain ⟨h2, y, h3, h4⟩ := filterStripes_other nT nH g.z (filterStripes nT nH ⟨g.z, g.v, none⟩).v g.sigma
  rcases hl : g.ldr with _ | l
  · simp only [RadarGridded.unstriped, hl, h3, Option.getD_some, and_true]
    exact ⟨h4, ⟨fun _ => rfl, fun _ h => by cases h⟩, _, _, h1, h2, fun _ => rfl, fun _ h => by cases h⟩
  · obtain ⟨h5, y', h6, h7⟩ := filterStripes_other nT nH g.z
      (filterStripes nT nH ⟨g.z, (filterStripes nT nH ⟨g.z, g.v, none⟩).v, some g.sigma⟩).v l
    simp only [RadarGridded.unstriped, hl, h3, h6, Option.getD_some, and_true]
    refine ⟨h4, ⟨fun h => (by cases h), fun x h => ?_⟩, _, _, h1, h2, fun h => (by cases h), fun x h => ?_⟩
    · cases h
      exact ⟨_, rfl, h7⟩
    · cases h
      exact h5

theorem entries_lookup (g : RadarGridded) :
    g.entries.lookup "Z" = some (.field g.z) ∧ g.entries.lookup "v_sigma" = some (.field g.sigma) ∧ g.entries.lookup "v" = some (.field g.v) ∧
    g.entries.lookup "ldr" = g.ldr.map .field ∧ g.entries.lookup "width" = g.width.map .field ∧ g.entries.lookup "sldr" = g.sldr.map .field ∧
    g.entries.lookup "rainfall_rate" = g.rain.map .vector ∧ g.entries.lookup "nyquist_velocity" = some (.field g.nyquist) := by
  obtain ⟨z, s, v, l, w, sl, r, ny⟩ := g
  cases l <;> cases w <;> cases sl <;> cases r <;>
    exact ⟨rfl, rfl, rfl, rfl, rfl, rfl, rfl, rfl⟩

/-- **C148.** The radar data of the classification, exactly: the times with a radar profile that are no gap of the lidar or the model (at least two);
speckle and the artefact of the first gate removed for radars that need it; stripes removed; and in all fields only the pixels where reflectivity,
velocity and width are known. -/
theorem C148_for_categorize (f : RadarInput) (source : String) (n : ℕ) (timeNew : ℕ → ℝ) (lidarGap modelGap : List ℕ) (g : RadarGridded) (gaps : List ℕ)
    (hg : radarToGrid f n timeNew = .ok (g, gaps)) :
    let valid := (List.range n).filter fun k => decide (k ∉ gaps ∧ k ∉ lidarGap ∧ k ∉ modelGap)
    let atValid : Grid (Option ℝ) → Grid (Option ℝ) := fun x t => x (valid.getD t 0)
    let g' : RadarGridded :=
      { z := atValid g.z, sigma := atValid g.sigma, v := atValid g.v, ldr := g.ldr.map atValid, width := g.width.map atValid,
        sldr := g.sldr.map atValid, rain := g.rain.map (fun r t => r (valid.getD t 0)), nyquist := atValid g.nyquist }
    (valid.length < 2 → radarForCategorize f source n timeNew lidarGap modelGap = .error "ValidTimeStampError") ∧
    (2 ≤ valid.length → ∃ out z v s w l v' s' l', radarForCategorize f source n timeNew lidarGap modelGap = .ok (valid, out) ∧
      Spec.WithoutSpeckle source valid.length f.nH g' z v s w l ∧ Spec.WithoutStripes valid.length f.nH z v s l v' s' l' ∧
      Spec.CompleteField z v' w z (out.lookup "Z") ∧ Spec.CompleteField z v' w v' (out.lookup "v") ∧
      Spec.CompleteField z v' w s' (out.lookup "v_sigma") ∧ Spec.CompleteField z v' w g'.nyquist (out.lookup "nyquist_velocity") ∧
      (∀ x, w = some x → Spec.CompleteField z v' w x (out.lookup "width")) ∧ (∀ x, l' = some x → Spec.CompleteField z v' w x (out.lookup "ldr")) ∧
      (∀ x, g'.sldr = some x → Spec.CompleteField z v' w x (out.lookup "sldr")) ∧
      (w = none → out.lookup "width" = none) ∧ (l' = none → out.lookup "ldr" = none) ∧ (g'.sldr = none → out.lookup "sldr" = none) ∧
      out.lookup "rainfall_rate" = g'.rain.map .vector) := by
  intro valid atValid g'
  have hval : validIndices n gaps lidarGap modelGap = valid := by
    simp only [validIndices, valid]
    apply List.filter_congr
    intro i _
    simp [not_or]
  have hscreen : g.screen valid = g' := rfl
  constructor
  · intro h
    unfold radarForCategorize
    simp only [hg, bind, Except.bind, hval]
    rw [if_pos h]
  · intro h
    obtain ⟨u1, u2, u3, u4⟩ := unspeckled_spec source valid.length f.nH g'
    set gu := g'.unspeckled valid.length f.nH source
    obtain ⟨s1, s2, s3, s4, s5, s6⟩ := unstriped_spec valid.length f.nH gu
    set gs := gu.unstriped valid.length f.nH
    obtain ⟨e1, e2, e3, e4, e5, e6, e7, e8⟩ := entries_lookup gs
    obtain ⟨out, ho, -, hout⟩ := C50_incomplete_pixels gs.entries gs.z gs.v e1 e3 gs.width e5
    have hfield : ∀ name x, gs.entries.lookup name = some (.field x) → Spec.CompleteField gs.z gs.v gs.width x (out.lookup name) := by
      intro name x hx
      obtain ⟨y, h1, h2⟩ := (hout name).2.2.2 x hx
      exact ⟨y, h1, fun t h => ⟨(h2 t h).2, fun h3 => (h2 t h).1 (not_not.1 h3)⟩⟩
    refine ⟨out, gu.z, gu.v, gu.sigma, gu.width, gu.ldr, gs.v, gs.sigma, gs.ldr, ?_, u1, s1, ?_⟩
    · unfold radarForCategorize
      simp only [hg, bind, Except.bind, hval, hscreen, pure, Except.pure]
      rw [if_neg (by omega), ho]
    · rw [← s2, ← s3]
      refine ⟨hfield _ _ e1, hfield _ _ e3, hfield _ _ e2, ?_, fun x hx => hfield _ _ (by rw [e5, hx]; rfl), fun x hx => hfield _ _ (by rw [e4, hx]; rfl),
        fun x hx => hfield _ _ (by rw [e6, s4, u2, hx]; rfl), fun hx => (hout _).1 (by rw [e5, hx]; rfl), fun hx => (hout _).1 (by rw [e4, hx]; rfl),
        fun hx => (hout _).1 (by rw [e6, s4, u2, hx]; rfl), ?_⟩
      · rw [← u4, ← s6]
        exact hfield _ _ e8
      · rw [← u3, ← s5]
        rcases hr : gs.rain with _ | x
        · exact (hout _).1 (by rw [e7, hr]; rfl)
        · exact (hout _).2.2.1 x (by rw [e7, hr]; rfl)

/-- **C148.** In particular no filter changes a value: where the result has a value, it is the one on the grid; and reflectivity and velocity are known
at the same pixels. -/
theorem C148_values (f : RadarInput) (source : String) (n : ℕ) (timeNew : ℕ → ℝ) (lidarGap modelGap : List ℕ) (g : RadarGridded) (gaps : List ℕ)
    (hg : radarToGrid f n timeNew = .ok (g, gaps)) (valid : List ℕ) (out : List (String × RadarArray ℝ))
    (ho : radarForCategorize f source n timeNew lidarGap modelGap = .ok (valid, out)) :
    ∃ z v, out.lookup "Z" = some (.field z) ∧ out.lookup "v" = some (.field v) ∧ ∀ t < valid.length, ∀ h < f.nH,
      (z t h = none ↔ v t h = none) ∧ (∀ x, z t h = some x → g.z (valid.getD t 0) h = some x) ∧
      (∀ x, v t h = some x → g.v (valid.getD t 0) h = some x) := by
  have H := C148_for_categorize f source n timeNew lidarGap modelGap g gaps hg
  dsimp only at H
  obtain ⟨H1, H2⟩ := H
  set valid' := (List.range n).filter fun k => decide (k ∉ gaps ∧ k ∉ lidarGap ∧ k ∉ modelGap)
  have hlen : 2 ≤ valid'.length := by
    by_contra hc
    rw [H1 (by omega)] at ho
    cases ho
  obtain ⟨out', z, v, s, w, l, v', s', l', h1, h2, h3, ⟨z', hz1, hz2⟩, ⟨vv, hv1, hv2⟩, -⟩ := H2 hlen
  rw [ho] at h1
  injection h1 with h1
  obtain ⟨rfl, rfl⟩ := Prod.mk.inj h1
  refine ⟨z', vv, hz1, hv1, fun t ht h hh => ?_⟩
  -- values that survive each step
  have keepU : ∀ (x y : Grid (Option ℝ)), Spec.Unspeckled valid'.length f.nH x y → ∀ a, y t h = some a → x t h = some a := by
    intro x y hxy a ha
    by_cases hn : Spec.HasNeighbour valid'.length x t h
    · rw [← (hxy t ht h hh).1 hn, ha]
    · rw [(hxy t ht h hh).2 hn] at ha
      cases ha
  have keepW : ∀ (x y : Grid (Option ℝ)) (P : ℕ → ℕ → Prop), Spec.Without x y P → ∀ a, y t h = some a → x t h = some a := by
    intro x y P hxy a ha
    by_cases hn : P t h
    · rw [(hxy t h).1 hn] at ha
      cases ha
    · rw [← (hxy t h).2 hn, ha]
  have keepS : ∀ (data z x y : Grid (Option ℝ)), Spec.StripesFromVelocity valid'.length f.nH data z x y → ∀ a, y t h = some a → x t h = some a := by
    intro data z x y hxy a ha
    by_cases hn : Spec.profilesWithData valid'.length f.nH data < 300
    · rw [← hxy.1 hn, ha]
    · exact keepW _ _ _ (hxy.2 (by omega)) a ha
  have hzv : ∀ a, z t h = some a → g.z (valid'.getD t 0) h = some a := by
    intro a ha
    by_cases hs : Spec.SpeckledSource source
    · exact keepU _ _ (h2.speckled hs).1 a ha
    · rw [(h2.clean hs).1] at ha
      exact ha
  have hvv : ∀ a, v t h = some a → g.v (valid'.getD t 0) h = some a := by
    intro a ha
    by_cases hs : Spec.SpeckledSource source
    · obtain ⟨u, hu1, hu2⟩ := (h2.speckled hs).2.2.1
      exact keepU _ _ hu1 a (keepW _ _ _ hu2 a ha)
    · rw [(h2.clean hs).2.1] at ha
      exact ha
  have hvv' : ∀ a, v' t h = some a → v t h = some a := by
    intro a ha
    obtain ⟨v1, v2, a1, a2, a3, a4⟩ := h3.v
    have : v2 t h = some a := by
      rcases l with _ | x
      · rw [← a3 rfl, ha]
      · exact keepS _ _ _ _ (a4 x rfl) a ha
    exact keepS _ _ _ _ a1 a (keepS _ _ _ _ a2 a this)
  refine ⟨?_, fun a ha => hzv a (keepW _ _ _ hz2 a ha), fun a ha => hvv a (hvv' a (keepW _ _ _ hv2 a ha))⟩
  by_cases hc : Spec.CompletePixel z v' w t h
  · rw [(hz2 t h).2 (not_not.2 hc), (hv2 t h).2 (not_not.2 hc)]
    simp [hc.1, hc.2.1]
  · rw [(hz2 t h).1 hc, (hv2 t h).1 hc]

/-- Two profiles of one gate within half a minute of the first time, none near the third one: 0 and 10 dBZ. -/
noncomputable def exampleRadar (prf : Bool) (bits : Dealiased) (nyquist : Option (Grid (Option ℝ))) : RadarInput :=
  { nT := 3, time := fun i => [0, 1 / 4, 1].getD i 0, nH := 1, zh := fun i _ => some ([0, 10, 5].getD i 0), v := fun i _ => some ([1, -1, 2].getD i 0),
    ldr := none, width := none, sldr := none, rain := none, nyquist := nyquist, prf := prf, bits := bits }

theorem example_even : Spec.EvenlySpaced 3 (fun i => (i : ℝ)) 1 := by
  constructor
  · norm_num
  · intro i hi
    simp

example : ∃ g gaps, radarToGrid (exampleRadar false .no (some fun _ _ => some 5)) 3 (fun i => i) = .ok (g, gaps) ∧ 2 ∈ gaps ∧ 0 ∉ gaps := by
  obtain ⟨g, gaps, h1, -, h2⟩ := C148_on_grid (exampleRadar false .no (some fun _ _ => some 5)) _ rfl (by simp [exampleRadar]) (n := 3) (by norm_num)
    example_even
  refine ⟨g, gaps, h1, (h2 2).2 ⟨by norm_num, ?_⟩, fun h3 => ?_⟩
  · ext i
    simp only [mem_profilesInBin, exampleRadar, Spec.InBin]
    constructor
    · rintro ⟨hi, h4, -⟩
      have : i = 0 ∨ i = 1 ∨ i = 2 := by omega
      rcases this with rfl | rfl | rfl <;> norm_num at h4
    · simp
  · have := ((h2 0).1 h3).2
    have hm : 0 ∈ Spec.profilesInBin 3 (fun i => [0, 1 / 4, 1].getD i 0) ((0 : ℕ) : ℝ) 1 := by
      rw [mem_profilesInBin]
      refine ⟨by norm_num, ?_⟩
      simp only [Spec.InBin]
      norm_num
    simp only [exampleRadar] at this
    rw [this] at hm
    simp at hm

example : ∃ e, radarToGrid (exampleRadar true .no none) 3 (fun i => i) = .error e ∧ e = "RuntimeError: dictionary changed size during iteration" := by
  obtain ⟨h1, -⟩ := C148_rejected (exampleRadar true .no none) (n := 3) (by norm_num) example_even
  obtain ⟨e, h2, -, h3⟩ := h1 rfl
  exact ⟨e, h2, h3 rfl (by simp [exampleRadar])⟩

example : Spec.SpeckledSource "RPG-FMCW-94" ∧ ¬ Spec.SpeckledSource "MIRA-35" := by
  unfold Spec.SpeckledSource
  decide +kernel

end Cloudnet
