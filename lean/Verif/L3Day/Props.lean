import Verif.L3Day.Model
import Verif.ModelEval.Props
import Verif.Ice.Props
import Mathlib.Tactic

/-! **C149.** The Level 3 file of a day, from the variables of the model and of the observations to the fields of the file. -/

namespace Cloudnet

namespace Spec

/-- The number of levels of the model that are below 22 km at some time. -/
noncomputable def levelsBelow22km (m : ModelRun) : ℕ :=
  open Classical in ((Finset.range m.nL).filter fun l => ∃ t < m.nT, m.height t l < 22000).card

/-- The lower limit of a level: half way to the level below, and a full step below the first level. -/
noncomputable def levelLow (x : ℕ → ℝ) (j : ℕ) : ℝ := if j = 0 then x 0 - (x 1 - x 0) else (x (j - 1) + x j) / 2

/-- The upper limit of a level: half way to the level above, and a full step above the last of `n` levels. -/
noncomputable def levelHigh (n : ℕ) (x : ℕ → ℝ) (j : ℕ) : ℝ :=
  if j = n - 1 then x (n - 1) + (x (n - 1) - x (n - 2)) else (x j + x (j + 1)) / 2

/-- Observed heights that belong to level `j` at model time `i`. -/
noncomputable def cellHeights (m : ModelRun) (o : ObsDay) (i j : ℕ) : Finset ℕ :=
  inWindow (levelLow (m.height i) j) (levelHigh (levelsBelow22km m) (m.height i) j) o.nH o.height

/-- Observed times that belong to model time `i`, for model times `d` hours apart. -/
noncomputable def cellTimes (m : ModelRun) (o : ObsDay) (d : ℝ) (i : ℕ) : Finset ℕ :=
  inWindow (m.time i - d / 2) (m.time i + d / 2) o.nT o.time

/-- Hours in which the wind passes a model box of `r` km, at most one; zero without wind. -/
noncomputable def passingHours (r u v : ℝ) : ℝ :=
  if u = 0 ∧ v = 0 then 0 else min 1 (r * 1000 / Real.sqrt (u ^ 2 + v ^ 2) / 3600)

/-- Observed times while air of a model box passes. -/
noncomputable def passingTimes (m : ModelRun) (o : ObsDay) (r : ℝ) (i j : ℕ) : Finset ℕ :=
  inWindow (m.time i - passingHours r (m.u i j) (m.v i j) / 2) (m.time i + passingHours r (m.u i j) (m.v i j) / 2) o.nT o.time

/-- Cloud is where there are droplets or falling ice, but neither aerosols nor insects. -/
def CloudAt (droplet falling freezing aerosol insect : Grid Bool) (t h : ℕ) : Prop :=
  (droplet t h = true ∨ falling t h = true ∧ freezing t h = true) ∧ aerosol t h = false ∧ insect t h = false

/-- `v` is the cloudy fraction of pixels and `a` that of profiles. -/
noncomputable def AreFractions (cloud : ℕ → ℕ → Prop) (T H : Finset ℕ) (v a : Option ℝ) : Prop :=
  ∃ x y, v = some x ∧ a = some y ∧
    x * (T.card * H.card) = (open Classical in ((T ×ˢ H).filter fun p => cloud p.1 p.2).card : ℕ) ∧
    y * T.card = (open Classical in (T.filter fun t => ∃ h ∈ H, cloud t h).card : ℕ)

/-- The resolution of the model is known: some value, the same everywhere. -/
def HasResolution (m : ModelRun) (r : ℝ) : Prop := 0 < r ∧ some r ∈ m.resolution ∧ ∀ v, some v ∈ m.resolution → v = r

/-- A model and observations that can be compared. -/
structure Comparable (m : ModelRun) (o : ObsDay) (d r : ℝ) : Prop where
  times : 2 ≤ m.nT
  levels : 2 ≤ levelsBelow22km m
  hourly : EvenlySpaced m.nT m.time d
  resolution : HasResolution m r
  sortedTimes : SortedOn o.nT o.time
  sortedHeights : SortedOn o.nH o.height

end Spec

theorem levels_eq (m : ModelRun) : m.levels = Spec.levelsBelow22km m := by
  classical
  unfold ModelRun.levels numberOfLevels Spec.levelsBelow22km
  rw [← List.toFinset_card_of_nodup (List.nodup_range.filter _)]
  congr 1
  ext l
  simp

theorem advection_eq (m : ModelRun) (r : ℝ) (hr : 0 < r) (i j : ℕ) :
    advectionTime r 1 (some (m.wind i j)) = Spec.passingHours r (m.u i j) (m.v i j) := by
  unfold Spec.passingHours ModelRun.wind
  have hz : Real.sqrt (m.u i j ^ 2 + m.v i j ^ 2) = 0 ↔ m.u i j = 0 ∧ m.v i j = 0 := by
    rw [Real.sqrt_eq_zero (by positivity)]
    constructor
    · intro h
      have h1 : m.u i j ^ 2 = 0 := by nlinarith [sq_nonneg (m.u i j), sq_nonneg (m.v i j)]
      have h2 : m.v i j ^ 2 = 0 := by nlinarith [sq_nonneg (m.u i j), sq_nonneg (m.v i j)]
      exact ⟨by simpa using h1, by simpa using h2⟩
    · rintro ⟨h1, h2⟩
      rw [h1, h2]
      simp
  by_cases h : m.u i j = 0 ∧ m.v i j = 0
  · rw [if_pos h]
    unfold advectionTime
    rw [Option.bind_some, if_pos (hz.mpr h)]
    norm_num
  · rw [if_neg h, (C62_advection_time r hr _ (lt_of_le_of_ne (Real.sqrt_nonneg _) (fun h' => h (hz.mp h'.symm)))).1]
    congr 1
    have : Real.sqrt (m.u i j ^ 2 + m.v i j ^ 2) ≠ 0 := fun h' => h (hz.mp h')
    field_simp

/-- The input of the averaging. -/
noncomputable def evalInput (m : ModelRun) (o : ObsDay) (r : ℝ) : EvalInput ℝ :=
  { nT := o.nT, nH := o.nH, nM := m.nT, nL := m.levels, obsTime := o.time, obsHeight := o.height, obs := o.field.data, modelTime := m.time,
    modelHeight := m.height, adv := fun t l => advectionTime r 1 (some (m.wind t l)) }

theorem product_succeeds (e : EvalInput ℝ) (hM : 2 ≤ e.nM) (hL : 2 ≤ e.nL) : ∃ s, downsampleProduct e = .ok s := by
  unfold downsampleProduct binvec
  rw [if_neg (by omega)]
  simp only [bind, Except.bind]
  generalize (fun i : ℕ => (_ : ℝ)) = steps
  generalize ((_, _) : Grid (Option ℝ) × Grid (Option ℝ)) = s
  generalize modelCells e.nM e.nL = l
  induction l generalizing s with
  | nil => exact ⟨_, rfl⟩
  | cons k l ih =>
    rw [List.foldlM_cons]
    have : ∃ s', stepProduct e steps s k = .ok s' := by
      unfold stepProduct cellWindows rebinEdges
      rw [if_neg (by omega)]
      exact ⟨_, rfl⟩
    obtain ⟨s', hs'⟩ := this
    rw [hs']
    exact ih s'

theorem window_edges {m : ModelRun} {o : ObsDay} {d r : ℝ} (h : Spec.Comparable m o d r) {i j : ℕ} (hi : i < m.nT)
    (hj : j < Spec.levelsBelow22km m) {steps levels : ℕ → ℝ} (hs : binvec m.nT m.time = .ok steps)
    (hl : rebinEdges m.levels (m.height i) = .ok levels) :
    Spec.inWindow (steps i) (steps (i + 1)) o.nT o.time = Spec.cellTimes m o d i ∧
    Spec.inWindow (levels j) (levels (j + 1)) o.nH o.height = Spec.cellHeights m o i j ∧
    Spec.inWindow (m.time i - advectionTime r 1 (some (m.wind i j)) / 2) (m.time i + advectionTime r 1 (some (m.wind i j)) / 2) o.nT o.time =
      Spec.passingTimes m o r i j := by
  have hn := h.levels
  refine ⟨?_, ?_, ?_⟩
  · rw [binvec_even h.times h.hourly] at hs
    cases hs
    unfold Spec.cellTimes
    rw [h.hourly.2 i hi]
    congr 1
    · ring
    · push_cast; ring
  · unfold rebinEdges at hl
    rw [levels_eq, if_neg (by omega)] at hl
    cases hl
    unfold Spec.cellHeights Spec.levelLow Spec.levelHigh
    congr 1
    · beta_reduce
      by_cases h0 : j = 0
      · rw [if_pos h0, if_pos h0]
      · rw [if_neg h0, if_neg h0, if_neg (by omega)]
    · beta_reduce
      rw [if_neg (by omega)]
      by_cases h0 : j = Spec.levelsBelow22km m - 1
      · rw [if_pos h0, if_pos (by omega)]
      · rw [if_neg h0, if_neg (by omega), Nat.add_sub_cancel]
  · rw [advection_eq m r h.resolution.1]
    rfl

theorem resolution_ok {m : ModelRun} {r : ℝ} (h : Spec.HasResolution m r) : horizontalResolution m.resolution = .ok r :=
  (C97_resolution _ _).mpr h

/-- **C149.** The model needs one positive resolution and at least two times. -/
theorem C149_rejected (m : ModelRun) (o : ObsDay) (h : (¬∃ r, Spec.HasResolution m r) ∨ m.nT < 2) : ∃ msg, l3Day m o = .error msg := by
  unfold l3Day
  cases hr : horizontalResolution m.resolution with
  | error msg => exact ⟨_, rfl⟩
  | ok r =>
    rcases h with h | h
    · exact absurd ⟨r, (C97_resolution _ _).mp hr⟩ h
    · have hb : binvec m.nT m.time = .error "IndexError" := if_pos h
      simp only [bind, Except.bind]
      cases o.field with
      | cf => dsimp only; unfold downsampleCf; rw [hb]; exact ⟨_, rfl⟩
      | iwc => dsimp only; unfold downsampleProduct; rw [hb]; exact ⟨_, rfl⟩
      | lwc => dsimp only; unfold downsampleProduct; rw [hb]; exact ⟨_, rfl⟩

theorem fractions_of_means (b0 b1 b2 b3 b4 : Grid Bool) (T H : Finset ℕ) (hT : T.Nonempty) (hH : H.Nonempty) (v a : Option ℝ)
    (hv : Spec.IsWindowMean (ObsField.cf b0 b1 b2 b3 b4).data T H v) (ha : Spec.IsCloudyFraction (ObsField.cf b0 b1 b2 b3 b4).data T H a) :
    Spec.AreFractions (Spec.CloudAt b0 b1 b2 b3 b4) T H v a := by
  classical
  have hdata : ∀ t h, (ObsField.cf b0 b1 b2 b3 b4).data t h = some (if Spec.CloudAt b0 b1 b2 b3 b4 t h then 1 else 0) := by
    intro t h
    obtain ⟨h1, h2⟩ := C60_cloud_bits (b0 t h) (b1 t h) (b2 t h) (b3 t h) (b4 t h)
    unfold ObsField.data Spec.CloudAt
    dsimp only
    split
    · rename_i hc
      rw [h1.mpr hc]
      simp
    · rename_i hc
      rcases h2 with h2 | h2
      · exact absurd (h1.mp h2) hc
      · rw [h2]
        simp
  obtain ⟨t0, ht0⟩ := hT
  obtain ⟨h0, hh0⟩ := hH
  have hex : ∃ t ∈ T, ∃ h ∈ H, (ObsField.cf b0 b1 b2 b3 b4).data t h ≠ none := ⟨t0, ht0, h0, hh0, by rw [hdata]; simp⟩
  obtain ⟨x, hx, hx'⟩ := hv.2 hex
  obtain ⟨y, hy, hy'⟩ := ha.2 hex
  refine ⟨x, y, hx, hy, ?_, ?_⟩
  · rw [Finset.filter_true_of_mem (by intro p _; rw [hdata]; rfl), Finset.card_product] at hx'
    rw [Nat.cast_mul] at hx'
    rw [hx', ← Finset.sum_product' T H (fun t h => ((ObsField.cf b0 b1 b2 b3 b4).data t h).getD 0)]
    simp only [hdata, Option.getD_some]
    rw [Finset.sum_boole]
  · rw [Finset.filter_true_of_mem (by intro t _; exact ⟨h0, hh0, by rw [hdata]; rfl⟩)] at hy'
    rw [hy']
    congr 2
    apply Finset.filter_congr
    intro t _
    simp only [hdata, Option.getD_some]
    rw [Finset.sum_boole]
    rw [Nat.cast_pos, Finset.card_pos]
    constructor
    · rintro ⟨h, hh⟩
      rw [Finset.mem_filter] at hh
      exact ⟨h, hh.1, hh.2⟩
    · rintro ⟨h, hh, hc⟩
      exact ⟨h, Finset.mem_filter.mpr ⟨hh, hc⟩⟩

/-- **C149.** Cloud fractions of a day. The fraction of the model is kept from 0.05. The observed fraction by volume of a cell is the number of cloudy
pixels over the number of pixels in the half-way limits around the model time and level, and the fraction by area that of profiles with cloud. The
advection fractions are the same in the time the wind takes to pass the box. Cells without observations are zero. -/
theorem C149_cloud_fraction (m : ModelRun) (o : ObsDay) (d r : ℝ) (h : Spec.Comparable m o d r) (b0 b1 b2 b3 b4 : Grid Bool)
    (hf : o.field = .cf b0 b1 b2 b3 b4) :
    ∃ out mc v a vAdv aAdv, l3Day m o = .ok out ∧
      (out.map Prod.fst = ["model_cf", "cf_V", "cf_A", "cf_V_adv", "cf_A_adv"] ∨
        out.map Prod.fst = ["model_cf", "model_cf_cirrus", "cf_V", "cf_A", "cf_V_adv", "cf_A_adv"]) ∧
      ("model_cf", mc) ∈ out ∧ ("cf_V", v) ∈ out ∧ ("cf_A", a) ∈ out ∧ ("cf_V_adv", vAdv) ∈ out ∧ ("cf_A_adv", aAdv) ∈ out ∧
      (∀ t l x, mc t l = some x ↔ m.cf t l = some x ∧ 5 / 100 ≤ x) ∧
      ∀ i < m.nT, ∀ j < Spec.levelsBelow22km m,
        (Spec.cellTimes m o d i = ∅ ∨ Spec.cellHeights m o i j = ∅ →
          v i j = some 0 ∧ a i j = some 0 ∧ vAdv i j = some 0 ∧ aAdv i j = some 0) ∧
        ((Spec.cellTimes m o d i).Nonempty → (Spec.cellHeights m o i j).Nonempty →
          Spec.AreFractions (Spec.CloudAt b0 b1 b2 b3 b4) (Spec.cellTimes m o d i) (Spec.cellHeights m o i j) (v i j) (a i j) ∧
          (Spec.passingTimes m o r i j = ∅ → vAdv i j = some 0 ∧ aAdv i j = some 0) ∧
          ((Spec.passingTimes m o r i j).Nonempty → Spec.AreFractions (Spec.CloudAt b0 b1 b2 b3 b4) (Spec.passingTimes m o r i j)
            (Spec.cellHeights m o i j) (vAdv i j) (aAdv i j))) := by
  obtain ⟨s, hs⟩ := C60_succeeds (evalInput m o r) h.times (by have := h.levels; rw [← levels_eq] at this; exact this) h.sortedTimes h.sortedHeights
  have hout : ∃ cirrus : List (String × Grid (Option ℝ)), (cirrus = [] ∨ ∃ c, cirrus = [("model_cf_cirrus", c)]) ∧
      l3Day m o = .ok ([("model_cf", fun t l => maskBelow (5 / 100) (m.cf t l))] ++ cirrus ++
        [("cf_V", s.v), ("cf_A", s.a), ("cf_V_adv", s.vAdv), ("cf_A_adv", s.aAdv)]) := by
    unfold l3Day
    rw [resolution_ok h.resolution]
    simp only [bind, Except.bind]
    unfold evalInput at hs
    rw [hf] at hs ⊢
    dsimp only
    rw [hs]
    cases cirrusOfRun m o r fun t l => maskBelow (5 / 100) (m.cf t l) with
    | ok c => exact ⟨_, .inr ⟨c, rfl⟩, rfl⟩
    | error _ => exact ⟨_, .inl rfl, rfl⟩
  obtain ⟨cirrus, hcirrus, hout⟩ := hout
  refine ⟨_, _, s.v, s.a, s.vAdv, s.aAdv, hout, ?_, ?_, ?_, ?_, ?_, ?_, fun t l x => C97_limit _ _ _, ?_⟩
  · rcases hcirrus with rfl | ⟨c, rfl⟩
    · exact .inl rfl
    · exact .inr rfl
  · simp
  · simp
  · simp
  · simp
  · simp
  · intro i hi j hj
    obtain ⟨steps, levels, hsteps, hlevels, hcell⟩ := C60_cells _ s hs i j hi (by rw [← levels_eq] at hj; exact hj)
    obtain ⟨e1, e2, e3⟩ := window_edges (m := m) (o := o) h hi hj hsteps hlevels
    unfold evalInput at hcell
    dsimp only at hcell
    rw [e1, e2, e3, hf] at hcell
    refine ⟨hcell.1, fun hT hH => ?_⟩
    obtain ⟨hv, ha, hA0, hA⟩ := hcell.2 hT hH
    refine ⟨fractions_of_means _ _ _ _ _ _ _ hT hH _ _ hv ha, hA0, fun hA' => ?_⟩
    exact fractions_of_means _ _ _ _ _ _ _ hA' hH _ _ (hA hA').1 (hA hA').2

theorem water_content_iff (rs : ℝ) (hrs : 0 < rs) (q p t : Option ℝ) (parts : List (Option ℝ)) (y : ℝ) :
    waterContent rs q parts p t = some y ↔ 0 ≤ y ∧ ∃ q' p' t', ∃ xs : List ℝ, q = some q' ∧ p = some p' ∧ t = some t' ∧ t' ≠ 0 ∧
      parts = xs.map some ∧ y = (q' + xs.sum) * (p' / (rs * t')) := by
  obtain ⟨h1, h2⟩ := C97_water_content rs hrs q p t parts
  constructor
  · intro h
    have hno : ¬(q = none ∨ p = none ∨ t = none ∨ t = some 0 ∨ none ∈ parts) := fun hc => by rw [h2 hc] at h; cases h
    push Not at hno
    obtain ⟨a1, a2, a3, a4, a5⟩ := hno
    obtain ⟨q', rfl⟩ := Option.ne_none_iff_exists'.mp a1
    obtain ⟨p', rfl⟩ := Option.ne_none_iff_exists'.mp a2
    obtain ⟨t', rfl⟩ := Option.ne_none_iff_exists'.mp a3
    have ht : t' ≠ 0 := fun hc => a4 (by rw [hc])
    obtain ⟨xs, hxs⟩ : ∃ xs : List ℝ, parts = xs.map some := by
      clear h1 h2 h
      induction parts with
      | nil => exact ⟨[], rfl⟩
      | cons x l ih =>
        obtain ⟨xs, hxs⟩ := ih fun hc => a5 (List.mem_cons_of_mem _ hc)
        obtain ⟨x', rfl⟩ := Option.ne_none_iff_exists'.mp (fun hc : x = none => a5 (by rw [hc]; exact List.mem_cons_self))
        exact ⟨x' :: xs, by rw [hxs]; rfl⟩
    obtain ⟨b1, b2⟩ := h1 q' p' t' xs rfl rfl rfl hxs ht
    rcases le_or_gt 0 ((q' + xs.sum) * (p' / (rs * t'))) with hc | hc
    · rw [b1 hc] at h
      obtain rfl := Option.some.inj h
      exact ⟨hc, q', p', t', xs, rfl, rfl, rfl, ht, hxs, rfl⟩
    · rw [b2 hc] at h
      cases h
  · rintro ⟨h0, q', p', t', xs, rfl, rfl, rfl, ht, hxs, rfl⟩
    exact (h1 q' p' t' xs rfl rfl rfl hxs ht).1 h0

/-- **C149.** Ice water content of a day: that of the model from 1e-7, and the mean of the observed values of good status (1 or 3) in the limits of the
cell, and in the time the wind takes to pass. -/
theorem C149_ice (m : ModelRun) (o : ObsDay) (d r : ℝ) (h : Spec.Comparable m o d r) (x : Grid (Option ℝ)) (status : Grid ℕ)
    (hf : o.field = .iwc x status) :
    ∃ mi v vAdv, l3Day m o = .ok [("model_iwc", mi), ("iwc", v), ("iwc_adv", vAdv)] ∧
      (∀ t l y, mi t l = some y ↔ 1 / 10000000 ≤ y ∧ ∃ q p T, ∃ qs : List ℝ, m.qi t l = some q ∧ m.pressure t l = some p ∧
        m.temperature t l = some T ∧ T ≠ 0 ∧ (m.ice.map fun g => g t l) = qs.map some ∧ y = (q + qs.sum) * (p / (287058 / 1000 * T))) ∧
      ∀ i < m.nT, ∀ j < Spec.levelsBelow22km m,
        Spec.IsWindowMean (fun t h => if status t h = 1 ∨ status t h = 3 then x t h else none) (Spec.cellTimes m o d i) (Spec.cellHeights m o i j)
          (v i j) ∧
        Spec.IsWindowMean (fun t h => if status t h = 1 ∨ status t h = 3 then x t h else none) (Spec.passingTimes m o r i j)
          (Spec.cellHeights m o i j) (vAdv i j) := by
  obtain ⟨s, hs⟩ := product_succeeds (evalInput m o r) h.times (by have := h.levels; rw [← levels_eq] at this; exact this)
  refine ⟨fun t l => maskBelow (1 / 10000000) (m.iwc t l), s.1, s.2, ?_, ?_, ?_⟩
  · unfold l3Day
    rw [resolution_ok h.resolution]
    simp only [bind, Except.bind]
    unfold evalInput at hs
    rw [hf] at hs ⊢
    dsimp only
    rw [hs]
    rfl
  · intro t l y
    rw [C97_limit]
    unfold ModelRun.iwc
    rw [water_content_iff _ (by norm_num)]
    constructor
    · rintro ⟨⟨h0, h1⟩, h2⟩
      exact ⟨h2, h1⟩
    · rintro ⟨h2, h1⟩
      exact ⟨⟨le_trans (by norm_num) h2, h1⟩, h2⟩
  · intro i hi j hj
    obtain ⟨steps, levels, hsteps, hlevels, hcell⟩ := C60_product _ s hs i j hi (by rw [← levels_eq] at hj; exact hj)
    obtain ⟨e1, e2, e3⟩ := window_edges (m := m) (o := o) h hi hj hsteps hlevels
    unfold evalInput at hcell
    dsimp only at hcell
    rw [e1, e2, e3, hf] at hcell
    have hd : (ObsField.iwc x status).data = fun t h => if status t h = 1 ∨ status t h = 3 then x t h else none := by
      funext t h
      unfold ObsField.data maskIwc
      simp
    rw [hd] at hcell
    exact hcell

/-- **C149.** Liquid water content of a day: that of the model from 1e-5, and the mean of the observed values. -/
theorem C149_liquid (m : ModelRun) (o : ObsDay) (d r : ℝ) (h : Spec.Comparable m o d r) (x : Grid (Option ℝ)) (hf : o.field = .lwc x) :
    ∃ mi v vAdv, l3Day m o = .ok [("model_lwc", mi), ("lwc", v), ("lwc_adv", vAdv)] ∧
      (∀ t l y, mi t l = some y ↔ 1 / 100000 ≤ y ∧ ∃ q p T, m.ql t l = some q ∧ m.pressure t l = some p ∧
        m.temperature t l = some T ∧ T ≠ 0 ∧ y = q * (p / (287058 / 1000 * T))) ∧
      ∀ i < m.nT, ∀ j < Spec.levelsBelow22km m,
        Spec.IsWindowMean x (Spec.cellTimes m o d i) (Spec.cellHeights m o i j) (v i j) ∧
        Spec.IsWindowMean x (Spec.passingTimes m o r i j) (Spec.cellHeights m o i j) (vAdv i j) := by
  obtain ⟨s, hs⟩ := product_succeeds (evalInput m o r) h.times (by have := h.levels; rw [← levels_eq] at this; exact this)
  refine ⟨fun t l => maskBelow (1 / 100000) (m.lwc t l), s.1, s.2, ?_, ?_, ?_⟩
  · unfold l3Day
    rw [resolution_ok h.resolution]
    simp only [bind, Except.bind]
    unfold evalInput at hs
    rw [hf] at hs ⊢
    dsimp only
    rw [hs]
    rfl
  · intro t l y
    rw [C97_limit]
    unfold ModelRun.lwc
    rw [water_content_iff _ (by norm_num)]
    constructor
    · rintro ⟨⟨h0, q, p, T, xs, h1, h2, h3, h4, h5, h6⟩, h7⟩
      have hxs : xs = [] := List.map_eq_nil_iff.mp h5.symm
      rw [hxs, List.sum_nil, add_zero] at h6
      exact ⟨h7, q, p, T, h1, h2, h3, h4, h6⟩
    · rintro ⟨h7, q, p, T, h1, h2, h3, h4, h6⟩
      exact ⟨⟨le_trans (by norm_num) h7, q, p, T, [], h1, h2, h3, h4, rfl, by rw [List.sum_nil, add_zero]; exact h6⟩, h7⟩
  · intro i hi j hj
    obtain ⟨steps, levels, hsteps, hlevels, hcell⟩ := C60_product _ s hs i j hi (by rw [← levels_eq] at hj; exact hj)
    obtain ⟨e1, e2, e3⟩ := window_edges (m := m) (o := o) h hi hj hsteps hlevels
    unfold evalInput at hcell
    dsimp only at hcell
    rw [e1, e2, e3, hf] at hcell
    exact hcell

/-! ### The cirrus filter -/

namespace Spec

/-- Change of `w` per change of height from the model time before to the model time after (at the same level). -/
noncomputable def gradientInTime (m : ModelRun) (w : Grid ℝ) (t l : ℕ) : ℝ :=
  let dw := w (min (t + 1) (m.nT - 1)) l - w (t - 1) l
  let dz := m.height (min (t + 1) (m.nT - 1)) l - m.height (t - 1) l
  if dz = 0 then dw else dw / dz

/-- The shear used in the filter, negative where the wind speed decreases. -/
noncomputable def shear (m : ModelRun) (t l : ℕ) : ℝ :=
  let s := Real.sqrt (gradientInTime m m.u t l ^ 2 + gradientInTime m m.v t l ^ 2)
  if gradientInTime m (fun t l => Real.sqrt (m.u t l ^ 2 + m.v t l ^ 2)) t l < 0 then -s else s

/-- Variance of ice water content in a box of `r` km. -/
noncomputable def variance (m : ModelRun) (r : ℝ) (t l : ℕ) : ℝ :=
  (10 : ℝ) ^ (3 / 10 * Real.logb 10 r - 4 / 100 * shear m t l - 103 / 100)

/-- The smallest ice water content a radar of frequency `F` (GHz) sees for a sensitivity `z` (dBZ) at `T` degrees Celsius. -/
noncomputable def smallestSeen (F z T : ℝ) : ℝ :=
  if F < 40 then (10 : ℝ) ^ (242 / 1000000 * z * T - 186 / 10000 * T + 699 / 10000 * z - 163 / 100)
  else (10 : ℝ) ^ (580 / 1000000 * z * T - 706 / 100000 * T + 923 / 10000 * z - 992 / 1000)

/-- The values at which the distribution with mean `g` and variance `f` is computed. -/
noncomputable def iceStep (g f : ℝ) (k : ℕ) : ℝ := k * (g * (1 + 5 * Real.sqrt f) / 249)

/-- The weight of value `k`, a gamma distribution. -/
noncomputable def iceWeight (g f : ℝ) (k : ℕ) : ℝ := iceStep g f k ^ (1 / f - 1) * Real.exp (-(iceStep g f k / (g * f)))

/-- An ice cloud of the model. -/
def IceAt (m : ModelRun) (t l : ℕ) (c i : ℝ) : Prop :=
  m.cf t l = some c ∧ 5 / 100 ≤ c ∧ m.iwc t l = some i ∧ 0 < i ∧ ∃ w, m.lwc t l = some w ∧ w < i / 10

/-- A radar whose sensitivity is known, in one of the two bands for which ice water content can be computed. -/
def RadarKnown (o : ObsDay) (F : ℝ) (s : ℕ → Option ℝ) : Prop :=
  o.frequency = some F ∧ o.sensitivity = some s ∧ (27 < F ∧ F < 40 ∨ 75 < F ∧ F < 110)

end Spec

theorem shear_eq (m : ModelRun) (hT : 2 ≤ m.nT) (t l : ℕ) (ht : t < m.nT) : windShear m.nT m.wind m.u m.v m.height t l = Spec.shear m t l := by
  have hg : ∀ w, windGradient m.nT w m.height t l = Spec.gradientInTime m w t l := by
    intro w
    unfold windGradient Spec.gradientInTime unmaskedDivide
    dsimp only
    by_cases h0 : t = 0
    · subst h0
      rw [if_pos rfl, Nat.zero_add, min_eq_left (by omega)]
    · rw [if_neg h0]
      by_cases h1 : t = m.nT - 1
      · rw [if_pos h1, min_eq_right (by omega), show t - 1 = m.nT - 2 by omega]
      · rw [if_neg h1, min_eq_left (by omega)]
  unfold windShear Spec.shear
  dsimp only
  rw [hg, hg, hg, zero_sub]
  rfl

theorem ice_coefficients (F : ℝ) (h : 27 < F ∧ F < 40 ∨ 75 < F ∧ F < 110) :
    ∃ band k, getWlBand F = .ok band ∧ getIceCoefficients "iwc" band = .ok k ∧ ∀ z T, zToIwc k z T = Spec.smallestSeen F z T := by
  rcases h with h | h
  · refine ⟨"Ka", _, (C63_wl_band F).2.1.mpr h, rfl, fun z T => ?_⟩
    unfold zToIwc Spec.smallestSeen
    rw [if_pos h.2]
    congr 1
    norm_num
    ring
  · refine ⟨"W", _, (C63_wl_band F).2.2.1.mpr h, rfl, fun z T => ?_⟩
    unfold zToIwc Spec.smallestSeen
    rw [if_neg (by linarith [h.1])]
    congr 1
    norm_num
    ring

theorem no_ice_coefficients (F : ℝ) (h : ¬(27 < F ∧ F < 40 ∨ 75 < F ∧ F < 110)) :
    (∃ msg, getWlBand F = .error msg) ∨ ∃ band msg, getWlBand F = .ok band ∧ getIceCoefficients "iwc" band = .error msg := by
  push Not at h
  cases hb : getWlBand F with
  | error msg => exact .inl ⟨msg, rfl⟩
  | ok band =>
    right
    obtain ⟨h1, h2, h3, h4, h5⟩ := C63_wl_band F
    rcases h5 band hb with rfl | rfl | rfl
    · exact ⟨"X", _, rfl, rfl⟩
    · have := h2.mp hb
      exact absurd this.2 (not_lt.mpr (h.1 this.1))
    · have := h3.mp hb
      exact absurd this.2 (not_lt.mpr (h.2 this.1))

theorem iceAt_iff (m : ModelRun) (t l : ℕ) (c : ℝ) : (∃ i, Spec.IceAt m t l c i) ↔
    maskBelow (5 / 100) (m.cf t l) = some c ∧ Spec.IceCloud c (m.iwc t l) (m.lwc t l) := by
  rw [C97_limit]
  constructor
  · rintro ⟨i, h1, h2, h3, h4, w, h5, h6⟩
    exact ⟨⟨h1, h2⟩, by linarith, i, w, h3, h5, h4, h6⟩
  · rintro ⟨⟨h1, h2⟩, h0, i, w, h3, h5, h4, h6⟩
    exact ⟨i, h1, h2, h3, h4, w, h5, h6⟩

/-- The filtered field exists exactly if the radar is known and the model has an ice cloud. -/
theorem cirrus_ok_iff (m : ModelRun) (o : ObsDay) (r : ℝ) :
    (∃ c, cirrusOfRun m o r (fun t l => maskBelow (5 / 100) (m.cf t l)) = .ok c) ↔
      (∃ F s, Spec.RadarKnown o F s) ∧ ∃ t < m.nT, ∃ l < Spec.levelsBelow22km m, ∃ c i, Spec.IceAt m t l c i := by
  rw [← levels_eq]
  have hfilter : ∀ minIwc dist, (∃ c, cirrusFilter m.nT m.levels (fun t l => maskBelow (5 / 100) (m.cf t l)) m.iwc m.lwc minIwc dist = .ok c) ↔
      ∃ t < m.nT, ∃ l < m.levels, ∃ c i, Spec.IceAt m t l c i := by
    intro minIwc dist
    have := C61_no_ice m.nT m.levels (fun t l => maskBelow (5 / 100) (m.cf t l)) m.iwc m.lwc minIwc dist
      (fun t l c hc => ((C97_limit _ _ _).mp hc).2)
    have h2 : (∃ c, cirrusFilter m.nT m.levels (fun t l => maskBelow (5 / 100) (m.cf t l)) m.iwc m.lwc minIwc dist = .ok c) ↔
        ¬∃ msg, cirrusFilter m.nT m.levels (fun t l => maskBelow (5 / 100) (m.cf t l)) m.iwc m.lwc minIwc dist = .error msg := by
      cases cirrusFilter m.nT m.levels (fun t l => maskBelow (5 / 100) (m.cf t l)) m.iwc m.lwc minIwc dist with
      | ok c => exact ⟨fun _ => (by rintro ⟨_, h⟩; cases h), fun _ => ⟨c, rfl⟩⟩
      | error e => exact ⟨(by rintro ⟨_, h⟩; cases h), fun h => absurd ⟨e, rfl⟩ h⟩
    rw [h2, this]
    push Not
    constructor
    · rintro ⟨t, ht, l, hl, c, hc, hi⟩
      obtain ⟨i, hi⟩ := (iceAt_iff m t l c).mpr ⟨hc, hi⟩
      exact ⟨t, ht, l, hl, c, i, hi⟩
    · rintro ⟨t, ht, l, hl, c, i, hi⟩
      obtain ⟨hc, hi⟩ := (iceAt_iff m t l c).mp ⟨i, hi⟩
      exact ⟨t, ht, l, hl, c, hc, hi⟩
  unfold cirrusOfRun
  cases hF : o.frequency with
  | none =>
    constructor
    · rintro ⟨c, hc⟩; cases hc
    · rintro ⟨⟨F, s, h1, -, -⟩, -⟩
      rw [hF] at h1
      cases h1
  | some F =>
    cases hs : o.sensitivity with
    | none =>
      constructor
      · rintro ⟨c, hc⟩; cases hc
      · rintro ⟨⟨F, s, -, h1, -⟩, -⟩
        rw [hs] at h1
        cases h1
    | some s =>
      by_cases hb : 27 < F ∧ F < 40 ∨ 75 < F ∧ F < 110
      · obtain ⟨band, k, h1, h2, -⟩ := ice_coefficients F hb
        dsimp only
        rw [h1]
        simp only [bind, Except.bind]
        rw [h2]
        dsimp only
        rw [hfilter]
        exact ⟨fun h => ⟨⟨F, s, hF, hs, hb⟩, h⟩, fun h => h.2⟩
      · constructor
        · rintro ⟨c, hc⟩
          exfalso
          rcases no_ice_coefficients F hb with ⟨msg, h1⟩ | ⟨band, msg, h1, h2⟩
          · dsimp only at hc
            rw [h1] at hc
            cases hc
          · dsimp only at hc
            rw [h1] at hc
            simp only [bind, Except.bind] at hc
            rw [h2] at hc
            cases hc
        · rintro ⟨⟨F', s', h1, -, h3⟩, -⟩
          rw [hF] at h1
          cases h1
          exact absurd h3 hb

/-- The file of cloud fraction, in terms of the filter. -/
theorem cirrus_in_file (m : ModelRun) (o : ObsDay) (r : ℝ) (hr : Spec.HasResolution m r) (b0 b1 b2 b3 b4 : Grid Bool)
    (hf : o.field = .cf b0 b1 b2 b3 b4) (out) (hout : l3Day m o = .ok out) (c : Grid (Option ℝ)) :
    ("model_cf_cirrus", c) ∈ out ↔ cirrusOfRun m o r (fun t l => maskBelow (5 / 100) (m.cf t l)) = .ok c := by
  unfold l3Day at hout
  rw [resolution_ok hr] at hout
  simp only [bind, Except.bind] at hout
  rw [hf] at hout
  dsimp only at hout
  split at hout
  · cases hout
  · cases hout
    cases cirrusOfRun m o r (fun t l => maskBelow (5 / 100) (m.cf t l)) with
    | ok c' => simp [eq_comm]
    | error e => simp

/-- **C149.** The filtered cloud fraction is in the file exactly if the file of observations has a frequency in one of two bands and a sensitivity, and
the model has an ice cloud. Otherwise it is left out without an error. -/
theorem C149_cirrus_present (m : ModelRun) (o : ObsDay) (r : ℝ) (hr : Spec.HasResolution m r) (b0 b1 b2 b3 b4 : Grid Bool)
    (hf : o.field = .cf b0 b1 b2 b3 b4) (out) (hout : l3Day m o = .ok out) :
    (∃ c, ("model_cf_cirrus", c) ∈ out) ↔
      (∃ F s, Spec.RadarKnown o F s) ∧ ∃ t < m.nT, ∃ l < Spec.levelsBelow22km m, ∃ c i, Spec.IceAt m t l c i := by
  rw [← cirrus_ok_iff m o r]
  constructor
  · rintro ⟨c, hc⟩
    exact ⟨c, (cirrus_in_file m o r hr _ _ _ _ _ hf out hout c).mp hc⟩
  · rintro ⟨c, hc⟩
    exact ⟨c, (cirrus_in_file m o r hr _ _ _ _ _ hf out hout c).mpr hc⟩

/-- Up to variance one, the distribution is that of the specification divided by a positive constant. -/
theorem distribution_eq (g f : ℝ) (hg : 0 < g) (hf : 0 < f) (h1 : f ≤ 1) :
    ∃ N, 0 < N ∧ cirrusDistribution g f =
      ((List.range 249).map fun k => (Spec.iceStep g f k, Spec.iceWeight g f k / N)).map fun x => (x.1, ((x.2 : ℝ) : WithTop ℝ)) := by
  have ha : 1 ≤ 1 / f := by rw [le_div_iff₀ hf]; linarith
  have hth : g / (1 / f) = g * f := by field_simp
  have hgf : 0 < g * f := mul_pos hg hf
  refine ⟨Real.Gamma (1 / f) * (g * f) ^ (1 / f), mul_pos (Real.Gamma_pos_of_pos (by linarith)) (Real.rpow_pos_of_pos hgf _), ?_⟩
  have hsq : Real.sqrt f ≤ 1 := Real.sqrt_le_one.mpr h1
  have hsq0 : 0 ≤ Real.sqrt f := Real.sqrt_nonneg f
  unfold cirrusDistribution iwcDistribution
  dsimp only
  rw [if_neg (by
    rw [not_lt]
    have : Real.sqrt f * g ≤ g := by nlinarith
    linarith)]
  unfold iwcSteps
  rw [List.map_map, List.map_map]
  apply List.map_congr_left
  intro k _
  dsimp only [Function.comp]
  have hstep : (k : ℝ) * ((g + 5 * (Real.sqrt f * g)) / 249) = Spec.iceStep g f k := by
    unfold Spec.iceStep
    ring
  rw [hstep, hth]
  congr 1
  unfold gammaPdf Spec.iceWeight
  by_cases hx : Spec.iceStep g f k = 0
  · rw [if_pos hx, if_neg (not_lt.mpr ha), hx, zero_div, neg_zero, Real.exp_zero, mul_one]
    by_cases he : 1 / f = 1
    · rw [if_pos he, he, sub_self, Real.rpow_zero, Real.Gamma_one, Real.rpow_one, one_mul]
    · rw [if_neg he, Real.zero_rpow (sub_ne_zero.mpr he), zero_div]
  · rw [if_neg hx]

theorem distribution_infinite (g f : ℝ) (h1 : 1 < f) : ∃ x ∈ cirrusDistribution g f, x.2 = ⊤ := by
  have ha : 1 / f < 1 := by rw [div_lt_one (by linarith)]; exact h1
  have h0 : (0 : ℝ) ∈ iwcDistribution g f := by
    have hs : ∀ e, (0 : ℝ) ∈ iwcSteps e := fun e => List.mem_map.mpr ⟨0, List.mem_range.mpr (by norm_num), by simp⟩
    unfold iwcDistribution
    dsimp only
    split
    · exact hs _
    · exact hs _
  refine ⟨_, List.mem_map.mpr ⟨0, h0, rfl⟩, ?_⟩
  unfold gammaPdf
  rw [if_pos rfl, if_pos ha]

theorem iceStep_pos {g f : ℝ} (hg : 0 < g) {k : ℕ} (hk : 0 < k) : 0 < Spec.iceStep g f k := by
  unfold Spec.iceStep
  have : (0 : ℝ) < k := Nat.cast_pos.mpr hk
  have := Real.sqrt_nonneg f
  positivity

theorem iceWeight_nonneg {g f : ℝ} (hg : 0 < g) (k : ℕ) : 0 ≤ Spec.iceWeight g f k := by
  unfold Spec.iceWeight Spec.iceStep
  have := Real.sqrt_nonneg f
  positivity

theorem total_pos {g f : ℝ} (hg : 0 < g) : 0 < ∑ k ∈ Finset.range 249, Spec.iceWeight g f k := by
  refine Finset.sum_pos' (fun k _ => iceWeight_nonneg hg k) ⟨1, Finset.mem_range.mpr (by norm_num), ?_⟩
  unfold Spec.iceWeight
  exact mul_pos (Real.rpow_pos_of_pos (iceStep_pos hg (by norm_num)) _) (Real.exp_pos _)

/-- One ice pixel with a distribution of variance up to one. -/
theorem ice_pixel (nT nL : ℕ) (cf iwc lwc out : Grid (Option ℝ)) (minIwc : Grid ℝ) (dist : Grid (Option (List (ℝ × WithTop ℝ))))
    (hout : cirrusFilter nT nL cf iwc lwc minIwc dist = .ok out) (t l : ℕ) (c g f : ℝ) (hc : cf t l = some c) (h5 : 5 / 100 ≤ c)
    (hice : Spec.IceCloud c (iwc t l) (lwc t l)) (hd : dist t l = some (cirrusDistribution g f)) (hg : 0 < g) (hf : 0 < f) (h1 : f ≤ 1) (x : ℝ)
    (hx : minIwc t l = x) :
    let total := ∑ k ∈ Finset.range 249, Spec.iceWeight g f k
    let part := ∑ k ∈ (Finset.range 249).filter (fun k => x < Spec.iceStep g f k), Spec.iceWeight g f k
    (total / 100 < Spec.iceWeight g f 248 → out t l = none) ∧
    (Spec.iceWeight g f 248 ≤ total / 100 →
      (part / total * c < 5 / 100 → out t l = none) ∧ (5 / 100 ≤ part / total * c → out t l = some (part / total * c))) := by
  subst hx
  intro total part
  obtain ⟨N, hN, hdist⟩ := distribution_eq g f hg hf h1
  rw [hdist] at hd
  obtain ⟨-, -, h⟩ := C61_ice nT nL cf iwc lwc out minIwc dist hout t l c hc h5 hice
  have htotal : total / N =
      (((List.range 249).map fun k => (Spec.iceStep g f k, Spec.iceWeight g f k / N)).map fun x => x.2).sum := by
    rw [List.map_map, Finset.sum_div, ← List.toFinset_range, List.sum_toFinset _ List.nodup_range]
    rfl
  have hpart : part / N =
      ((((List.range 249).map fun k => (Spec.iceStep g f k, Spec.iceWeight g f k / N)).filter fun x => decide (minIwc t l < x.1)).map
        fun x => x.2).sum := by
    rw [List.filter_map, List.map_map, Finset.sum_div]
    have : (Finset.range 249).filter (fun k => minIwc t l < Spec.iceStep g f k) =
        ((List.range 249).filter ((fun x : ℝ × ℝ => decide (minIwc t l < x.1)) ∘ fun k => (Spec.iceStep g f k, Spec.iceWeight g f k / N))).toFinset := by
      ext k
      simp
    rw [this, List.sum_toFinset _ (List.nodup_range.filter _)]
    rfl
  have hlast : ((List.range 249).map fun k => (Spec.iceStep g f k, Spec.iceWeight g f k / N)).getLast? =
      some (Spec.iceStep g f 248, Spec.iceWeight g f 248 / N) := by
    rw [List.getLast?_map, show (249 : ℕ) = 248 + 1 by norm_num, List.range_succ, List.getLast?_append]
    rfl
  obtain ⟨-, h3, h4⟩ := h _ hd (total / N) (part / N) htotal hpart
  have ht0 : 0 < total := total_pos hg
  have hratio : part / N / (total / N) = part / total := by field_simp
  rw [hratio] at h4
  constructor
  · intro hlt
    apply h3 _ hlast
    dsimp only
    rw [one_div, ← mul_div_assoc, div_lt_div_iff_of_pos_right hN]
    linarith
  · intro hle
    apply h4 (div_pos ht0 hN).ne'
    intro x hx
    rw [hlast] at hx
    cases hx
    dsimp only
    rw [one_div, ← mul_div_assoc, div_le_div_iff_of_pos_right hN]
    linarith

/-- **C149.** The filtered cloud fraction, pixel by pixel. Cloud fractions below 0.05 are masked and clouds that are not ice are kept. An ice cloud is
reduced by the part of a gamma distribution of ice water content, with the mean of the model in the cloud and a variance from resolution and shear, that the
radar would see; less than 0.05 is masked. It is also masked if the variance is above one, if the sensitivity of the radar at the level is not known, or if
the last of 249 values has more than a percent of the weight. -/
theorem C149_cirrus_values (m : ModelRun) (o : ObsDay) (r : ℝ) (hr : Spec.HasResolution m r) (hT : 2 ≤ m.nT) (b0 b1 b2 b3 b4 : Grid Bool)
    (hf : o.field = .cf b0 b1 b2 b3 b4) (out) (hout : l3Day m o = .ok out) (cc : Grid (Option ℝ)) (hcc : ("model_cf_cirrus", cc) ∈ out)
    (F : ℝ) (s : ℕ → Option ℝ) (hF : Spec.RadarKnown o F s) (t l : ℕ) (ht : t < m.nT) :
    ((∀ x, m.cf t l = some x → x < 5 / 100) → cc t l = none) ∧
    (∀ c, m.cf t l = some c → 5 / 100 ≤ c → (¬∃ i, Spec.IceAt m t l c i) → cc t l = some c) ∧
    ∀ c i, Spec.IceAt m t l c i →
      let g := i / c * 1000
      let f := Spec.variance m r t l
      (1 < f → cc t l = none) ∧
      (sensitivityOnLevels o s (Spec.levelsBelow22km m) m.height t l = none → cc t l = none) ∧
      ∀ z T, f ≤ 1 → sensitivityOnLevels o s (Spec.levelsBelow22km m) m.height t l = some z → m.temperature t l = some T →
        let total := ∑ k ∈ Finset.range 249, Spec.iceWeight g f k
        let part := ∑ k ∈ (Finset.range 249).filter (fun k => Spec.smallestSeen F z (T - 27315 / 100) < Spec.iceStep g f k), Spec.iceWeight g f k
        (total / 100 < Spec.iceWeight g f 248 → cc t l = none) ∧
        (Spec.iceWeight g f 248 ≤ total / 100 →
          (part / total * c < 5 / 100 → cc t l = none) ∧ (5 / 100 ≤ part / total * c → cc t l = some (part / total * c))) := by
  have hok := (cirrus_in_file m o r hr _ _ _ _ _ hf out hout cc).mp hcc
  obtain ⟨hF1, hF2, hF3⟩ := hF
  obtain ⟨band, k, h1, h2, h3⟩ := ice_coefficients F hF3
  unfold cirrusOfRun at hok
  rw [hF1, hF2] at hok
  dsimp only at hok
  rw [h1] at hok
  simp only [bind, Except.bind] at hok
  rw [h2] at hok
  dsimp only at hok
  refine ⟨?_, ?_, ?_⟩
  · intro hx
    rw [cirrus_out _ _ _ _ _ _ _ _ hok]
    have : maskBelow (5 / 100) (m.cf t l) = none := by
      rw [Option.eq_none_iff_forall_ne_some]
      intro y hy
      obtain ⟨hy1, hy2⟩ := (C97_limit _ _ _).mp hy
      exact absurd (hx y hy1) (not_lt.mpr hy2)
    rw [this]
    rfl
  · intro c hc h5 hice
    have hcf : maskBelow (5 / 100) (m.cf t l) = some c := (C97_limit _ _ _).mpr ⟨hc, h5⟩
    exact C61_unchanged _ _ _ _ _ _ _ _ hok t l c hcf h5 fun h => hice ((iceAt_iff m t l c).mpr ⟨hcf, h⟩)
  · intro c i hi g f
    obtain ⟨hcf, hice⟩ := (iceAt_iff m t l c).mp ⟨i, hi⟩
    obtain ⟨hi1, hi2, hi3, hi4, -⟩ := hi
    have hc0 : 0 < c := by linarith
    have hg : 0 < g := by positivity
    have hf0 : 0 < f := Real.rpow_pos_of_pos (by norm_num) _
    have hgm : (m.iwc t l).getD 0 / (maskBelow (5 / 100) (m.cf t l)).getD 0 * 1000 = g := by
      rw [hcf, hi3]
      rfl
    have hfm : iwcVariance r (windShear m.nT m.wind m.u m.v m.height t l) = f := by
      rw [shear_eq m hT t l ht]
      rfl
    have hinf : 1 < f → cc t l = none := by
      intro hf1
      apply (C61_ice _ _ _ _ _ _ _ _ hok t l c hcf hi2 hice).2.1 (cirrusDistribution g f)
      · rw [hgm, hfm]
      · exact distribution_infinite g f hf1
    refine ⟨hinf, ?_, ?_⟩
    · intro hz
      rcases lt_or_ge 1 f with hf1 | hf1
      · exact hinf hf1
      · have h := ice_pixel _ _ _ _ _ _ _ _ hok t l c g f hcf hi2 hice (by rw [hgm, hfm]) hg hf0 hf1
          (g * 10 + (g + 5 * (Real.sqrt f * g))) (by rw [levels_eq, hz]; dsimp only; rw [hgm, hfm])
        dsimp only at h
        have hempty : (Finset.range 249).filter (fun k => g * 10 + (g + 5 * (Real.sqrt f * g)) < Spec.iceStep g f k) = ∅ := by
          rw [Finset.filter_eq_empty_iff]
          intro k hk
          rw [Finset.mem_range] at hk
          rw [not_lt]
          unfold Spec.iceStep
          have hk' : (k : ℝ) ≤ 249 := by exact_mod_cast hk.le
          have hs0 := Real.sqrt_nonneg f
          have hE : 0 ≤ g * (1 + 5 * Real.sqrt f) / 249 := by positivity
          have := mul_le_mul_of_nonneg_right hk' hE
          nlinarith [mul_nonneg hs0 hg.le]
        rw [hempty, Finset.sum_empty, zero_div, zero_mul] at h
        rcases lt_or_ge ((∑ k ∈ Finset.range 249, Spec.iceWeight g f k) / 100) (Spec.iceWeight g f 248) with hl | hl
        · exact h.1 hl
        · exact (h.2 hl).1 (by norm_num)
    · intro z T hf1 hz hTt
      exact ice_pixel _ _ _ _ _ _ _ _ hok t l c g f hcf hi2 hice (by rw [hgm, hfm]) hg hf0 hf1 _
        (by rw [levels_eq, hz, hTt]; dsimp only; rw [Option.getD_some, h3])

/-- **C149.** The sensitivity of the radar at the levels of the model is not that at their heights. The range of the levels is divided in bins of equal
width, and level `l` gets the mean of the known sensitivities in bin `l`. -/
theorem C149_sensitivity (o : ObsDay) (s : ℕ → Option ℝ) (n : ℕ) (hn : 2 ≤ n) (height : Grid ℝ) (t : ℕ) (hx : Spec.IncreasingOn n (height t)) :
    ∃ bottom width, bottom = height t 0 - (height t 1 - height t 0) / 2 ∧
      bottom + n * width = height t (n - 1) + (height t (n - 1) - height t (n - 2)) / 2 ∧ 0 < width ∧
      Spec.Rebinned1d Spec.IsMean o.nH o.height s n (fun l => bottom + width / 2 + l * width) width (sensitivityOnLevels o s n height t) := by
  have hn0 : (0 : ℝ) < n := by exact_mod_cast (show 0 < n by omega)
  set bottom := height t 0 - (height t 1 - height t 0) / 2 with hb
  set top := height t (n - 1) + (height t (n - 1) - height t (n - 2)) / 2 with ht
  have hlt : bottom < top := by
    have h1 := hx 0 (by omega)
    have h2 := IncreasingOn.lt hx (show n - 2 < n - 1 by omega) (by omega)
    have h3 := IncreasingOn.le hx (show 0 ≤ n - 1 by omega) (by omega)
    simp only [zero_add] at h1
    rw [hb, ht]
    linarith
  have hw : 0 < (top - bottom) / n := div_pos (by linarith) hn0
  have heven : Spec.EvenlySpaced n (fun l : ℕ => bottom + (top - bottom) / n / 2 + l * ((top - bottom) / n)) ((top - bottom) / n) := by
    refine ⟨hw, fun i _ => ?_⟩
    simp
  refine ⟨bottom, (top - bottom) / n, rfl, by field_simp; ring, hw, ?_⟩
  obtain ⟨r, hr, hr'⟩ := C31_rebin_1d_mean o.nH o.height s hn heven
  have hsame : binvec n (height t) = binvec n (fun l : ℕ => bottom + (top - bottom) / n / 2 + l * ((top - bottom) / n)) := by
    rw [binvec_even hn heven]
    unfold binvec
    rw [if_neg (by omega)]
    dsimp only
    rw [← hb, ← ht]
    congr 1
    funext i
    simp
  have : sensitivityOnLevels o s n height t = r := by
    funext l
    unfold sensitivityOnLevels
    have : rebin1d maMean o.nH o.height s n (height t) = .ok r := by
      rw [← hr]
      unfold rebin1d
      rw [hsame]
    rw [this]
  rw [this]
  exact hr'

/-- **C149.** For example, with levels at 0, 1 and 10 km and gates at 1 and 7 km, the level at 1 km has the sensitivity of the gate at 7 km. -/
theorem C149_sensitivity_height_fails :
    ((rebin1d (α := ℚ) maMean 2 (fun h => if h = 0 then 1000 else 7000) (fun h => if h = 0 then some (-50) else some (-30)) 3
      (fun l => if l = 0 then 0 else if l = 1 then 1000 else 10000)).toOption.map fun r => r 1) = some (some (-30)) := by decide +kernel

/-- **C149.** The shear is a change with time. If winds do not change with time, the variance does not depend on them, however strongly they change with
height. -/
theorem C149_shear_fails (m : ModelRun) (r : ℝ) (U V : ℕ → ℝ) (hu : ∀ t l, m.u t l = U l) (hv : ∀ t l, m.v t l = V l) (t l : ℕ) :
    Spec.shear m t l = 0 ∧ Spec.variance m r t l = (10 : ℝ) ^ (3 / 10 * Real.logb 10 r - 103 / 100) := by
  have hs : Spec.shear m t l = 0 := by
    unfold Spec.shear Spec.gradientInTime
    simp only [hu, hv, sub_self, zero_div, ite_self]
    norm_num
  refine ⟨hs, ?_⟩
  unfold Spec.variance
  rw [hs, mul_zero, sub_zero]

/-! ### A small case -/

/-- Two hourly profiles of a model with two levels of 9 km resolution, wind and ice. -/
noncomputable def exampleRun : ModelRun where
  nT := 2
  nL := 2
  time := fun i => i
  height := fun _ l => 1000 * l
  temperature := fun _ _ => some 250
  pressure := fun _ _ => some 28705800
  qi := fun _ _ => some 1
  ql := fun _ _ => some 0
  ice := []
  cf := fun _ _ => some 1
  u := fun _ l => 10 * l
  v := fun _ _ => 0
  resolution := [some 9, none]

/-- Three profiles of two gates, observed in the first hour. -/
noncomputable def exampleDay (field : ObsField) : ObsDay where
  nT := 3
  nH := 2
  time := fun i => i / 10
  height := fun h => 100 * h
  frequency := some 35
  sensitivity := some fun _ => some (-50)
  field := field

theorem example_levels : Spec.levelsBelow22km exampleRun = 2 := by
  unfold Spec.levelsBelow22km
  rw [Finset.filter_true_of_mem]
  · rfl
  · intro l hl
    refine ⟨0, by decide, ?_⟩
    have h2 : l < 2 := Finset.mem_range.mp hl
    have : (l : ℝ) ≤ 1 := by exact_mod_cast (by omega : l ≤ 1)
    show 1000 * (l : ℝ) < 22000
    linarith

theorem example_comparable (field : ObsField) : Spec.Comparable exampleRun (exampleDay field) 1 9 where
  times := le_rfl
  levels := example_levels.ge
  hourly := ⟨one_pos, fun i _ => by show (i : ℝ) = ((0 : ℕ) : ℝ) + i * 1; simp⟩
  resolution := ⟨by norm_num, by simp [exampleRun], by simp [exampleRun]⟩
  sortedTimes := fun i j hij _ => by
    have : (i : ℝ) ≤ j := by exact_mod_cast hij
    show (i : ℝ) / 10 ≤ j / 10
    linarith
  sortedHeights := fun i j hij _ => by
    have : (i : ℝ) ≤ j := by exact_mod_cast hij
    show 100 * (i : ℝ) ≤ 100 * j
    linarith

theorem example_ice : Spec.IceAt exampleRun 0 0 1 400 := by
  refine ⟨rfl, by norm_num, ?_, by norm_num, 0, ?_, by norm_num⟩
  · exact (water_content_iff _ (by norm_num) _ _ _ _ _).mpr
      ⟨by norm_num, 1, 28705800, 250, [], rfl, rfl, rfl, by norm_num, rfl, by norm_num⟩
  · exact (water_content_iff _ (by norm_num) _ _ _ _ _).mpr
      ⟨by norm_num, 0, 28705800, 250, [], rfl, rfl, rfl, by norm_num, rfl, by norm_num⟩

/-- The hypotheses of the theorems on the three products are met. -/
example : (∃ out, l3Day exampleRun (exampleDay (.cf (fun _ _ => true) (fun _ _ => false) (fun _ _ => false) (fun _ _ => false) fun _ _ => false)) = .ok out) ∧
    (∃ out, l3Day exampleRun (exampleDay (.iwc (fun _ _ => some 1) fun _ _ => 1)) = .ok out) ∧
    ∃ out, l3Day exampleRun (exampleDay (.lwc fun _ _ => some 1)) = .ok out := by
  obtain ⟨out, mc, v, a, va, aa, h, -⟩ := C149_cloud_fraction exampleRun _ 1 9 (example_comparable _) (fun _ _ => true) (fun _ _ => false)
    (fun _ _ => false) (fun _ _ => false) (fun _ _ => false) rfl
  obtain ⟨mi, w, wa, h1, -⟩ := C149_ice exampleRun _ 1 9 (example_comparable _) (fun _ _ => some 1) (fun _ _ => 1) rfl
  obtain ⟨ml, x, xa, h2, -⟩ := C149_liquid exampleRun _ 1 9 (example_comparable _) (fun _ _ => some 1) rfl
  exact ⟨⟨out, h⟩, ⟨_, h1⟩, _, h2⟩

/-- The three observed profiles belong to the first hour and the gates to the first level. -/
example (field : ObsField) : Spec.cellTimes exampleRun (exampleDay field) 1 0 = {0, 1, 2} ∧
    Spec.cellHeights exampleRun (exampleDay field) 0 0 = {0, 1} := by
  constructor
  · ext k
    unfold Spec.cellTimes Spec.inWindow
    simp only [Finset.mem_filter, Finset.mem_range, Finset.mem_insert, Finset.mem_singleton]
    constructor
    · rintro ⟨hk, -⟩
      have : k < 3 := hk
      omega
    · intro hk
      have : (k : ℝ) ≤ 2 := by exact_mod_cast (by omega : k ≤ 2)
      refine ⟨show k < 3 by omega, ?_, ?_⟩
      · show ((0 : ℕ) : ℝ) - 1 / 2 ≤ (k : ℝ) / 10
        have : (0 : ℝ) ≤ k := Nat.cast_nonneg k
        push_cast
        linarith
      · show (k : ℝ) / 10 < ((0 : ℕ) : ℝ) + 1 / 2
        push_cast
        linarith
  · ext k
    unfold Spec.cellHeights Spec.levelLow Spec.levelHigh Spec.inWindow
    rw [example_levels, if_pos rfl, if_neg (by norm_num)]
    simp only [Finset.mem_filter, Finset.mem_range, Finset.mem_insert, Finset.mem_singleton]
    constructor
    · rintro ⟨hk, -⟩
      have : k < 2 := hk
      omega
    · intro hk
      have : (k : ℝ) ≤ 1 := by exact_mod_cast (by omega : k ≤ 1)
      have h0 : (0 : ℝ) ≤ k := Nat.cast_nonneg k
      refine ⟨show k < 2 by omega, ?_, ?_⟩
      · show 1000 * ((0 : ℕ) : ℝ) - (1000 * ((1 : ℕ) : ℝ) - 1000 * ((0 : ℕ) : ℝ)) ≤ 100 * (k : ℝ)
        push_cast
        linarith
      · show 100 * (k : ℝ) < (1000 * ((0 : ℕ) : ℝ) + 1000 * (((0 + 1 : ℕ)) : ℝ)) / 2
        push_cast
        linarith

/-- The file of the example has a filtered cloud fraction, and its variance is below one. -/
example : ∃ out c, l3Day exampleRun (exampleDay (.cf (fun _ _ => true) (fun _ _ => false) (fun _ _ => false) (fun _ _ => false) fun _ _ => false)) = .ok out ∧
    ("model_cf_cirrus", c) ∈ out ∧ Spec.variance exampleRun 9 0 0 ≤ 1 := by
  obtain ⟨out, mc, v, a, va, aa, h, -⟩ := C149_cloud_fraction exampleRun _ 1 9 (example_comparable _) (fun _ _ => true) (fun _ _ => false)
    (fun _ _ => false) (fun _ _ => false) (fun _ _ => false) rfl
  obtain ⟨c, hc⟩ := (C149_cirrus_present exampleRun _ 9 (example_comparable (.lwc fun _ _ => none)).resolution _ _ _ _ _ rfl out h).mpr
    ⟨⟨35, fun _ => some (-50), rfl, rfl, .inl (by norm_num)⟩, 0, by decide, 0, by rw [example_levels]; norm_num, 1, 400, example_ice⟩
  refine ⟨out, c, h, hc, ?_⟩
  rw [(C149_shear_fails exampleRun 9 (fun l => 10 * l) (fun _ => 0) (fun _ _ => rfl) (fun _ _ => rfl) 0 0).2]
  apply Real.rpow_le_one_of_one_le_of_nonpos (by norm_num)
  have : Real.logb 10 9 ≤ 1 := by
    rw [Real.logb_le_iff_le_rpow (by norm_num) (by norm_num)]
    norm_num
  linarith

/-- A model without resolution is rejected. -/
example : ∃ msg, l3Day { exampleRun with resolution := [none] } (exampleDay (.lwc fun _ _ => none)) = .error msg :=
  C149_rejected _ _ (.inl (by rintro ⟨r, -, h, -⟩; simp at h))

end Cloudnet
