import Verif.DerFile.Model
import Verif.IceFile.Props
import Verif.Atmos.Props
import Mathlib.Tactic

/-! Property C140 (file with droplet effective radius). -/

set_option linter.unusedSectionVars false
set_option linter.unusedVariables false
set_option linter.unusedSimpArgs false

namespace Cloudnet

namespace Spec

/-- A lognormal distribution of droplets: number per cubic metre, median diameter (mm) and width. -/
structure Droplets where
  number : ℝ
  diameter : ℝ
  width : ℝ

/-- Moments of the diameter (mm). -/
noncomputable def Droplets.moment (d : Droplets) (k : ℕ) : ℝ := d.number * d.diameter ^ k * Real.exp ((k : ℝ) ^ 2 * d.width ^ 2 / 2)

/-- Effective radius in metres. -/
noncomputable def Droplets.effectiveRadius (d : Droplets) : ℝ := d.moment 3 / d.moment 2 / 2 / 1000

/-- Liquid water content in kg m-3. -/
noncomputable def Droplets.liquid (d : Droplets) : ℝ := 1000 * (Real.pi / 6) * (d.moment 3 / 1000 ^ 3)

/-- Pixels with droplets in the bits of the file. -/
def DropletPixel (f : DerInput) (t h : ℕ) : Prop := (f.categoryBits t h).testBit 0 = true

/-- A layer of droplets. -/
def DropletLayer (f : DerInput) (t base top : ℕ) : Prop := IsLayer f.nH (fun h => (f.categoryBits t h).testBit 0) base top

/-- Depth of a gate. -/
def gateThickness (f : DerInput) (h : ℕ) : ℝ := f.heightAgl h - (if h = 0 then 0 else f.heightAgl (h - 1))

/-- Heights above ground increase. -/
def HeightsIncrease (f : DerInput) : Prop := ∀ h, 0 < gateThickness f h

end Spec

theorem pathLengths_depth (f : DerInput) (h : ℕ) : pathLengthsFromGround f.heightAgl h = Spec.gateThickness f h := by
  cases h with
  | zero => simp [pathLengthsFromGround, Spec.gateThickness]
  | succ h => simp [pathLengthsFromGround, Spec.gateThickness]

/-- The layers do not overlap, so every pixel has the numbers of its own layer. -/
theorem foldl_derLayerAll (p : DerParameters) (z : Grid (Option ℝ)) (dz : ℕ → ℝ) (lwp : ℕ → Option ℝ) (ps : List (Pixel × Pixel))
    (d : Grid DerPixel) (t h : ℕ) :
    ((∀ q ∈ ps, ¬ (t = q.1.1 ∧ q.1.2 ≤ h ∧ h ≤ q.2.2)) → ps.foldl (derLayerAll p z dz lwp) d t h = d t h) ∧
    (z t h = none → ps.foldl (derLayerAll p z dz lwp) d t h = d t h) ∧
    ∀ q0 ∈ ps, t = q0.1.1 → q0.1.2 ≤ h → h ≤ q0.2.2 → (∀ q ∈ ps, t = q.1.1 ∧ q.1.2 ≤ h ∧ h ≤ q.2.2 → q = q0) → ∀ x, z t h = some x →
      ps.foldl (derLayerAll p z dz lwp) d t h = derPixel p x (dz h) (layerSum (z t) q0.1.2 q0.2.2) ((lwp t).getD 0) := by
  induction ps generalizing d with
  | nil => simp
  | cons q ps ih =>
    obtain ⟨i1, i2, i3⟩ := ih (derLayerAll p z dz lwp d q)
    rw [List.foldl_cons]
    refine ⟨fun hno => ?_, fun hz => ?_, ?_⟩
    · rw [i1 fun q' hq' => hno q' (List.mem_cons_of_mem _ hq')]
      unfold derLayerAll
      rw [if_neg]
      rintro ⟨a, b, c⟩
      exact hno q List.mem_cons_self ⟨a, b, by omega⟩
    · rw [i2 hz]
      unfold derLayerAll
      split
      · rename_i hc
        rw [← hc.1, hz]
      · rfl
    · intro q0 hq0 e1 e2 e3 huniq x hx
      by_cases hmem : q0 ∈ ps
      · exact i3 q0 hmem e1 e2 e3 (fun q' hq' => huniq q' (List.mem_cons_of_mem _ hq')) x hx
      · rw [i1]
        · have : q0 = q := by
            rcases List.mem_cons.1 hq0 with h | h
            · exact h
            · exact absurd h hmem
          subst this
          unfold derLayerAll
          rw [if_pos ⟨e1, e2, by omega⟩, ← e1, hx]
        · intro q' hq' hc
          exact hmem (huniq q' (List.mem_cons_of_mem _ hq') hc ▸ hq')

/-- The numbers of all pixels. -/
theorem generateDer_ok (p : Option DerParameters) (f : DerInput) (out : DerFile) (hout : generateDer p f = .ok out) :
    ∃ (z : Grid (Option ℝ)) (lwp : ℕ → Option ℝ) (rain : ℕ → Bool) (d : Grid DerPixel), f.z = some z ∧ f.lwp = some lwp ∧
      getIsRain f.rain = .ok rain ∧
      out.der = (fun t h => (maskedPositive (d t h).der).map fun v => v * 0.001) ∧
      out.error = (fun t h => (maskedPositive (d t h).error).map fun v => v * 0.001) ∧
      out.scaled = maskedByLwp (clipLwp lwp) 0.001 (fun t h => (d t h).scaled) ∧
      out.scaledError = maskedByLwp (clipLwp lwp) 0.001 (fun t h => (d t h).scaledError) ∧
      out.n = maskedByLwp (clipLwp lwp) 1 (fun t h => (d t h).n) ∧
      (∃ c, readCategoryBits f.categoryBits = .ok c ∧ out.status = derStatus c rain out.der) ∧
      (∀ t < f.nT, ∀ h < f.nH, ¬ Spec.DropletPixel f t h ∨ z t h = none → d t h = DerPixel.zero) ∧
      ∀ t < f.nT, ∀ base top, Spec.DropletLayer f t base top → ∀ h, base ≤ h → h ≤ top → ∀ x, z t h = some x →
        d t h = derPixel (p.getD defaultDerParameters) ((10 : ℝ) ^ (x / 10)) (Spec.gateThickness f h)
          (layerSum (fun h => (z t h).map fun x => (10 : ℝ) ^ (x / 10)) base top) ((clipLwp lwp t).getD 0) := by
  unfold generateDer at hout
  rw [readCategoryBits_eq] at hout
  cases hl : f.lwp with
  | none => rw [hl] at hout; cases hout
  | some lwp =>
  cases hr : getIsRain f.rain with
  | error e => rw [hl, hr] at hout; cases hout
  | ok rain =>
  cases hz : f.z with
  | none => rw [hl, hr, hz] at hout; cases hout
  | some z =>
    obtain ⟨ps, hps, h1, h2⟩ := C21_bases_tops_pair f.nT f.nH (fun t h => (f.categoryBits t h).testBit 0)
    rw [hl, hr, hz] at hout
    simp only [Except.bind, readVar, Except.map, hps] at hout
    cases hout
    refine ⟨z, lwp, rain, ps.foldl (derLayerAll (p.getD defaultDerParameters) (fun t h => (z t h).map fun x => (10 : ℝ) ^ (x / 10))
      (pathLengthsFromGround f.heightAgl) (clipLwp lwp)) fun _ _ => DerPixel.zero, rfl, rfl, rfl, rfl, rfl, rfl, rfl, rfl,
      ⟨_, readCategoryBits_eq _, rfl⟩, ?_, ?_⟩
    · intro t ht h hh hcase
      obtain ⟨i1, i2, _⟩ := foldl_derLayerAll (p.getD defaultDerParameters) (fun t h => (z t h).map fun x => (10 : ℝ) ^ (x / 10))
        (pathLengthsFromGround f.heightAgl) (clipLwp lwp) ps (fun _ _ => DerPixel.zero) t h
      rcases hcase with hd | hz0
      · apply i1
        rintro q hq ⟨rfl, a, b⟩
        exact hd ((h1 q hq).2.2.full h a b)
      · exact i2 (by simp [hz0])
    · intro t ht base top hlayer h hb htop x hx
      obtain ⟨_, _, i3⟩ := foldl_derLayerAll (p.getD defaultDerParameters) (fun t h => (z t h).map fun x => (10 : ℝ) ^ (x / 10))
        (pathLengthsFromGround f.heightAgl) (clipLwp lwp) ps (fun _ _ => DerPixel.zero) t h
      have hmem := (C21_every_layer_is_paired f.nT f.nH _ ps hps t base top ht hlayer).1
      rw [i3 _ hmem rfl hb htop ?_ _ (by simp [hx]; rfl), pathLengths_depth]
      rintro q hq ⟨rfl, a, b⟩
      obtain ⟨q1, q2, q3⟩ := h1 q hq
      obtain ⟨e1, e2⟩ := IsLayer.unique q3 hlayer a b hb htop
      exact Prod.ext (Prod.ext rfl e1) (Prod.ext q2 e2)

/-- Every droplet pixel is in a layer. -/
theorem droplet_layer (f : DerInput) (t h : ℕ) (hh : h < f.nH) (hd : Spec.DropletPixel f t h) :
    ∃ base top, Spec.DropletLayer f t base top ∧ base ≤ h ∧ h ≤ top := by
  obtain ⟨ps, hps, h1, h2⟩ := C21_bases_tops_pair (t + 1) f.nH (fun t h => (f.categoryBits t h).testBit 0)
  obtain ⟨q, ⟨hq, rfl, a, b⟩, _⟩ := h2 t (by omega) h hh hd
  exact ⟨q.1.2, q.2.2, (h1 q hq).2.2, a, b⟩

theorem layerSum_nonneg (z : ℕ → Option ℝ) (base top : ℕ) : 0 ≤ layerSum z base top := by
  unfold layerSum
  apply List.sum_nonneg
  intro x hx
  obtain ⟨h, _, rfl⟩ := List.mem_map.1 hx
  split
  · exact Real.sqrt_nonneg _
  · exact le_refl _

theorem layerSum_eq (z : ℕ → Option ℝ) (base top : ℕ) :
    layerSum z base top = ∑ h ∈ Finset.Icc base top, match z h with
      | some x => Real.sqrt x
      | none => 0 := by
  unfold layerSum
  rw [← List.sum_toFinset]
  · apply Finset.sum_congr _ (fun _ _ => rfl)
    ext h
    simp only [List.mem_toFinset, List.mem_filter, List.mem_range, decide_eq_true_eq, Finset.mem_Icc]
    omega
  · exact (List.nodup_range).filter _

theorem layerSum_pos (z : ℕ → Option ℝ) (base top h : ℕ) (hb : base ≤ h) (ht : h ≤ top) (x : ℝ) (hx : z h = some x) (hpos : 0 < x) :
    0 < layerSum z base top := by
  rw [layerSum_eq]
  apply Finset.sum_pos'
  · intro i _
    split
    · exact Real.sqrt_nonneg _
    · exact le_refl _
  · refine ⟨h, Finset.mem_Icc.2 ⟨hb, ht⟩, ?_⟩
    rw [hx]
    exact Real.sqrt_pos.2 hpos

section
variable (p : DerParameters) (z dz s l : ℝ) (hz : 0 < z) (hdz : 0 < dz) (hs : 0 < s) (hl : 0 ≤ l)
include hz

theorem derPixel_der_pos (hN : 0 < p.N) : 0 < (derPixel p z dz s l).der ∧ 0 < (derPixel p z dz s l).error := by
  have h1 : 0 < (derPixel p z dz s l).der := by unfold derPixel; positivity
  refine ⟨h1, ?_⟩
  have h2 : (derPixel p z dz s l).error = (derPixel p z dz s l).der * Real.sqrt (p.dN / (6 * p.N) * (p.dN / (6 * p.N)) +
    p.sigmaX * p.dsigmaX * (p.sigmaX * p.dsigmaX) + |(10 : ℝ) ^ (p.ddBZ / 10)| * z / (6 * z) * (|(10 : ℝ) ^ (p.ddBZ / 10)| * z / (6 * z))) := rfl
  rw [h2]
  apply mul_pos h1
  apply Real.sqrt_pos.2
  have : 0 < |(10 : ℝ) ^ (p.ddBZ / 10)| * z / (6 * z) := by
    have : 0 < |(10 : ℝ) ^ (p.ddBZ / 10)| := abs_pos.2 (by positivity)
    positivity
  nlinarith [mul_self_nonneg (p.dN / (6 * p.N)), mul_self_nonneg (p.sigmaX * p.dsigmaX), mul_pos this this]

include hdz hs hl

theorem derPixel_scaled_pos : 0 < (derPixel p z dz s l).scaled := by
  unfold derPixel
  dsimp only
  split
  · norm_num
  · rename_i h0
    have : 0 < l := lt_of_le_of_ne hl (Ne.symm h0)
    positivity

theorem derPixel_n_pos : 0 < (derPixel p z dz s l).n := by
  have h := derPixel_scaled_pos p z dz s l hz hdz hs hl
  have : (derPixel p z dz s l).n = z / ((2 * (derPixel p z dz s l).scaled) / Real.exp (-0.5 * (p.sigmaX * p.sigmaX))) ^ 6 := rfl
  rw [this]
  positivity

/-- The third power of the scaled diameter. -/
theorem derPixel_scaled_cube (h0 : 0 < l) : (2 * (derPixel p z dz s l).scaled) ^ 3 =
    (1 / 1000) ^ 3 * (Real.sqrt z / l) * (Real.pi * 1000 / 6) * (s * dz) * Real.exp (-6 * p.sigmaX ^ 2) := by
  have e : (derPixel p z dz s l).scaled = 0.001 * (z ^ (1 / 6 : ℝ) / (2 * l ^ (1 / 3 : ℝ))) * (Real.pi * 1000 / 6) ^ (1 / 3 : ℝ) *
      ((s * dz) ^ (1 / 3 : ℝ) * Real.exp (-2 * (p.sigmaX * p.sigmaX))) := by
    unfold derPixel
    dsimp only
    rw [if_neg h0.ne']
  have third : ∀ x : ℝ, 0 ≤ x → (x ^ (1 / 3 : ℝ)) ^ 3 = x := by
    intro x hx
    rw [← Real.rpow_natCast, ← Real.rpow_mul hx]
    norm_num
  have sixth : (z ^ (1 / 6 : ℝ)) ^ 3 = Real.sqrt z := by
    rw [← Real.rpow_natCast, ← Real.rpow_mul hz.le, Real.sqrt_eq_rpow]
    norm_num
  have hexp : Real.exp (-2 * (p.sigmaX * p.sigmaX)) ^ 3 = Real.exp (-6 * p.sigmaX ^ 2) := by
    rw [← Real.exp_nat_mul]
    congr 1
    push_cast
    ring
  rw [e]
  have hl3 : l ^ (1 / 3 : ℝ) ≠ 0 := by positivity
  calc (2 * (0.001 * (z ^ (1 / 6 : ℝ) / (2 * l ^ (1 / 3 : ℝ))) * (Real.pi * 1000 / 6) ^ (1 / 3 : ℝ) *
      ((s * dz) ^ (1 / 3 : ℝ) * Real.exp (-2 * (p.sigmaX * p.sigmaX))))) ^ 3
      = (1 / 1000) ^ 3 * ((z ^ (1 / 6 : ℝ)) ^ 3 / (l ^ (1 / 3 : ℝ)) ^ 3) * ((Real.pi * 1000 / 6) ^ (1 / 3 : ℝ)) ^ 3 *
        ((s * dz) ^ (1 / 3 : ℝ)) ^ 3 * Real.exp (-2 * (p.sigmaX * p.sigmaX)) ^ 3 := by
        field_simp
        norm_num
    _ = _ := by rw [third l h0.le, third _ (by positivity), third _ (by positivity), sixth, hexp]

end

/-- A number and an effective radius determine the distribution and its liquid water. -/
theorem droplets_of (d : Spec.Droplets) (r z : ℝ) (hr : 0 < r) (hd : 0 < d.diameter) (hz : 0 < z)
    (hn : d.number = z / ((2 * r) / Real.exp (-0.5 * (d.width * d.width))) ^ 6) :
    (d.effectiveRadius = r * 0.001 ↔ d.diameter = 2 * r * Real.exp (-(5 / 2) * d.width ^ 2)) ∧
    (d.effectiveRadius = r * 0.001 → d.moment 6 = z ∧ d.moment 3 = z / (2 * r) ^ 3 * Real.exp (-6 * d.width ^ 2)) := by
  have hnpos : 0 < d.number := by rw [hn]; positivity
  have e0 : d.effectiveRadius = d.diameter * Real.exp (5 / 2 * d.width ^ 2) / 2 / 1000 := by
    unfold Spec.Droplets.effectiveRadius Spec.Droplets.moment
    have : Real.exp (((3 : ℕ) : ℝ) ^ 2 * d.width ^ 2 / 2) = Real.exp (((2 : ℕ) : ℝ) ^ 2 * d.width ^ 2 / 2) * Real.exp (5 / 2 * d.width ^ 2) := by
      rw [← Real.exp_add]
      congr 1
      push_cast
      ring
    rw [this]
    have : Real.exp (((2 : ℕ) : ℝ) ^ 2 * d.width ^ 2 / 2) ≠ 0 := (Real.exp_pos _).ne'
    field_simp
  have e1 : d.effectiveRadius = r * 0.001 ↔ d.diameter = 2 * r * Real.exp (-(5 / 2) * d.width ^ 2) := by
    rw [e0]
    have hx : Real.exp (-(5 / 2) * d.width ^ 2) = (Real.exp (5 / 2 * d.width ^ 2))⁻¹ := by
      rw [← Real.exp_neg]; congr 1; ring
    rw [hx]
    have : Real.exp (5 / 2 * d.width ^ 2) ≠ 0 := (Real.exp_pos _).ne'
    constructor
    · intro h
      rw [← div_eq_mul_inv, eq_div_iff this]
      norm_num at h
      linarith
    · intro h
      rw [h]
      field_simp
      norm_num
  refine ⟨e1, fun h => ?_⟩
  have hdia := e1.1 h
  have hden : ((2 * r) / Real.exp (-0.5 * (d.width * d.width))) ^ 6 = (2 * r) ^ 6 * Real.exp (3 * d.width ^ 2) := by
    rw [div_pow, ← Real.exp_nat_mul, div_eq_mul_inv, ← Real.exp_neg]
    congr 2
    push_cast
    ring
  rw [hden] at hn
  have h2r : (2 * r) ≠ 0 := by positivity
  constructor
  · unfold Spec.Droplets.moment
    rw [hn, hdia, mul_pow (2 * r) (Real.exp _), ← Real.exp_nat_mul, div_mul_eq_mul_div, div_mul_eq_mul_div]
    rw [div_eq_iff (by positivity)]
    have : Real.exp (((6 : ℕ) : ℝ) * (-(5 / 2) * d.width ^ 2)) * Real.exp (((6 : ℕ) : ℝ) ^ 2 * d.width ^ 2 / 2) = Real.exp (3 * d.width ^ 2) := by
      rw [← Real.exp_add]; congr 1; push_cast; ring
    rw [← this]
    ring
  · unfold Spec.Droplets.moment
    rw [hn, hdia, mul_pow (2 * r) (Real.exp _), ← Real.exp_nat_mul]
    have : Real.exp (((3 : ℕ) : ℝ) * (-(5 / 2) * d.width ^ 2)) * Real.exp (((3 : ℕ) : ℝ) ^ 2 * d.width ^ 2 / 2) =
        Real.exp (-6 * d.width ^ 2) * Real.exp (3 * d.width ^ 2) := by
      rw [← Real.exp_add, ← Real.exp_add]; congr 1; push_cast; ring
    have hne : Real.exp (3 * d.width ^ 2) ≠ 0 := (Real.exp_pos _).ne'
    calc z / ((2 * r) ^ 6 * Real.exp (3 * d.width ^ 2)) * ((2 * r) ^ 3 * Real.exp (((3 : ℕ) : ℝ) * (-(5 / 2) * d.width ^ 2))) *
        Real.exp (((3 : ℕ) : ℝ) ^ 2 * d.width ^ 2 / 2)
        = z / ((2 * r) ^ 6 * Real.exp (3 * d.width ^ 2)) * (2 * r) ^ 3 * (Real.exp (((3 : ℕ) : ℝ) * (-(5 / 2) * d.width ^ 2)) *
          Real.exp (((3 : ℕ) : ℝ) ^ 2 * d.width ^ 2 / 2)) := by ring
      _ = _ := by
        rw [this]
        field_simp

theorem maskedPositive_pos {x : ℝ} (h : 0 < x) : maskedPositive x = some x := by
  unfold maskedPositive
  rw [if_neg (not_le.2 h)]

/-- Values of a pixel with droplets and an echo. -/
theorem der_pixel (p : Option DerParameters) (f : DerInput) (out : DerFile) (hout : generateDer p f = .ok out) (hH : Spec.HeightsIncrease f)
    (hN : 0 < (p.getD defaultDerParameters).N) (z : Grid (Option ℝ)) (hz : f.z = some z) (lwp : ℕ → Option ℝ) (hl : f.lwp = some lwp)
    (t : ℕ) (ht : t < f.nT) (base top : ℕ) (hlay : Spec.DropletLayer f t base top) (h : ℕ) (hb : base ≤ h) (htop : h ≤ top) (x : ℝ)
    (hx : z t h = some x) :
    let px := fun l => derPixel (p.getD defaultDerParameters) ((10 : ℝ) ^ (x / 10)) (Spec.gateThickness f h)
      (layerSum (fun h => (z t h).map fun x => (10 : ℝ) ^ (x / 10)) base top) l
    out.der t h = some ((px 0).der * 0.001) ∧ out.error t h = some ((px 0).error * 0.001) ∧
    (lwp t = none → out.scaled t h = none ∧ out.scaledError t h = none ∧ out.n t h = none) ∧
    ∀ l, lwp t = some l → out.scaled t h = some ((px (max l 0)).scaled * 0.001) ∧ out.n t h = some (px (max l 0)).n ∧
      out.scaledError t h = (maskedPositive (px (max l 0)).scaledError).map fun v => v * 0.001 := by
  intro px
  obtain ⟨z', lwp', rain, d, hz', hl', hr, o1, o2, o3, o4, o5, o6, o7, o8⟩ := generateDer_ok p f out hout
  rw [hz] at hz'
  rw [hl] at hl'
  cases hz'
  cases hl'
  have hd := o8 t ht base top hlay h hb htop x hx
  have hlin : (0 : ℝ) < (10 : ℝ) ^ (x / 10) := by positivity
  have hspos : 0 < layerSum (fun h => (z t h).map fun x => (10 : ℝ) ^ (x / 10)) base top :=
    layerSum_pos _ base top h hb htop _ (by rw [hx]; rfl) hlin
  have hd0 : ∀ l, (px l).der = (px 0).der ∧ (px l).error = (px 0).error := fun l => ⟨rfl, rfl⟩
  have hclip : ∀ l, lwp t = some l → clipLwp lwp t = some (max l 0) := by
    intro l hlt
    unfold clipLwp
    rw [hlt]
    simp only [Option.map_some, Option.some.injEq]
    split
    · rename_i hneg; exact (max_eq_right hneg.le).symm
    · rename_i hneg; exact (max_eq_left (not_lt.1 hneg)).symm
  refine ⟨?_, ?_, ?_, ?_⟩
  · rw [o1]
    dsimp only
    rw [hd]
    rw [show (derPixel (p.getD defaultDerParameters) ((10 : ℝ) ^ (x / 10)) (Spec.gateThickness f h)
      (layerSum (fun h => (z t h).map fun x => (10 : ℝ) ^ (x / 10)) base top) ((clipLwp lwp t).getD 0)).der = (px 0).der from rfl,
      maskedPositive_pos (derPixel_der_pos _ _ _ _ _ hlin hN).1]
    rfl
  · rw [o2]
    dsimp only
    rw [hd]
    rw [show (derPixel (p.getD defaultDerParameters) ((10 : ℝ) ^ (x / 10)) (Spec.gateThickness f h)
      (layerSum (fun h => (z t h).map fun x => (10 : ℝ) ^ (x / 10)) base top) ((clipLwp lwp t).getD 0)).error = (px 0).error from rfl,
      maskedPositive_pos (derPixel_der_pos _ _ _ _ _ hlin hN).2]
    rfl
  · intro hnone
    have : clipLwp lwp t = none := by unfold clipLwp; rw [hnone]; rfl
    rw [o3, o4, o5]
    unfold maskedByLwp
    rw [this]
    exact ⟨rfl, rfl, rfl⟩
  · intro l hlt
    have hc := hclip l hlt
    rw [hc] at hd
    simp only [Option.getD_some] at hd
    have hpos := derPixel_scaled_pos (p.getD defaultDerParameters) ((10 : ℝ) ^ (x / 10)) (Spec.gateThickness f h)
      (layerSum (fun h => (z t h).map fun x => (10 : ℝ) ^ (x / 10)) base top) (max l 0) hlin (hH h) hspos (le_max_right _ _)
    have hpos' := derPixel_n_pos (p.getD defaultDerParameters) ((10 : ℝ) ^ (x / 10)) (Spec.gateThickness f h)
      (layerSum (fun h => (z t h).map fun x => (10 : ℝ) ^ (x / 10)) base top) (max l 0) hlin (hH h) hspos (le_max_right _ _)
    rw [o3, o4, o5]
    unfold maskedByLwp
    rw [hc]
    dsimp only
    rw [hd, maskedPositive_pos hpos, maskedPositive_pos hpos']
    exact ⟨rfl, by simp [px], rfl⟩

/-- **C140.** The radius is known exactly at droplet pixels with an echo, the scaled radius and number also need a known liquid water
path. -/
theorem C140_known (p : Option DerParameters) (f : DerInput) (out : DerFile) (hout : generateDer p f = .ok out) (hH : Spec.HeightsIncrease f)
    (hN : 0 < (p.getD defaultDerParameters).N) :
    ∃ z lwp, f.z = some z ∧ f.lwp = some lwp ∧ ∀ t < f.nT, ∀ h < f.nH,
      ((∃ v, out.der t h = some v) ↔ Spec.DropletPixel f t h ∧ ∃ x, z t h = some x) ∧
      ((∃ v, out.error t h = some v) ↔ Spec.DropletPixel f t h ∧ ∃ x, z t h = some x) ∧
      ((∃ v, out.scaled t h = some v) ↔ Spec.DropletPixel f t h ∧ (∃ x, z t h = some x) ∧ ∃ l, lwp t = some l) ∧
      ((∃ v, out.n t h = some v) ↔ Spec.DropletPixel f t h ∧ (∃ x, z t h = some x) ∧ ∃ l, lwp t = some l) := by
  obtain ⟨z, lwp, rain, d, hz, hl, hr, o1, o2, o3, o4, o5, o6, o7, o8⟩ := generateDer_ok p f out hout
  refine ⟨z, lwp, hz, hl, fun t ht h hh => ?_⟩
  by_cases hc : Spec.DropletPixel f t h ∧ ∃ x, z t h = some x
  · obtain ⟨hd, x, hx⟩ := hc
    obtain ⟨base, top, hlay, hb, htop⟩ := droplet_layer f t h hh hd
    obtain ⟨a1, a2, a3, a4⟩ := der_pixel p f out hout hH hN z hz lwp hl t ht base top hlay h hb htop x hx
    refine ⟨iff_of_true ⟨_, a1⟩ ⟨hd, x, hx⟩, iff_of_true ⟨_, a2⟩ ⟨hd, x, hx⟩, ?_, ?_⟩
    · cases hlt : lwp t with
      | none => rw [(a3 hlt).1]; simp
      | some l => exact iff_of_true ⟨_, (a4 l hlt).1⟩ ⟨hd, ⟨x, hx⟩, l, rfl⟩
    · cases hlt : lwp t with
      | none => rw [(a3 hlt).2.2]; simp
      | some l => exact iff_of_true ⟨_, (a4 l hlt).2.1⟩ ⟨hd, ⟨x, hx⟩, l, rfl⟩
  · have h0 : d t h = DerPixel.zero := by
      apply o7 t ht h hh
      by_cases hd : Spec.DropletPixel f t h
      · right
        cases hx : z t h with
        | none => rfl
        | some x => exact absurd ⟨hd, x, hx⟩ hc
      · exact Or.inl hd
    have hm : maskedPositive 0 = none := by unfold maskedPositive; rw [if_pos (le_refl _)]
    have n1 : out.der t h = none := by rw [o1]; dsimp only; rw [h0]; simp [DerPixel.zero, hm]
    have n2 : out.error t h = none := by rw [o2]; dsimp only; rw [h0]; simp [DerPixel.zero, hm]
    have n3 : out.scaled t h = none := by
      rw [o3]; unfold maskedByLwp; dsimp only; rw [h0]; cases clipLwp lwp t <;> simp [DerPixel.zero, hm]
    have n4 : out.n t h = none := by
      rw [o5]; unfold maskedByLwp; dsimp only; rw [h0]; cases clipLwp lwp t <;> simp [DerPixel.zero, hm]
    rw [n1, n2, n3, n4]
    refine ⟨iff_of_false (by simp) hc, iff_of_false (by simp) hc, iff_of_false (by simp) fun h => hc ⟨h.1, h.2.1⟩,
      iff_of_false (by simp) fun h => hc ⟨h.1, h.2.1⟩⟩

/-- **C140.** The radius is that of lognormal droplets with the given number and width that have the measured reflectivity; the scaled
radius is that of such droplets with the retrieved number. -/
theorem C140_distribution (p : Option DerParameters) (f : DerInput) (out : DerFile) (hout : generateDer p f = .ok out)
    (hH : Spec.HeightsIncrease f) (hN : 0 < (p.getD defaultDerParameters).N) :
    ∃ z, f.z = some z ∧ ∀ t < f.nT, ∀ h < f.nH, ∀ x, z t h = some x →
      (∀ r, out.der t h = some r → ∃ d : Spec.Droplets, 0 < d.diameter ∧ d.number = (p.getD defaultDerParameters).N ∧
        d.width = (p.getD defaultDerParameters).sigmaX ∧ d.moment 6 = (10 : ℝ) ^ (x / 10) ∧ d.effectiveRadius = r) ∧
      ∀ r n, out.scaled t h = some r → out.n t h = some n → ∃ d : Spec.Droplets, 0 < d.diameter ∧ d.number = n ∧
        d.width = (p.getD defaultDerParameters).sigmaX ∧ d.moment 6 = (10 : ℝ) ^ (x / 10) ∧ d.effectiveRadius = r := by
  obtain ⟨z, lwp, hz, hl, hk⟩ := C140_known p f out hout hH hN
  refine ⟨z, hz, fun t ht h hh x hx => ?_⟩
  obtain ⟨k1, _, k3, _⟩ := hk t ht h hh
  have hlin : (0 : ℝ) < (10 : ℝ) ^ (x / 10) := by positivity
  have build : ∀ r n σ : ℝ, 0 < r → n = (10 : ℝ) ^ (x / 10) / ((2 * r) / Real.exp (-0.5 * (σ * σ))) ^ 6 →
      ∃ d : Spec.Droplets, 0 < d.diameter ∧ d.number = n ∧ d.width = σ ∧ d.moment 6 = (10 : ℝ) ^ (x / 10) ∧
        d.effectiveRadius = r * 0.001 := by
    intro r n σ hr hn
    have hdia : 0 < 2 * r * Real.exp (-(5 / 2) * σ ^ 2) := by positivity
    obtain ⟨q1, q2⟩ := droplets_of ⟨n, 2 * r * Real.exp (-(5 / 2) * σ ^ 2), σ⟩ r _ hr hdia hlin hn
    have := q1.2 rfl
    exact ⟨_, hdia, rfl, rfl, (q2 this).1, this⟩
  constructor
  · intro r hr
    obtain ⟨hd, _⟩ := k1.1 ⟨r, hr⟩
    obtain ⟨base, top, hlay, hb, htop⟩ := droplet_layer f t h hh hd
    obtain ⟨a1, _⟩ := der_pixel p f out hout hH hN z hz lwp hl t ht base top hlay h hb htop x hx
    rw [hr] at a1
    cases a1
    apply build
    · exact (derPixel_der_pos _ _ _ _ _ hlin hN).1
    · set q := p.getD defaultDerParameters
      have e : (derPixel q ((10 : ℝ) ^ (x / 10)) (Spec.gateThickness f h) (layerSum (fun h => (z t h).map fun x => (10 : ℝ) ^ (x / 10)) base top) 0).der =
          0.5 * ((10 : ℝ) ^ (x / 10) / q.N) ^ (1 / 6 : ℝ) * Real.exp (-0.5 * (q.sigmaX * q.sigmaX)) := rfl
      rw [e]
      have : (2 * (0.5 * ((10 : ℝ) ^ (x / 10) / q.N) ^ (1 / 6 : ℝ) * Real.exp (-0.5 * (q.sigmaX * q.sigmaX))) /
          Real.exp (-0.5 * (q.sigmaX * q.sigmaX))) = ((10 : ℝ) ^ (x / 10) / q.N) ^ (1 / 6 : ℝ) := by
        have := (Real.exp_pos (-0.5 * (q.sigmaX * q.sigmaX))).ne'
        field_simp
        norm_num
      rw [this, ← Real.rpow_natCast, ← Real.rpow_mul (by positivity)]
      norm_num
      field_simp
  · intro r n hr hn
    obtain ⟨hd, _, l, hlt⟩ := k3.1 ⟨r, hr⟩
    obtain ⟨base, top, hlay, hb, htop⟩ := droplet_layer f t h hh hd
    obtain ⟨_, _, _, a4⟩ := der_pixel p f out hout hH hN z hz lwp hl t ht base top hlay h hb htop x hx
    obtain ⟨b1, b2, _⟩ := a4 l hlt
    rw [hr] at b1
    rw [hn] at b2
    cases b1
    cases b2
    have hspos : 0 < layerSum (fun h => (z t h).map fun x => (10 : ℝ) ^ (x / 10)) base top :=
      layerSum_pos _ base top h hb htop _ (by rw [hx]; rfl) hlin
    exact build _ _ _ (derPixel_scaled_pos _ _ _ _ _ hlin (hH h) hspos (le_max_right _ _)) rfl

/-- **C140.** In a layer, with a positive liquid water path, the liquid water of the droplets described by the scaled radius and number adds
up to the measured liquid water path. **A finding:** this is so for every layer, so the profile has the path once for each layer. -/
theorem C140_closure (p : Option DerParameters) (f : DerInput) (out : DerFile) (hout : generateDer p f = .ok out)
    (hH : Spec.HeightsIncrease f) (hN : 0 < (p.getD defaultDerParameters).N) :
    ∃ z lwp, f.z = some z ∧ f.lwp = some lwp ∧ ∀ t < f.nT, ∀ l, lwp t = some l → 0 < l → ∀ base top, Spec.DropletLayer f t base top →
      (∃ h, base ≤ h ∧ h ≤ top ∧ ∃ x, z t h = some x) → ∀ drops : ℕ → Spec.Droplets,
      (∀ h, base ≤ h → h ≤ top → (∃ x, z t h = some x) → 0 < (drops h).diameter ∧ (drops h).width = (p.getD defaultDerParameters).sigmaX ∧
        out.n t h = some (drops h).number ∧ out.scaled t h = some (drops h).effectiveRadius) →
      ∑ h ∈ Finset.Icc base top, (if (z t h).isSome then (drops h).liquid * Spec.gateThickness f h else 0) = l := by
  obtain ⟨z, lwp, hz, hl, hk⟩ := C140_known p f out hout hH hN
  refine ⟨z, lwp, hz, hl, fun t ht l hlt hlpos base top hlay hex drops hdrops => ?_⟩
  set q := p.getD defaultDerParameters with hq
  set S := layerSum (fun h => (z t h).map fun x => (10 : ℝ) ^ (x / 10)) base top with hS
  obtain ⟨h0, b0, t0, x0, hx0⟩ := hex
  have hspos : 0 < S := layerSum_pos _ base top h0 b0 t0 _ (by rw [hx0]; rfl) (by positivity)
  have hmax : max l 0 = l := max_eq_left hlpos.le
  have hterm : ∀ h ∈ Finset.Icc base top, (if (z t h).isSome then (drops h).liquid * Spec.gateThickness f h else 0) =
      l / S * (match (z t h).map fun x => (10 : ℝ) ^ (x / 10) with
        | some x => Real.sqrt x
        | none => 0) := by
    intro h hmem
    obtain ⟨hb, htop⟩ := Finset.mem_Icc.1 hmem
    cases hx : z t h with
    | none => simp
    | some x =>
      simp only [Option.isSome_some, if_true, Option.map_some]
      have hlin : (0 : ℝ) < (10 : ℝ) ^ (x / 10) := by positivity
      obtain ⟨d1, d2, d3, d4⟩ := hdrops h hb htop ⟨x, hx⟩
      obtain ⟨_, _, _, a4⟩ := der_pixel p f out hout hH hN z hz lwp hl t ht base top hlay h hb htop x hx
      obtain ⟨b1, b2, _⟩ := a4 l hlt
      rw [hmax] at b1 b2
      rw [d4] at b1
      rw [d3] at b2
      have e1 := Option.some.inj b1
      have e2 := Option.some.inj b2
      have hrpos := derPixel_scaled_pos q ((10 : ℝ) ^ (x / 10)) (Spec.gateThickness f h) S l hlin (hH h) hspos hlpos.le
      have hn : (drops h).number = (10 : ℝ) ^ (x / 10) / ((2 * (derPixel q ((10 : ℝ) ^ (x / 10)) (Spec.gateThickness f h) S l).scaled) /
          Real.exp (-0.5 * ((drops h).width * (drops h).width))) ^ 6 := by
        rw [e2, d2]
        rfl
      have h3 := ((droplets_of (drops h) _ _ hrpos d1 hlin hn).2 e1).2
      unfold Spec.Droplets.liquid
      rw [h3, derPixel_scaled_cube q ((10 : ℝ) ^ (x / 10)) (Spec.gateThickness f h) S l hlin (hH h) hspos hlpos.le hlpos, d2]
      have hE : Real.exp (-6 * q.sigmaX ^ 2) ≠ 0 := (Real.exp_pos _).ne'
      have hsq : Real.sqrt ((10 : ℝ) ^ (x / 10)) ≠ 0 := (Real.sqrt_pos.2 hlin).ne'
      have hdep : Spec.gateThickness f h ≠ 0 := (hH h).ne'
      have hpi := Real.pi_ne_zero
      have hself : (10 : ℝ) ^ (x / 10) = Real.sqrt ((10 : ℝ) ^ (x / 10)) * Real.sqrt ((10 : ℝ) ^ (x / 10)) := (Real.mul_self_sqrt hlin.le).symm
      generalize Real.sqrt ((10 : ℝ) ^ (x / 10)) = w at *
      rw [hself]
      generalize Spec.gateThickness f h = g at *
      generalize Real.exp (-6 * q.sigmaX ^ 2) = E at *
      field_simp
  rw [Finset.sum_congr rfl hterm, ← Finset.mul_sum, ← layerSum_eq (fun h => (z t h).map fun x => (10 : ℝ) ^ (x / 10)), ← hS]
  field_simp

/-- **C140, a finding.** The method assumes one number of droplets in a layer. The retrieved number is the same at two gates exactly if the
gates have the same depth. -/
theorem C140_number (p : Option DerParameters) (f : DerInput) (out : DerFile) (hout : generateDer p f = .ok out)
    (hH : Spec.HeightsIncrease f) (hN : 0 < (p.getD defaultDerParameters).N) :
    ∃ z lwp, f.z = some z ∧ f.lwp = some lwp ∧ ∀ t < f.nT, ∀ l, lwp t = some l → 0 < l → ∀ base top, Spec.DropletLayer f t base top →
      ∀ h h', base ≤ h → h ≤ top → base ≤ h' → h' ≤ top → ∀ n n', out.n t h = some n → out.n t h' = some n' →
        n * Spec.gateThickness f h ^ 2 = n' * Spec.gateThickness f h' ^ 2 ∧ (n = n' ↔ Spec.gateThickness f h = Spec.gateThickness f h') := by
  obtain ⟨z, lwp, hz, hl, hk⟩ := C140_known p f out hout hH hN
  refine ⟨z, lwp, hz, hl, fun t ht l hlt hlpos base top hlay h h' hb htop hb' htop' n n' hn hn' => ?_⟩
  have hmax : max l 0 = l := max_eq_left hlpos.le
  have key : ∃ C : ℝ, 0 < C ∧ ∀ h, base ≤ h → h ≤ top → ∀ n, out.n t h = some n → n * Spec.gateThickness f h ^ 2 = C := by
    set q := p.getD defaultDerParameters with hq
    set S := layerSum (fun h => (z t h).map fun x => (10 : ℝ) ^ (x / 10)) base top with hS
    have hspos : 0 < S := by
      obtain ⟨_, ⟨x, hx⟩, _⟩ := (hk t ht h (lt_of_le_of_lt htop hlay.top_lt)).2.2.2.1 ⟨n, hn⟩
      exact layerSum_pos _ base top h hb htop _ (by rw [hx]; rfl) (by positivity)
    refine ⟨l ^ 2 * 1000 ^ 6 / ((Real.pi * 1000 / 6) * S * Real.exp (-6 * q.sigmaX ^ 2)) ^ 2 * Real.exp (-0.5 * (q.sigmaX * q.sigmaX)) ^ 6,
      by positivity, ?_⟩
    intro h hb htop n hn
    obtain ⟨hd, ⟨x, hx⟩, _⟩ := (hk t ht h (lt_of_le_of_lt htop hlay.top_lt)).2.2.2.1 ⟨n, hn⟩
    have hlin : (0 : ℝ) < (10 : ℝ) ^ (x / 10) := by positivity
    obtain ⟨_, _, _, a4⟩ := der_pixel p f out hout hH hN z hz lwp hl t ht base top hlay h hb htop x hx
    obtain ⟨_, b2, _⟩ := a4 l hlt
    rw [hmax, hn] at b2
    have e2 := Option.some.inj b2
    have e3 : (derPixel q ((10 : ℝ) ^ (x / 10)) (Spec.gateThickness f h) S l).n = (10 : ℝ) ^ (x / 10) /
        ((2 * (derPixel q ((10 : ℝ) ^ (x / 10)) (Spec.gateThickness f h) S l).scaled) / Real.exp (-0.5 * (q.sigmaX * q.sigmaX))) ^ 6 := rfl
    have hcube := derPixel_scaled_cube q ((10 : ℝ) ^ (x / 10)) (Spec.gateThickness f h) S l hlin (hH h) hspos hlpos.le hlpos
    rw [e2, e3, div_pow, show (2 * (derPixel q ((10 : ℝ) ^ (x / 10)) (Spec.gateThickness f h) S l).scaled) ^ 6 =
      ((2 * (derPixel q ((10 : ℝ) ^ (x / 10)) (Spec.gateThickness f h) S l).scaled) ^ 3) ^ 2 by ring, hcube]
    have hE : Real.exp (-6 * q.sigmaX ^ 2) ≠ 0 := (Real.exp_pos _).ne'
    have hE2 : Real.exp (-0.5 * (q.sigmaX * q.sigmaX)) ≠ 0 := (Real.exp_pos _).ne'
    have hsq : Real.sqrt ((10 : ℝ) ^ (x / 10)) ≠ 0 := (Real.sqrt_pos.2 hlin).ne'
    have hdep : Spec.gateThickness f h ≠ 0 := (hH h).ne'
    have hpi := Real.pi_ne_zero
    have hself : (10 : ℝ) ^ (x / 10) = Real.sqrt ((10 : ℝ) ^ (x / 10)) ^ 2 := (Real.sq_sqrt hlin.le).symm
    generalize Real.sqrt ((10 : ℝ) ^ (x / 10)) = w at *
    rw [hself]
    generalize Spec.gateThickness f h = g at *
    generalize Real.exp (-6 * q.sigmaX ^ 2) = E at *
    generalize Real.exp (-0.5 * (q.sigmaX * q.sigmaX)) = E2 at *
    field_simp
    try norm_num
  obtain ⟨C, hC, hkey⟩ := key
  have k1 := hkey h hb htop n hn
  have k2 := hkey h' hb' htop' n' hn'
  refine ⟨k1.trans k2.symm, ?_⟩
  have g1 := hH h
  have g2 := hH h'
  have hnpos : 0 < n := by
    by_contra hc
    nlinarith [sq_nonneg (Spec.gateThickness f h)]
  constructor
  · rintro rfl
    have : Spec.gateThickness f h ^ 2 = Spec.gateThickness f h' ^ 2 := mul_left_cancel₀ hnpos.ne' (k1.trans k2.symm)
    exact (pow_left_inj₀ g1.le g2.le (by norm_num)).1 this
  · intro heq
    rw [← heq] at k2
    exact mul_right_cancel₀ (pow_pos g1 2).ne' (k1.trans k2.symm)

/-- **C140, a finding.** If the liquid water path is not positive, the scaled radius is one micrometre at every droplet pixel with an echo. -/
theorem C140_zero_path (p : Option DerParameters) (f : DerInput) (out : DerFile) (hout : generateDer p f = .ok out)
    (hH : Spec.HeightsIncrease f) (hN : 0 < (p.getD defaultDerParameters).N) :
    ∃ z lwp, f.z = some z ∧ f.lwp = some lwp ∧ ∀ t < f.nT, ∀ l, lwp t = some l → l ≤ 0 → ∀ h < f.nH, Spec.DropletPixel f t h →
      (∃ x, z t h = some x) → out.scaled t h = some (1 / 1000000) ∧ out.scaledError t h = some (1 / 1000000) := by
  obtain ⟨z, lwp, hz, hl, hk⟩ := C140_known p f out hout hH hN
  refine ⟨z, lwp, hz, hl, fun t ht l hlt hle h hh hd ⟨x, hx⟩ => ?_⟩
  obtain ⟨base, top, hlay, hb, htop⟩ := droplet_layer f t h hh hd
  obtain ⟨_, _, _, a4⟩ := der_pixel p f out hout hH hN z hz lwp hl t ht base top hlay h hb htop x hx
  obtain ⟨b1, _, b3⟩ := a4 l hlt
  rw [max_eq_right hle] at b1 b3
  have e1 : ∀ q z dz s, (derPixel q z dz s 0).scaled = 0.001 ∧ (derPixel q z dz s 0).scaledError = 0.001 := by
    intro q z dz s
    unfold derPixel
    simp
  rw [b1, b3, (e1 _ _ _ _).1, (e1 _ _ _ _).2, maskedPositive_pos (by norm_num)]
  constructor
  · norm_num
  · simp only [Option.map_some]; norm_num

/-- **C140.** The errors: relative errors of number, width and reflectivity (scaled: reflectivity, width and liquid water path) are
combined. **A finding:** the share of the reflectivity is `10 ^ (ddBZ / 10) / 6`, so it is a sixth of the radius even if the error `ddBZ` is
zero. -/
theorem C140_errors (p : Option DerParameters) (f : DerInput) (out : DerFile) (hout : generateDer p f = .ok out)
    (hH : Spec.HeightsIncrease f) (hN : 0 < (p.getD defaultDerParameters).N) :
    let q := p.getD defaultDerParameters
    (∀ t < f.nT, ∀ h < f.nH, ∀ r e, out.der t h = some r → out.error t h = some e →
      e = r * Real.sqrt ((q.dN / (6 * q.N)) ^ 2 + (q.sigmaX * q.dsigmaX) ^ 2 + ((10 : ℝ) ^ (q.ddBZ / 10) / 6) ^ 2) ∧
      (q.ddBZ = 0 → q.dN = 0 → q.dsigmaX = 0 → e = r / 6)) ∧
    ∃ lwp, f.lwp = some lwp ∧ ∀ t < f.nT, ∀ l, lwp t = some l → 0 < l → ∀ h < f.nH, ∀ r, out.scaled t h = some r →
      out.scaledError t h = some (r * Real.sqrt (((10 : ℝ) ^ (q.ddBZ / 10) / 6) ^ 2 + (4 * q.sigmaX * q.dsigmaX) ^ 2 + (q.dQ / (3 * l)) ^ 2)) := by
  intro q
  obtain ⟨z, lwp, hz, hl, hk⟩ := C140_known p f out hout hH hN
  have hrel : ∀ x : ℝ, |(10 : ℝ) ^ (q.ddBZ / 10)| * (10 : ℝ) ^ (x / 10) / (6 * (10 : ℝ) ^ (x / 10)) = (10 : ℝ) ^ (q.ddBZ / 10) / 6 := by
    intro x
    rw [abs_of_pos (by positivity)]
    have : (10 : ℝ) ^ (x / 10) ≠ 0 := by positivity
    field_simp
  constructor
  · intro t ht h hh r e hr he
    obtain ⟨hd, x, hx⟩ := (hk t ht h hh).1.1 ⟨r, hr⟩
    obtain ⟨base, top, hlay, hb, htop⟩ := droplet_layer f t h hh hd
    obtain ⟨a1, a2, _⟩ := der_pixel p f out hout hH hN z hz lwp hl t ht base top hlay h hb htop x hx
    rw [hr] at a1
    rw [he] at a2
    cases a1
    cases a2
    have e1 : ∀ dz s l, (derPixel q ((10 : ℝ) ^ (x / 10)) dz s l).error = (derPixel q ((10 : ℝ) ^ (x / 10)) dz s l).der *
        Real.sqrt ((q.dN / (6 * q.N)) ^ 2 + (q.sigmaX * q.dsigmaX) ^ 2 + ((10 : ℝ) ^ (q.ddBZ / 10) / 6) ^ 2) := by
      intro dz s l
      rw [← hrel x]
      unfold derPixel
      simp only [pow_two]
    refine ⟨by rw [e1]; ring, ?_⟩
    intro z1 z2 z3
    rw [e1, z1, z2, z3]
    have : Real.sqrt ((0 / (6 * q.N)) ^ 2 + (q.sigmaX * 0) ^ 2 + ((10 : ℝ) ^ ((0 : ℝ) / 10) / 6) ^ 2) = 1 / 6 := by
      rw [show ((0 / (6 * q.N)) ^ 2 + (q.sigmaX * 0) ^ 2 + ((10 : ℝ) ^ ((0 : ℝ) / 10) / 6) ^ 2) = (1 / 6) ^ 2 by simp]
      exact Real.sqrt_sq (by norm_num)
    rw [this]
    ring
  · refine ⟨lwp, hl, fun t ht l hlt hlpos h hh r hr => ?_⟩
    obtain ⟨hd, ⟨x, hx⟩, _⟩ := (hk t ht h hh).2.2.1.1 ⟨r, hr⟩
    obtain ⟨base, top, hlay, hb, htop⟩ := droplet_layer f t h hh hd
    obtain ⟨_, _, _, a4⟩ := der_pixel p f out hout hH hN z hz lwp hl t ht base top hlay h hb htop x hx
    obtain ⟨b1, _, b3⟩ := a4 l hlt
    rw [hr] at b1
    cases b1
    rw [b3, max_eq_left hlpos.le]
    have hlin : (0 : ℝ) < (10 : ℝ) ^ (x / 10) := by positivity
    have e1 : ∀ dz s, (derPixel q ((10 : ℝ) ^ (x / 10)) dz s l).scaledError = (derPixel q ((10 : ℝ) ^ (x / 10)) dz s l).scaled *
        Real.sqrt (((10 : ℝ) ^ (q.ddBZ / 10) / 6) ^ 2 + (4 * q.sigmaX * q.dsigmaX) ^ 2 + (q.dQ / (3 * l)) ^ 2) := by
      intro dz s
      rw [← hrel x]
      unfold derPixel
      simp only [pow_two, if_neg hlpos.ne']
    have hspos : 0 < layerSum (fun h => (z t h).map fun x => (10 : ℝ) ^ (x / 10)) base top :=
      layerSum_pos _ base top h hb htop _ (by rw [hx]; rfl) hlin
    have hpos := derPixel_scaled_pos q ((10 : ℝ) ^ (x / 10)) (Spec.gateThickness f h)
      (layerSum (fun h => (z t h).map fun x => (10 : ℝ) ^ (x / 10)) base top) l hlin (hH h) hspos hlpos.le
    rw [e1, maskedPositive_pos]
    · simp only [Option.map_some]
      congr 1
      ring
    · apply mul_pos hpos
      apply Real.sqrt_pos.2
      positivity

/-- **C140.** The file is written if and only if reflectivity, liquid water path and rain are in the categorize file. -/
theorem C140_written (p : Option DerParameters) (f : DerInput) : (∃ out, generateDer p f = .ok out) ↔
    f.z ≠ none ∧ f.lwp ≠ none ∧ (f.rain "rain_detected" ≠ none ∨ f.rain "rainfall_rate" ≠ none ∨ f.rain "rain_rate" ≠ none) := by
  have hrain : (∃ rain, getIsRain f.rain = .ok rain) ↔
      (f.rain "rain_detected" ≠ none ∨ f.rain "rainfall_rate" ≠ none ∨ f.rain "rain_rate" ≠ none) := by
    unfold getIsRain
    cases h1 : f.rain "rain_detected" <;> cases h2 : f.rain "rainfall_rate" <;> cases h3 : f.rain "rain_rate" <;>
      simp [getIsRain.go, h1, h2, h3]
  constructor
  · rintro ⟨out, hout⟩
    obtain ⟨z, lwp, rain, d, hz, hl, hr, _⟩ := generateDer_ok p f out hout
    exact ⟨by simp [hz], by simp [hl], hrain.1 ⟨rain, hr⟩⟩
  · rintro ⟨hz, hl, hr⟩
    obtain ⟨rain, hr⟩ := hrain.2 hr
    obtain ⟨z, hz⟩ := Option.ne_none_iff_exists'.1 hz
    obtain ⟨l, hl⟩ := Option.ne_none_iff_exists'.1 hl
    obtain ⟨ps, hps, _⟩ := C21_bases_tops_pair f.nT f.nH (fun t h => (f.categoryBits t h).testBit 0)
    unfold generateDer
    rw [hl, hr, hz, readCategoryBits_eq]
    simp only [Except.bind, readVar, Except.map, hps]
    exact ⟨_, rfl⟩

/-- **C140.** The status of the file follows the table of C15. -/
theorem C140_status (p : Option DerParameters) (f : DerInput) (out : DerFile) (hout : generateDer p f = .ok out) (hH : Spec.HeightsIncrease f)
    (hN : 0 < (p.getD defaultDerParameters).N) :
    ∃ z rain, f.z = some z ∧ getIsRain f.rain = .ok rain ∧ ∀ t < f.nT, ∀ h < f.nH,
      let bit := fun n => (f.categoryBits t h).testBit n
      out.status t h = Spec.derStatus (bit 0) (bit 1) (bit 2) (bit 3) (bit 5) (rain t) (z t h).isSome := by
  obtain ⟨z', lwp', hz', hl', hk⟩ := C140_known p f out hout hH hN
  obtain ⟨z, lwp, rain, d, hz, hl, hr, _, _, _, _, _, ⟨c, hc, hst⟩, _⟩ := generateDer_ok p f out hout
  rw [hz] at hz'
  obtain rfl := Option.some.inj hz'
  refine ⟨z, rain, hz, hr, fun t ht h hh => ?_⟩
  rw [readCategoryBits_eq] at hc
  cases hc
  have hs : (out.der t h).isSome = ((f.categoryBits t h).testBit 0 && (z t h).isSome) := by
    have := (hk t ht h hh).1
    unfold Spec.DropletPixel at this
    rw [Bool.eq_iff_iff, Option.isSome_iff_exists, this, Bool.and_eq_true, Option.isSome_iff_exists]
  rw [hst]
  simp only [derStatus, Grid.assign_apply, Grid.const_apply, gand_apply, gor_apply, gnot_apply, hs]
  generalize (z t h).isSome = e
  generalize (f.categoryBits t h).testBit 0 = a0
  generalize (f.categoryBits t h).testBit 1 = a1
  generalize (f.categoryBits t h).testBit 2 = a2
  generalize (f.categoryBits t h).testBit 3 = a3
  generalize (f.categoryBits t h).testBit 5 = a4
  generalize rain t = a5
  clear hs hst hk
  revert a0 a1 a2 a3 a4 a5 e
  decide

/-- Two layers of droplets in a profile. -/
noncomputable def exampleDerInput : DerInput where
  nT := 2
  nH := 5
  heightAgl := fun h => 100 * (h + 1)
  z := some fun _ h => if h = 1 then none else some (-20)
  lwp := some fun t => if t = 0 then some (1 / 10) else some (-1 / 100)
  categoryBits := fun _ h => if h = 2 then 0 else 1
  rain := fun n => if n = "rain_detected" then some fun _ => some 0 else none

example : (∃ out, generateDer none exampleDerInput = .ok out) ∧ Spec.HeightsIncrease exampleDerInput ∧ 0 < defaultDerParameters.N ∧
    Spec.DropletLayer exampleDerInput 0 0 1 ∧ Spec.DropletLayer exampleDerInput 0 3 4 := by
  refine ⟨?_, ?_, ?_, ?_, ?_⟩
  · rw [C140_written]
    simp [exampleDerInput]
  · intro h
    unfold Spec.gateThickness exampleDerInput
    cases h with
    | zero => norm_num
    | succ h => simp
  · unfold defaultDerParameters; norm_num
  · refine ⟨by norm_num, by decide, ?_, Or.inl rfl, Or.inr ?_⟩
    · intro h _ h1
      interval_cases h <;> decide
    · decide
  · refine ⟨by norm_num, by decide, ?_, Or.inr ?_, Or.inl rfl⟩
    · intro h h0 h1
      interval_cases h <;> decide
    · decide

/-- **C140.** Without parameters those of the documentation are used: 2 dB, 2·10⁸ m⁻³ with the same error, a width of 0.35 with an error of 0.1, and 5 g m⁻². -/
theorem C140_defaults (f : DerInput) : generateDer none f = generateDer (some
    { ddBZ := 2, N := 2 * 10 ^ 8, dN := 2 * 10 ^ 8, sigmaX := 35 / 100, dsigmaX := 1 / 10, dQ := 5 / 1000 }) f := by
  have : defaultDerParameters = { ddBZ := 2, N := 2 * 10 ^ 8, dN := 2 * 10 ^ 8, sigmaX := 35 / 100, dsigmaX := 1 / 10, dQ := 5 / 1000 } := by
    unfold defaultDerParameters
    norm_num
  rw [← this]
  rfl

end Cloudnet
