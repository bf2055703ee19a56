import Mathlib.Tactic
import Verif.IceFile.Props
import Verif.DerFile.Props
import Verif.LwcFile.Props
import Verif.Profiles.Props

/-!
C168: what a wrong calibration of the radar does to the products. A file whose reflectivity is higher by `c` dB everywhere gives the same
pixels and status, and values that differ by fixed factors.
-/

set_option linter.unusedVariables false

namespace Cloudnet

namespace Spec

/-- The same categorize file with a reflectivity that is higher by `c` dB. -/
def iceCalibrated (f : IceInput) (c : ℝ) : IceInput := { f with z := f.z.map fun z t h => (z t h).map fun x => x + c }

/-- The same categorize file with a reflectivity that is higher by `c` dB. -/
def derCalibrated (f : DerInput) (c : ℝ) : DerInput := { f with z := f.z.map fun z t h => (z t h).map fun x => x + c }

/-- The same categorize file with a liquid water path and an error of it that are higher by the factor `k`. -/
def lwcCalibrated (f : LwcInput) (k : ℝ) : LwcInput := { f with
  lwp := f.lwp.map fun l t => (l t).map fun x => x * k
  lwpError := f.lwpError.map fun l t => (l t).map fun x => x * k }

/-- The decades of the product for one dB, at a temperature in degrees Celsius. -/
noncomputable def ZtLaw.slope (l : ZtLaw) (temperature : ℝ) : ℝ := l.both * temperature + l.reflectivity

end Spec

theorem convertIce_calibrated (product : String) (k : IceCoefficients) (z : Option ℝ) (c T : ℝ) :
    convertIce product k (z.map fun x => x + c) T = (convertIce product k z T).map fun v => v * (10 : ℝ) ^ (c * k.law.slope T) := by
  unfold convertIce
  cases z with
  | none => rfl
  | some z =>
    simp only [Option.map_some, Option.some.injEq]
    rw [mul_right_comm]
    congr 1
    unfold zToIwc Spec.ZtLaw.slope IceCoefficients.law
    rw [← Real.rpow_add (by norm_num)]
    congr 1
    ring

theorem icyData_map {α β : Type} (m : IceMasks) (a : Grid (Option α)) (g : ℕ → ℕ → α → β) (t h : ℕ) :
    icyData m (fun t h => (a t h).map (g t h)) t h = (icyData m a t h).map (g t h) := by
  simp only [icyData, Grid.assign_apply]
  cases gor (gnot m.isIce) m.uncorrectedIce t h <;> rfl

theorem iceStatus_isSome {α β : Type} (m : IceMasks) (a : Grid (Option α)) (b : Grid (Option β)) (h : ∀ t h, (a t h).isSome = (b t h).isSome) :
    iceStatus m a = iceStatus m b := by
  have : (fun t h => (a t h).isSome) = fun t h => (b t h).isSome := funext fun t => funext fun k => h t k
  unfold iceStatus
  rw [this]

/-- **C168.** Ice water content of a radar that is `c` dB too high: the same pixels, status, error, bias and sensitivity, and each value
multiplied by `10 ^ (c (a T + b))` with the coefficients of reflectivity of the law. -/
theorem C168_iwc (f : IceInput) (file : IwcFile) (hf : generateIwc f = .ok file) (c : ℝ) :
    ∃ out frequency, generateIwc (Spec.iceCalibrated f c) = .ok out ∧ f.frequency = some frequency ∧
      out.status = file.status ∧ out.error = file.error ∧ out.bias = file.bias ∧ out.sensitivity = file.sensitivity ∧
      ∀ t h, out.iwc t h = (file.iwc t h).map fun v => v * (10 : ℝ) ^ (c * (Spec.iwcLaw frequency).slope (Spec.celsius f t h)) := by
  obtain ⟨band, k, m, z, bias, sensitivity, zError, hs, hm, hz, hb, hq, he, e1, e2, e3, e4, e5⟩ := generateIwc_ok f file hf
  obtain ⟨frequency, hfr, -, hk⟩ := (iceSource_iff "iwc" f (Or.inl rfl)).1 _ hs
  rw [if_pos rfl] at hk
  have hs' : iceSource "iwc" (Spec.iceCalibrated f c) = .ok (band, k) := hs
  have hm' : iceMasks (Spec.iceCalibrated f c) = .ok m := hm
  have hz' : (Spec.iceCalibrated f c).z = some fun t h => (z t h).map fun x => x + c := by simp [Spec.iceCalibrated, hz]
  have hb' : (Spec.iceCalibrated f c).zBias = some bias := hb
  have hq' : (Spec.iceCalibrated f c).zSensitivity = some sensitivity := hq
  have he' : (Spec.iceCalibrated f c).zError = some zError := he
  have hT : iceTemperature (Spec.iceCalibrated f c) = iceTemperature f := rfl
  have hc : ∀ t h, iceTemperature f t h = Spec.celsius f t h := by
    intro t h
    unfold iceTemperature Spec.celsius interpolateModel
    norm_num
  have hv : ∀ t h, icyData m (fun t h => convertIce "iwc" k ((z t h).map fun x => x + c) (iceTemperature f t h)) t h =
      (file.iwc t h).map fun v => v * (10 : ℝ) ^ (c * (Spec.iwcLaw frequency).slope (Spec.celsius f t h)) := by
    intro t h
    simp only [convertIce_calibrated]
    rw [icyData_map m (fun t h => convertIce "iwc" k (z t h) (iceTemperature f t h)) fun t h v => v * (10 : ℝ) ^ (c * k.law.slope (iceTemperature f t h)), e1, hk, hc]
  unfold generateIwc
  rw [hs', hm', hz', hb', hq', he', hT]
  refine ⟨_, frequency, rfl, hfr, ?_, e4.symm, e2.symm, e3.symm, hv⟩
  rw [e5]
  exact iceStatus_isSome m _ _ fun t h => by rw [hv t h]; cases file.iwc t h <;> rfl

/-- **C168.** Ice effective radius of a radar that is `c` dB too high. -/
theorem C168_ier (f : IceInput) (file : IerFile) (hf : generateIer f = .ok file) (c : ℝ) :
    ∃ out frequency, generateIer (Spec.iceCalibrated f c) = .ok out ∧ f.frequency = some frequency ∧ out.status = file.status ∧
      ∀ t h, (out.ier t h = (file.ier t h).map fun v => v * (10 : ℝ) ^ (c * (Spec.ierLaw frequency).slope (Spec.celsius f t h))) ∧
        out.error t h = (file.error t h).map fun v => v * (10 : ℝ) ^ (c * (Spec.ierLaw frequency).slope (Spec.celsius f t h)) := by
  unfold generateIer at hf
  cases hs : iceSource "ier" f with
  | error e => rw [hs] at hf; cases hf
  | ok source =>
  cases hm : iceMasks f with
  | error e => rw [hs, hm] at hf; cases hf
  | ok m =>
  cases hz : f.z with
  | none => rw [hs, hm, hz] at hf; cases hf
  | some z =>
  rw [hs, hm, hz] at hf
  cases hf
  obtain ⟨frequency, hfr, -, hk⟩ := (iceSource_iff "ier" f (Or.inr rfl)).1 _ hs
  rw [if_neg (by decide)] at hk
  have hs' : iceSource "ier" (Spec.iceCalibrated f c) = .ok source := hs
  have hm' : iceMasks (Spec.iceCalibrated f c) = .ok m := hm
  have hz' : (Spec.iceCalibrated f c).z = some fun t h => (z t h).map fun x => x + c := by simp [Spec.iceCalibrated, hz]
  have hT : iceTemperature (Spec.iceCalibrated f c) = iceTemperature f := rfl
  have hc : ∀ t h, iceTemperature f t h = Spec.celsius f t h := by
    intro t h
    unfold iceTemperature Spec.celsius interpolateModel
    norm_num
  have hv : ∀ t h, icyData m (fun t h => convertIce "ier" source.2 ((z t h).map fun x => x + c) (iceTemperature f t h)) t h =
      (icyData m (fun t h => convertIce "ier" source.2 (z t h) (iceTemperature f t h)) t h).map fun v =>
        v * (10 : ℝ) ^ (c * (Spec.ierLaw frequency).slope (Spec.celsius f t h)) := by
    intro t h
    simp only [convertIce_calibrated]
    rw [icyData_map m (fun t h => convertIce "ier" source.2 (z t h) (iceTemperature f t h)) fun t h v =>
      v * (10 : ℝ) ^ (c * source.2.law.slope (iceTemperature f t h)), hk, hc]
  unfold generateIer
  rw [hs', hm', hz', hT]
  refine ⟨_, frequency, rfl, hfr, ?_, fun t h => ⟨?_, ?_⟩⟩
  · refine iceStatus_isSome m _ _ fun t h => ?_
    dsimp only
    rw [hv t h]
    cases icyData m (fun t h => convertIce "ier" source.2 (z t h) (iceTemperature f t h)) t h <;> rfl
  · dsimp only
    rw [hv t h]
    cases icyData m (fun t h => convertIce "ier" source.2 (z t h) (iceTemperature f t h)) t h with
    | none => rfl
    | some v => simp only [Option.map_some, Option.some.injEq]; ring
  · dsimp only
    rw [hv t h]
    cases icyData m (fun t h => convertIce "ier" source.2 (z t h) (iceTemperature f t h)) t h with
    | none => rfl
    | some v => simp only [Option.map_some, Option.some.injEq]; ring

/-! Droplet effective radius -/

theorem layerSum_scale (z : ℕ → Option ℝ) (k : ℝ) (hk : 0 ≤ k) (base top : ℕ) :
    layerSum (fun h => (z h).map fun x => k * x) base top = Real.sqrt k * layerSum z base top := by
  unfold layerSum
  rw [← List.sum_map_mul_left]
  congr 2
  funext h
  dsimp only
  cases z h with
  | none => exact (mul_zero _).symm
  | some x => exact Real.sqrt_mul hk x

theorem derPixel_scale (p : DerParameters) (hN : 0 < p.N) (z dz s k l : ℝ) (hz : 0 < z) (hdz : 0 < dz) (hs : 0 < s) (hk : 0 < k) (hl : 0 ≤ l) :
    (derPixel p (k * z) dz (Real.sqrt k * s) l).der = (derPixel p z dz s l).der * k ^ (1 / 6 : ℝ) ∧
    (derPixel p (k * z) dz (Real.sqrt k * s) l).error = (derPixel p z dz s l).error * k ^ (1 / 6 : ℝ) ∧
    (0 < l → (derPixel p (k * z) dz (Real.sqrt k * s) l).scaled = (derPixel p z dz s l).scaled * k ^ (1 / 3 : ℝ) ∧
      (derPixel p (k * z) dz (Real.sqrt k * s) l).scaledError = (derPixel p z dz s l).scaledError * k ^ (1 / 3 : ℝ) ∧
      (derPixel p (k * z) dz (Real.sqrt k * s) l).n = (derPixel p z dz s l).n * k⁻¹) ∧
    (l = 0 → (derPixel p (k * z) dz (Real.sqrt k * s) l).scaled = (derPixel p z dz s l).scaled ∧
      (derPixel p (k * z) dz (Real.sqrt k * s) l).scaledError = (derPixel p z dz s l).scaledError ∧
      (derPixel p (k * z) dz (Real.sqrt k * s) l).n = (derPixel p z dz s l).n * k) := by
  have h1 : (k * z / p.N) ^ (1 / 6 : ℝ) = k ^ (1 / 6 : ℝ) * (z / p.N) ^ (1 / 6 : ℝ) := by
    rw [mul_div_assoc, Real.mul_rpow hk.le (by positivity)]
  have hc : |(10 : ℝ) ^ (p.ddBZ / 10)| * (k * z) / (6 * (k * z)) = |(10 : ℝ) ^ (p.ddBZ / 10)| * z / (6 * z) := by
    field_simp
  have h2 : (k * z) ^ (1 / 6 : ℝ) = k ^ (1 / 6 : ℝ) * z ^ (1 / 6 : ℝ) := Real.mul_rpow hk.le hz.le
  have h3 : (Real.sqrt k * s * dz) ^ (1 / 3 : ℝ) = k ^ (1 / 6 : ℝ) * (s * dz) ^ (1 / 3 : ℝ) := by
    rw [mul_assoc, Real.mul_rpow (Real.sqrt_nonneg k) (by positivity), Real.sqrt_eq_rpow, ← Real.rpow_mul hk.le]
    norm_num
  have h4 : k ^ (1 / 3 : ℝ) = k ^ (1 / 6 : ℝ) * k ^ (1 / 6 : ℝ) := by
    rw [← Real.rpow_add hk]; norm_num
  have h6 : (k ^ (1 / 3 : ℝ)) ^ 6 = k ^ 2 := by
    rw [← Real.rpow_natCast, ← Real.rpow_mul hk.le]
    norm_num
  refine ⟨?_, ?_, fun hl0 => ?_, fun hl0 => ?_⟩
  · unfold derPixel
    dsimp only
    rw [h1]; ring
  · unfold derPixel
    dsimp only
    rw [h1, hc]; ring
  · have hsc : (derPixel p (k * z) dz (Real.sqrt k * s) l).scaled = (derPixel p z dz s l).scaled * k ^ (1 / 3 : ℝ) := by
      unfold derPixel
      dsimp only
      rw [if_neg hl0.ne', if_neg hl0.ne', h2, h3, h4]; ring
    refine ⟨hsc, ?_, ?_⟩
    · have e : ∀ z s, (derPixel p z dz s l).scaledError = (derPixel p z dz s l).scaled * Real.sqrt
          ((|(10 : ℝ) ^ (p.ddBZ / 10)| * z / (6 * z)) * (|(10 : ℝ) ^ (p.ddBZ / 10)| * z / (6 * z)) +
          (4 * p.sigmaX * p.dsigmaX) * (4 * p.sigmaX * p.dsigmaX) + (p.dQ / (3 * l)) * (p.dQ / (3 * l))) := by
        intro z s
        unfold derPixel
        dsimp only
        rw [if_neg hl0.ne', if_neg hl0.ne']
      rw [e, e, hsc, hc]; ring
    · have e : ∀ z s, (derPixel p z dz s l).n = z / ((2 * (derPixel p z dz s l).scaled) / Real.exp (-0.5 * (p.sigmaX * p.sigmaX))) ^ 6 :=
        fun _ _ => rfl
      rw [e, e, hsc, show 2 * ((derPixel p z dz s l).scaled * k ^ (1 / 3 : ℝ)) / Real.exp (-0.5 * (p.sigmaX * p.sigmaX)) =
        (2 * (derPixel p z dz s l).scaled / Real.exp (-0.5 * (p.sigmaX * p.sigmaX))) * k ^ (1 / 3 : ℝ) by ring, mul_pow, h6]
      have := hk.ne'
      by_cases h0 : (2 * (derPixel p z dz s l).scaled / Real.exp (-0.5 * (p.sigmaX * p.sigmaX))) ^ 6 = 0
      · rw [h0]; simp
      · field_simp
  · subst hl0
    refine ⟨?_, ?_, ?_⟩
    · simp only [derPixel, if_true]
    · simp only [derPixel, if_true]
    · simp only [derPixel, if_true]; ring

theorem calibrated_scale (z : Grid (Option ℝ)) (c : ℝ) (t : ℕ) :
    (fun h => ((z t h).map fun x => x + c).map fun x => (10 : ℝ) ^ (x / 10)) =
      fun h => ((z t h).map fun x => (10 : ℝ) ^ (x / 10)).map fun x => (10 : ℝ) ^ (c / 10) * x := by
  funext h
  cases z t h with
  | none => rfl
  | some x =>
    simp only [Option.map_some, Option.some.injEq]
    rw [← Real.rpow_add (by norm_num)]
    congr 1
    ring

theorem ten_rpow (c x : ℝ) : ((10 : ℝ) ^ (c / 10)) ^ x = (10 : ℝ) ^ (c / 10 * x) := (Real.rpow_mul (by norm_num) _ _).symm

/-- **C168.** Droplet effective radius of a radar that is `c` dB too high: the same pixels and status; the radius for a fixed number of
droplets and its error are multiplied by `10 ^ (c / 60)`; where the liquid water path is positive, the radius that uses it and its error
are multiplied by `10 ^ (c / 30)` and the number of droplets by `10 ^ (-c / 10)`. Elsewhere this radius is the same and the number is
multiplied by `10 ^ (c / 10)`. -/
theorem C168_der (p : Option DerParameters) (f : DerInput) (file : DerFile) (hf : generateDer p f = .ok file) (hH : Spec.HeightsIncrease f)
    (hN : 0 < (p.getD defaultDerParameters).N) (c : ℝ) :
    ∃ out lwp, generateDer p (Spec.derCalibrated f c) = .ok out ∧ f.lwp = some lwp ∧ ∀ t < f.nT, ∀ h < f.nH,
      out.status t h = file.status t h ∧
      (out.der t h = (file.der t h).map fun v => v * (10 : ℝ) ^ (c / 60)) ∧
      (out.error t h = (file.error t h).map fun v => v * (10 : ℝ) ^ (c / 60)) ∧
      (lwp t = none → out.scaled t h = none ∧ out.scaledError t h = none ∧ out.n t h = none) ∧
      (∀ l, lwp t = some l → 0 < l → (out.scaled t h = (file.scaled t h).map fun v => v * (10 : ℝ) ^ (c / 30)) ∧
        (out.scaledError t h = (file.scaledError t h).map fun v => v * (10 : ℝ) ^ (c / 30)) ∧
        out.n t h = (file.n t h).map fun v => v * (10 : ℝ) ^ (-c / 10)) ∧
      ∀ l, lwp t = some l → l ≤ 0 → out.scaled t h = file.scaled t h ∧ out.scaledError t h = file.scaledError t h ∧
        out.n t h = (file.n t h).map fun v => v * (10 : ℝ) ^ (c / 10) := by
  obtain ⟨z, lwp, rain, d, hz, hl, hr, o1, o2, o3, o4, o5, ⟨cb, hcb, o6⟩, o7, o8⟩ := generateDer_ok p f file hf
  have hz' : (Spec.derCalibrated f c).z = some fun t h => (z t h).map fun x => x + c := by simp [Spec.derCalibrated, hz]
  obtain ⟨out, hout⟩ : ∃ out, generateDer p (Spec.derCalibrated f c) = .ok out := by
    have := (C140_written p f).1 ⟨file, hf⟩
    exact (C140_written p _).2 ⟨by rw [hz']; simp, this.2.1, this.2.2⟩
  obtain ⟨z1, lwp1, rain1, d1, hz1, hl1, hr1, p1, p2, p3, p4, p5, ⟨cb1, hcb1, p6⟩, p7, p8⟩ := generateDer_ok p _ out hout
  rw [hz'] at hz1
  obtain rfl := Option.some.inj hz1
  have hl1' : f.lwp = some lwp1 := hl1
  have hr1' : getIsRain f.rain = .ok rain1 := hr1
  have hcb1' : readCategoryBits f.categoryBits = .ok cb1 := hcb1
  rw [hl] at hl1'
  rw [hr] at hr1'
  rw [hcb] at hcb1'
  obtain rfl := Option.some.inj hl1'
  obtain rfl := Except.ok.inj hr1'
  obtain rfl := Except.ok.inj hcb1'
  refine ⟨out, lwp, hout, hl, fun t ht h hh => ?_⟩
  have main : (out.der t h = (file.der t h).map fun v => v * (10 : ℝ) ^ (c / 60)) ∧
      (out.error t h = (file.error t h).map fun v => v * (10 : ℝ) ^ (c / 60)) ∧
      (lwp t = none → out.scaled t h = none ∧ out.scaledError t h = none ∧ out.n t h = none) ∧
      (∀ l, lwp t = some l → 0 < l → (out.scaled t h = (file.scaled t h).map fun v => v * (10 : ℝ) ^ (c / 30)) ∧
        (out.scaledError t h = (file.scaledError t h).map fun v => v * (10 : ℝ) ^ (c / 30)) ∧
        out.n t h = (file.n t h).map fun v => v * (10 : ℝ) ^ (-c / 10)) ∧
      ∀ l, lwp t = some l → l ≤ 0 → out.scaled t h = file.scaled t h ∧ out.scaledError t h = file.scaledError t h ∧
        out.n t h = (file.n t h).map fun v => v * (10 : ℝ) ^ (c / 10) := by
    by_cases hp : Spec.DropletPixel f t h ∧ ∃ x, z t h = some x
    · obtain ⟨hd, x, hx⟩ := hp
      obtain ⟨base, top, hlay, hb, htop⟩ := droplet_layer f t h hh hd
      obtain ⟨a1, a2, a3, a4⟩ := der_pixel p f file hf hH hN z hz lwp hl t ht base top hlay h hb htop x hx
      obtain ⟨b1, b2, b3, b4⟩ := der_pixel p (Spec.derCalibrated f c) out hout hH hN _ hz' lwp hl t ht base top hlay h hb htop (x + c)
        (by simp [hx])
      have hlin : (0 : ℝ) < (10 : ℝ) ^ (x / 10) := by positivity
      have hk : (0 : ℝ) < (10 : ℝ) ^ (c / 10) := by positivity
      have hspos : 0 < layerSum (fun h => (z t h).map fun x => (10 : ℝ) ^ (x / 10)) base top :=
        layerSum_pos _ base top h hb htop _ (by rw [hx]; rfl) hlin
      have hxc : (10 : ℝ) ^ ((x + c) / 10) = (10 : ℝ) ^ (c / 10) * (10 : ℝ) ^ (x / 10) := by
        rw [← Real.rpow_add (by norm_num)]; congr 1; ring
      have hgate : Spec.gateThickness (Spec.derCalibrated f c) h = Spec.gateThickness f h := rfl
      have hdz : 0 < Spec.gateThickness f h := hH h
      have sc := fun l hl => derPixel_scale (p.getD defaultDerParameters) hN ((10 : ℝ) ^ (x / 10)) (Spec.gateThickness f h) _ ((10 : ℝ) ^ (c / 10)) l
        hlin hdz hspos hk hl
      simp only [calibrated_scale z c t, layerSum_scale _ _ hk.le, hxc, hgate] at b1 b2 b3 b4
      have k6 : ((10 : ℝ) ^ (c / 10)) ^ (1 / 6 : ℝ) = (10 : ℝ) ^ (c / 60) := by rw [ten_rpow]; congr 1; ring
      have k3 : ((10 : ℝ) ^ (c / 10)) ^ (1 / 3 : ℝ) = (10 : ℝ) ^ (c / 30) := by rw [ten_rpow]; congr 1; ring
      have ki : ((10 : ℝ) ^ (c / 10))⁻¹ = (10 : ℝ) ^ (-c / 10) := by rw [neg_div, Real.rpow_neg (by norm_num)]
      refine ⟨?_, ?_, b3, fun l hlt hl0 => ?_, fun l hlt hl0 => ?_⟩
      · rw [b1, a1, (sc 0 le_rfl).1, k6]
        simp only [Option.map_some, Option.some.injEq]; ring
      · rw [b2, a2, (sc 0 le_rfl).2.1, k6]
        simp only [Option.map_some, Option.some.injEq]; ring
      · obtain ⟨c1, c2, c3⟩ := a4 l hlt
        obtain ⟨e1, e2, e3⟩ := b4 l hlt
        rw [max_eq_left hl0.le] at c1 c2 c3 e1 e2 e3
        obtain ⟨s1, s2, s3⟩ := (sc l hl0.le).2.2.1 hl0
        rw [s1, k3] at e1
        rw [s3, ki] at e2
        rw [s2, k3] at e3
        refine ⟨?_, ?_, ?_⟩
        · rw [e1, c1]
          simp only [Option.map_some, Option.some.injEq]; ring
        · rw [e3, c3]
          unfold maskedPositive
          have h10 : (0 : ℝ) < (10 : ℝ) ^ (c / 30) := by positivity
          by_cases hp0 : (derPixel (p.getD defaultDerParameters) ((10 : ℝ) ^ (x / 10)) (Spec.gateThickness f h)
              (layerSum (fun h => (z t h).map fun x => (10 : ℝ) ^ (x / 10)) base top) l).scaledError ≤ 0
          · rw [if_pos hp0, if_pos (mul_nonpos_of_nonpos_of_nonneg hp0 h10.le)]
            rfl
          · rw [if_neg hp0, if_neg (by push Not at hp0 ⊢; exact mul_pos hp0 h10)]
            simp only [Option.map_some, Option.some.injEq]; ring
        · rw [e2, c2]
          simp only [Option.map_some]
      · obtain ⟨c1, c2, c3⟩ := a4 l hlt
        obtain ⟨e1, e2, e3⟩ := b4 l hlt
        rw [max_eq_right hl0] at c1 c2 c3 e1 e2 e3
        obtain ⟨s1, s2, s3⟩ := (sc 0 le_rfl).2.2.2 rfl
        rw [s1] at e1
        rw [s3] at e2
        rw [s2] at e3
        exact ⟨by rw [e1, c1], by rw [e3, c3], by rw [e2, c2]; simp only [Option.map_some]⟩
    · have hd : d t h = DerPixel.zero := o7 t ht h hh (by
        by_cases h1 : Spec.DropletPixel f t h
        · right
          cases h2 : z t h with
          | none => rfl
          | some x => exact absurd ⟨h1, x, h2⟩ hp
        · exact Or.inl h1)
      have hd1 : d1 t h = DerPixel.zero := p7 t ht h hh (by
        by_cases h1 : Spec.DropletPixel f t h
        · right
          cases h2 : z t h with
          | none => dsimp only; rw [h2]; rfl
          | some x => exact absurd ⟨h1, x, h2⟩ hp
        · exact Or.inl h1)
      have hm : ∀ s : ℝ, maskedByLwp (clipLwp lwp) s (fun t h => (d t h).scaled) t h = none ∧ maskedByLwp (clipLwp lwp) s (fun t h => (d t h).scaledError) t h = none ∧
          maskedByLwp (clipLwp lwp) s (fun t h => (d t h).n) t h = none := by
        intro s
        simp only [maskedByLwp, hd, DerPixel.zero, maskedPositive]
        cases clipLwp lwp t <;> simp
      have hm1 : ∀ s : ℝ, maskedByLwp (clipLwp lwp) s (fun t h => (d1 t h).scaled) t h = none ∧ maskedByLwp (clipLwp lwp) s (fun t h => (d1 t h).scaledError) t h = none ∧
          maskedByLwp (clipLwp lwp) s (fun t h => (d1 t h).n) t h = none := by
        intro s
        simp only [maskedByLwp, hd1, DerPixel.zero, maskedPositive]
        cases clipLwp lwp t <;> simp
      have q1 : file.scaled t h = none := by rw [o3]; exact (hm _).1
      have q2 : file.scaledError t h = none := by rw [o4]; exact (hm _).2.1
      have q3 : file.n t h = none := by rw [o5]; exact (hm _).2.2
      have r1 : out.scaled t h = none := by rw [p3]; exact (hm1 _).1
      have r2 : out.scaledError t h = none := by rw [p4]; exact (hm1 _).2.1
      have r3 : out.n t h = none := by rw [p5]; exact (hm1 _).2.2
      refine ⟨?_, ?_, fun _ => ⟨r1, r2, r3⟩, fun l _ _ => ?_, fun l _ _ => ?_⟩
      · rw [p1, o1]; simp [hd, hd1, DerPixel.zero, maskedPositive]
      · rw [p2, o2]; simp [hd, hd1, DerPixel.zero, maskedPositive]
      · rw [q1, q2, q3, r1, r2, r3]; exact ⟨rfl, rfl, rfl⟩
      · rw [q1, q2, q3, r1, r2, r3]; exact ⟨rfl, rfl, rfl⟩
  refine ⟨?_, main⟩
  have hi : (out.der t h).isSome = (file.der t h).isSome := by rw [main.1]; cases file.der t h <;> rfl
  rw [p6, o6]
  simp only [derStatus, Grid.assign_apply, gand_apply, gnot_apply, hi]

/-! Liquid water content -/

theorem lwpOf_calibrated (f : LwcInput) (k : ℝ) (hk : 0 < k) (t : ℕ) :
    Spec.lwpOf (Spec.lwcCalibrated f k) t = (Spec.lwpOf f t).map fun x => x * k := by
  unfold Spec.lwpOf Spec.lwcCalibrated
  dsimp only
  cases f.lwp with
  | none => rfl
  | some l =>
    simp only [Option.map_some, Option.bind_some]
    cases l t with
    | none => rfl
    | some x =>
      simp only [Option.map_some, Option.some.injEq]
      rw [max_mul_of_nonneg _ _ hk.le, zero_mul]

theorem gradient1_scale (n : ℕ) (a b : ℕ → ℝ) (k : ℝ) (i : ℕ) (h : ∀ j < n, a j = b j * k) (hn : 2 ≤ n) (hi : i < n) :
    gradient1 n a i = gradient1 n b i * k := by
  rw [gradient1_congr n hn a (fun j => b j * k) i hi h]
  unfold gradient1
  split
  · ring
  · split <;> ring

/-- **C168.** Liquid water content of a radiometer whose liquid water path, and its error, are too high by a factor: the same gates have values,
the values are multiplied by the factor, and the relative error is the same. -/
theorem C168_lwc (g : ℝ → ℝ → ℝ) (f : LwcInput) (hg : ∀ t h, 0 < g (f.temperatureAt t h) (f.pressureAt t h)) (hh : Spec.GoodHeights f)
    (k : ℝ) (hk : 0 < k) (file out : LwcFile) (hf : generateLwc g f = .ok file) (ho : generateLwc g (Spec.lwcCalibrated f k) = .ok out)
    (t : ℕ) (ht : t < f.nT) (h : ℕ) (hhn : h < f.nH) :
    (out.lwc t h = (file.lwc t h).map fun v => v * k) ∧ out.error t h = file.error t h := by
  have ha : ∀ t < f.nT, ∀ h < f.nH, Spec.AdiabaticContent g f t h (f.adiabatic g t h) := fun t ht h hhn =>
    (adiabatic_content g f hg hh t h ht hhn _).2 rfl
  have hlwc : ∀ t < f.nT, ∀ h < f.nH, out.lwc t h = (file.lwc t h).map fun v => v * k := by
    intro t ht h hhn
    obtain ⟨a1, a2⟩ := C142_content g f hg hh _ ha file hf t ht
    obtain ⟨b1, b2⟩ := C142_content g (Spec.lwcCalibrated f k) hg hh _ ha out ho t ht
    by_cases hc : Spec.RainyProfile f t ∨ Spec.lwpOf f t = none ∨ ∀ h < f.nH, ¬ Spec.DropletGate f t h
    · rw [a1 hc h, b1 (by
        rcases hc with hc | hc | hc
        · exact Or.inl hc
        · exact Or.inr (Or.inl (by rw [lwpOf_calibrated f k hk, hc]; rfl))
        · exact Or.inr (Or.inr hc)) h]
      rfl
    · push Not at hc
      obtain ⟨c1, c2, c3⟩ := hc
      obtain ⟨p, hp⟩ := Option.ne_none_iff_exists'.1 c2
      rw [(a2 p c1 hp c3).2 h hhn, (b2 (p * k) c1 (by rw [lwpOf_calibrated f k hk, hp]; rfl) c3).2 h hhn]
      simp only [Option.map_some, Option.some.injEq]
      show f.adiabatic g t h * (p * k / ∑ i ∈ Finset.range f.nH, f.adiabatic g t i * Spec.depth f i) = _
      ring
  refine ⟨hlwc t ht h hhn, ?_⟩
  obtain ⟨-, -, -, hT, hH, -⟩ := (C142_written g f hg hh _ ha).1 ⟨file, hf⟩
  obtain ⟨a1, a2⟩ := C142_error g f file hf t h
  obtain ⟨b1, b2⟩ := C142_error g (Spec.lwcCalibrated f k) out ho t h
  have he : ((Spec.lwcCalibrated f k).lwpError.bind fun e => e t) = (f.lwpError.bind fun e => e t).map fun x => x * k := by
    show ((f.lwpError.map fun l t => (l t).map fun x => x * k).bind fun e => e t) = _
    cases f.lwpError <;> rfl
  rw [he, lwpOf_calibrated f k hk] at b1
  rw [he, lwpOf_calibrated f k hk] at b2
  by_cases hc : ¬ Spec.RainyProfile f t ∧ (∃ w, file.lwc t h = some w ∧ w ≠ 0) ∧ Spec.lwpOf f t ≠ none ∧ (f.lwpError.bind fun e => e t) ≠ none
  · obtain ⟨c1, ⟨w, hw, hw0⟩, c2, c3⟩ := hc
    obtain ⟨p, hp⟩ := Option.ne_none_iff_exists'.1 c2
    obtain ⟨dp, hdp⟩ := Option.ne_none_iff_exists'.1 c3
    have hw' : out.lwc t h = some (w * k) := by rw [hlwc t ht h hhn, hw]; rfl
    rw [a2 w p dp hw hw0 c1 hp hdp, b2 (w * k) (p * k) (dp * k) hw' (mul_ne_zero hw0 hk.ne') c1 (by rw [hp]; rfl) (by rw [hdp]; rfl)]
    have g1 : gradient1 (Spec.lwcCalibrated f k).nT (fun t' => (out.lwc t' h).getD 0) t = gradient1 f.nT (fun t' => (file.lwc t' h).getD 0) t * k :=
      gradient1_scale f.nT _ _ k t (fun j hj => by rw [hlwc j hj h hhn]; cases file.lwc j h <;> simp) hT ht
    have g2 : gradient1 (Spec.lwcCalibrated f k).nH (fun h' => (out.lwc t h').getD 0) h = gradient1 f.nH (fun h' => (file.lwc t h').getD 0) h * k :=
      gradient1_scale f.nH _ _ k h (fun j hj => by rw [hlwc t ht j hj]; cases file.lwc t j <;> simp) hH hhn
    rw [g1, g2]
    have hs : ∀ x y : ℝ, Real.sqrt ((x * k) ^ 2 + (y * k) ^ 2) / (w * k) / 2 = Real.sqrt (x ^ 2 + y ^ 2) / w / 2 := by
      intro x y
      rw [show (x * k) ^ 2 + (y * k) ^ 2 = k ^ 2 * (x ^ 2 + y ^ 2) by ring, Real.sqrt_mul (sq_nonneg k), Real.sqrt_sq hk.le]
      field_simp
    rw [hs]
    have hq : (if p * k = 0 then 0 else dp * k / (p * k)) = if p = 0 then 0 else dp / p := by
      by_cases h0 : p = 0
      · rw [if_pos h0, if_pos (by rw [h0, zero_mul])]
      · rw [if_neg h0, if_neg (mul_ne_zero h0 hk.ne')]
        field_simp
    rw [hq]
  · have n1 : file.error t h = none := by
      by_contra hne
      exact hc (a1.1 (Option.ne_none_iff_exists'.1 hne))
    have n2 : out.error t h = none := by
      by_contra hne
      obtain ⟨d1, ⟨w, hw, hw0⟩, d2, d3⟩ := b1.1 (Option.ne_none_iff_exists'.1 hne)
      refine hc ⟨d1, ?_, ?_, ?_⟩
      · rw [hlwc t ht h hhn] at hw
        cases hl : file.lwc t h with
        | none => rw [hl] at hw; cases hw
        | some v =>
          rw [hl] at hw
          refine ⟨v, rfl, fun hv => hw0 ?_⟩
          have : v * k = w := Option.some.inj hw
          rw [← this, hv, zero_mul]
      · intro hn; rw [hn] at d2; exact d2 rfl
      · intro hn; rw [hn] at d3; exact d3 rfl
    rw [n1, n2]

/-- Two examples: a radar at 35 GHz that is 10 dB too high gives at -20 degrees 4.5 times as much ice (`10 ^ 0.6506`), and droplets with the
double radius come from 60 log 2 dB (about 18 dB). -/
example : (∃ out file, generateIwc (Spec.iceCalibrated exampleIceInput 10) = .ok out ∧ generateIwc exampleIceInput = .ok file ∧
      out.iwc 0 1 = (file.iwc 0 1).map fun v => v * (10 : ℝ) ^ (0.6506 : ℝ)) ∧
    ∃ out file, generateDer none (Spec.derCalibrated exampleDerInput (60 * Real.logb 10 2)) = .ok out ∧ generateDer none exampleDerInput = .ok file ∧
      out.der 0 3 = (file.der 0 3).map fun v => v * 2 := by
  refine ⟨?_, ?_⟩
  · obtain ⟨file, hfile⟩ : ∃ out, generateIwc exampleIceInput = .ok out := by
      rw [C139_written]
      refine ⟨⟨35, rfl, Or.inl ⟨by norm_num, by norm_num⟩⟩, le_refl _, ?_, ?_, ?_, ?_, Or.inr (Or.inr ?_)⟩ <;> simp [exampleIceInput]
    obtain ⟨out, frequency, ho, hfr, -, -, -, -, h⟩ := C168_iwc _ file hfile 10
    obtain rfl : 35 = frequency := Option.some.inj hfr
    refine ⟨out, file, ho, hfile, ?_⟩
    rw [h 0 1]
    have : (10 : ℝ) * (Spec.iwcLaw 35).slope (Spec.celsius exampleIceInput 0 1) = 0.6506 := by
      have hc : Spec.celsius exampleIceInput 0 1 = -20 := by
        norm_num [Spec.celsius, interpolate2d, interpLinear, exampleIceInput]
      rw [hc]
      norm_num [Spec.iwcLaw, Spec.ZtLaw.slope]
    rw [this]
  · obtain ⟨file, hfile⟩ : ∃ out, generateDer none exampleDerInput = .ok out := by
      rw [C140_written]
      simp [exampleDerInput]
    have hH : Spec.HeightsIncrease exampleDerInput := by
      intro h
      unfold Spec.gateThickness exampleDerInput
      cases h with
      | zero => norm_num
      | succ h => simp
    have hN : 0 < ((none : Option DerParameters).getD defaultDerParameters).N := by
      show 0 < defaultDerParameters.N
      unfold defaultDerParameters; norm_num
    obtain ⟨out, lwp, ho, -, h⟩ := C168_der none _ file hfile hH hN (60 * Real.logb 10 2)
    refine ⟨out, file, ho, hfile, ?_⟩
    rw [(h 0 (by norm_num [exampleDerInput]) 3 (by norm_num [exampleDerInput])).2.1]
    rw [show 60 * Real.logb 10 2 / 60 = Real.logb 10 2 by ring, Real.rpow_logb (by norm_num) (by norm_num) (by norm_num)]

/-- The example of liquid water content with a tenth of the liquid water path: both files are written. -/
example : ∃ file out, generateLwc (fun _ _ => 1) exampleLwc = .ok file ∧ generateLwc (fun _ _ => 1) (Spec.lwcCalibrated exampleLwc (1 / 10)) = .ok out ∧
    (out.lwc 0 1 = (file.lwc 0 1).map fun v => v * (1 / 10)) ∧ out.error 0 1 = file.error 0 1 := by
  have hg : ∀ t h, (0 : ℝ) < (fun _ _ => 1 : ℝ → ℝ → ℝ) (exampleLwc.temperatureAt t h) (exampleLwc.pressureAt t h) := fun _ _ => by norm_num
  have ha : ∀ t < exampleLwc.nT, ∀ h < exampleLwc.nH, Spec.AdiabaticContent (fun _ _ => 1) exampleLwc t h (if h = 1 then 100 else 0) :=
    fun t _ h hh => exampleLwc_content t h hh
  obtain ⟨file, hf⟩ := (C142_written (fun _ _ => 1) exampleLwc hg exampleLwc_heights (fun _ h => if h = 1 then 100 else 0) ha).2
    ⟨by simp [exampleLwc], by simp [exampleLwc], by simp [exampleLwc], by simp [exampleLwc], by simp [exampleLwc],
      fun t _ => (exampleLwc_extended t).2.2⟩
  obtain ⟨out, ho⟩ := (C142_written (fun _ _ => 1) (Spec.lwcCalibrated exampleLwc (1 / 10)) hg exampleLwc_heights
      (fun _ h => if h = 1 then 100 else 0) ha).2
    ⟨by simp [Spec.lwcCalibrated, exampleLwc], by simp [Spec.lwcCalibrated, exampleLwc], by simp [Spec.lwcCalibrated, exampleLwc],
      by simp [Spec.lwcCalibrated, exampleLwc], by simp [Spec.lwcCalibrated, exampleLwc], by
        rintro t _ ⟨_, _, hk, _⟩
        have h4 : exampleLwc.nH = 4 := rfl
        rcases hk with hk | ⟨_, hk⟩
        · have h3 : (exampleLwc.categoryBits t (exampleLwc.nH - 1)).testBit 0 = true := hk.2.2.1
          simp [exampleLwc_droplets, h4] at h3
        · have h3 : (exampleLwc.categoryBits t 0).testBit 0 = true := hk 0 (by show 0 < exampleLwc.nH; rw [h4]; omega)
          simp [exampleLwc_droplets] at h3⟩
  exact ⟨file, out, hf, ho, C168_lwc _ exampleLwc hg exampleLwc_heights (1 / 10) (by norm_num) file out hf ho 0 (by simp [exampleLwc]) 1
    (by simp [exampleLwc])⟩

end Cloudnet
