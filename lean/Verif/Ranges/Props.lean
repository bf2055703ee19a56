import Mathlib.Tactic
import Verif.IceFile.Props
import Verif.DerFile.Props
import Verif.LwcFile.Props
import Verif.ClassFile.Props

/-!
C176: the range of the values in product files, whatever the measurements are.
-/

namespace Cloudnet

/-! ### Ice -/

/-- **C176.** Ice water content and its sensitivity are positive, its error is at least 1.7 dB, also where the echo is known without error. -/
theorem C176_iwc (f : IceInput) (out : IwcFile) (hout : generateIwc f = .ok out) (t h : ℕ) :
    (∀ v, out.iwc t h = some v → 0 < v) ∧ (∀ v, out.sensitivity h = some v → 0 < v) ∧ (∀ e, out.error t h = some e → 1.7 ≤ e) := by
  obtain ⟨fr, z, -, -, h1⟩ := C139_iwc f out hout
  obtain ⟨fr', ze, -, -, h2⟩ := C139_error f out hout
  obtain ⟨fr'', z', s, -, -, -, h3, -⟩ := C139_sensitivity f out hout
  refine ⟨fun v hv => ?_, fun v hv => ?_, fun e he => ?_⟩
  · obtain ⟨-, -, x, -, rfl⟩ := (h1 t h v).1 hv
    positivity
  · obtain ⟨x, -, rfl⟩ := (h3 h v).1 hv
    positivity
  · obtain ⟨-, -, x, -, hx⟩ := (h2 t h e).1 he
    have h0 := hx 0
    dsimp only at h0
    rw [h0]
    apply Real.le_sqrt_of_sq_le
    nlinarith [sq_nonneg (Spec.decibel ((10 : ℝ) ^ (Spec.iwcLaw fr').log (0 + x) (Spec.celsius f t h) / 1000 /
      ((10 : ℝ) ^ (Spec.iwcLaw fr').log 0 (Spec.celsius f t h) / 1000)))]

/-- **C176.** Effective radius of ice and its error are positive; the error is between 56 and 57 % of the value. -/
theorem C176_ier (f : IceInput) (out : IerFile) (hout : generateIer f = .ok out) (t h : ℕ) :
    (∀ v, out.ier t h = some v → 0 < v) ∧
    ∀ e, out.error t h = some e → ∃ v, out.ier t h = some v ∧ 0.56 * v < e ∧ e < 0.57 * v := by
  obtain ⟨fr, z, -, -, -, h1, h2⟩ := C139_ier f out hout
  have hpos : ∀ v, out.ier t h = some v → 0 < v := fun v hv => by
    obtain ⟨-, -, x, -, rfl⟩ := (h1 t h v).1 hv
    positivity
  refine ⟨hpos, fun e he => ?_⟩
  obtain ⟨v, hv, rfl⟩ := (h2 t h e).1 he
  have hv0 := hpos v hv
  refine ⟨v, hv, ?_, ?_⟩
  · have : (1.4 : ℝ) < Real.sqrt 2 := Real.lt_sqrt_of_sq_lt (by norm_num)
    nlinarith
  · have : Real.sqrt 2 < 1.42 := (Real.sqrt_lt' (by norm_num)).2 (by norm_num)
    nlinarith

/-! ### Droplets -/

theorem maskedPositive_value (x y : ℝ) (h : maskedPositive x = some y) : 0 < y := by
  unfold maskedPositive at h
  split_ifs at h with hx
  cases h
  exact not_le.1 hx

/-- **C176.** Effective radii of droplets, their errors and the number of droplets are positive, for all parameters. -/
theorem C176_droplets (p : Option DerParameters) (f : DerInput) (out : DerFile) (hout : generateDer p f = .ok out) (t h : ℕ) (v : ℝ)
    (hv : out.der t h = some v ∨ out.error t h = some v ∨ out.scaled t h = some v ∨ out.scaledError t h = some v ∨ out.n t h = some v) :
    0 < v := by
  obtain ⟨z, lwp, rain, d, -, -, -, e1, e2, e3, e4, e5, -⟩ := generateDer_ok p f out hout
  have hmap : ∀ x s : ℝ, 0 < s → (maskedPositive x).map (fun v => v * s) = some v → 0 < v := by
    intro x s hs hx
    obtain ⟨y, hy, rfl⟩ := Option.map_eq_some_iff.1 hx
    exact mul_pos (maskedPositive_value x y hy) hs
  have hlwp : ∀ (g : Grid ℝ) (s : ℝ), 0 < s → maskedByLwp (clipLwp lwp) s g t h = some v → 0 < v := by
    intro g s hs hx
    unfold maskedByLwp at hx
    cases hl : clipLwp lwp t with
    | none => rw [hl] at hx; cases hx
    | some l => rw [hl] at hx; exact hmap _ s hs hx
  rcases hv with hv | hv | hv | hv | hv
  · rw [e1] at hv; exact hmap _ _ (by norm_num) hv
  · rw [e2] at hv; exact hmap _ _ (by norm_num) hv
  · rw [e3] at hv; exact hlwp _ _ (by norm_num) hv
  · rw [e4] at hv; exact hlwp _ _ (by norm_num) hv
  · rw [e5] at hv; exact hlwp _ _ (by norm_num) hv

/-! ### Liquid -/

/-- **C176.** Liquid water content is not negative, also if the liquid water path is. -/
theorem C176_liquid (g : ℝ → ℝ → ℝ) (f : LwcInput) (hg : ∀ t h, 0 < g (f.temperatureAt t h) (f.pressureAt t h)) (hh : Spec.GoodHeights f)
    (out : LwcFile) (hout : generateLwc g f = .ok out) (t h : ℕ) (ht : t < f.nT) (hn : h < f.nH) (v : ℝ) (hv : out.lwc t h = some v) : 0 ≤ v := by
  have ha : ∀ t < f.nT, ∀ h < f.nH, Spec.AdiabaticContent g f t h (f.adiabatic g t h) := fun t ht h hhn =>
    (adiabatic_content g f hg hh t h ht hhn _).2 rfl
  obtain ⟨h1, h2⟩ := C142_content g f hg hh _ ha out hout t ht
  by_cases hc : Spec.RainyProfile f t ∨ Spec.lwpOf f t = none ∨ ∀ h < f.nH, ¬ Spec.DropletGate f t h
  · rw [h1 hc h] at hv; cases hv
  · push Not at hc
    obtain ⟨c1, c2, c3⟩ := hc
    obtain ⟨p, hp⟩ := Option.ne_none_iff_exists'.1 c2
    obtain ⟨hS, hval⟩ := h2 p c1 hp c3
    rw [hval h hn] at hv
    cases hv
    have hp0 : 0 ≤ p := by
      unfold Spec.lwpOf at hp
      obtain ⟨x, -, rfl⟩ := Option.map_eq_some_iff.1 hp
      exact le_max_right _ _
    have hmono : ∀ i j, i ≤ j → j < f.nH → f.height i ≤ f.height j := by
      intro i j hij
      induction j, hij using Nat.le_induction with
      | base => exact fun _ => le_rfl
      | succ k hk ih => exact fun hkn => (ih (by omega)).trans (hh.2 k hkn).le
    have ha0 : 0 ≤ f.adiabatic g t h := by
      rcases ha t ht h hn with ⟨-, h0⟩ | ⟨b, q, -, hb, -, h0⟩
      · rw [h0]
      · rw [h0]
        refine mul_nonneg (hg t b).le ?_
        split_ifs with hb0
        · linarith [hh.1, hmono 0 h (Nat.zero_le _) hn]
        · linarith [hmono (b - 1) h (by omega) hn]
    exact mul_nonneg ha0 (div_nonneg hp0 hS.le)

/-- **C176.** The relative error of liquid water content is not negative and at most the square root of 125 (about 11.2), whatever the errors of the
liquid water path are, as long as they are not negative. -/
theorem C176_liquid_error (g : ℝ → ℝ → ℝ) (f : LwcInput) (hg : ∀ t h, 0 < g (f.temperatureAt t h) (f.pressureAt t h)) (hh : Spec.GoodHeights f)
    (out : LwcFile) (hout : generateLwc g f = .ok out) (t h : ℕ) (ht : t < f.nT) (hn : h < f.nH)
    (hdp : ∀ dp, (f.lwpError.bind fun e => e t) = some dp → 0 ≤ dp) (e : ℝ) (he : out.error t h = some e) :
    0 ≤ e ∧ e ≤ Real.sqrt 125 := by
  obtain ⟨h1, h2⟩ := C142_error g f out hout t h
  obtain ⟨hr, ⟨w, hw, hw0⟩, hp, hd⟩ := h1.1 ⟨e, he⟩
  obtain ⟨p, hp⟩ := Option.ne_none_iff_exists'.1 hp
  obtain ⟨dp, hd⟩ := Option.ne_none_iff_exists'.1 hd
  have hval := h2 w p dp hw hw0 hr hp hd
  rw [he] at hval
  obtain rfl := Option.some.inj hval
  refine ⟨Real.sqrt_nonneg _, Real.sqrt_le_sqrt ?_⟩
  have hwn := C176_liquid g f hg hh out hout t h ht hn w hw
  have hp0 : 0 ≤ p := by
    unfold Spec.lwpOf at hp
    obtain ⟨x, -, rfl⟩ := Option.map_eq_some_iff.1 hp
    exact le_max_right _ _
  have bound : ∀ x c : ℝ, 0 ≤ x → 0 ≤ c → (min x c) ^ 2 ≤ c ^ 2 := fun x c hx hc =>
    pow_le_pow_left₀ (le_min hx hc) (min_le_right _ _) 2
  have b1 := bound (Real.sqrt ((gradient1 f.nT (fun t' => (out.lwc t' h).getD 0) t) ^ 2 +
    (gradient1 f.nH (fun h' => (out.lwc t h').getD 0) h) ^ 2) / w / 2) 5 (by positivity) (by norm_num)
  have b2 := bound (if p = 0 then 0 else dp / p) 10 (by split_ifs <;> [rfl; exact div_nonneg (hdp dp hd) hp0]) (by norm_num)
  linarith

/-- **C176, the exception.** Errors are limited from above only: a negative error of the liquid water path is not cut off, and the relative error in
the file is at least its size divided by the path, without bound. -/
theorem C176_negative_error (g : ℝ → ℝ → ℝ) (f : LwcInput) (out : LwcFile) (hout : generateLwc g f = .ok out) (t h : ℕ) (p dp e : ℝ)
    (hp : Spec.lwpOf f t = some p) (hp0 : 0 < p) (hd : (f.lwpError.bind fun e => e t) = some dp) (hd0 : dp ≤ 0) (he : out.error t h = some e) :
    |dp| / p ≤ e := by
  obtain ⟨h1, h2⟩ := C142_error g f out hout t h
  obtain ⟨hr, ⟨w, hw, hw0⟩, -, -⟩ := h1.1 ⟨e, he⟩
  have hval := h2 w p dp hw hw0 hr hp hd
  rw [he, if_neg hp0.ne'] at hval
  obtain rfl := Option.some.inj hval
  apply Real.le_sqrt_of_sq_le
  have hneg : dp / p ≤ 0 := div_nonpos_of_nonpos_of_nonneg hd0 hp0.le
  rw [min_eq_left (by linarith : dp / p ≤ 10), div_pow, div_pow, sq_abs]
  nlinarith [sq_nonneg (min (Real.sqrt ((gradient1 f.nT (fun t' => (out.lwc t' h).getD 0) t) ^ 2 +
    (gradient1 f.nH (fun h' => (out.lwc t h').getD 0) h) ^ 2) / w / 2) 5)]

/-! ### Cases -/

/-- A pixel of ice of the example of C139. -/
example : ∃ out v, generateIwc exampleIceInput = .ok out ∧ out.iwc 0 1 = some v ∧ 0 < v := by
  obtain ⟨out, hout⟩ : ∃ out, generateIwc exampleIceInput = .ok out := by
    rw [C139_written]
    refine ⟨⟨35, rfl, Or.inl ⟨by norm_num, by norm_num⟩⟩, le_refl _, ?_, ?_, ?_, ?_, Or.inr (Or.inr ?_)⟩ <;> simp [exampleIceInput]
  obtain ⟨fr, z, -, hz, h1⟩ := C139_iwc _ out hout
  have hp : Spec.IcePixel exampleIceInput 0 1 ∧ ¬ Spec.UncorrectedPixel exampleIceInput 0 1 := by
    refine ⟨⟨?_, ?_, ?_, ?_⟩, ?_⟩
    · decide
    · decide
    · decide
    · decide
    · unfold Spec.UncorrectedPixel; decide
  obtain ⟨x, hx⟩ : ∃ x, z 0 1 = some x := by
    cases hz
    exact ⟨_, rfl⟩
  have hv := (h1 0 1 _).2 ⟨hp.1, hp.2, x, hx, rfl⟩
  exact ⟨out, _, hout, hv, (C176_iwc _ out hout 0 1).1 _ hv⟩

/-- A pixel of droplets of the example of C140. -/
example : ∃ out v, generateDer none exampleDerInput = .ok out ∧ out.der 0 0 = some v ∧ 0 < v := by
  obtain ⟨out, hout⟩ : ∃ out, generateDer none exampleDerInput = .ok out := by
    rw [C140_written]
    simp [exampleDerInput]
  have hH : Spec.HeightsIncrease exampleDerInput := by
    intro h
    unfold Spec.gateThickness exampleDerInput
    cases h with
    | zero => norm_num
    | succ h => simp
  obtain ⟨z, lwp, hz, -, hk⟩ := C140_known none _ out hout hH (by simp [defaultDerParameters])
  obtain ⟨v, hv⟩ := (hk 0 (by norm_num [exampleDerInput]) 0 (by norm_num [exampleDerInput])).1.2 ⟨by
    unfold Spec.DropletPixel; simp only [exampleDerInput]; decide, by cases hz; exact ⟨-20, by simp⟩⟩
  exact ⟨out, v, hout, hv, C176_droplets none _ out hout 0 0 v (Or.inl hv)⟩

end Cloudnet
