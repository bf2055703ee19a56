import Verif.LwcFile.Model
import Verif.Lwc.Props
import Verif.Atmos.Props
import Verif.IceFile.Props
import Mathlib.Tactic

/-! C142 (the file with liquid water content). -/

namespace Cloudnet

namespace Spec

/-- Droplets at a pixel: bit 0 of the category. -/
def DropletGate (f : LwcInput) (t h : ℕ) : Prop := (f.categoryBits t h).testBit 0 = true

/-- It rains in the profile `t` (or rain is not known), by the first of three variables that is in the file. -/
def RainyProfile (f : LwcInput) (t : ℕ) : Prop := ∃ rain, getIsRain f.rain = .ok rain ∧ rain t = true

/-- The liquid water path of the profile, at least 0. -/
def lwpOf (f : LwcInput) (t : ℕ) : Option ℝ := (f.lwp.bind fun l => l t).map fun x => max x 0

/-- Depth of a gate: from the gate below it, or the ground. -/
def depth (f : LwcInput) (h : ℕ) : ℝ := f.height h - if h = 0 then f.altitude else f.height (h - 1)

/-- The adiabatic content `a` of a gate: zero without droplets, and in a layer with the base `b` the gradient at the base times the height
above the lower edge of the base. -/
def AdiabaticContent (g : ℝ → ℝ → ℝ) (f : LwcInput) (t h : ℕ) (a : ℝ) : Prop :=
  (¬ DropletGate f t h ∧ a = 0) ∨ ∃ b p, IsLayer f.nH (fun i => (f.categoryBits t i).testBit 0) b p ∧ b ≤ h ∧ h ≤ p ∧
    a = g (f.temperatureAt t b) (f.pressureAt t b) * (f.height h - if b = 0 then f.altitude else f.height (b - 1))

/-- A cloud with the base `b` in the profile `t` is to be extended (C22), with adiabatic contents `a`. -/
def ExtendedCloud (f : LwcInput) (a : Grid ℝ) (t b : ℕ) : Prop :=
  ∃ rain, getIsRain f.rain = .ok rain ∧
    Adjusted f.nH (fun h => (f.categoryBits t h).testBit 0) (fun h => (f.qualityBits t h).testBit 0) (fun h => (f.qualityBits t h).testBit 1)
      (rain t) (a t) (depth f) (lwpOf f t) b

/-- Heights start above the ground and increase. -/
def GoodHeights (f : LwcInput) : Prop := f.altitude < f.height 0 ∧ ∀ h, h + 1 < f.nH → f.height h < f.height (h + 1)

end Spec

/-- The adiabatic content of the model. -/
noncomputable def LwcInput.adiabatic (g : ℝ → ℝ → ℝ) (f : LwcInput) : Grid ℝ :=
  calcAdiabaticLwc (fillCloudsWithLwcDz g f.nT f.nH f.temperatureAt f.pressureAt fun t h => (f.categoryBits t h).testBit 0) f.heightAgl

theorem lwcPathLengths_depth (f : LwcInput) : pathLengthsFromGround f.heightAgl = Spec.depth f := by
  funext h
  cases h with
  | zero => simp [pathLengthsFromGround, Spec.depth, LwcInput.heightAgl]
  | succ h => simp [pathLengthsFromGround, Spec.depth, LwcInput.heightAgl]

theorem clipLwp_max (f : LwcInput) (l : ℕ → Option ℝ) (hl : f.lwp = some l) : clipLwp l = Spec.lwpOf f := by
  funext t
  unfold clipLwp Spec.lwpOf
  rw [hl]
  simp only [Option.bind_some]
  congr 1
  funext x
  split
  · rw [max_eq_right (by linarith)]
  · rw [max_eq_left (by linarith)]

/-- **C142.** The adiabatic content. -/
theorem adiabatic_content (g : ℝ → ℝ → ℝ) (f : LwcInput) (hg : ∀ t h, 0 < g (f.temperatureAt t h) (f.pressureAt t h))
    (hh : Spec.GoodHeights f) (t h : ℕ) (ht : t < f.nT) (hhn : h < f.nH) (a : ℝ) :
    Spec.AdiabaticContent g f t h a ↔ a = f.adiabatic g t h := by
  have h0 : 0 < f.heightAgl 0 := by unfold LwcInput.heightAgl; linarith [hh.1]
  have hm : ∀ h, h + 1 < f.nH → f.heightAgl h < f.heightAgl (h + 1) := by
    intro h hl; unfold LwcInput.heightAgl; linarith [hh.2 h hl]
  obtain ⟨k1, k2⟩ := C20_adiabatic_lwc g f.nT f.nH f.temperatureAt f.pressureAt (fun t h => (f.categoryBits t h).testBit 0) f.heightAgl hg h0 hm
    t ht
  have e : ∀ b, (f.heightAgl h - if b = 0 then 0 else f.heightAgl (b - 1)) =
      f.height h - if b = 0 then f.altitude else f.height (b - 1) := by
    intro b; unfold LwcInput.heightAgl; split <;> ring
  unfold Spec.AdiabaticContent LwcInput.adiabatic
  constructor
  · rintro (⟨hd, rfl⟩ | ⟨b, p, hl, hb, hp, rfl⟩)
    · exact (k1 h hhn (by simpa [Spec.DropletGate] using hd)).symm
    · rw [k2 b p h hl hb hp, e]
  · rintro rfl
    by_cases hd : Spec.DropletGate f t h
    · obtain ⟨b, p, hl, hb, hp⟩ := exists_layer (n := f.nH) (a := fun i => (f.categoryBits t i).testBit 0) hhn hd
      exact Or.inr ⟨b, p, hl, hb, hp, by rw [k2 b p h hl hb hp, e]⟩
    · exact Or.inl ⟨hd, k1 h hhn (by simpa [Spec.DropletGate] using hd)⟩

theorem adiabatic_eq (g : ℝ → ℝ → ℝ) (f : LwcInput) : calcAdiabaticLwc (fillCloudsWithLwcDz g f.nT f.nH f.temperatureAt f.pressureAt
    fun t h => (f.categoryBits t h).testBit 0) f.heightAgl = f.adiabatic g := rfl

theorem generateLwc_ok (g : ℝ → ℝ → ℝ) (f : LwcInput) (out : LwcFile) (hout : generateLwc g f = .ok out) :
    ∃ lwp lwpError rain, f.lwp = some lwp ∧ f.lwpError = some lwpError ∧ getIsRain f.rain = .ok rain ∧ 2 ≤ f.nT ∧
      lwcProduct g f.nT f.nH f.temperatureAt f.pressureAt (fun t h => (f.categoryBits t h).testBit 0) lwp rain f.heightAgl = .ok out.lwc ∧
      cloudAdjustor f.nT f.nH (fun t h => (f.categoryBits t h).testBit 0) (fun t h => (f.qualityBits t h).testBit 0)
        (fun t h => (f.qualityBits t h).testBit 1) rain (f.adiabatic g) (Spec.depth f) (Spec.lwpOf f) = .ok out.status ∧
      lwcError f.nT f.nH out.lwc (Spec.lwpOf f) lwpError rain = .ok out.error := by
  unfold generateLwc at hout
  rw [readCategoryBits_eq, readQualityBits_eq] at hout
  cases h1 : f.lwp with
  | none => rw [h1] at hout; cases hout
  | some lwp =>
    cases h2 : f.lwpError with
    | none => rw [h1, h2] at hout; cases hout
    | some lwpError =>
      cases h3 : getIsRain f.rain with
      | error e => rw [h1, h2, h3] at hout; cases hout
      | ok rain =>
        rw [h1, h2, h3] at hout
        simp only [readLwp, readVar, Except.bind] at hout
        cases h4 : lwcProduct g f.nT f.nH f.temperatureAt f.pressureAt (fun t h => (f.categoryBits t h).testBit 0) lwp rain f.heightAgl with
        | error e => rw [h4] at hout; cases hout
        | ok lwc =>
          rw [h4] at hout
          dsimp only at hout
          rw [lwcPathLengths_depth, clipLwp_max f lwp h1] at hout
          rw [adiabatic_eq] at hout
          cases h5 : cloudAdjustor f.nT f.nH (fun t h => (f.categoryBits t h).testBit 0) (fun t h => (f.qualityBits t h).testBit 0)
              (fun t h => (f.qualityBits t h).testBit 1) rain (f.adiabatic g) (Spec.depth f) (Spec.lwpOf f) with
          | error e => rw [h5] at hout; cases hout
          | ok status =>
            rw [h5] at hout
            dsimp only at hout
            cases h6 : lwcError f.nT f.nH lwc (Spec.lwpOf f) lwpError rain with
            | error e => rw [h6] at hout; cases hout
            | ok error =>
              rw [h6] at hout
              cases hout
              refine ⟨lwp, lwpError, rain, rfl, rfl, rfl, ?_, h4, h5, h6⟩
              by_contra hc
              unfold lwcError at h6
              rw [if_pos (Or.inl (by omega))] at h6
              cases h6

theorem adjusted_congr (n : ℕ) (liq radar lidar : ℕ → Bool) (isRain : Bool) (a a' path : ℕ → ℝ) (lwp : Option ℝ) (b : ℕ)
    (h : ∀ i < n, a i = a' i) (hb : Spec.Adjusted n liq radar lidar isRain a path lwp b) : Spec.Adjusted n liq radar lidar isRain a' path lwp b := by
  obtain ⟨h1, h2, h3, l, h4, h5⟩ := hb
  refine ⟨h1, h2, h3, l, h4, ?_⟩
  have e : ∑ i ∈ Finset.range n, a i * path i = ∑ i ∈ Finset.range n, a' i * path i :=
    Finset.sum_congr rfl fun i hi => by rw [h i (Finset.mem_range.1 hi)]
  rwa [← e]

theorem extendedTop_congr (n : ℕ) (a a' path : ℕ → ℝ) (l : ℝ) (b top : ℕ)
    (h : ∀ i < n, a i = a' i) (hb : Spec.ExtendedTop n a path l b top) : Spec.ExtendedTop n a' path l b top := by
  obtain ⟨h1, h2, h3, h4⟩ := hb
  have e : ∀ i, Spec.extendedLwp n a path b i = Spec.extendedLwp n a' path b i := by
    intro i
    unfold Spec.extendedLwp
    refine Finset.sum_congr rfl fun j hj => ?_
    rw [h b (by omega), h j (Finset.mem_range.1 hj)]
  refine ⟨h1, h2, ?_, ?_⟩
  · rwa [← e]
  · intro i hi hi'
    rw [← e]
    exact h4 i hi hi'

/-- **C142.** The file is written if and only if liquid water path, its error and rain are in the categorize file, there are two profiles
and two gates, and no cloud that is to be extended starts at the last gate. -/
theorem C142_written (g : ℝ → ℝ → ℝ) (f : LwcInput) (hg : ∀ t h, 0 < g (f.temperatureAt t h) (f.pressureAt t h)) (hh : Spec.GoodHeights f)
    (a : Grid ℝ) (ha : ∀ t < f.nT, ∀ h < f.nH, Spec.AdiabaticContent g f t h (a t h)) :
    (∃ out, generateLwc g f = .ok out) ↔ f.lwp ≠ none ∧ f.lwpError ≠ none ∧
      (f.rain "rain_detected" ≠ none ∨ f.rain "rainfall_rate" ≠ none ∨ f.rain "rain_rate" ≠ none) ∧
      2 ≤ f.nT ∧ 2 ≤ f.nH ∧ ∀ t < f.nT, ¬ Spec.ExtendedCloud f a t (f.nH - 1) := by
  have hrain : (∃ rain, getIsRain f.rain = .ok rain) ↔
      (f.rain "rain_detected" ≠ none ∨ f.rain "rainfall_rate" ≠ none ∨ f.rain "rain_rate" ≠ none) := by
    unfold getIsRain
    cases h1 : f.rain "rain_detected" <;> cases h2 : f.rain "rainfall_rate" <;> cases h3 : f.rain "rain_rate" <;>
      simp [getIsRain.go, h1, h2, h3]
  have hcontent : ∀ t < f.nT, ∀ h < f.nH, a t h = f.adiabatic g t h := fun t ht h hhn =>
    (adiabatic_content g f hg hh t h ht hhn (a t h)).1 (ha t ht h hhn)
  constructor
  · rintro ⟨out, hout⟩
    obtain ⟨lwp, lwpError, rain, h1, h2, h3, hT, h4, h5, h6⟩ := generateLwc_ok g f out hout
    have hH : 2 ≤ f.nH := by
      by_contra hc
      unfold lwcError at h6
      rw [if_pos (Or.inr (by omega))] at h6
      cases h6
    refine ⟨by simp [h1], by simp [h2], hrain.1 ⟨rain, h3⟩, hT, hH, ?_⟩
    rintro t ht ⟨rain', h3', had⟩
    rw [h3] at h3'
    cases h3'
    obtain ⟨e, he⟩ := C22_raises f.nT f.nH hH (fun t h => (f.categoryBits t h).testBit 0) (fun t h => (f.qualityBits t h).testBit 0)
        (fun t h => (f.qualityBits t h).testBit 1) rain (f.adiabatic g) (Spec.depth f) (Spec.lwpOf f) t ht
        (adjusted_congr _ _ _ _ _ _ _ _ _ _ (hcontent t ht) had)
    rw [he] at h5
    cases h5
  · rintro ⟨h1, h2, h3, hT, hH, h4⟩
    obtain ⟨lwp, h1⟩ := Option.ne_none_iff_exists'.1 h1
    obtain ⟨lwpError, h2⟩ := Option.ne_none_iff_exists'.1 h2
    obtain ⟨rain, h3⟩ := hrain.2 h3
    have h0 : 0 < f.heightAgl 0 := by unfold LwcInput.heightAgl; linarith [hh.1]
    have hm : ∀ h, h + 1 < f.nH → f.heightAgl h < f.heightAgl (h + 1) := by
      intro h hl; unfold LwcInput.heightAgl; linarith [hh.2 h hl]
    obtain ⟨lwc, hl, _⟩ := C19_lwc_conserves_lwp g f.nT f.nH f.temperatureAt f.pressureAt (fun t h => (f.categoryBits t h).testBit 0) lwp rain
      f.heightAgl hg h0 hm hT
    obtain ⟨status, hs, _⟩ := C22_status f.nT f.nH hH (fun t h => (f.categoryBits t h).testBit 0) (fun t h => (f.qualityBits t h).testBit 0)
        (fun t h => (f.qualityBits t h).testBit 1) rain (f.adiabatic g) (Spec.depth f) (Spec.lwpOf f) (by
          intro t ht had
          exact h4 t ht ⟨rain, h3, adjusted_congr _ _ _ _ _ _ _ _ _ _ (fun i hi => (hcontent t ht i hi).symm) had⟩)
    obtain ⟨error, he, _⟩ := C78_lwc_error f.nT f.nH hT hH lwc (Spec.lwpOf f) lwpError rain
    refine ⟨⟨lwc, status, error⟩, ?_⟩
    unfold generateLwc
    rw [readCategoryBits_eq, readQualityBits_eq, h1, h2, h3]
    simp only [readLwp, readVar, Except.bind]
    rw [hl]
    dsimp only
    rw [lwcPathLengths_depth, clipLwp_max f lwp h1]
    rw [adiabatic_eq]
    rw [hs]
    dsimp only
    rw [he]
    rfl

/-- **C142.** The content of the file. In profiles with rain, without liquid water path or without droplets it is unknown. In the others it
is the adiabatic content, scaled so that the sum over the gates is the liquid water path. -/
theorem C142_content (g : ℝ → ℝ → ℝ) (f : LwcInput) (hg : ∀ t h, 0 < g (f.temperatureAt t h) (f.pressureAt t h)) (hh : Spec.GoodHeights f)
    (a : Grid ℝ) (ha : ∀ t < f.nT, ∀ h < f.nH, Spec.AdiabaticContent g f t h (a t h))
    (out : LwcFile) (hout : generateLwc g f = .ok out) (t : ℕ) (ht : t < f.nT) :
    (Spec.RainyProfile f t ∨ Spec.lwpOf f t = none ∨ (∀ h < f.nH, ¬ Spec.DropletGate f t h) → ∀ h, out.lwc t h = none) ∧
    ∀ p, ¬ Spec.RainyProfile f t → Spec.lwpOf f t = some p → (∃ h < f.nH, Spec.DropletGate f t h) →
      0 < ∑ h ∈ Finset.range f.nH, a t h * Spec.depth f h ∧
      ∀ h < f.nH, out.lwc t h = some (a t h * (p / ∑ i ∈ Finset.range f.nH, a t i * Spec.depth f i)) := by
  obtain ⟨lwp, lwpError, rain, h1, h2, h3, hT, h4, h5, h6⟩ := generateLwc_ok g f out hout
  have hcontent : ∀ h < f.nH, a t h = f.adiabatic g t h := fun h hhn =>
    (adiabatic_content g f hg hh t h ht hhn (a t h)).1 (ha t ht h hhn)
  have h0 : 0 < f.heightAgl 0 := by unfold LwcInput.heightAgl; linarith [hh.1]
  have hm : ∀ h, h + 1 < f.nH → f.heightAgl h < f.heightAgl (h + 1) := by
    intro h hl; unfold LwcInput.heightAgl; linarith [hh.2 h hl]
  have hrainy : Spec.RainyProfile f t ↔ rain t = true := by
    unfold Spec.RainyProfile
    rw [h3]
    constructor
    · rintro ⟨r, hr, hr'⟩; cases hr; exact hr'
    · exact fun h => ⟨rain, rfl, h⟩
  have hlwp : Spec.lwpOf f t = none ↔ lwp t = none := by
    unfold Spec.lwpOf; rw [h1]; simp
  constructor
  · obtain ⟨lwc, hl, hall⟩ := C19_lwc_conserves_lwp g f.nT f.nH f.temperatureAt f.pressureAt (fun t h => (f.categoryBits t h).testBit 0) lwp rain
      f.heightAgl hg h0 hm hT
    rw [h4] at hl
    cases hl
    intro hc
    apply (hall t ht).1
    rw [hrainy, hlwp] at hc
    rcases hc with hc | hc | hc
    · exact Or.inl hc
    · exact Or.inr (Or.inl hc)
    · exact Or.inr (Or.inr fun h hhn => by simpa [Spec.DropletGate] using hc h hhn)
  · rintro p hr hp ⟨k, hk, hd⟩
    have hpos := fun i (hi : i < f.nH) => C20_positive_iff_liquid g f.nT f.nH f.temperatureAt f.pressureAt
      (fun t h => (f.categoryBits t h).testBit 0) f.heightAgl hg h0 hm t i ht hi
    have hdepth : ∀ i < f.nH, 0 < Spec.depth f i := by
      intro i hi
      unfold Spec.depth
      cases i with
      | zero => simpa using hh.1
      | succ i => simpa using hh.2 i hi
    have hsum : ∑ h ∈ Finset.range f.nH, a t h * Spec.depth f h = ∑ h ∈ Finset.range f.nH, f.adiabatic g t h * Spec.depth f h :=
      Finset.sum_congr rfl fun i hi => by rw [hcontent i (Finset.mem_range.1 hi)]
    have hS : 0 < ∑ h ∈ Finset.range f.nH, f.adiabatic g t h * Spec.depth f h := by
      apply Finset.sum_pos'
      · intro i hi
        rw [Finset.mem_range] at hi
        exact mul_nonneg (hpos i hi).1 (hdepth i hi).le
      · exact ⟨k, Finset.mem_range.2 hk, mul_pos ((hpos k hk).2.2 hd) (hdepth k hk)⟩
    rw [hsum]
    refine ⟨hS, fun h hhn => ?_⟩
    rw [hrainy] at hr
    unfold lwcProduct normalizeLwcByLwp at h4
    simp only [show ¬ f.nT ≤ 1 by omega, if_false, bind, Except.bind, pure, Except.pure] at h4
    have h4 := Except.ok.inj h4
    rw [← h4, hcontent h hhn]
    simp only [if_neg hr, clipLwp_max f lwp h1, lwcPathLengths_depth]
    change (mdiv (Spec.lwpOf f t) (∑ h ∈ Finset.range f.nH, f.adiabatic g t h * Spec.depth f h)).map (fun s => f.adiabatic g t h * s) = _
    rw [hp]
    simp [mdiv, hS.ne']

/-- **C142.** The content adds up to the liquid water path. -/
theorem C142_closure (g : ℝ → ℝ → ℝ) (f : LwcInput) (hg : ∀ t h, 0 < g (f.temperatureAt t h) (f.pressureAt t h)) (hh : Spec.GoodHeights f)
    (out : LwcFile) (hout : generateLwc g f = .ok out) (t : ℕ) (ht : t < f.nT) (p : ℝ) (hr : ¬ Spec.RainyProfile f t)
    (hp : Spec.lwpOf f t = some p) (hd : ∃ h < f.nH, Spec.DropletGate f t h) :
    ∑ h ∈ Finset.range f.nH, (out.lwc t h).getD 0 * Spec.depth f h = p := by
  have ha : ∀ t < f.nT, ∀ h < f.nH, Spec.AdiabaticContent g f t h (f.adiabatic g t h) := fun t ht h hhn =>
    (adiabatic_content g f hg hh t h ht hhn _).2 rfl
  obtain ⟨hS, hv⟩ := (C142_content g f hg hh _ ha out hout t ht).2 p hr hp hd
  have e : ∀ h ∈ Finset.range f.nH, (out.lwc t h).getD 0 * Spec.depth f h =
      (f.adiabatic g t h * Spec.depth f h) * (p / ∑ i ∈ Finset.range f.nH, f.adiabatic g t i * Spec.depth f i) := by
    intro h hhn
    rw [hv h (Finset.mem_range.1 hhn)]
    simp only [Option.getD_some]
    ring
  rw [Finset.sum_congr rfl e, ← Finset.sum_mul, mul_div_cancel₀ _ hS.ne']

/-- **C142.** The status of the file: 4 in profiles with rain or without liquid water path. In the others 1 at droplets, but 2 if a cloud of
the profile is to be extended; 3 where there are no droplets and the extended cloud reaches, and 0 at other pixels. -/
theorem C142_status (g : ℝ → ℝ → ℝ) (f : LwcInput) (hg : ∀ t h, 0 < g (f.temperatureAt t h) (f.pressureAt t h)) (hh : Spec.GoodHeights f)
    (a : Grid ℝ) (ha : ∀ t < f.nT, ∀ h < f.nH, Spec.AdiabaticContent g f t h (a t h))
    (out : LwcFile) (hout : generateLwc g f = .ok out) (t h : ℕ) (ht : t < f.nT) :
    (out.status t h = 4 ↔ Spec.RainyProfile f t ∨ Spec.lwpOf f t = none) ∧
    (out.status t h = 2 ↔ Spec.DropletGate f t h ∧ ∃ b, Spec.ExtendedCloud f a t b) ∧
    (out.status t h = 1 ↔ Spec.DropletGate f t h ∧ (¬ ∃ b, Spec.ExtendedCloud f a t b) ∧ ¬ Spec.RainyProfile f t ∧ Spec.lwpOf f t ≠ none) ∧
    (out.status t h = 3 ↔ ¬ Spec.DropletGate f t h ∧ ∃ b p top, Spec.ExtendedCloud f a t b ∧ Spec.lwpOf f t = some p ∧
      Spec.ExtendedTop f.nH (a t) (Spec.depth f) p b top ∧ b < h ∧ h ≤ top) ∧
    out.status t h ≤ 4 := by
  obtain ⟨lwp, lwpError, rain, h1, h2, h3, hT, h4, h5, h6⟩ := generateLwc_ok g f out hout
  have hcontent : ∀ t < f.nT, ∀ h < f.nH, a t h = f.adiabatic g t h := fun t ht h hhn =>
    (adiabatic_content g f hg hh t h ht hhn (a t h)).1 (ha t ht h hhn)
  obtain ⟨_, _, _, _, hH, hlast⟩ := (C142_written g f hg hh a ha).1 ⟨out, hout⟩
  obtain ⟨status, hs, hall⟩ := C22_status f.nT f.nH hH (fun t h => (f.categoryBits t h).testBit 0) (fun t h => (f.qualityBits t h).testBit 0)
        (fun t h => (f.qualityBits t h).testBit 1) rain (f.adiabatic g) (Spec.depth f) (Spec.lwpOf f) (by
          intro t ht had
          exact hlast t ht ⟨rain, h3, adjusted_congr _ _ _ _ _ _ _ _ _ _ (fun i hi => (hcontent t ht i hi).symm) had⟩)
  rw [h5] at hs
  cases hs
  have hrainy : Spec.RainyProfile f t ↔ rain t = true := by
    unfold Spec.RainyProfile
    rw [h3]
    constructor
    · rintro ⟨r, hr, hr'⟩; cases hr; exact hr'
    · exact fun h => ⟨rain, rfl, h⟩
  have hext : ∀ b, Spec.ExtendedCloud f a t b ↔ Spec.Adjusted f.nH (fun h => (f.categoryBits t h).testBit 0)
      (fun h => (f.qualityBits t h).testBit 0) (fun h => (f.qualityBits t h).testBit 1) (rain t) (f.adiabatic g t) (Spec.depth f) (Spec.lwpOf f t) b := by
    intro b
    unfold Spec.ExtendedCloud
    constructor
    · rintro ⟨r, hr, had⟩
      rw [h3] at hr
      cases hr
      exact adjusted_congr _ _ _ _ _ _ _ _ _ _ (hcontent t ht) had
    · intro had
      exact ⟨rain, h3, adjusted_congr _ _ _ _ _ _ _ _ _ _ (fun i hi => (hcontent t ht i hi).symm) had⟩
  have htop : ∀ p b top, Spec.ExtendedTop f.nH (a t) (Spec.depth f) p b top ↔ Spec.ExtendedTop f.nH (f.adiabatic g t) (Spec.depth f) p b top :=
    fun p b top => ⟨extendedTop_congr _ _ _ _ _ _ _ (hcontent t ht), extendedTop_congr _ _ _ _ _ _ _ fun i hi => (hcontent t ht i hi).symm⟩
  have hdry : ∀ b, Spec.ExtendedCloud f a t b → rain t = false ∧ Spec.lwpOf f t ≠ none := by
    intro b hb
    obtain ⟨_, _, hr, l, hl, _⟩ := (hext b).1 hb
    exact ⟨hr, by simp [hl]⟩
  obtain ⟨k1, k2⟩ := hall t ht
  rw [hrainy]
  simp only [htop]
  simp only [← hext] at k2
  by_cases hc : rain t = true ∨ Spec.lwpOf f t = none
  · rw [k1 hc h]
    have hno : ∀ b, ¬ Spec.ExtendedCloud f a t b := by
      intro b hb
      obtain ⟨q1, q2⟩ := hdry b hb
      rcases hc with hc | hc
      · rw [q1] at hc; cases hc
      · exact q2 hc
    simp only [hc, hno]
    simp
    intro _ hr
    rcases hc with hc | hc
    · rw [hr] at hc; cases hc
    · exact hc
  · push Not at hc
    obtain ⟨hr, hl⟩ := hc
    have hr : rain t = false := by simpa using hr
    obtain ⟨q2, q1, q3, q0⟩ := k2 hr hl h
    unfold Spec.DropletGate
    cases hd : (f.categoryBits t h).testBit 0 with
    | true =>
      by_cases hb : ∃ b, Spec.ExtendedCloud f a t b
      · rw [q2 hd hb]
        simp [hb, hl, hr]
      · rw [q1 hd hb]
        simp [hb, hl, hr]
    | false =>
      by_cases hb : ∃ b p top, Spec.ExtendedCloud f a t b ∧ Spec.lwpOf f t = some p ∧
          Spec.ExtendedTop f.nH (f.adiabatic g t) (Spec.depth f) p b top ∧ b < h ∧ h ≤ top
      · rw [q3 hd hb]
        simp only [hr, hl, hb]
        simp
      · rw [q0 hd hb]
        simp only [hr, hl, hb]
        simp

/-- **C142.** The error is known exactly where the content is known and not zero and the error of the path is known. -/
theorem C142_error (g : ℝ → ℝ → ℝ) (f : LwcInput) (out : LwcFile) (hout : generateLwc g f = .ok out) (t h : ℕ) :
    ((∃ e, out.error t h = some e) ↔ ¬ Spec.RainyProfile f t ∧ (∃ w, out.lwc t h = some w ∧ w ≠ 0) ∧ Spec.lwpOf f t ≠ none ∧
      (f.lwpError.bind fun e => e t) ≠ none) ∧
    ∀ w p dp, out.lwc t h = some w → w ≠ 0 → ¬ Spec.RainyProfile f t → Spec.lwpOf f t = some p → (f.lwpError.bind fun e => e t) = some dp →
      out.error t h = some (Real.sqrt
          ((min (Real.sqrt ((gradient1 f.nT (fun t' => (out.lwc t' h).getD 0) t) ^ 2 +
              (gradient1 f.nH (fun h' => (out.lwc t h').getD 0) h) ^ 2) / w / 2) 5) ^ 2 +
           (min (if p = 0 then 0 else dp / p) 10) ^ 2)) := by
  obtain ⟨lwp, lwpError, rain, h1, h2, h3, hT, h4, h5, h6⟩ := generateLwc_ok g f out hout
  have hH : 2 ≤ f.nH := by
    by_contra hc
    unfold lwcError at h6
    rw [if_pos (Or.inr (by omega))] at h6
    cases h6
  have hrainy : ¬ Spec.RainyProfile f t ↔ rain t = false := by
    unfold Spec.RainyProfile
    rw [h3]
    constructor
    · intro hn
      by_contra hc
      exact hn ⟨rain, rfl, by simpa using hc⟩
    · rintro h ⟨r, hr, hr'⟩; cases hr; rw [h] at hr'; cases hr'
  obtain ⟨error, he, hall⟩ := C78_lwc_error f.nT f.nH hT hH out.lwc (Spec.lwpOf f) lwpError rain
  rw [h6] at he
  cases he
  rw [hrainy, h2]
  simp only [Option.bind_some]
  exact ⟨(hall t h).1, fun w p dp q1 q2 q3 q4 q5 => (hall t h).2 w p dp q3 q1 q2 q4 q5⟩

/-- **C142, finding.** The pixels that are added at the top of a cloud (status 3) have no liquid: their content is 0 and they have no error. -/
theorem C142_added_empty (g : ℝ → ℝ → ℝ) (f : LwcInput) (hg : ∀ t h, 0 < g (f.temperatureAt t h) (f.pressureAt t h)) (hh : Spec.GoodHeights f)
    (out : LwcFile) (hout : generateLwc g f = .ok out) (t h : ℕ) (ht : t < f.nT) (hhn : h < f.nH) (hs : out.status t h = 3) :
    out.lwc t h = some 0 ∧ out.error t h = none := by
  have ha : ∀ t < f.nT, ∀ h < f.nH, Spec.AdiabaticContent g f t h (f.adiabatic g t h) := fun t ht h hhn =>
    (adiabatic_content g f hg hh t h ht hhn _).2 rfl
  obtain ⟨hd, b, p, top, hb, hp, htop, _, _⟩ := (C142_status g f hg hh _ ha out hout t h ht).2.2.2.1.1 hs
  obtain ⟨rain, h3, hk, hlid, hr, _⟩ := hb
  have hdry : ¬ Spec.RainyProfile f t := by
    rintro ⟨r, h3', hr'⟩
    rw [h3] at h3'
    cases h3'
    rw [hr] at hr'
    cases hr'
  have hsome : ∃ h < f.nH, Spec.DropletGate f t h := by
    obtain ⟨_, i, _, hi, hl, _⟩ := hlid
    exact ⟨i, hi, hl⟩
  have hv := ((C142_content g f hg hh _ ha out hout t ht).2 p hdry hp hsome).2 h hhn
  have hzero : f.adiabatic g t h = 0 := by
    have := (adiabatic_content g f hg hh t h ht hhn 0).1 (Or.inl ⟨hd, rfl⟩)
    exact this.symm
  rw [hzero, zero_mul] at hv
  refine ⟨hv, ?_⟩
  by_contra hc
  obtain ⟨e, he⟩ := Option.ne_none_iff_exists'.1 hc
  obtain ⟨_, ⟨w, hw, hw0⟩, _⟩ := (C142_error g f out hout t h).1.1 ⟨e, he⟩
  rw [hv] at hw
  exact hw0 (Option.some.inj hw).symm

/-- **C142, finding.** In a profile with an extended cloud (status 2) the content of every gate with droplets is greater than adiabatic: the
whole path is put into the gates with droplets. -/
theorem C142_superadiabatic (g : ℝ → ℝ → ℝ) (f : LwcInput) (hg : ∀ t h, 0 < g (f.temperatureAt t h) (f.pressureAt t h)) (hh : Spec.GoodHeights f)
    (out : LwcFile) (hout : generateLwc g f = .ok out) (t h : ℕ) (ht : t < f.nT) (hhn : h < f.nH) (hs : out.status t h = 2)
    (x : ℝ) (hx : Spec.AdiabaticContent g f t h x) : ∃ w, out.lwc t h = some w ∧ x < w := by
  have ha : ∀ t < f.nT, ∀ h < f.nH, Spec.AdiabaticContent g f t h (f.adiabatic g t h) := fun t ht h hhn =>
    (adiabatic_content g f hg hh t h ht hhn _).2 rfl
  obtain ⟨hd, b, hb⟩ := (C142_status g f hg hh _ ha out hout t h ht).2.1.1 hs
  obtain ⟨rain, h3, hk, hlid, hr, p, hp, hlt⟩ := hb
  have hdry : ¬ Spec.RainyProfile f t := by
    rintro ⟨r, h3', hr'⟩
    rw [h3] at h3'
    cases h3'
    rw [hr] at hr'
    cases hr'
  obtain ⟨hS, hv⟩ := (C142_content g f hg hh _ ha out hout t ht).2 p hdry hp ⟨h, hhn, hd⟩
  refine ⟨_, hv h hhn, ?_⟩
  rw [(adiabatic_content g f hg hh t h ht hhn x).1 hx]
  have h0 : 0 < f.heightAgl 0 := by unfold LwcInput.heightAgl; linarith [hh.1]
  have hm : ∀ h, h + 1 < f.nH → f.heightAgl h < f.heightAgl (h + 1) := by
    intro h hl; unfold LwcInput.heightAgl; linarith [hh.2 h hl]
  have hpos : 0 < f.adiabatic g t h := (C20_positive_iff_liquid g f.nT f.nH f.temperatureAt f.pressureAt
      (fun t h => (f.categoryBits t h).testBit 0) f.heightAgl hg h0 hm t h ht hhn).2.2 hd
  have : 1 < p / ∑ i ∈ Finset.range f.nH, f.adiabatic g t i * Spec.depth f i := by
    rw [one_lt_div hS]; exact hlt
  nlinarith

/-! ### Example: four gates of 100 m, droplets at the second one, seen by the lidar only; the path is 2.5 times the adiabatic one. -/

/-- See above. -/
noncomputable def exampleLwc : LwcInput where
  nT := 2
  time := fun t => t
  nH := 4
  height := fun h => 100 * (h + 1)
  altitude := 0
  nModelT := 2
  modelTime := fun t => t
  nModelH := 2
  modelHeight := fun h => 500 * h
  temperature := fun _ _ => 280
  pressure := fun _ _ => 90000
  lwp := some fun _ => some 25000
  lwpError := some fun _ => some 2500
  categoryBits := fun _ h => if h = 1 then 1 else 0
  qualityBits := fun _ h => if h = 1 then 2 else 0
  rain := fun name => if name = "rain_detected" then some fun _ => some 0 else none

theorem exampleLwc_droplets (t h : ℕ) : (exampleLwc.categoryBits t h).testBit 0 = decide (h = 1) := by
  simp only [exampleLwc]
  by_cases h1 : h = 1
  · simp [h1]; decide
  · simp [h1]; decide

theorem exampleLwc_content (t h : ℕ) (hh : h < 4) : Spec.AdiabaticContent (fun _ _ => 1) exampleLwc t h (if h = 1 then 100 else 0) := by
  by_cases h1 : h = 1
  · subst h1
    refine Or.inr ⟨1, 1, ?_, le_refl _, le_refl _, ?_⟩
    · simp only [exampleLwc_droplets]
      refine ⟨le_refl _, by simp [exampleLwc], fun i h1 h2 => by simp; omega, Or.inr (by simp), Or.inr (by simp)⟩
    · simp [exampleLwc]; norm_num
  · refine Or.inl ⟨?_, by simp [h1]⟩
    unfold Spec.DropletGate
    rw [exampleLwc_droplets]
    simpa using h1

theorem exampleLwc_heights : Spec.GoodHeights exampleLwc := by
  refine ⟨by simp [exampleLwc], fun h _ => ?_⟩
  simp only [exampleLwc]
  push_cast
  linarith

theorem exampleLwc_lwp (t : ℕ) : Spec.lwpOf exampleLwc t = some 25000 := by
  simp [Spec.lwpOf, exampleLwc]

theorem exampleLwc_depth (h : ℕ) : Spec.depth exampleLwc h = 100 := by
  cases h with
  | zero => simp [Spec.depth, exampleLwc]
  | succ h => simp [Spec.depth, exampleLwc]; ring

theorem exampleLwc_extended (t : ℕ) : Spec.ExtendedCloud exampleLwc (fun _ h => if h = 1 then 100 else 0) t 1 ∧
    Spec.ExtendedTop exampleLwc.nH (fun h => if h = 1 then 100 else 0) (Spec.depth exampleLwc) 25000 1 2 ∧
    ¬ Spec.ExtendedCloud exampleLwc (fun _ h => if h = 1 then 100 else 0) t 3 := by
  have hr : getIsRain exampleLwc.rain = .ok fun _ => false := by
    simp [getIsRain, getIsRain.go, exampleLwc]
  have hq0 : ∀ h, (exampleLwc.qualityBits t h).testBit 0 = false := by
    intro h
    simp only [exampleLwc]
    split <;> decide
  have h4 : exampleLwc.nH = 4 := rfl
  refine ⟨⟨_, hr, ?_, ⟨fun h _ _ _ => hq0 h, 1, le_refl _, by simp [exampleLwc], by simp [exampleLwc_droplets], by
    simp only [exampleLwc]; decide⟩, rfl, 25000, exampleLwc_lwp t, ?_⟩, ⟨by omega, by rw [h4]; omega, Or.inl ?_, fun i h1 h2 => by omega⟩, ?_⟩
  · refine Or.inl ⟨by omega, by rw [h4]; omega, by simp [exampleLwc_droplets], by simp [exampleLwc_droplets], fun j h1 _ h3 => ?_⟩
    simp [exampleLwc_droplets] at h3
    omega
  · rw [h4]
    simp [Finset.sum_range_succ, exampleLwc_depth]
    norm_num
  · unfold Spec.extendedLwp
    rw [h4]
    simp [Finset.sum_range_succ, exampleLwc_depth]
    norm_num
  · rintro ⟨_, _, hk, _⟩
    rcases hk with hk | ⟨_, hk⟩
    · have := hk.2.2.1
      simp [exampleLwc_droplets] at this
    · have := hk 0 (by rw [h4]; omega)
      simp [exampleLwc_droplets] at this

/-- The file is written; the gate above the droplets is marked as added (status 3), but the content is 250 at the droplets and 0 there. -/
example : ∃ out, generateLwc (fun _ _ => 1) exampleLwc = .ok out ∧ out.status 0 1 = 2 ∧ out.status 0 2 = 3 ∧ out.lwc 0 1 = some 250 ∧
    out.lwc 0 2 = some 0 := by
  have hg : ∀ t h, (0 : ℝ) < (fun _ _ => 1 : ℝ → ℝ → ℝ) (exampleLwc.temperatureAt t h) (exampleLwc.pressureAt t h) := fun _ _ => by norm_num
  have ha : ∀ t < exampleLwc.nT, ∀ h < exampleLwc.nH, Spec.AdiabaticContent (fun _ _ => 1) exampleLwc t h (if h = 1 then 100 else 0) :=
    fun t _ h hh => exampleLwc_content t h hh
  obtain ⟨out, hout⟩ := (C142_written (fun _ _ => 1) exampleLwc hg exampleLwc_heights (fun _ h => if h = 1 then 100 else 0) ha).2
    ⟨by simp [exampleLwc], by simp [exampleLwc], by simp [exampleLwc], by simp [exampleLwc], by simp [exampleLwc],
      fun t _ => (exampleLwc_extended t).2.2⟩
  have hs := fun h => C142_status (fun _ _ => 1) exampleLwc hg exampleLwc_heights (fun _ h => if h = 1 then 100 else 0) ha out hout 0 h
    (by simp [exampleLwc])
  obtain ⟨e1, e2, _⟩ := exampleLwc_extended 0
  have s1 : out.status 0 1 = 2 := (hs 1).2.1.2 ⟨by unfold Spec.DropletGate; rw [exampleLwc_droplets]; rfl, 1, e1⟩
  have s2 : out.status 0 2 = 3 := (hs 2).2.2.2.1.2 ⟨by unfold Spec.DropletGate; rw [exampleLwc_droplets]; simp, 1, 25000, 2, e1,
    exampleLwc_lwp 0, e2, by omega, le_refl _⟩
  have hdry : ¬ Spec.RainyProfile exampleLwc 0 := by
    rintro ⟨r, hr, hr'⟩
    obtain ⟨r', h', had⟩ := e1
    rw [hr] at h'
    cases h'
    rw [had.2.2.1] at hr'
    cases hr'
  obtain ⟨hS, hv⟩ := (C142_content (fun _ _ => 1) exampleLwc hg exampleLwc_heights (fun _ h => if h = 1 then 100 else 0) ha out hout 0
    (by simp [exampleLwc])).2 25000 hdry (exampleLwc_lwp 0) ⟨1, by simp [exampleLwc], by unfold Spec.DropletGate; rw [exampleLwc_droplets]; rfl⟩
  have h4 : exampleLwc.nH = 4 := rfl
  refine ⟨out, hout, s1, s2, ?_, ?_⟩
  · rw [hv 1 (by simp [exampleLwc]), h4]
    simp [Finset.sum_range_succ, exampleLwc_depth]
    norm_num
  · rw [hv 2 (by simp [exampleLwc])]
    simp

end Cloudnet
