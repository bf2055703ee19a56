import Mathlib.Tactic
import Verif.IceFile.Props
import Verif.LwcFile.Props
import Verif.DrizzleFile.Props
import Verif.ClassFile.Props

/-!
C169: the products do not depend on where heights and times are counted from. If a constant is added to all heights of a categorize file
(gates, model levels and altitude of the site) or to all times (profiles and model steps), the products stay the same; only the cloud
heights above sea level move with the constant.
-/

set_option linter.unusedVariables false

namespace Cloudnet

namespace Spec

/-- The same file with all times later by `a` and all heights higher by `b`. -/
def iceMoved (f : IceInput) (a b : ℝ) : IceInput := { f with
  time := fun t => f.time t + a
  modelTime := fun t => f.modelTime t + a
  height := fun h => f.height h + b
  modelHeight := fun h => f.modelHeight h + b }

/-- The same file with all times later by `a` and all heights and the altitude of the site higher by `b`. -/
def lwcMoved (f : LwcInput) (a b : ℝ) : LwcInput := { f with
  time := fun t => f.time t + a
  modelTime := fun t => f.modelTime t + a
  height := fun h => f.height h + b
  modelHeight := fun h => f.modelHeight h + b
  altitude := f.altitude + b }

/-- The same file with all times later by `a` and all heights and the altitude of the site higher by `b`. -/
def drizzleMoved (f : DrizzleCategorize) (a b : ℝ) : DrizzleCategorize := { f with
  time := fun t => f.time t + a
  modelTime := fun t => f.modelTime t + a
  height := fun h => f.height h + b
  modelHeight := fun h => f.modelHeight h + b
  altitude := f.altitude + b }

end Spec

theorem bisectLeft_moved (x : ℕ → ℝ) (v a : ℝ) (m : ℕ) : bisectLeft (fun i => x i + a) (v + a) m = bisectLeft x v m := by
  unfold bisectLeft
  suffices h : ∀ fuel lo hi, bisectLeftLoop (fun i => x i + a) (v + a) fuel lo hi = bisectLeftLoop x v fuel lo hi from h _ _ _
  intro fuel
  induction fuel with
  | zero => intro lo hi; rfl
  | succ fuel ih =>
    intro lo hi
    simp only [bisectLeftLoop, ih, add_lt_add_iff_right]

theorem interpLinear_moved (m : ℕ) (x y : ℕ → ℝ) (v a : ℝ) : interpLinear m (fun i => x i + a) y (v + a) = interpLinear m x y v := by
  simp only [interpLinear, bisectLeft_moved, add_lt_add_iff_right, add_sub_add_right_eq_sub]

theorem interpolateModel_moved (n : ℕ) (x : ℕ → ℝ) (m : ℕ) (y : ℕ → ℝ) (z : Grid ℝ) (time height : ℕ → ℝ) (a b : ℝ) :
    interpolateModel n (fun i => x i + a) m (fun i => y i + b) z (fun t => time t + a) (fun h => height h + b) =
      interpolateModel n x m y z time height := by
  funext t h
  simp only [interpolateModel, interpolate2d, interpLinear_moved]

theorem iceTemperature_moved (f : IceInput) (a b : ℝ) : iceTemperature (Spec.iceMoved f a b) = iceTemperature f := by
  funext t h
  exact congrArg (· - 27315 / 100) (congrFun (congrFun (interpolateModel_moved _ _ _ _ _ _ _ a b) t) h)

/-- **C169.** Ice water content. -/
theorem C169_iwc (f : IceInput) (a b : ℝ) : generateIwc (Spec.iceMoved f a b) = generateIwc f := by
  unfold generateIwc
  rw [iceTemperature_moved]
  rfl

/-- **C169.** Ice effective radius. -/
theorem C169_ier (f : IceInput) (a b : ℝ) : generateIer (Spec.iceMoved f a b) = generateIer f := by
  unfold generateIer
  rw [iceTemperature_moved]
  rfl

/-- **C169.** Liquid water content. -/
theorem C169_lwc (g : ℝ → ℝ → ℝ) (f : LwcInput) (a b : ℝ) : generateLwc g (Spec.lwcMoved f a b) = generateLwc g f := by
  have h1 : (Spec.lwcMoved f a b).temperatureAt = f.temperatureAt := interpolateModel_moved _ _ _ _ _ _ _ a b
  have h2 : (Spec.lwcMoved f a b).pressureAt = f.pressureAt := interpolateModel_moved _ _ _ _ _ _ _ a b
  have h3 : (Spec.lwcMoved f a b).heightAgl = f.heightAgl := by
    funext h
    show f.height h + b - (f.altitude + b) = f.height h - f.altitude
    ring
  unfold generateLwc
  rw [h1, h2, h3]
  rfl

/-- **C169.** Drizzle. -/
theorem C169_drizzle (mie : String → MieTable) (f : DrizzleCategorize) (a b : ℝ) :
    generateDrizzle mie (Spec.drizzleMoved f a b) = generateDrizzle mie f := by
  have hA : ∀ h, f.height h + b - (f.altitude + b) = f.height h - f.altitude := fun h => by ring
  have h1 : beamDivergence (Spec.drizzleMoved f a b) = beamDivergence f := by
    funext h
    show (f.height h + b - (f.altitude + b)) * _ = _
    rw [hA]; rfl
  have h2 : horizontalWind (Spec.drizzleMoved f a b) = horizontalWind f := by
    funext t h
    show Real.sqrt (interpolateModel f.nModelT (fun t => f.modelTime t + a) f.nModelH (fun h => f.modelHeight h + b) f.uwind
      (fun t => f.time t + a) (fun h => f.height h + b) t h ^ 2 + interpolateModel f.nModelT (fun t => f.modelTime t + a) f.nModelH
      (fun h => f.modelHeight h + b) f.vwind (fun t => f.time t + a) (fun h => f.height h + b) t h ^ 2) = _
    rw [interpolateModel_moved, interpolateModel_moved]
    rfl
  have h3 : ∀ s, spectralWidth (Spec.drizzleMoved f a b) s = spectralWidth f s := by
    intro s
    unfold spectralWidth
    rw [h1, h2]
    rfl
  have h4 : ∀ mt z beta v s m, drizzleInput (Spec.drizzleMoved f a b) mt z beta v s m = drizzleInput f mt z beta v s m := by
    intro mt z beta v s m
    unfold drizzleInput
    rw [h3]
    show (⟨f.nT, f.nH, mt, _, beta, v, _, fun h => f.height h + b - (f.altitude + b), m.drizzle⟩ : DrizzleInput) = _
    simp only [hA]
  unfold generateDrizzle
  simp only [h4]
  rfl

theorem classification_no_top {α : Type} [Field α] [LinearOrder α] (nT nH : ℕ) (category quality : Grid ℤ) (att : AttenuationInput α)
    (height : ℕ → α) (altitude : α) (file : ClassificationFile α) (hf : generateClassification nT nH category quality att height altitude = .ok file)
    (t : ℕ) (h : file.topAmsl t = none) : file.topStatus t = none := by
  unfold generateClassification at hf
  rw [readCategoryBits_eq, readQualityBits_eq] at hf
  simp only [bind, Except.bind, pure, Except.pure] at hf
  split at hf
  · cases hf
  cases hf
  dsimp only at h ⊢
  rw [h]
  rfl

/-- **C169.** Target classification: the heights of clouds above sea level move with the constant, everything else stays the same. Heights are
different from 0, since 0 marks profiles without clouds. -/
theorem C169_classification {α : Type} [Field α] [LinearOrder α] [IsStrictOrderedRing α] (nT nH : ℕ) (hH : 0 < nH) (c : CategoryBits)
    (q : QualityBits) (att : AttenuationInput α) (height : ℕ → α) (altitude b : α) (h0 : ∀ h < nH, height h ≠ 0) (h1 : ∀ h < nH, height h + b ≠ 0)
    (hmono : ∀ i j, i < j → j < nH → height i < height j) :
    ∃ file out, generateClassification nT nH (classesToBits c.fields) (classesToBits q.fields) att height altitude = .ok file ∧
      generateClassification nT nH (classesToBits c.fields) (classesToBits q.fields) att (fun h => height h + b) (altitude + b) = .ok out ∧
      (∀ t h, out.target t h = file.target t h ∧ out.detection t h = file.detection t h ∧ out.signalSource t h = file.signalSource t h ∧
        out.attenuation t h = file.attenuation t h) ∧
      ∀ t < nT, (out.baseAmsl t = (file.baseAmsl t).map fun x => x + b) ∧ (out.topAmsl t = (file.topAmsl t).map fun x => x + b) ∧
        out.baseAgl t = file.baseAgl t ∧ out.topAgl t = file.topAgl t ∧ out.topStatus t = file.topStatus t := by
  obtain ⟨file, hf, f1, f2, f3, f4, f5⟩ := C71_classification_file nT nH hH c q att height altitude h0 hmono
  obtain ⟨out, ho, o1, o2, o3, o4, o5⟩ := C71_classification_file nT nH hH c q att (fun h => height h + b) (altitude + b) h1
    fun i j hij hj => add_lt_add_left (hmono i j hij hj) b
  have ht : out.target = file.target := funext fun t => funext fun h => (o1 t h).trans (f1 t h).symm
  have ha : ∀ t h, out.attenuation t h = file.attenuation t h := fun t h => (o4 t h).trans (f4 t h).symm
  refine ⟨file, out, hf, ho, fun t h => ⟨congrFun (congrFun ht t) h, (o2 t h).trans (f2 t h).symm, (o3 t h).trans (f3 t h).symm, ha t h⟩,
    fun t htn => ?_⟩
  have of := o5 t htn
  rw [ht] at of
  rcases f5 t htn with ⟨g0, g1, g2, g3, g4⟩ | ⟨i, j, hij, hj, ci, cj, hall, g1, g2, g3, g4, g5⟩
  · rcases of with ⟨-, k1, k2, k3, k4⟩ | ⟨i', j', hij', hj', ci', -⟩
    · rw [g1, g2, g3, g4, k1, k2, k3, k4]
      exact ⟨rfl, rfl, rfl, rfl, by rw [classification_no_top _ _ _ _ _ _ _ _ hf t g2, classification_no_top _ _ _ _ _ _ _ _ ho t k2]⟩
    · exact absurd ci' (g0 i' (by omega))
  · rcases of with ⟨k0, -⟩ | ⟨i', j', hij', hj', ci', cj', hall', k1, k2, k3, k4, k5⟩
    · exact absurd ci (k0 i (by omega))
    · have e1 : i' = i := le_antisymm (hall' i (by omega) ci).1 (hall i' (by omega) ci').1
      have e2 : j' = j := le_antisymm (hall j' hj' cj').2 (hall' j hj cj).2
      subst e1 e2
      rw [g1, g2, g3, g4, g5, k1, k2, k3, k4, k5, ha]
      refine ⟨rfl, rfl, ?_, ?_, rfl⟩
      · rw [add_sub_add_right_eq_sub]
      · rw [add_sub_add_right_eq_sub]

/-- The hypotheses on heights hold for a radar at 50 m with gates of 30 m from 100 m on, and for the same heights above the site. -/
example : (∀ h : ℕ, (100 + 30 * h : ℚ) ≠ 0) ∧ (∀ h : ℕ, (100 + 30 * h : ℚ) + -50 ≠ 0) ∧
    ∀ i j : ℕ, i < j → (100 + 30 * i : ℚ) < 100 + 30 * j := by
  have h0 : ∀ h : ℕ, (0 : ℚ) ≤ h := fun h => Nat.cast_nonneg h
  refine ⟨fun h => ?_, fun h => ?_, fun i j hij => ?_⟩
  · exact ne_of_gt (by linarith [h0 h])
  · exact ne_of_gt (by linarith [h0 h])
  · have : (i : ℚ) < j := by exact_mod_cast hij
    linarith

end Cloudnet
