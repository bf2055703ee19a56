import Verif.EpsLidar.Model
import Verif.Nwp.Mask2d
import Verif.Cli.Props
import Verif.Disdronator.LpmProps
import Mathlib.Tactic

/-! C144 (dissipation rate from Doppler lidars). -/

namespace Cloudnet

namespace Spec

/-- The wind is known in a pixel: both components. Its speed is `x`. -/
def WindKnown (f : LidarWindFile) (i j : ℕ) (x : ℝ) : Prop := i < f.nT ∧ j < f.nH ∧ ∃ u v, f.uwind i j = some u ∧ f.vwind i j = some v ∧
  0 ≤ x ∧ x ^ 2 = u ^ 2 + v ^ 2

/-- A component of the wind is masked somewhere. -/
def SomeMasked (f : LidarWindFile) : Prop := ∃ i < f.nT, ∃ j < f.nH, f.uwind i j = none ∨ f.vwind i j = none

/-- Wind is known at three times and at three heights. -/
def ThreeEach (f : LidarWindFile) : Prop :=
  (∃ i₁ j₁ i₂ j₂ i₃ j₃ x₁ x₂ x₃, WindKnown f i₁ j₁ x₁ ∧ WindKnown f i₂ j₂ x₂ ∧ WindKnown f i₃ j₃ x₃ ∧ f.time i₁ ≠ f.time i₂ ∧
    f.time i₁ ≠ f.time i₃ ∧ f.time i₂ ≠ f.time i₃) ∧
  ∃ i₁ j₁ i₂ j₂ i₃ j₃ x₁ x₂ x₃, WindKnown f i₁ j₁ x₁ ∧ WindKnown f i₂ j₂ x₂ ∧ WindKnown f i₃ j₃ x₃ ∧ f.height j₁ ≠ f.height j₂ ∧
    f.height j₁ ≠ f.height j₃ ∧ f.height j₂ ≠ f.height j₃

/-- All pixels with known wind are on a line of the plane of time and height. -/
def OnALine (f : LidarWindFile) : Prop := ∃ a b c : ℝ, (a ≠ 0 ∨ b ≠ 0) ∧ ∀ i j x, WindKnown f i j x → a * f.time i + b * f.height j = c

/-- What is assumed of the nearest point: it is known and no other known point is nearer. -/
def NearestKnown (f : LidarWindFile) (nearest : NearestPoint) : Prop := ∀ valid : ℕ → ℕ → Bool, (∃ i < f.nT, ∃ j < f.nH, valid i j = true) →
  ∀ u v, (nearest valid u v).1 < f.nT ∧ (nearest valid u v).2 < f.nH ∧ valid (nearest valid u v).1 (nearest valid u v).2 = true ∧
    ∀ i < f.nT, ∀ j < f.nH, valid i j = true →
      (f.time (nearest valid u v).1 - u) ^ 2 + (f.height (nearest valid u v).2 - v) ^ 2 ≤ (f.time i - u) ^ 2 + (f.height j - v) ^ 2

end Spec

variable {f : LidarWindFile}

theorem speed_iff {i j : ℕ} (hi : i < f.nT) (hj : j < f.nH) (x : ℝ) : f.speed i j = some x ↔ Spec.WindKnown f i j x := by
  unfold LidarWindFile.speed Spec.WindKnown
  constructor
  · intro h
    cases hu : f.uwind i j with
    | none => rw [hu] at h; cases h
    | some u =>
      cases hv : f.vwind i j with
      | none => rw [hu, hv] at h; cases h
      | some v =>
        rw [hu, hv] at h
        simp only [Option.bind_some, Option.map_some, Option.some.injEq] at h
        subst h
        exact ⟨hi, hj, u, v, rfl, rfl, Real.sqrt_nonneg _, Real.sq_sqrt (by positivity)⟩
  · rintro ⟨-, -, u, v, hu, hv, h0, h1⟩
    rw [hu, hv]
    simp only [Option.bind_some, Option.map_some, Option.some.injEq]
    rw [← h1, Real.sqrt_sq h0]

theorem mem_known (p : ℕ × ℕ) : p ∈ f.known ↔ ∃ x, Spec.WindKnown f p.1 p.2 x := by
  unfold LidarWindFile.known
  rw [Finset.mem_filter, Finset.mem_product, Finset.mem_range, Finset.mem_range, Option.isSome_iff_exists]
  constructor
  · rintro ⟨⟨h1, h2⟩, x, hx⟩
    exact ⟨x, (speed_iff h1 h2 x).1 hx⟩
  · rintro ⟨x, hx⟩
    exact ⟨⟨hx.1, hx.2.1⟩, x, (speed_iff hx.1 hx.2.1 x).2 hx⟩

theorem three_iff (g : ℕ × ℕ → ℝ) : ¬ (f.known.image g).card < 3 ↔ ∃ i₁ j₁ i₂ j₂ i₃ j₃ x₁ x₂ x₃, Spec.WindKnown f i₁ j₁ x₁ ∧
    Spec.WindKnown f i₂ j₂ x₂ ∧ Spec.WindKnown f i₃ j₃ x₃ ∧ g (i₁, j₁) ≠ g (i₂, j₂) ∧ g (i₁, j₁) ≠ g (i₃, j₃) ∧ g (i₂, j₂) ≠ g (i₃, j₃) := by
  rw [not_lt, show (3 ≤ (f.known.image g).card) ↔ 2 < (f.known.image g).card from Iff.rfl, Finset.two_lt_card_iff]
  simp only [Finset.mem_image, mem_known]
  constructor
  · rintro ⟨_, _, _, ⟨⟨i₁, j₁⟩, ⟨x₁, h1⟩, rfl⟩, ⟨⟨i₂, j₂⟩, ⟨x₂, h2⟩, rfl⟩, ⟨⟨i₃, j₃⟩, ⟨x₃, h3⟩, rfl⟩, e1, e2, e3⟩
    exact ⟨i₁, j₁, i₂, j₂, i₃, j₃, x₁, x₂, x₃, h1, h2, h3, e1, e2, e3⟩
  · rintro ⟨i₁, j₁, i₂, j₂, i₃, j₃, x₁, x₂, x₃, h1, h2, h3, e1, e2, e3⟩
    exact ⟨_, _, _, ⟨(i₁, j₁), ⟨x₁, h1⟩, rfl⟩, ⟨(i₂, j₂), ⟨x₂, h2⟩, rfl⟩, ⟨(i₃, j₃), ⟨x₃, h3⟩, rfl⟩, e1, e2, e3⟩

theorem noMask_iff : f.noMask ↔ ¬ Spec.SomeMasked f := by
  unfold LidarWindFile.noMask Spec.SomeMasked
  push Not
  simp only [Option.isSome_iff_ne_none]

variable {delaunay : (ℕ → ℕ → Bool) → Option (Triangulation ℝ)} {nearest : NearestPoint}

theorem lidarWind_ok {out : Grid ℝ} (h : lidarWind delaunay nearest f = .ok out) : Spec.SomeMasked f ∧ Spec.ThreeEach f ∧
    ∃ tri, delaunay (fun i j => (f.speed i j).isSome) = some tri ∧ ∀ i j, out i j =
      (gridData tri f.speed (f.time i) (f.height j)).getD ((f.speed (nearest (fun i j => (f.speed i j).isSome) (f.time i) (f.height j)).1
        (nearest (fun i j => (f.speed i j).isSome) (f.time i) (f.height j)).2).getD 0) := by
  unfold lidarWind at h
  dsimp only at h
  split_ifs at h with h1 h2 h3
  cases ht : delaunay fun i j => (f.speed i j).isSome with
  | none => rw [ht] at h; cases h
  | some tri =>
    rw [ht] at h
    cases h
    rw [not_or, three_iff, three_iff] at h3
    rw [noMask_iff, not_not] at h1
    exact ⟨h1, h3, tri, rfl, fun i j => rfl⟩

/-- **C144.** The wind for the dissipation rate is found if and only if some wind is masked (finding: it fails if all winds are known), winds are
known at three times and at three heights, and they are not all on a line. -/
theorem C144_written (hd : Spec.Delaunay f.nT f.time f.nH f.height delaunay) :
    (∃ out, lidarWind delaunay nearest f = .ok out) ↔ Spec.SomeMasked f ∧ Spec.ThreeEach f ∧ ¬ Spec.OnALine f := by
  have hline : delaunay (fun i j => (f.speed i j).isSome) = none ↔ Spec.OnALine f := by
    rw [hd.exists_iff]
    unfold Spec.OnALine
    constructor
    · rintro ⟨a, b, c, h0, h⟩
      exact ⟨a, b, c, h0, fun i j x hx => h i hx.1 j hx.2.1 (by rw [(speed_iff hx.1 hx.2.1 x).2 hx]; rfl)⟩
    · rintro ⟨a, b, c, h0, h⟩
      refine ⟨a, b, c, h0, fun i hi j hj hs => ?_⟩
      obtain ⟨x, hx⟩ := Option.isSome_iff_exists.1 hs
      exact h i j x ((speed_iff hi hj x).1 hx)
  constructor
  · rintro ⟨out, h⟩
    obtain ⟨h1, h2, tri, ht, -⟩ := lidarWind_ok h
    refine ⟨h1, h2, fun hc => ?_⟩
    rw [hline.2 hc] at ht
    cases ht
  · rintro ⟨h1, h2, h3⟩
    unfold lidarWind
    dsimp only
    rw [if_neg (by rw [noMask_iff, not_not]; exact h1), if_neg, if_neg (by rw [not_or, three_iff, three_iff]; exact h2)]
    · cases ht : delaunay fun i j => (f.speed i j).isSome with
      | none => exact absurd (hline.1 ht) h3
      | some tri => exact ⟨_, rfl⟩
    · obtain ⟨⟨i, j, -, -, -, -, x, -, -, hx, -⟩, -⟩ := h2
      intro hc
      have : (i, j) ∈ f.known := (mem_known _).2 ⟨x, hx⟩
      rw [hc] at this
      cases this

/-- **C144, finding.** If no wind is masked, the product fails. -/
theorem C144_all_known (h : ∀ i < f.nT, ∀ j < f.nH, ∃ x, Spec.WindKnown f i j x) :
    lidarWind delaunay nearest f = .error "ValueError: input operand has more dimensions than allowed by the axis remapping" := by
  unfold lidarWind
  dsimp only
  rw [if_pos]
  intro i hi j hj
  obtain ⟨x, -, -, u, v, hu, hv, -⟩ := h i hi j hj
  rw [hu, hv]
  exact ⟨rfl, rfl⟩

/-- **C144, finding.** Winds at three times and three heights may be on a line; then the exception is not that of missing data. -/
theorem C144_on_a_line (hd : Spec.Delaunay f.nT f.time f.nH f.height delaunay) (h1 : Spec.SomeMasked f) (h2 : Spec.ThreeEach f)
    (h3 : Spec.OnALine f) : lidarWind delaunay nearest f = .error "QhullError" := by
  unfold lidarWind
  dsimp only
  rw [if_neg (by rw [noMask_iff, not_not]; exact h1), if_neg, if_neg (by rw [not_or, three_iff, three_iff]; exact h2)]
  · have : delaunay (fun i j => (f.speed i j).isSome) = none := by
      obtain ⟨a, b, c, h0, h⟩ := h3
      refine (hd.exists_iff _).2 ⟨a, b, c, h0, fun i hi j hj hs => ?_⟩
      obtain ⟨x, hx⟩ := Option.isSome_iff_exists.1 hs
      exact h i j x ((speed_iff hi hj x).1 hx)
    rw [this]
  · obtain ⟨⟨i, j, -, -, -, -, x, -, -, hx, -⟩, -⟩ := h2
    intro hc
    have : (i, j) ∈ f.known := (mem_known _).2 ⟨x, hx⟩
    rw [hc] at this
    cases this

theorem exists_valid (h : Spec.ThreeEach f) : ∃ i < f.nT, ∃ j < f.nH, (f.speed i j).isSome = true := by
  obtain ⟨⟨i, j, -, -, -, -, x, -, -, hx, -⟩, -⟩ := h
  exact ⟨i, hx.1, j, hx.2.1, by rw [(speed_iff hx.1 hx.2.1 x).2 hx]; rfl⟩

/-- **C144.** Where the wind is known, the speed is the measured one. -/
theorem C144_measured (hd : Spec.Delaunay f.nT f.time f.nH f.height delaunay) (out : Grid ℝ) (h : lidarWind delaunay nearest f = .ok out)
    (i j : ℕ) (x : ℝ) (hx : Spec.WindKnown f i j x) : out i j = x := by
  obtain ⟨-, -, tri, ht, ho⟩ := lidarWind_ok h
  have hs := (speed_iff hx.1 hx.2.1 x).2 hx
  have hin : Spec.InHull f.nT f.time f.nH f.height (fun i j => (f.speed i j).isSome) (f.time i) (f.height j) := by
    refine ⟨[⟨i, j, 1⟩], ⟨?_, by simp, by simp, by simp⟩⟩
    intro c hc
    obtain rfl := List.mem_singleton.1 hc
    exact ⟨hx.1, hx.2.1, by simp [hs], zero_le_one⟩
  obtain ⟨r, hr⟩ := Option.isSome_iff_exists.1 ((gridData_isSome hd ht _ _).2 hin)
  obtain ⟨cs, hcs, hc, rfl⟩ := gridData_combination hd ht hr
  rw [ho i j, hr, Option.getD_some, weighted_single cs (fun c => c.weight) (fun c => (f.speed c.row c.column).getD 0) x, hc.total, mul_one]
  intro c hc' hw
  obtain ⟨e1, e2⟩ := hd.node _ tri ht i hx.1 j hx.2.1 (by simp [hs]) cs hcs c hc' hw
  rw [e1, e2, hs]
  rfl

/-- **C144.** Between the measurements the speed is a weighted mean of measured speeds at points whose weighted mean is the pixel; outside of their
hull it is a measured speed at a point as near as any (in microseconds and metres). -/
theorem C144_between (hd : Spec.Delaunay f.nT f.time f.nH f.height delaunay) (hn : Spec.NearestKnown f nearest) (out : Grid ℝ)
    (h : lidarWind delaunay nearest f = .ok out) (i j : ℕ) :
    (Spec.InHull f.nT f.time f.nH f.height (fun i j => (f.speed i j).isSome) (f.time i) (f.height j) →
      ∃ cs, Spec.Combination f.nT f.time f.nH f.height (fun i j => (f.speed i j).isSome) (f.time i) (f.height j) cs ∧
        out i j = (cs.map fun c => c.weight * (f.speed c.row c.column).getD 0).sum) ∧
    (¬ Spec.InHull f.nT f.time f.nH f.height (fun i j => (f.speed i j).isSome) (f.time i) (f.height j) →
      ∃ k l, Spec.WindKnown f k l (out i j) ∧ ∀ k' l' x, Spec.WindKnown f k' l' x →
        (f.time k - f.time i) ^ 2 + (f.height l - f.height j) ^ 2 ≤ (f.time k' - f.time i) ^ 2 + (f.height l' - f.height j) ^ 2) := by
  obtain ⟨-, h3, tri, ht, ho⟩ := lidarWind_ok h
  constructor
  · intro hin
    obtain ⟨r, hr⟩ := Option.isSome_iff_exists.1 ((gridData_isSome hd ht _ _).2 hin)
    obtain ⟨cs, -, hc, rfl⟩ := gridData_combination hd ht hr
    exact ⟨cs, hc, by rw [ho i j, hr]; rfl⟩
  · intro hout
    have hg : gridData tri f.speed (f.time i) (f.height j) = none := by
      rw [← Option.not_isSome_iff_eq_none]
      exact fun hc => hout ((gridData_isSome hd ht _ _).1 hc)
    obtain ⟨n1, n2, n3, n4⟩ := hn (fun i j => (f.speed i j).isSome) (exists_valid h3) (f.time i) (f.height j)
    obtain ⟨x, hx⟩ := Option.isSome_iff_exists.1 n3
    have ho' := ho i j
    rw [hg, Option.getD_none, hx, Option.getD_some] at ho'
    refine ⟨_, _, by rw [ho']; exact (speed_iff n1 n2 x).1 hx, fun k' l' x' hk => n4 k' hk.1 l' hk.2.1 ?_⟩
    rw [(speed_iff hk.1 hk.2.1 x').2 hk]
    rfl

/-- **C144.** No speed is outside of the range of the measured ones. -/
theorem C144_range (hd : Spec.Delaunay f.nT f.time f.nH f.height delaunay) (hn : Spec.NearestKnown f nearest) (out : Grid ℝ)
    (h : lidarWind delaunay nearest f = .ok out) (lo hi : ℝ) (hr : ∀ i j x, Spec.WindKnown f i j x → lo ≤ x ∧ x ≤ hi) (i j : ℕ) :
    lo ≤ out i j ∧ out i j ≤ hi := by
  obtain ⟨h1, h2⟩ := C144_between hd hn out h i j
  by_cases hin : Spec.InHull f.nT f.time f.nH f.height (fun i j => (f.speed i j).isSome) (f.time i) (f.height j)
  · obtain ⟨cs, hc, he⟩ := h1 hin
    have := weighted_bounds cs (fun c => c.weight) (fun c => (f.speed c.row c.column).getD 0) (fun c hcs => (hc.points c hcs).2.2.2) lo hi
      fun c hcs => by
        obtain ⟨c1, c2, c3, -⟩ := hc.points c hcs
        obtain ⟨x, hx⟩ := Option.isSome_iff_exists.1 c3
        simp only [hx, Option.getD_some]
        exact hr _ _ x ((speed_iff c1 c2 x).1 hx)
    rw [hc.total, mul_one, mul_one] at this
    rw [he]
    exact this
  · obtain ⟨k, l, hk, -⟩ := h2 hin
    exact hr k l _ hk

/-- **C144.** A second counts as much as a thousand kilometres: outside of the hull the speed is taken from the profile itself if it has a
known wind at all, for profiles a second or more apart and gates within 700 km. -/
theorem C144_same_profile (hd : Spec.Delaunay f.nT f.time f.nH f.height delaunay) (hn : Spec.NearestKnown f nearest) (out : Grid ℝ)
    (h : lidarWind delaunay nearest f = .ok out) (i j : ℕ)
    (hout : ¬ Spec.InHull f.nT f.time f.nH f.height (fun i j => (f.speed i j).isSome) (f.time i) (f.height j))
    (hh : ∀ l < f.nH, |f.height l - f.height j| ≤ 700000) (ht : ∀ k < f.nT, k ≠ i → 1000000 ≤ |f.time k - f.time i|)
    (hk : ∃ l x, Spec.WindKnown f i l x) :
    ∃ l, Spec.WindKnown f i l (out i j) ∧ ∀ l' x, Spec.WindKnown f i l' x → |f.height l - f.height j| ≤ |f.height l' - f.height j| := by
  obtain ⟨k, l, h1, h2⟩ := (C144_between hd hn out h i j).2 hout
  obtain ⟨l₀, x₀, h3⟩ := hk
  have hki : k = i := by
    by_contra hc
    have e1 := ht k h1.1 hc
    have e2 := hh l₀ h3.2.1
    have e3 := h2 i l₀ x₀ h3
    have e4 : (1000000 : ℝ) ^ 2 ≤ (f.time k - f.time i) ^ 2 := by rw [← sq_abs (f.time k - f.time i)]; gcongr
    have e5 : (f.height l₀ - f.height j) ^ 2 ≤ (700000 : ℝ) ^ 2 := by rw [← sq_abs (f.height l₀ - f.height j)]; gcongr
    have e6 : (0 : ℝ) ≤ (f.height l - f.height j) ^ 2 := sq_nonneg _
    norm_num at e3 e4 e5
    linarith
  subst hki
  refine ⟨l, h1, fun l' x hx => ?_⟩
  have := h2 k l' x hx
  exact sq_le_sq.1 (by linarith)

/-! ### A case -/

/-- Winds on a grid of three times and heights, of which one is masked. -/
noncomputable def exampleWind : LidarWindFile where
  nT := 3
  time := fun i => 1000000 * i
  nH := 3
  height := fun j => 100 * j
  uwind := fun i j => if i = 1 ∧ j = 1 then none else some 3
  vwind := fun _ _ => some 4

theorem exampleWind_known (i j : ℕ) (hi : i < 3) (hj : j < 3) (h : ¬ (i = 1 ∧ j = 1)) : Spec.WindKnown exampleWind i j 5 :=
  ⟨hi, hj, 3, 4, by simp only [exampleWind, if_neg h], rfl, by norm_num, by norm_num⟩

theorem increasing_scaled (n : ℕ) (c : ℝ) (hc : 0 < c) : Spec.Increasing n fun i : ℕ => c * (i : ℝ) := by
  intro a b hab _
  have : (a : ℝ) < (b : ℝ) := by exact_mod_cast hab
  exact mul_lt_mul_of_pos_left this hc

/-- The wind is found. -/
example : ∃ delaunay, Spec.Delaunay exampleWind.nT exampleWind.time exampleWind.nH exampleWind.height delaunay ∧
    ∀ nearest, ∃ out, lidarWind delaunay nearest exampleWind = .ok out := by
  obtain ⟨delaunay, hd⟩ := delaunay_exists 3 _ 3 _ (increasing_scaled 3 1000000 (by norm_num)) (increasing_scaled 3 100 (by norm_num))
  refine ⟨delaunay, hd, fun nearest => ?_⟩
  have k := exampleWind_known
  refine (C144_written (f := exampleWind) hd).2 ⟨⟨1, by norm_num [exampleWind], 1, by norm_num [exampleWind], Or.inl (by simp [exampleWind])⟩, ⟨?_, ?_⟩, ?_⟩
  · exact ⟨0, 0, 1, 0, 2, 0, 5, 5, 5, k 0 0 (by norm_num) (by norm_num) (by norm_num), k 1 0 (by norm_num) (by norm_num) (by norm_num),
      k 2 0 (by norm_num) (by norm_num) (by norm_num), by norm_num [exampleWind], by norm_num [exampleWind], by norm_num [exampleWind]⟩
  · exact ⟨0, 0, 0, 1, 0, 2, 5, 5, 5, k 0 0 (by norm_num) (by norm_num) (by norm_num), k 0 1 (by norm_num) (by norm_num) (by norm_num),
      k 0 2 (by norm_num) (by norm_num) (by norm_num), by norm_num [exampleWind], by norm_num [exampleWind], by norm_num [exampleWind]⟩
  · rintro ⟨a, b, c, h0, h⟩
    have e1 := h 0 0 5 (k 0 0 (by norm_num) (by norm_num) (by norm_num))
    have e2 := h 1 0 5 (k 1 0 (by norm_num) (by norm_num) (by norm_num))
    have e3 := h 0 1 5 (k 0 1 (by norm_num) (by norm_num) (by norm_num))
    norm_num [exampleWind] at e1 e2 e3
    rcases h0 with h0 | h0 <;> apply h0 <;> linarith

/-- There is a nearest point for every file. -/
theorem nearest_exists (f : LidarWindFile) : ∃ nearest, Spec.NearestKnown f nearest := by
  classical
  have key : ∀ (valid : ℕ → ℕ → Bool) (u v : ℝ), (∃ i < f.nT, ∃ j < f.nH, valid i j = true) → ∃ p : ℕ × ℕ, p.1 < f.nT ∧ p.2 < f.nH ∧
      valid p.1 p.2 = true ∧ ∀ i < f.nT, ∀ j < f.nH, valid i j = true →
        (f.time p.1 - u) ^ 2 + (f.height p.2 - v) ^ 2 ≤ (f.time i - u) ^ 2 + (f.height j - v) ^ 2 := by
    rintro valid u v ⟨i, hi, j, hj, h⟩
    obtain ⟨p, hp, hmin⟩ := Finset.exists_min_image ((Finset.range f.nT ×ˢ Finset.range f.nH).filter fun p => valid p.1 p.2 = true)
      (fun p => (f.time p.1 - u) ^ 2 + (f.height p.2 - v) ^ 2) ⟨(i, j), by simp [hi, hj, h]⟩
    simp only [Finset.mem_filter, Finset.mem_product, Finset.mem_range] at hp hmin
    exact ⟨p, hp.1.1, hp.1.2, hp.2, fun i hi j hj h => hmin (i, j) ⟨⟨hi, hj⟩, h⟩⟩
  refine ⟨fun valid u v => if h : ∃ i < f.nT, ∃ j < f.nH, valid i j = true then (key valid u v h).choose else (0, 0), ?_⟩
  intro valid h u v
  simp only [h, dif_pos]
  exact (key valid u v h).choose_spec

/-- Winds on a diagonal only: three times and three heights, but on a line. -/
noncomputable def exampleDiagonal : LidarWindFile where
  nT := 3
  time := fun i => 1000000 * i
  nH := 3
  height := fun j => 100 * j
  uwind := fun i j => if i = j then some 3 else none
  vwind := fun _ _ => some 4

/-- The hypotheses of `C144_on_a_line` are met. -/
example : Spec.SomeMasked exampleDiagonal ∧ Spec.ThreeEach exampleDiagonal ∧ Spec.OnALine exampleDiagonal := by
  have k : ∀ i < 3, Spec.WindKnown exampleDiagonal i i 5 := fun i hi =>
    ⟨hi, hi, 3, 4, by simp [exampleDiagonal], rfl, by norm_num, by norm_num⟩
  refine ⟨⟨0, by norm_num [exampleDiagonal], 1, by norm_num [exampleDiagonal], Or.inl (by simp [exampleDiagonal])⟩, ⟨?_, ?_⟩, ?_⟩
  · exact ⟨0, 0, 1, 1, 2, 2, 5, 5, 5, k 0 (by norm_num), k 1 (by norm_num), k 2 (by norm_num), by norm_num [exampleDiagonal],
      by norm_num [exampleDiagonal], by norm_num [exampleDiagonal]⟩
  · exact ⟨0, 0, 1, 1, 2, 2, 5, 5, 5, k 0 (by norm_num), k 1 (by norm_num), k 2 (by norm_num), by norm_num [exampleDiagonal],
      by norm_num [exampleDiagonal], by norm_num [exampleDiagonal]⟩
  · refine ⟨1, -10000, 0, Or.inl one_ne_zero, ?_⟩
    rintro i j x ⟨-, -, u, v, hu, -⟩
    have : i = j := by
      by_contra hc
      simp [exampleDiagonal, hc] at hu
    subst this
    simp only [exampleDiagonal]
    ring

/-! ### Accumulation time -/

theorem foldl_max_list (l : List ℝ) (r : ℝ) : l.foldl max r ∈ r :: l ∧ ∀ x ∈ r :: l, x ≤ l.foldl max r := by
  induction l generalizing r with
  | nil => simp
  | cons y l ih =>
    obtain ⟨h1, h2⟩ := ih (max r y)
    rw [List.foldl_cons]
    constructor
    · rcases List.mem_cons.1 h1 with h | h
      · rcases max_choice r y with e | e
        · rw [h, e]; simp
        · rw [h, e]; simp
      · simp [h]
    · intro x hx
      have h3 := h2 (max r y) (by simp)
      rcases List.mem_cons.1 hx with rfl | hx
      · exact (le_max_left _ _).trans h3
      · rcases List.mem_cons.1 hx with rfl | hx
        · exact (le_max_right _ _).trans h3
        · exact h2 x (by simp [hx])

theorem foldl_min_list (l : List ℝ) (r : ℝ) : l.foldl min r ∈ r :: l ∧ ∀ x ∈ r :: l, l.foldl min r ≤ x := by
  induction l generalizing r with
  | nil => simp
  | cons y l ih =>
    obtain ⟨h1, h2⟩ := ih (min r y)
    rw [List.foldl_cons]
    constructor
    · rcases List.mem_cons.1 h1 with h | h
      · rcases min_choice r y with e | e
        · rw [h, e]; simp
        · rw [h, e]; simp
      · simp [h]
    · intro x hx
      have h3 := h2 (min r y) (by simp)
      rcases List.mem_cons.1 hx with rfl | hx
      · exact h3.trans (min_le_left _ _)
      · rcases List.mem_cons.1 hx with rfl | hx
        · exact h3.trans (min_le_right _ _)
        · exact h2 x (by simp [hx])

namespace Spec

/-- The ranges span `d`: two of them are that far apart and no two are farther. -/
def Span (range : List ℝ) (d : ℝ) : Prop := (∃ a ∈ range, ∃ b ∈ range, a - b = d) ∧ ∀ a ∈ range, ∀ b ∈ range, a - b ≤ d

end Spec

/-- **C144.** Without an accumulation time, it is the number of pulses over 15 kHz if light travels over the ranges and back within 1/15000 s
(less than 9993.08 m), over 10 kHz if within 1/10000 s (less than 14989.62 m); farther ranges are refused, and so are files with neither. -/
theorem C144_accumulation (pulses : ℝ) (range : List ℝ) (d : ℝ) (hd : Spec.Span range d) (t : ℝ) :
    (lidarAccumulation none (some pulses) range = .ok t ↔ (d < 299792458 / 30000 ∧ t = pulses / 15000) ∨
      (299792458 / 30000 ≤ d ∧ d < 299792458 / 20000 ∧ t = pulses / 10000)) ∧
    (∀ n x, lidarAccumulation (some x) n range = .ok x) ∧ ∃ e, lidarAccumulation none none range = .error e := by
  refine ⟨?_, fun n x => rfl, _, rfl⟩
  obtain ⟨⟨a, ha, b, hb, hab⟩, hmax⟩ := hd
  cases range with
  | nil => cases ha
  | cons r l =>
    obtain ⟨m1, m2⟩ := foldl_max_list l r
    obtain ⟨n1, n2⟩ := foldl_min_list l r
    have hspan : l.foldl max r - l.foldl min r = d := le_antisymm (hmax _ m1 _ n1) (by rw [← hab]; linarith [m2 a ha, n2 b hb])
    unfold lidarAccumulation inferPrf
    dsimp only
    rw [hspan]
    by_cases h1 : d < 299792458 / 30000
    · rw [if_pos (by linarith)]
      constructor
      · intro h; cases h; exact Or.inl ⟨h1, rfl⟩
      · rintro (⟨-, rfl⟩ | ⟨h, -⟩)
        · rfl
        · linarith
    · rw [if_neg (by intro h; apply h1; linarith)]
      by_cases h2 : d < 299792458 / 20000
      · rw [if_pos (by linarith)]
        constructor
        · intro h; cases h; exact Or.inr ⟨not_lt.1 h1, h2, rfl⟩
        · rintro (⟨h, -⟩ | ⟨-, -, rfl⟩)
          · exact absurd h h1
          · rfl
      · rw [if_neg (by intro h; apply h2; linarith)]
        constructor
        · intro h; cases h
        · rintro (⟨h, -⟩ | ⟨-, h, -⟩)
          · exact absurd h h1
          · exact absurd h h2

/-- Ranges to 12 km. -/
example : lidarAccumulation none (some 10000) [90, 6000, 12000] = .ok 1 :=
  (C144_accumulation 10000 [90, 6000, 12000] 11910 ⟨⟨12000, by simp, 90, by simp, by norm_num⟩, by simp; norm_num⟩ 1).1.2
    (Or.inr ⟨by norm_num, by norm_num, by norm_num⟩)

/-! ### Attributes -/

theorem splitOn_append_sep (c : Char) (a b : List Char) : (a ++ c :: b).splitOn c = a.splitOn c ++ b.splitOn c := by
  induction a with
  | nil => rw [List.nil_append, List.splitOn_cons_eq_if_modifyHead]; simp
  | cons x xs ih =>
    rw [List.cons_append, List.splitOn_cons_eq_if_modifyHead, List.splitOn_cons_eq_if_modifyHead (xs := xs), ih]
    split
    · rfl
    · obtain ⟨y, ys, hy⟩ := List.exists_cons_of_ne_nil (List.splitOn_ne_nil c xs)
      rw [hy]
      rfl

theorem splitOn_none (c : Char) (a : List Char) (h : c ∉ a) : a.splitOn c = [a] := by
  induction a with
  | nil => rfl
  | cons x xs ih =>
    rw [List.mem_cons, not_or] at h
    rw [List.splitOn_cons_eq_if_modifyHead, ih h.2, if_neg (by simpa using Ne.symm h.1)]
    rfl

/-- The first line of the history of the file. -/
def newHistory (now doppy cloudnetpy : String) : String :=
  now ++ " - epsilon-lidar file created using doppy v" ++ doppy ++ " and cloudnetpy v" ++ cloudnetpy

theorem pyStrip_not_mem (s : String) (c : Char) (h : c ∉ s.toList) : c ∉ (pyStrip s).toList := by
  unfold pyStrip
  rw [String.toList_ofList]
  intro hc
  rw [List.mem_reverse] at hc
  have := (List.dropWhile_suffix _).subset hc
  rw [List.mem_reverse] at this
  exact h ((List.dropWhile_suffix _).subset this)

/-- **C144.** The lines of the history are the new one, those of the file with vertical winds and those of the file with horizontal winds, without
white space around them and without empty ones. -/
theorem C144_history (now doppy cloudnetpy stare wind : String) (hn : '\n' ∉ (newHistory now doppy cloudnetpy).toList)
    (h0 : pyStrip (newHistory now doppy cloudnetpy) ≠ "") :
    splitChar '\n' (lidarHistory now doppy cloudnetpy stare wind) =
      ((newHistory now doppy cloudnetpy :: splitChar '\n' stare ++ splitChar '\n' wind).map pyStrip).filter fun l => l != "" := by
  have hsplit : splitChar '\n' (now ++ " - epsilon-lidar file created using doppy v" ++ doppy ++ " and cloudnetpy v" ++ cloudnetpy ++ "\n" ++
      stare ++ "\n" ++ wind) = newHistory now doppy cloudnetpy :: splitChar '\n' stare ++ splitChar '\n' wind := by
    unfold splitChar
    have : (now ++ " - epsilon-lidar file created using doppy v" ++ doppy ++ " and cloudnetpy v" ++ cloudnetpy ++ "\n" ++ stare ++ "\n" ++
        wind).toList = (newHistory now doppy cloudnetpy).toList ++ '\n' :: (stare.toList ++ '\n' :: wind.toList) := by
      unfold newHistory
      simp only [String.toList_append]
      simp [List.append_assoc]
    rw [this, splitOn_append_sep, splitOn_append_sep, splitOn_none _ _ hn]
    simp
  unfold lidarHistory
  rw [hsplit]
  apply splitChar_intercalate
  · rw [List.cons_append, List.map_cons, List.filter_cons_of_pos (by simpa using h0)]
    simp
  · intro x hx
    obtain ⟨y, hy, rfl⟩ := List.mem_map.1 (List.mem_of_mem_filter hx)
    apply pyStrip_not_mem
    rw [List.cons_append, List.mem_cons, List.mem_append] at hy
    rcases hy with rfl | hy | hy
    · exact hn
    · obtain ⟨z, hz, rfl⟩ := List.mem_map.1 hy
      rw [String.toList_ofList]
      exact splitOn_not_mem _ _ z hz
    · obtain ⟨z, hz, rfl⟩ := List.mem_map.1 hy
      rw [String.toList_ofList]
      exact splitOn_not_mem _ _ z hz

/-- A case. -/
example : splitChar '\n' (lidarHistory "2026-01-01" "1" "2" " a\n\nb" "c ") = ["2026-01-01 - epsilon-lidar file created using doppy v1 and cloudnetpy v2",
    "a", "b", "c"] := by decide +kernel

/-- **C144.** The file is written if and only if the file with vertical winds has a location, date, conventions, identifier, source and history, and
the file with horizontal winds an identifier, source and history. -/
theorem C144_attributes_needed (order : String → String → Bool) (now uuid doppy cloudnetpy : String) (stare wind : List (String × String)) :
    (∃ out, lidarAttributes order now uuid doppy cloudnetpy stare wind = .ok out) ↔
      (∀ name ∈ ["location", "year", "month", "day", "Conventions", "file_uuid", "source", "history"], ∃ x, stare.lookup name = some x) ∧
      ∀ name ∈ ["file_uuid", "source", "history"], ∃ x, wind.lookup name = some x := by
  have hbind : ∀ {α β : Type} (x : Except String α) (g : α → Except String β) (y : β), (x >>= g) = .ok y ↔ ∃ a, x = .ok a ∧ g a = .ok y := by
    intro α β x g y
    cases x with
    | error e => exact ⟨fun h => (by cases h), fun ⟨a, h, _⟩ => (by cases h)⟩
    | ok a => exact ⟨fun h => ⟨a, rfl, h⟩, fun ⟨b, h, h'⟩ => by cases h; exact h'⟩
  have hread : ∀ (l : List (String × String)) (name x : String), readAttr l name = .ok x ↔ l.lookup name = some x := by
    intro l name x
    unfold readAttr
    cases l.lookup name <;> simp
  unfold lidarAttributes
  simp only [hbind, hread, List.forall_mem_cons, List.not_mem_nil, IsEmpty.forall_iff, implies_true, and_true]
  constructor
  · rintro ⟨out, a1, h1, a2, h2, a3, h3, a4, h4, a5, h5, a6, h6, a7, h7, a8, h8, a9, h9, a10, h10, a11, h11, -⟩
    exact ⟨⟨⟨_, h1⟩, ⟨_, h2⟩, ⟨_, h3⟩, ⟨_, h4⟩, ⟨_, h5⟩, ⟨_, h6⟩, ⟨_, h8⟩, ⟨_, h10⟩⟩, ⟨_, h7⟩, ⟨_, h9⟩, ⟨_, h11⟩⟩
  · rintro ⟨⟨⟨_, h1⟩, ⟨_, h2⟩, ⟨_, h3⟩, ⟨_, h4⟩, ⟨_, h5⟩, ⟨_, h6⟩, ⟨_, h8⟩, ⟨_, h10⟩⟩, ⟨_, h7⟩, ⟨_, h9⟩, ⟨_, h11⟩⟩
    exact ⟨_, _, h1, _, h2, _, h3, _, h4, _, h5, _, h6, _, h7, _, h8, _, h9, _, h10, _, h11, rfl⟩

/-- **C144.** Its attributes: date, location and conventions of the file with vertical winds, both identifiers, each source once. Finding: which of
two sources is first is not defined. -/
theorem C144_attributes (order : String → String → Bool) (now uuid doppy cloudnetpy : String) (stare wind : List (String × String))
    (out : List (String × String)) (h : lidarAttributes order now uuid doppy cloudnetpy stare wind = .ok out) :
    out.lookup "file_uuid" = some uuid ∧ out.lookup "cloudnet_file_type" = some "epsilon-lidar" ∧
    (∀ name ∈ ["year", "month", "day", "location", "Conventions"], out.lookup name = stare.lookup name) ∧
    (∃ u v, stare.lookup "file_uuid" = some u ∧ wind.lookup "file_uuid" = some v ∧ out.lookup "source_file_uuids" = some (u ++ ", " ++ v)) ∧
    (∃ a b, stare.lookup "source" = some a ∧ wind.lookup "source" = some b ∧ ∃ c, out.lookup "source" = some c ∧ (a = b → c = a) ∧
      (a ≠ b → c = if order a b then a ++ ", " ++ b else b ++ ", " ++ a)) ∧
    ∃ a b, stare.lookup "history" = some a ∧ wind.lookup "history" = some b ∧ out.lookup "history" = some (lidarHistory now doppy cloudnetpy a b) := by
  have hbind : ∀ {α β : Type} (x : Except String α) (g : α → Except String β) (y : β), (x >>= g) = .ok y ↔ ∃ a, x = .ok a ∧ g a = .ok y := by
    intro α β x g y
    cases x with
    | error e => exact ⟨fun h => (by cases h), fun ⟨a, h, _⟩ => (by cases h)⟩
    | ok a => exact ⟨fun h => ⟨a, rfl, h⟩, fun ⟨b, h, h'⟩ => by cases h; exact h'⟩
  have hread : ∀ (l : List (String × String)) (name x : String), readAttr l name = .ok x ↔ l.lookup name = some x := by
    intro l name x
    unfold readAttr
    cases l.lookup name <;> simp
  unfold lidarAttributes at h
  simp only [hbind, hread] at h
  obtain ⟨a1, h1, a2, h2, a3, h3, a4, h4, a5, h5, a6, h6, a7, h7, a8, h8, a9, h9, a10, h10, a11, h11, he⟩ := h
  cases he
  refine ⟨rfl, rfl, ?_, ⟨a6, a7, h6, h7, rfl⟩, ⟨a8, a9, h8, h9, _, rfl, fun e => if_pos e, fun e => if_neg e⟩, a10, a11, h10, h11, rfl⟩
  simp only [List.forall_mem_cons, List.not_mem_nil, IsEmpty.forall_iff, implies_true, and_true]
  exact ⟨h2.symm, h3.symm, h4.symm, h1.symm, h5.symm⟩

/-- Two files. -/
example : ∃ out, lidarAttributes (fun _ _ => true) "2026-01-01" "u" "1" "2" [("location", "Site"), ("year", "2026"), ("month", "01"), ("day", "01"),
    ("Conventions", "CF-1.8"), ("file_uuid", "a"), ("source", "HALO"), ("history", "x")] [("file_uuid", "b"), ("source", "HALO"), ("history", "y")] =
    .ok out ∧ out.lookup "source" = some "HALO" := ⟨_, rfl, by decide +kernel⟩

end Cloudnet
