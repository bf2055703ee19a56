import Verif.Epsilon.Fourier
import Verif.Interp.Props

/-! Properties C103 (end to end), C104 (windows) and C105 (wind speed). -/

namespace Cloudnet

/-- A spectrum with entries needs a positive distance between profiles. -/
theorem periodogram_distance (n : ℕ) (vel : ℕ → ℝ) (dt adv : ℝ) (h : periodogram n vel dt adv ≠ []) :
    0 < dt * adv := by
  obtain ⟨p, hp⟩ := List.exists_mem_of_ne_nil _ h
  unfold periodogram at hp
  obtain ⟨h1, h2⟩ := List.mem_filter.1 hp
  obtain ⟨k, hk, rfl⟩ := List.mem_map.1 h1
  have h3 : 0 < dt * adv / n * ‖rfft n vel (k + 1)‖ ^ 2 / Real.pi := by simpa using h2
  by_contra hc
  have hpi := Real.pi_pos
  have : dt * adv / n * ‖rfft n vel (k + 1)‖ ^ 2 / Real.pi ≤ 0 := by
    apply div_nonpos_of_nonpos_of_nonneg _ hpi.le
    apply mul_nonpos_of_nonpos_of_nonneg _ (sq_nonneg _)
    exact div_nonpos_of_nonpos_of_nonneg (not_lt.1 hc) (Nat.cast_nonneg n)
  linarith

theorem periodogram_congr (n : ℕ) (vel vel' : ℕ → ℝ) (dt adv : ℝ) (h : ∀ i < n, vel i = vel' i) :
    periodogram n vel dt adv = periodogram n vel' dt adv := by
  have : ∀ k, rfft n vel k = rfft n vel' k := by
    intro k
    unfold rfft
    apply Finset.sum_congr rfl
    intro j hj
    rw [h j (Finset.mem_range.1 hj)]
  unfold periodogram
  simp only [this]

/-- A series known at its two ends and at nine tenths of its profiles. -/
def Spec.EnoughData (m : ℕ) (vel : ℕ → Option ℝ) : Prop :=
  (∃ i < m, i < 2 ∧ (vel i).isSome) ∧ (∃ i < m, m ≤ i + 2 ∧ (vel i).isSome) ∧
  2 ≤ ((List.range m).filter fun i => (vel i).isSome).length ∧
  9 * m < 10 * (((List.range m).filter fun i => (vel i).isSome).length + 1)

theorem nanMask_count (m : ℕ) (vel : ℕ → Option ℝ) :
    m - ((List.range m).map fun i => (vel i).isNone).countP id =
      ((List.range m).filter fun i => (vel i).isSome).length := by
  have h1 : ((List.range m).map fun i => (vel i).isNone).countP id =
      (List.range m).countP fun i => (vel i).isNone := by
    rw [List.countP_map]; rfl
  have h2 := List.length_eq_countP_add_countP (fun i => (vel i).isNone) (l := List.range m)
  have h3 : (List.range m).countP (fun i => decide ¬(vel i).isNone = true) =
      ((List.range m).filter fun i => (vel i).isSome).length := by
    rw [List.countP_eq_length_filter]
    congr 1
    apply List.filter_congr
    intro i _
    cases vel i <;> simp
  rw [h1, ← h3]
  rw [List.length_range] at h2
  omega

/-- C104. A value is given exactly if the window has enough data (a known velocity among the first two and
the last two profiles, two and nine tenths of the profiles known), the wind speed is known and positive,
the spectrum has two points or more and some band accepts an estimate. The spectrum is that of the
velocities themselves if all are known, else of a spline through the known ones. -/
theorem C104_cell (spline : List (ℝ × ℝ) → ℝ → ℝ) (m : ℕ) (time : ℕ → ℝ) (vel : ℕ → Option ℝ)
    (dt : ℝ) (wind : Option ℝ) (r : ℝ × Option ℝ) :
    epsilonCell spline m time vel dt wind = some r ↔
      Spec.EnoughData m vel ∧ ∃ u, wind = some u ∧ 0 < u ∧
        ∃ filled : ℕ → ℝ,
          ((∀ i < m, (vel i).isSome) → ∀ i < m, vel i = some (filled i)) ∧
          ((∃ i < m, vel i = none) → ∀ i < m, filled i =
            spline ((List.range m).filterMap fun i => (vel i).map fun x => (time i, x)) (time i)) ∧
          2 ≤ (periodogram m filled dt u).length ∧
          epsilonFromSpectrum (periodogram m filled dt u) = some r := by
  set nanMask := (List.range m).map fun i => (vel i).isNone with hnan
  have hfirst : (nanMask.take 2).all id = true ↔ ¬ ∃ i < m, i < 2 ∧ (vel i).isSome := by
    rw [hnan, ← List.map_take, List.all_map, List.all_eq_true]
    simp only [Function.comp, id, List.take_range, List.mem_range, lt_min_iff]
    constructor
    · rintro h ⟨i, h1, h2, h3⟩
      have := h i ⟨h2, h1⟩
      cases hv : vel i <;> simp [hv] at this h3
    · rintro h i ⟨h1, h2⟩
      by_contra hc
      exact h ⟨i, h2, h1, by cases hv : vel i <;> simp [hv] at hc ⊢⟩
  have hlast : (nanMask.drop (m - 2)).all id = true ↔ ¬ ∃ i < m, m ≤ i + 2 ∧ (vel i).isSome := by
    rw [hnan, ← List.map_drop, List.all_map, List.all_eq_true]
    simp only [Function.comp, id]
    have hmem : ∀ i, i ∈ (List.range m).drop (m - 2) ↔ i < m ∧ m ≤ i + 2 := by
      intro i
      rw [List.mem_drop_iff_getElem]
      constructor
      · rintro ⟨j, hj, rfl⟩
        rw [List.length_range] at hj
        rw [List.getElem_range]
        omega
      · rintro ⟨h1, h2⟩
        refine ⟨i - (m - 2), by rw [List.length_range]; omega, ?_⟩
        rw [List.getElem_range]
        omega
    constructor
    · rintro h ⟨i, h1, h2, h3⟩
      have := h i ((hmem i).2 ⟨h1, h2⟩)
      cases hv : vel i <;> simp [hv] at this h3
    · rintro h i hi
      obtain ⟨h1, h2⟩ := (hmem i).1 hi
      by_contra hc
      exact h ⟨i, h1, h2, by cases hv : vel i <;> simp [hv] at hc ⊢⟩
  have hany : nanMask.any id = true ↔ ∃ i < m, vel i = none := by
    rw [hnan, List.any_map, List.any_eq_true]
    simp [List.mem_range]
  have hcount := nanMask_count m vel
  rw [← hnan] at hcount
  set c := ((List.range m).filter fun i => (vel i).isSome).length with hc
  have hmin : ¬ c < max 2 ⌊(9 / 10 : ℝ) * m⌋₊ ↔ 2 ≤ c ∧ 9 * m < 10 * (c + 1) := by
    rw [not_lt, max_le_iff]
    have : ⌊(9 / 10 : ℝ) * m⌋₊ ≤ c ↔ 9 * m < 10 * (c + 1) := by
      rw [← Nat.lt_add_one_iff, Nat.floor_lt (by positivity)]
      push_cast
      constructor
      · intro h
        have : (9 * m : ℝ) < 10 * (c + 1) := by linarith
        exact_mod_cast this
      · intro h
        have : (9 * m : ℝ) < 10 * (c + 1) := by exact_mod_cast h
        linarith
    rw [this]
  unfold epsilonCell
  dsimp only
  rw [← hnan, hcount]
  unfold Spec.EnoughData
  rw [← hc]
  by_cases h1 : ((nanMask.take 2).all id || (nanMask.drop (m - 2)).all id) = true
  · rw [if_pos h1]
    simp only [Bool.or_eq_true, hfirst, hlast] at h1
    simp only [reduceCtorEq, false_iff]
    rintro ⟨⟨ha, hb, -⟩, -⟩
    rcases h1 with h | h
    · exact h ha
    · exact h hb
  rw [if_neg h1]
  simp only [Bool.or_eq_true, hfirst, hlast, not_or, not_not] at h1
  by_cases h2 : c < max 2 ⌊(9 / 10 : ℝ) * m⌋₊
  · rw [if_pos h2]
    simp only [reduceCtorEq, false_iff]
    rintro ⟨⟨-, -, h3⟩, -⟩
    exact hmin.2 h3 h2
  rw [if_neg h2]
  have h3 := hmin.1 h2
  have hen : (∃ i < m, i < 2 ∧ (vel i).isSome) ∧ (∃ i < m, m ≤ i + 2 ∧ (vel i).isSome) ∧
      2 ≤ c ∧ 9 * m < 10 * (c + 1) := ⟨h1.1, h1.2, h3⟩
  simp only [hen, true_and, and_self]
  set filled0 : ℕ → ℝ := if nanMask.any id = true then fun i =>
      spline ((List.range m).filterMap fun i => (vel i).map fun x => (time i, x)) (time i)
    else fun i => (vel i).getD 0 with hf0
  have hP1 : (∀ i < m, (vel i).isSome) → ∀ i < m, vel i = some (filled0 i) := by
    intro h i hi
    have hn : ¬ nanMask.any id = true := by
      rw [hany]
      rintro ⟨j, hj, hj'⟩
      have := h j hj
      rw [hj'] at this
      cases this
    rw [hf0, if_neg hn]
    have := h i hi
    cases hv : vel i
    · rw [hv] at this; cases this
    · rfl
  have hP2 : (∃ i < m, vel i = none) → ∀ i < m, filled0 i =
      spline ((List.range m).filterMap fun i => (vel i).map fun x => (time i, x)) (time i) := by
    intro h i _
    rw [hf0, if_pos (hany.2 h)]
  have huniq : ∀ filled : ℕ → ℝ, ((∀ i < m, (vel i).isSome) → ∀ i < m, vel i = some (filled i)) →
      ((∃ i < m, vel i = none) → ∀ i < m, filled i =
        spline ((List.range m).filterMap fun i => (vel i).map fun x => (time i, x)) (time i)) →
      ∀ i < m, filled i = filled0 i := by
    intro filled q1 q2 i hi
    by_cases h : ∃ i < m, vel i = none
    · rw [q2 h i hi, hP2 h i hi]
    · have h' : ∀ i < m, (vel i).isSome := by
        intro j hj
        cases hv : vel j
        · exact absurd ⟨j, hj, hv⟩ h
        · rfl
      have e1 := q1 h' i hi
      rw [hP1 h' i hi] at e1
      exact (Option.some.inj e1).symm
  cases wind with
  | none => simp
  | some u =>
    dsimp only
    by_cases hu : u ≤ 0
    · rw [if_pos hu]
      simp only [reduceCtorEq, false_iff]
      rintro ⟨u', hu', hpos, -⟩
      obtain rfl := Option.some.inj hu'
      exact absurd hpos (not_lt.2 hu)
    rw [if_neg hu]
    constructor
    · intro h
      by_cases h4 : (periodogram m filled0 dt u).length < 2
      · rw [if_pos h4] at h; cases h
      · rw [if_neg h4] at h
        exact ⟨u, rfl, not_le.1 hu, filled0, hP1, hP2, not_lt.1 h4, h⟩
    · rintro ⟨u', hu', -, filled, q1, q2, q3, q4⟩
      obtain rfl := Option.some.inj hu'
      rw [periodogram_congr m filled filled0 dt u (huniq filled q1 q2)] at q3 q4
      rw [if_neg (not_lt.2 q3)]
      exact q4

/-- C104. Dissipation rates are positive and their errors are not negative. -/
theorem C104_positive (spline : List (ℝ × ℝ) → ℝ → ℝ) (m : ℕ) (time : ℕ → ℝ) (vel : ℕ → Option ℝ)
    (dt : ℝ) (wind : Option ℝ) (e : ℝ) (err : Option ℝ)
    (h : epsilonCell spline m time vel dt wind = some (e, err)) :
    0 < e ∧ ∀ d, err = some d → 0 ≤ d := by
  obtain ⟨-, u, -, -, filled, -, -, h2, he⟩ := (C104_cell _ _ _ _ _ _ _).1 h
  have hdx := periodogram_distance m filled dt u (by
    intro hc; rw [hc] at h2; simp at h2)
  have hsp := periodogram_isSpectrum m filled dt u hdx
  obtain ⟨s, est, s1, s2, s3, s4⟩ := C103_dissipation_rate _ hsp
  obtain ⟨h3, h4, h5⟩ := s4 e err he
  refine ⟨?_, fun d hd => (h5 d hd).1⟩
  have hne : s ≠ ∅ := by
    intro hc
    rw [s3.2 hc] at he
    cases he
  have hcard : (0 : ℝ) < s.card := by
    have := Finset.card_pos.2 (Finset.nonempty_of_ne_empty hne)
    exact_mod_cast this
  have hsum : 0 < ∑ band ∈ s, est band := by
    apply Finset.sum_pos _ (Finset.nonempty_of_ne_empty hne)
    intro band hb
    exact ((s2 band hb (est band)).2 rfl).2.1
  rw [← h3] at hsum
  exact (pos_iff_pos_of_mul_pos hsum).2 hcard

/-- C103. End to end: an offset of the velocities has no influence, and multiplying them by a factor
multiplies the dissipation rate and its error by the cube of its modulus. The spline is only assumed to
follow offset and factor. -/
theorem C103_velocity_scale (spline : List (ℝ × ℝ) → ℝ → ℝ) (m : ℕ) (time : ℕ → ℝ) (vel : ℕ → Option ℝ)
    (dt : ℝ) (wind : Option ℝ) (c d : ℝ) (hc : c ≠ 0)
    (hspline : ∀ known t, spline (known.map fun p => (p.1, c * p.2 + d)) t = c * spline known t + d) :
    epsilonCell spline m time (fun i => (vel i).map fun x => c * x + d) dt wind =
      (epsilonCell spline m time vel dt wind).map fun r =>
        (|c| ^ 3 * r.1, r.2.map fun e => |c| ^ 3 * e) := by
  have habs : 0 < |c| := abs_pos.2 hc
  have hsome : ∀ i, ((vel i).map fun x => c * x + d).isNone = (vel i).isNone := by
    intro i; cases vel i <;> rfl
  have hknown : ((List.range m).filterMap fun i =>
      ((vel i).map fun x => c * x + d).map fun x => (time i, x)) =
      ((List.range m).filterMap fun i => (vel i).map fun x => (time i, x)).map
        fun p => (p.1, c * p.2 + d) := by
    rw [List.map_filterMap]
    congr 1
    funext i
    cases vel i <;> rfl
  unfold epsilonCell
  simp only [hsome, hknown, hspline]
  split
  · rfl
  split
  · rfl
  cases wind with
  | none => rfl
  | some u =>
    dsimp only
    split
    · rfl
    next hnot1 hnot2 hu =>
      set filled : ℕ → ℝ := if ((List.range m).map fun i => (vel i).isNone).any id = true then fun i =>
          spline ((List.range m).filterMap fun i => (vel i).map fun x => (time i, x)) (time i)
        else fun i => (vel i).getD 0 with hfilled
      have hper : periodogram m (if ((List.range m).map fun i => (vel i).isNone).any id = true then
          fun i => c * spline ((List.range m).filterMap fun i => (vel i).map fun x => (time i, x)) (time i) + d
          else fun i => ((vel i).map fun x => c * x + d).getD 0) dt u =
          (periodogram m filled dt u).map fun p => (p.1, |c| ^ 2 * p.2) := by
        rw [sq_abs, ← periodogram_affine m filled c d hc]
        apply periodogram_congr
        intro i hi
        rw [hfilled]
        by_cases h : ((List.range m).map fun i => (vel i).isNone).any id = true
        · rw [if_pos h, if_pos h]
        · rw [if_neg h, if_neg h]
          have hv : (vel i).isNone = false := by
            by_contra hcon
            apply h
            rw [List.any_map, List.any_eq_true]
            exact ⟨i, List.mem_range.2 hi, by simpa using hcon⟩
          cases hvi : vel i
          · rw [hvi] at hv; cases hv
          · rfl
      rw [hper, List.length_map]
      split
      · rfl
      next h2 =>
        have hdx := periodogram_distance m filled dt u (by
          intro hcon; rw [hcon] at h2; simp at h2)
        exact epsilonFromSpectrum_scale _ (periodogram_isSpectrum m filled dt u hdx) |c| habs

/-! ### The product -/

theorem timeGrid_30 : timeGrid (30 : ℝ) = .ok (2880, fun i => 30 / 3600 / 2 + i * (30 / 3600 / 2 * 2)) := by
  unfold timeGrid
  rw [if_neg (by norm_num)]
  have : ⌈((24 : ℝ) + 30 / 3600 / 2 - 30 / 3600 / 2) / (30 / 3600 / 2 * 2)⌉₊ = 2880 := by
    have : ((24 : ℝ) + 30 / 3600 / 2 - 30 / 3600 / 2) / (30 / 3600 / 2 * 2) = ((2880 : ℕ) : ℝ) := by norm_num
    rw [this, Nat.ceil_natCast]
  dsimp only
  rw [this]

/-- The windows with data. -/
noncomputable def usedWindows (nT : ℕ) (time : ℕ → ℝ) : List (ℝ × ℕ × ℕ) :=
  ((List.range 2880).map fun i : ℕ =>
    ((30 / 3600 / 2 + i * (30 / 3600 / 2 * 2) : ℝ),
      bisectRight time (30 / 3600 / 2 + i * (30 / 3600 / 2 * 2)) nT,
      bisectRight time (30 / 3600 / 2 + i * (30 / 3600 / 2 * 2) + 5 / 60) nT)).filter
    fun w => decide (w.2.1 < w.2.2)

theorem usedWindows_mem (nT : ℕ) (time : ℕ → ℝ) (ht : ∀ i j, i ≤ j → j < nT → time i ≤ time j)
    (w : ℝ × ℕ × ℕ) (hw : w ∈ usedWindows nT time) :
    (∃ i : ℕ, i < 2880 ∧ w.1 = (i + 1 / 2) / 120) ∧ w.2.1 < w.2.2 ∧
      ∀ p, (w.2.1 ≤ p ∧ p < w.2.2) ↔ p < nT ∧ w.1 < time p ∧ time p ≤ w.1 + 1 / 12 := by
  obtain ⟨h1, h2⟩ := List.mem_filter.1 hw
  obtain ⟨i, hi, rfl⟩ := List.mem_map.1 h1
  rw [List.mem_range] at hi
  refine ⟨⟨i, hi, by ring⟩, by simpa using h2, ?_⟩
  intro p
  dsimp only
  obtain ⟨a1, a2⟩ := bisectRight_spec time (30 / 3600 / 2 + i * (30 / 3600 / 2 * 2)) nT ht
  obtain ⟨b1, b2⟩ := bisectRight_spec time (30 / 3600 / 2 + i * (30 / 3600 / 2 * 2) + 5 / 60) nT ht
  constructor
  · rintro ⟨q1, q2⟩
    have hp : p < nT := by omega
    refine ⟨hp, ?_, ?_⟩
    · by_contra hc
      have := (a2 p hp).2 (not_lt.1 hc)
      omega
    · have := (b2 p hp).1 q2
      linarith
  · rintro ⟨hp, q1, q2⟩
    refine ⟨?_, (b2 p hp).2 (by linarith)⟩
    by_contra hc
    have := (a2 p hp).1 (by omega)
    linarith

theorem appendEpsilon_eq (spline : List (ℝ × ℝ) → ℝ → ℝ) (nT : ℕ) (time : ℕ → ℝ) (v : Grid (Option ℝ))
    (wind : ℝ → ℕ → Option ℝ) :
    ∃ out, appendEpsilon spline nT time v wind = .ok out ∧ out.times = (usedWindows nT time).map (·.1) ∧
      ∀ t h, let w := (usedWindows nT time).getD t (0, 0, 0)
        let cell := epsilonCell spline (w.2.2 - w.2.1) (fun i => time (w.2.1 + i)) (fun i => v (w.2.1 + i) h)
          (npRound (mdiff nT time * 3600) : ℤ) (wind w.1 h)
        (∀ e, out.epsilon t h = some e ↔ ∃ err, cell = some (e, err)) ∧
        (∀ d, out.error t h = some d ↔ ∃ e, cell = some (e, some d)) := by
  unfold appendEpsilon
  rw [timeGrid_30]
  unfold usedWindows
  generalize 2880 = n
  simp only [bind, Except.bind, pure, Except.pure]
  refine ⟨_, rfl, rfl, ?_⟩
  intro t h
  dsimp only
  generalize hcell : epsilonCell spline _ _ _ _ _ = cell
  cases cell with
  | none => simp
  | some r =>
    obtain ⟨e, err⟩ := r
    obtain ⟨h1, h2⟩ := C104_positive spline _ _ _ _ _ e err hcell
    simp only [Option.map_some, Option.getD_some, Option.some.injEq, Prod.mk.injEq]
    constructor
    · intro e'
      rw [if_neg (by intro hc; linarith)]
      simp
    · intro d
      cases err with
      | none => simp
      | some d' =>
        have := h2 d' rfl
        rw [if_neg (by
          rintro (hc | hc)
          · have := Option.some.inj hc; linarith
          · cases hc)]
        simp

/-- C104. The times of the product are the centres of the half minutes of the day that are followed within
five minutes by a profile. -/
theorem C104_times (spline : List (ℝ × ℝ) → ℝ → ℝ) (nT : ℕ) (time : ℕ → ℝ) (v : Grid (Option ℝ))
    (wind : ℝ → ℕ → Option ℝ) (ht : ∀ i j, i ≤ j → j < nT → time i ≤ time j) :
    ∃ out, appendEpsilon spline nT time v wind = .ok out ∧ out.times.Pairwise (· < ·) ∧
      ∀ x, x ∈ out.times ↔ (∃ i : ℕ, i < 2880 ∧ x = (i + 1 / 2) / 120) ∧
        ∃ p < nT, x < time p ∧ time p ≤ x + 1 / 12 := by
  obtain ⟨out, h1, h2, -⟩ := appendEpsilon_eq spline nT time v wind
  refine ⟨out, h1, ?_, ?_⟩
  · rw [h2, List.pairwise_map]
    apply List.Pairwise.filter
    rw [List.pairwise_map]
    apply List.Pairwise.imp _ List.pairwise_lt_range
    intro i j hij
    have : (i : ℝ) < j := by exact_mod_cast hij
    dsimp only
    linarith
  · intro x
    rw [h2, List.mem_map]
    constructor
    · rintro ⟨w, hw, rfl⟩
      obtain ⟨q1, q2, q3⟩ := usedWindows_mem nT time ht w hw
      obtain ⟨q4, q5⟩ := (q3 w.2.1).1 ⟨le_refl _, q2⟩
      exact ⟨q1, w.2.1, q4, q5⟩
    · rintro ⟨⟨i, hi, hx⟩, p, hp, p1, p2⟩
      have hx' : x = 30 / 3600 / 2 + i * (30 / 3600 / 2 * 2) := by rw [hx]; ring
      obtain ⟨a1, a2⟩ := bisectRight_spec time (30 / 3600 / 2 + i * (30 / 3600 / 2 * 2)) nT ht
      obtain ⟨b1, b2⟩ := bisectRight_spec time (30 / 3600 / 2 + i * (30 / 3600 / 2 * 2) + 5 / 60) nT ht
      refine ⟨(30 / 3600 / 2 + i * (30 / 3600 / 2 * 2),
        bisectRight time (30 / 3600 / 2 + i * (30 / 3600 / 2 * 2)) nT,
        bisectRight time (30 / 3600 / 2 + i * (30 / 3600 / 2 * 2) + 5 / 60) nT), ?_, hx'.symm⟩
      unfold usedWindows
      rw [List.mem_filter]
      refine ⟨List.mem_map.2 ⟨i, List.mem_range.2 hi, rfl⟩, ?_⟩
      simp only [decide_eq_true_eq]
      have c1 : ¬ p < bisectRight time (30 / 3600 / 2 + i * (30 / 3600 / 2 * 2)) nT := by
        rw [a2 p hp, ← hx']
        exact not_le.2 p1
      have c2 := (b2 p hp).2 (by rw [← hx']; linarith)
      omega

/-- C104. The value at a time comes from exactly the profiles of the five minutes that follow it; an error is
given only where there is a value. -/
theorem C104_windows (spline : List (ℝ × ℝ) → ℝ → ℝ) (nT : ℕ) (time : ℕ → ℝ) (v : Grid (Option ℝ))
    (wind : ℝ → ℕ → Option ℝ) (ht : ∀ i j, i ≤ j → j < nT → time i ≤ time j) (out : EpsilonOut)
    (ho : appendEpsilon spline nT time v wind = .ok out) (t : ℕ) (x : ℝ) (hx : out.times[t]? = some x) :
    ∃ first m : ℕ, (∀ p, first ≤ p ∧ p < first + m ↔ p < nT ∧ x < time p ∧ time p ≤ x + 1 / 12) ∧ 0 < m ∧
      ∀ h : ℕ,
        let cell := epsilonCell spline m (fun i => time (first + i)) (fun i => v (first + i) h)
          (npRound (mdiff nT time * 3600) : ℤ) (wind x h)
        (∀ e, out.epsilon t h = some e ↔ ∃ err, cell = some (e, err)) ∧
        (∀ d, out.error t h = some d ↔ ∃ e, cell = some (e, some d)) := by
  obtain ⟨out', h1, h2, h3⟩ := appendEpsilon_eq spline nT time v wind
  rw [ho] at h1
  obtain rfl := Except.ok.inj h1
  rw [h2, List.getElem?_map, Option.map_eq_some_iff] at hx
  obtain ⟨w, hw, rfl⟩ := hx
  have hmem : w ∈ usedWindows nT time := List.mem_of_getElem? hw
  obtain ⟨q1, q2, q3⟩ := usedWindows_mem nT time ht w hmem
  have hget : (usedWindows nT time).getD t (0, 0, 0) = w := by
    rw [List.getD_eq_getElem?_getD, hw]; rfl
  refine ⟨w.2.1, w.2.2 - w.2.1, ?_, by omega, ?_⟩
  · intro p
    rw [← q3 p]
    constructor <;> rintro ⟨a, b⟩ <;> constructor <;> omega
  · intro h
    have := h3 t h
    rw [hget] at this
    exact this

/-- C104. A radar with less than half a second between profiles gives no values at all: the time step is
rounded to full seconds. -/
theorem C104_fast_radar (spline : List (ℝ × ℝ) → ℝ → ℝ) (nT : ℕ) (time : ℕ → ℝ) (v : Grid (Option ℝ))
    (wind : ℝ → ℕ → Option ℝ) (hfast : 0 ≤ mdiff nT time ∧ mdiff nT time * 3600 < 1 / 2) (out : EpsilonOut)
    (ho : appendEpsilon spline nT time v wind = .ok out) (t h : ℕ) : out.epsilon t h = none := by
  obtain ⟨out', h1, -, h3⟩ := appendEpsilon_eq spline nT time v wind
  rw [ho] at h1
  obtain rfl := Except.ok.inj h1
  have hdt : npRound (mdiff nT time * 3600) = 0 := by
    have hfl : ⌊mdiff nT time * 3600⌋ = 0 := by
      rw [Int.floor_eq_zero_iff]
      exact ⟨by nlinarith [hfast.1], by linarith [hfast.2]⟩
    unfold npRound
    dsimp only
    rw [hfl, if_pos (by push_cast; linarith [hfast.2])]
  by_contra hc
  obtain ⟨e, he⟩ := Option.ne_none_iff_exists'.1 hc
  obtain ⟨err, herr⟩ := ((h3 t h).1 e).1 he
  obtain ⟨-, u, -, -, filled, -, -, h2, -⟩ := (C104_cell _ _ _ _ _ _ _).1 herr
  have hdx := periodogram_distance _ filled _ u (by
    intro hcon; rw [hcon] at h2; simp at h2)
  rw [hdt] at hdx
  simp at hdx

/-! ### Wind speed -/

theorem interpLinear_bounds {m : ℕ} (hm : 0 < m) {x : ℕ → ℝ} (hx : Spec.Increasing m x) (y : ℕ → ℝ)
    (lo hi v : ℝ) (hy : ∀ i < m, lo ≤ y i ∧ y i ≤ hi) :
    lo ≤ interpLinear m x y v ∧ interpLinear m x y v ≤ hi := by
  unfold interpLinear
  split
  · exact hy 0 hm
  next h1 =>
  split
  · exact hy (m - 1) (by omega)
  next h2 =>
  split
  · exact hy 0 hm
  next h3 =>
  dsimp only
  obtain ⟨b1, b2⟩ := C74_bisect_left x v m (fun i j hij hj => hx.le hij hj)
  set k := bisectLeft x v m with hk
  set a := min (max k 1) (m - 1) with ha
  have ha1 : 1 ≤ a := by omega
  have ha2 : a < m := by omega
  have hlt : x (a - 1) < x a := hx _ _ (by omega) ha2
  have hv1 : x (a - 1) ≤ v := by
    by_cases hz : a - 1 = 0
    · rw [hz]; exact not_lt.1 h1
    · have : a - 1 < k := by omega
      exact le_of_lt ((b2 (a - 1) (by omega)).1 this)
  have hv2 : v ≤ x a := by
    by_cases hka : k ≤ a
    · have : ¬ a < k := by omega
      rw [b2 a ha2] at this
      exact not_lt.1 this
    · have : a = m - 1 := by omega
      rw [this]; exact not_lt.1 h2
  obtain ⟨p1, p2⟩ := hy (a - 1) (by omega)
  obtain ⟨q1, q2⟩ := hy a ha2
  have hd : 0 < x a - x (a - 1) := by linarith
  set w := (v - x (a - 1)) / (x a - x (a - 1)) with hw
  have hw0 : 0 ≤ w := div_nonneg (by linarith) hd.le
  have hw1 : w ≤ 1 := by rw [hw, div_le_one hd]; linarith
  have heq : (y a - y (a - 1)) / (x a - x (a - 1)) * (v - x (a - 1)) + y (a - 1) =
      y (a - 1) * (1 - w) + y a * w := by
    rw [hw]; field_simp; ring
  rw [heq]
  constructor <;> nlinarith

/-- C105. The wind speed used lies between the lowest and the highest speed of the model, at any time and
height; it is never negative. -/
theorem C105_wind_bounds (nT nH : ℕ) (hT : 0 < nT) (hH : 0 < nH) (time : ℕ → ℝ) (ht : Spec.Increasing nT time)
    (uwind vwind height : Grid ℝ) (hh : ∀ i < nT, Spec.Increasing nH (height i))
    (sfcHeight sfcGeopotential : Option (ℕ → ℝ)) (site lo hi : ℝ) (h0 : 0 ≤ lo)
    (hs : ∀ i < nT, ∀ k < nH, lo ^ 2 ≤ uwind i k ^ 2 + vwind i k ^ 2 ∧
      uwind i k ^ 2 + vwind i k ^ 2 ≤ hi ^ 2) (hhi : 0 ≤ hi) (t h : ℝ) :
    lo ≤ windSpeedAt nT nH time uwind vwind height sfcHeight sfcGeopotential site t h ∧
    windSpeedAt nT nH time uwind vwind height sfcHeight sfcGeopotential site t h ≤ hi := by
  unfold windSpeedAt bilinear
  dsimp only
  set S := modelSurface sfcHeight sfcGeopotential site
  have hheights : ∀ i < nT, Spec.Increasing nH (fun k => height i k + S i) := by
    intro i hi a b hab hb
    have := hh i hi a b hab hb
    dsimp only
    linarith
  have hT' : (0 : ℝ) < nT := by exact_mod_cast hT
  have hmean : Spec.Increasing nH (fun k => ((List.range nT).map fun i => height i k + S i).sum / nT) := by
    intro a b hab hb
    apply div_lt_div_of_pos_right _ hT'
    apply List.sum_lt_sum
    · intro i hi
      exact le_of_lt (hheights i (List.mem_range.1 hi) a b hab hb)
    · exact ⟨0, List.mem_range.2 hT, hheights 0 hT a b hab hb⟩
  apply interpLinear_bounds hT ht
  intro i hi'
  apply interpLinear_bounds hH hmean
  intro k hk
  apply interpLinear_bounds hH (hheights i hi')
  intro l hl
  obtain ⟨h1, h2⟩ := hs i hi' l hl
  constructor
  · exact Real.le_sqrt_of_sq_le h1
  · exact Real.sqrt_le_iff.2 ⟨hhi, h2⟩

/-- C105. At a time of the model and at a height of one of its levels (levels at the same heights at all
times) it is the wind speed of the model. -/
theorem C105_wind_exact (nT nH : ℕ) (time : ℕ → ℝ) (ht : Spec.Increasing nT time)
    (uwind vwind height : Grid ℝ) (levels : ℕ → ℝ) (hl : Spec.Increasing nH levels)
    (hsame : ∀ i < nT, ∀ k, height i k = levels k) (site : ℝ) (i k : ℕ) (hi : i < nT) (hk : k < nH) :
    windSpeedAt nT nH time uwind vwind height none none site (time i) (levels k + site) =
      Real.sqrt (uwind i k ^ 2 + vwind i k ^ 2) := by
  unfold windSpeedAt bilinear modelSurface
  dsimp only
  have hT' : (nT : ℝ) ≠ 0 := by
    have : nT ≠ 0 := by omega
    exact_mod_cast this
  have hmean : (fun k => ((List.range nT).map fun i => height i k + site).sum / nT) =
      fun k => levels k + site := by
    funext k
    have : ((List.range nT).map fun i => height i k + site) = (List.range nT).map fun _ => levels k + site := by
      apply List.map_congr_left
      intro i hi
      rw [hsame i (List.mem_range.1 hi)]
    rw [this, List.map_const', List.sum_replicate, List.length_range, nsmul_eq_mul]
    field_simp
  have hl' : Spec.Increasing nH (fun k => levels k + site) := by
    intro a b hab hb
    have := hl a b hab hb
    dsimp only
    linarith
  rw [hmean]
  rw [interpLinear_node ht _ hi]
  rw [interpLinear_node (x := fun k => levels k + site) hl' _ hk]
  have : (fun k => height i k + site) = fun k => levels k + site := by
    funext k; rw [hsame i hi]
  have hk' := congrFun hmean k
  rw [this, hk', interpLinear_node (x := fun k => levels k + site) hl' _ hk]

/-- C105. Model heights are above the surface of the model: its own height if given, else its geopotential
over gravity, else the site. -/
theorem C105_surface (sfcHeight sfcGeopotential : Option (ℕ → ℝ)) (site : ℝ) (t : ℕ) :
    (∀ s, sfcHeight = some s → modelSurface sfcHeight sfcGeopotential site t = s t) ∧
    (∀ g, sfcHeight = none → sfcGeopotential = some g →
      modelSurface sfcHeight sfcGeopotential site t * 9.80665 = g t) ∧
    (sfcHeight = none → sfcGeopotential = none → modelSurface sfcHeight sfcGeopotential site t = site) := by
  unfold modelSurface
  refine ⟨?_, ?_, ?_⟩
  · rintro s rfl; rfl
  · rintro g rfl rfl
    norm_num
  · rintro rfl rfl; rfl

/-- C104. Positions of a moving platform: product times with a gap between them are binned as if they were
evenly spaced, so a position can be missing although there was a sample at that time. -/
theorem C104_moving_gap :
    let time : ℕ → ℚ := fun i => [4 / 10, 14 / 10, 96 / 10].getD i 0
    (gridCoordinate 3 time (.inr fun i => some (time i)) 3 (fun i => [1 / 2, 3 / 2, 19 / 2].getD i 0)).toOption.map
      (fun r => [r 0, r 1, r 2]) = some [some (9 / 10), none, some (96 / 10)] := by
  decide +kernel

/-- C104. The position of a stationary radar is repeated at each time. -/
theorem C104_stationary {α : Type} [Field α] [LinearOrder α] (nT : ℕ) (time : ℕ → α) (x : α) (n : ℕ)
    (times : ℕ → α) :
    ∃ r, gridCoordinate nT time (.inl x) n times = .ok r ∧ ∀ k, r k = some x := ⟨_, rfl, fun _ => rfl⟩

/-- A spectrum of the inertial subrange with two points in a band. -/
example : ∃ sp : List (ℝ × ℝ), Spec.IsSpectrum sp ∧
    (∀ p ∈ sp, p.2 = 0.5 * (2 : ℝ) ^ (2 / 3 : ℝ) * p.1 ^ (-5 / 3 : ℝ)) ∧
    ∃ band, Spec.InertialBand band ∧ 2 ≤ (Spec.bandPoints sp band.1 band.2).length := by
  refine ⟨[(3 / 10, 0.5 * (2 : ℝ) ^ (2 / 3 : ℝ) * (3 / 10) ^ (-5 / 3 : ℝ)),
    (4 / 10, 0.5 * (2 : ℝ) ^ (2 / 3 : ℝ) * (4 / 10) ^ (-5 / 3 : ℝ))], ⟨?_, ?_⟩, ?_, (2 / 10, 7 / 10),
    (C103_bands _).1 (by decide +kernel), ?_⟩
  · simp; norm_num
  · intro p hp
    simp only [List.mem_cons, List.not_mem_nil, or_false] at hp
    rcases hp with rfl | rfl <;> exact ⟨by norm_num, by positivity⟩
  · intro p hp
    simp only [List.mem_cons, List.not_mem_nil, or_false] at hp
    rcases hp with rfl | rfl <;> rfl
  · unfold Spec.bandPoints
    rw [List.length_map, List.filter_eq_self.2]
    · simp
    · intro p hp
      simp only [List.mem_cons, List.not_mem_nil, or_false] at hp
      rcases hp with rfl | rfl <;> norm_num

/-- A window with enough data: ten profiles, the second one missing. -/
example : Spec.EnoughData 10 (fun i => if i = 1 then none else some (i : ℝ)) := by
  have h : ((List.range 10).filter fun i : ℕ => (if i = 1 then none else some (i : ℝ)).isSome) =
      (List.range 10).filter fun i => decide (i ≠ 1) := by
    apply List.filter_congr
    intro i _
    by_cases h : i = 1 <;> simp [h]
  refine ⟨⟨0, by omega, by omega, rfl⟩, ⟨9, by omega, by omega, by simp⟩, ?_, ?_⟩
  · rw [h]; decide
  · rw [h]; decide

end Cloudnet
