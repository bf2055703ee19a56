import Verif.Plot.Average
import Mathlib.Tactic

/-! C146, directions of wind. -/

namespace Cloudnet

namespace Spec

/-- The vector `(u, v)` is in the direction of `x` degrees. -/
def Direction (u v x : ℝ) : Prop := 0 ≤ x ∧ x < 360 ∧ ∃ r : ℝ, 0 ≤ r ∧ u = r * Real.cos (x * (Real.pi / 180)) ∧ v = r * Real.sin (x * (Real.pi / 180))

/-- Mean of the samples around `i`, as in the moving average. -/
noncomputable def around (n m : ℕ) (data : ℕ → ℝ) (i : ℕ) : ℝ := ((List.range (2 * m + 1)).map fun k => padded n data m (i + k)).sum / (2 * m + 1)

end Spec

/-- The direction computed for a vector. -/
noncomputable def vectorDirection (u v : ℝ) : ℝ :=
  Complex.arg ⟨u, v⟩ * (180 / Real.pi) - 360 * ⌊Complex.arg ⟨u, v⟩ * (180 / Real.pi) / 360⌋

theorem vectorDirection_spec (u v : ℝ) : Spec.Direction u v (vectorDirection u v) := by
  unfold vectorDirection
  set a := Complex.arg ⟨u, v⟩ * (180 / Real.pi) with ha
  have h1 := Int.floor_le (a / 360)
  have h2 := Int.lt_floor_add_one (a / 360)
  refine ⟨by linarith, by linarith, ‖(⟨u, v⟩ : ℂ)‖, norm_nonneg _, ?_, ?_⟩
  · have e : (a - 360 * ⌊a / 360⌋) * (Real.pi / 180) = Complex.arg ⟨u, v⟩ - ⌊a / 360⌋ * (2 * Real.pi) := by
      have := Real.pi_pos.ne'
      rw [ha]; field_simp
      ring
    rw [e, Real.cos_sub_int_mul_two_pi, Complex.norm_mul_cos_arg]
  · have e : (a - 360 * ⌊a / 360⌋) * (Real.pi / 180) = Complex.arg ⟨u, v⟩ - ⌊a / 360⌋ * (2 * Real.pi) := by
      have := Real.pi_pos.ne'
      rw [ha]; field_simp
      ring
    rw [e, Real.sin_sub_int_mul_two_pi, Complex.norm_mul_sin_arg]

/-- A direction is unique. -/
theorem direction_unique (u v x y : ℝ) (h0 : u ≠ 0 ∨ v ≠ 0) (hx : Spec.Direction u v x) (hy : Spec.Direction u v y) : x = y := by
  obtain ⟨x1, x2, r, hr, hu, hv⟩ := hx
  obtain ⟨y1, y2, s, hs, hu', hv'⟩ := hy
  have hpi := Real.pi_pos
  have key : ∀ r z, u = r * Real.cos z → v = r * Real.sin z → u ^ 2 + v ^ 2 = r ^ 2 := by
    intro r z e1 e2
    rw [e1, e2, mul_pow, mul_pow, ← mul_add, Real.cos_sq_add_sin_sq, mul_one]
  have hrs : r = s := by
    have := (key r _ hu hv).symm.trans (key s _ hu' hv')
    exact (sq_eq_sq₀ hr hs).1 this
  have hr0 : r ≠ 0 := by
    rintro rfl
    rw [zero_mul] at hu hv
    rcases h0 with h | h
    · exact h hu
    · exact h hv
  subst hrs
  have hc : Real.cos (x * (Real.pi / 180)) = Real.cos (y * (Real.pi / 180)) := mul_left_cancel₀ hr0 (hu.symm.trans hu')
  have hsn : Real.sin (x * (Real.pi / 180)) = Real.sin (y * (Real.pi / 180)) := mul_left_cancel₀ hr0 (hv.symm.trans hv')
  have hcd : Real.cos (x * (Real.pi / 180) - y * (Real.pi / 180)) = 1 := by
    rw [Real.cos_sub, hc, hsn]
    nlinarith [Real.cos_sq_add_sin_sq (y * (Real.pi / 180))]
  have hlt : |x * (Real.pi / 180) - y * (Real.pi / 180)| < 2 * Real.pi := by
    rw [abs_lt]
    constructor
    · nlinarith
    · nlinarith
  have := (Real.cos_eq_one_iff_of_lt_of_lt (abs_lt.1 hlt).1 (abs_lt.1 hlt).2).1 hcd
  have h3 : (x - y) * (Real.pi / 180) = 0 := by linarith
  rcases mul_eq_zero.1 h3 with h | h
  · linarith
  · have : Real.pi / 180 ≠ 0 := by positivity
    exact absurd h this

theorem averageDirection_ok (n : ℕ) (speed direction time : ℕ → ℝ) (window : ℝ) (out : List (Option ℝ))
    (h : averageDirection n speed direction time window = .ok out) : ∃ us vs,
      movingAverage n (fun i => speed i * Real.cos (direction i * (Real.pi / 180))) time window = .ok us ∧
      movingAverage n (fun i => speed i * Real.sin (direction i * (Real.pi / 180))) time window = .ok vs ∧ out.length = n ∧
      ∀ i < n, out.getD i none = if i + 1 < n ∧ 300 < |vectorDirection (us.getD (i + 1) 0) (vs.getD (i + 1) 0) - vectorDirection (us.getD i 0) (vs.getD i 0)|
        then none else some (vectorDirection (us.getD i 0) (vs.getD i 0)) := by
  unfold averageDirection at h
  dsimp only at h
  cases hu : movingAverage n (fun i => speed i * Real.cos (direction i * (Real.pi / 180))) time window with
  | error e => rw [hu] at h; cases h
  | ok us =>
    cases hv : movingAverage n (fun i => speed i * Real.sin (direction i * (Real.pi / 180))) time window with
    | error e => rw [hu, hv] at h; cases h
    | ok vs =>
      rw [hu, hv] at h
      have lu := (C146_mean n _ time window us hu).1
      have lv := (C146_mean n _ time window vs hv).1
      have hget : ∀ i < n, ((us.zip vs).map fun p => vectorDirection p.1 p.2).getD i 0 = vectorDirection (us.getD i 0) (vs.getD i 0) := by
        intro i hi
        rw [List.getD_eq_getElem?_getD, List.getD_eq_getElem?_getD, List.getD_eq_getElem?_getD, List.getElem?_map]
        rw [List.getElem?_eq_getElem (by rw [List.length_zip]; omega : i < (us.zip vs).length), List.getElem_zip,
          List.getElem?_eq_getElem (by omega : i < us.length), List.getElem?_eq_getElem (by omega : i < vs.length)]
        rfl
      have hout : out = (List.range ((us.zip vs).map fun p => vectorDirection p.1 p.2).length).map fun i =>
          if i + 1 < ((us.zip vs).map fun p => vectorDirection p.1 p.2).length ∧ 300 < |((us.zip vs).map fun p => vectorDirection p.1 p.2).getD (i + 1) 0 -
            ((us.zip vs).map fun p => vectorDirection p.1 p.2).getD i 0| then none
          else some (((us.zip vs).map fun p => vectorDirection p.1 p.2).getD i 0) := (Except.ok.inj h).symm
      have hlen : ((us.zip vs).map fun p => vectorDirection p.1 p.2).length = n := by
        rw [List.length_map, List.length_zip, lu, lv, min_self]
      rw [hlen] at hout
      refine ⟨us, vs, rfl, rfl, by rw [hout]; simp, fun i hi => ?_⟩
      rw [hout, List.getD_eq_getElem?_getD, List.getElem?_map, List.getElem?_range hi]
      simp only [Option.map_some, Option.getD_some]
      rw [hget i hi]
      by_cases hi1 : i + 1 < n
      · rw [hget (i + 1) hi1]
      · simp only [hi1, false_and, if_false]

/-- **C146.** The averaged direction of wind is the direction of the mean wind vector around each sample, unless it differs by more than 300 degrees
from the next one; then it is not drawn. -/
theorem C146_direction (n : ℕ) (hn : 2 ≤ n) (speed direction time : ℕ → ℝ) (window : ℝ) (out : List (Option ℝ))
    (h : averageDirection n speed direction time window = .ok out) : out.length = n ∧
      ∃ m, 2 * m + 1 = windowSize window (mdiff n time) ∧ ∃ x : ℕ → ℝ, (∀ i < n,
        Spec.Direction (Spec.around n m (fun i => speed i * Real.cos (direction i * (Real.pi / 180))) i)
          (Spec.around n m (fun i => speed i * Real.sin (direction i * (Real.pi / 180))) i) (x i)) ∧
        ∀ i < n, (out.getD i none = none ↔ i + 1 < n ∧ 300 < |x (i + 1) - x i|) ∧ (out.getD i none ≠ none → out.getD i none = some (x i)) := by
  obtain ⟨us, vs, hu, hv, hl, ho⟩ := averageDirection_ok n speed direction time window out h
  obtain ⟨-, hu', -⟩ := C146_mean n _ time window us hu
  obtain ⟨-, hv', -⟩ := C146_mean n _ time window vs hv
  obtain ⟨m, hm, hum⟩ := hu' hn
  obtain ⟨m', hm', hvm⟩ := hv' hn
  obtain rfl : m = m' := by omega
  refine ⟨hl, m, hm, fun i => vectorDirection (us.getD i 0) (vs.getD i 0), fun i hi => ?_, fun i hi => ?_⟩
  · have hpos : (2 * (m : ℝ) + 1) ≠ 0 := by positivity
    have e1 : us.getD i 0 = Spec.around n m (fun i => speed i * Real.cos (direction i * (Real.pi / 180))) i := by
      unfold Spec.around
      rw [← hum i hi, mul_div_cancel_left₀ _ hpos]
    have e2 : vs.getD i 0 = Spec.around n m (fun i => speed i * Real.sin (direction i * (Real.pi / 180))) i := by
      unfold Spec.around
      rw [← hvm i hi, mul_div_cancel_left₀ _ hpos]
    rw [← e1, ← e2]
    exact vectorDirection_spec _ _
  · rw [ho i hi]
    split_ifs with hc
    · exact ⟨⟨fun _ => hc, fun _ => rfl⟩, fun h => absurd rfl h⟩
    · exact ⟨⟨fun h => (by cases h), fun h => absurd h hc⟩, fun _ => rfl⟩

theorem sum_padded (n m : ℕ) (hn : 0 < n) (speed : ℕ → ℝ) (hs : ∀ i < n, 0 < speed i) (i : ℕ) :
    ∃ r, 0 < r ∧ ∀ c, Spec.around n m (fun i => speed i * c) i = r * c := by
  have hp : ∀ j, 0 < Spec.padded n speed m j := by
    intro j
    unfold Spec.padded
    split_ifs
    · exact hs 0 hn
    · exact hs _ (by assumption)
    · exact hs _ (by omega)
  have hsum : ∀ w : ℕ, 0 < w → 0 < ((List.range w).map fun k => Spec.padded n speed m (i + k)).sum := by
    intro w hw
    apply List.sum_pos
    · intro x hx
      obtain ⟨k, -, rfl⟩ := List.mem_map.1 hx
      exact hp _
    · simp; omega
  refine ⟨((List.range (2 * m + 1)).map fun k => Spec.padded n speed m (i + k)).sum / (2 * m + 1), div_pos (hsum _ (by omega)) (by positivity), ?_⟩
  intro c
  unfold Spec.around
  have : ((List.range (2 * m + 1)).map fun k => Spec.padded n (fun i => speed i * c) m (i + k)).sum =
      ((List.range (2 * m + 1)).map fun k => Spec.padded n speed m (i + k)).sum * c := by
    rw [← List.sum_map_mul_right]
    congr 1
    apply List.map_congr_left
    intro k _
    unfold Spec.padded
    split_ifs <;> rfl
  rw [this]
  ring

/-- **C146.** Winds from one direction: this direction is drawn for all samples, also near north. -/
theorem C146_same_direction (n : ℕ) (hn : 2 ≤ n) (speed time : ℕ → ℝ) (d window : ℝ) (hd : 0 ≤ d ∧ d < 360) (hs : ∀ i < n, 0 < speed i)
    (out : List (Option ℝ)) (h : averageDirection n speed (fun _ => d) time window = .ok out) (i : ℕ) (hi : i < n) : out.getD i none = some d := by
  obtain ⟨-, m, -, x, hx, ho⟩ := C146_direction n hn speed (fun _ => d) time window out h
  have hxd : ∀ i < n, x i = d := by
    intro i hi
    obtain ⟨r, hr, hc⟩ := sum_padded n m (by omega) speed hs i
    have hdir := hx i hi
    rw [hc, hc] at hdir
    refine direction_unique _ _ _ _ ?_ hdir ⟨hd.1, hd.2, r, hr.le, rfl, rfl⟩
    by_contra hcon
    push Not at hcon
    have h1 : Real.cos (d * (Real.pi / 180)) = 0 := (mul_eq_zero.1 hcon.1).resolve_left hr.ne'
    have h2 : Real.sin (d * (Real.pi / 180)) = 0 := (mul_eq_zero.1 hcon.2).resolve_left hr.ne'
    have := Real.cos_sq_add_sin_sq (d * (Real.pi / 180))
    rw [h1, h2] at this
    norm_num at this
  have hne : out.getD i none ≠ none := by
    intro hcon
    obtain ⟨h1, h2⟩ := (ho i hi).1.1 hcon
    rw [hxd i hi, hxd (i + 1) h1] at h2
    norm_num at h2
  rw [(ho i hi).2 hne, hxd i hi]

/-- **C146, finding.** Without wind the curve is at north. -/
theorem C146_calm (n : ℕ) (direction time : ℕ → ℝ) (window : ℝ) (out : List (Option ℝ))
    (h : averageDirection n (fun _ => 0) direction time window = .ok out) (i : ℕ) (hi : i < n) : out.getD i none = some 0 := by
  obtain ⟨us, vs, hu, hv, hl, ho⟩ := averageDirection_ok n _ direction time window out h
  have hz : ∀ (ws : List ℝ) (g : ℕ → ℝ), movingAverage n (fun i => 0 * g i) time window = .ok ws → ∀ i < n, ws.getD i 0 = 0 := by
    intro ws g hw i hi
    have := C146_range n _ time window ws hw 0 0 (fun i _ => by simp) i hi
    exact le_antisymm this.2 this.1
  have hvd : vectorDirection 0 0 = 0 := by
    unfold vectorDirection
    have : (⟨0, 0⟩ : ℂ) = 0 := rfl
    rw [this, Complex.arg_zero]
    simp
  rw [ho i hi, hz us _ hu i hi, hz vs _ hv i hi, hvd]
  split_ifs with hc
  · rw [hz us _ hu (i + 1) hc.1, hz vs _ hv (i + 1) hc.1, hvd] at hc
    norm_num at hc
  · rfl

/-- Directions are averaged for all samples at different times. -/
theorem averageDirection_exists (n : ℕ) (speed direction time : ℕ → ℝ) (window : ℝ) (h : mdiff n time ≠ 0) :
    ∃ out, averageDirection n speed direction time window = .ok out := by
  have key : ∀ data : ℕ → ℝ, ∃ us, movingAverage n data time window = .ok us := by
    intro data
    unfold movingAverage
    split_ifs
    · exact ⟨_, rfl⟩
    · exact ⟨_, rfl⟩
    · exact ⟨_, rfl⟩
  obtain ⟨us, hu⟩ := key fun i => speed i * Real.cos (direction i * (Real.pi / 180))
  obtain ⟨vs, hv⟩ := key fun i => speed i * Real.sin (direction i * (Real.pi / 180))
  unfold averageDirection
  dsimp only
  rw [hu, hv]
  exact ⟨_, rfl⟩

/-- Two samples from the north-west. -/
example : ∃ out, averageDirection 2 (fun _ => 3) (fun _ => 315) (fun i => i) 15 = .ok out ∧ out.getD 0 none = some 315 := by
  obtain ⟨out, h⟩ := averageDirection_exists 2 (fun _ => 3) (fun _ => 315) (fun i => (i : ℝ)) 15 (by norm_num [mdiff, median, List.range_succ])
  exact ⟨out, h, C146_same_direction 2 le_rfl _ _ 315 15 (by norm_num) (by norm_num) out h 0 (by norm_num)⟩

end Cloudnet
