import Verif.FloatWindow.Model
import Verif.FloatBins.Props

/-!
C182: the number of grid points of a time window.
-/

namespace Cloudnet

theorem medianFloat_near (l : List ℚ) (hl : l ≠ []) (c a : ℚ) (ha : a ≤ 1 / 10) (hc0 : 0 ≤ c) (hc : c ≤ 24) (h : ∀ x ∈ l, |x - c| ≤ a) :
    |medianFloat l - c| ≤ a + 2 / 10 ^ 14 := by
  have hpos : 0 < l.length := List.length_pos_iff.2 hl
  have hmem : ∀ k < l.length, |(l.insertionSort (· ≤ ·)).getD k 0 - c| ≤ a := by
    intro k hk
    have hk' : k < (l.insertionSort (· ≤ ·)).length := by rwa [List.length_insertionSort]
    rw [List.getD_eq_getElem _ _ hk']
    exact h _ ((List.mem_insertionSort _).1 (List.getElem_mem hk'))
  unfold medianFloat
  dsimp only
  split
  · refine (hmem _ (by omega)).trans ?_
    have : (0 : ℚ) ≤ 2 / 10 ^ 14 := by norm_num
    linarith
  · have h1 := hmem (l.length / 2 - 1) (by omega)
    have h2 := hmem (l.length / 2) (by omega)
    set p := (l.insertionSort (· ≤ ·)).getD (l.length / 2 - 1) 0
    set q := (l.insertionSort (· ≤ ·)).getD (l.length / 2) 0
    have h3 : |p + q - 2 * c| ≤ 2 * a := by
      rw [abs_le] at h1 h2 ⊢
      constructor <;> linarith
    have h4 := fl_near h3 (by linarith) (by rw [abs_of_nonneg (by linarith)]; linarith)
    have h5 : |fl (p + q) / 2 - c| ≤ a + 1 / 2 * (1 / 10 ^ 14) := by
      rw [abs_le] at h4 ⊢
      constructor <;> linarith
    have h6 := fl_near h5 (by
      have : (1 : ℚ) / 2 * (1 / 10 ^ 14) ≤ 1 / 2 := by norm_num
      linarith) (by rw [abs_of_nonneg hc0]; linarith)
    refine h6.trans ?_
    have : (1 : ℚ) / 2 * (1 / 10 ^ 14) + 1 / 10 ^ 14 ≤ 2 / 10 ^ 14 := by norm_num
    linarith

theorem npRound_near (z : ℚ) (k : ℤ) (h : |z - k| < 1 / 2) : npRound z = k := by
  obtain ⟨a, b⟩ := abs_lt.1 h
  unfold npRound
  by_cases hz : (k : ℚ) ≤ z
  · have hf : ⌊z⌋ = k := Int.floor_eq_iff.2 ⟨hz, by linarith⟩
    simp only [hf]
    rw [if_pos b]
  · push Not at hz
    have hf : ⌊z⌋ = k - 1 := Int.floor_eq_iff.2 ⟨by push_cast; linarith, by push_cast; linarith⟩
    simp only [hf]
    rw [if_neg (by push_cast; linarith), if_pos (by push_cast; linarith)]
    ring

/-- **C182.** On every time grid of whole seconds below a day, a window of a whole number of minutes up to a day that is a multiple `k` of the step has exactly `k` points, in double
precision. -/
theorem C182_window (s : ℕ) (h1 : 1 ≤ s) (h2 : s < 86400) (minutes k : ℕ) (hm1 : 1 ≤ minutes) (hm2 : minutes ≤ 1440) (hk : 60 * minutes = k * s) :
    ∃ n g, timeGridFloat s = .ok (n, g) ∧ nElementsTimeFloat n g minutes = k := by
  obtain ⟨n, g, hg, hn1, hn2, hmid, -, -⟩ := C179_time_grid s h1 h2.le
  have hn : 2 ≤ n := by
    by_contra hc
    have : n * s ≤ 1 * s := Nat.mul_le_mul_right s (by omega)
    omega
  refine ⟨n, g, hg, ?_⟩
  have h1' : (1 : ℚ) ≤ s := by exact_mod_cast h1
  have h2' : (s : ℚ) ≤ 86400 := by exact_mod_cast h2.le
  set t : ℚ := (s : ℚ) / 3600 with ht
  have ht1 : 1 / 3600 ≤ t := by rw [ht]; linarith
  have ht24 : t ≤ 24 := by rw [ht]; linarith
  have ht0 : 0 < t := by linarith [show (0 : ℚ) < 1 / 3600 by norm_num]
  unfold nElementsTimeFloat
  dsimp only
  set l := (List.range (n - 1)).map fun i => fl (g (i + 1) - g i) with hl
  have hne : l ≠ [] := by
    rw [hl, Ne, List.map_eq_nil_iff, List.range_eq_nil]
    omega
  have hall : ∀ x ∈ l, |x - t| ≤ 2 / 10 ^ 13 + 1 / 10 ^ 14 := by
    intro x hx
    obtain ⟨i, hi, rfl⟩ := List.mem_map.1 hx
    rw [List.mem_range] at hi
    have a := hmid (i + 1) (by omega)
    have b := hmid i (by omega)
    push_cast at a
    have c : |g (i + 1) - g i - t| ≤ 2 / 10 ^ 13 := by
      rw [abs_le] at a b ⊢
      constructor <;> linarith
    exact fl_near c (by norm_num) (by rw [abs_of_nonneg ht0.le]; linarith)
  have hmed := medianFloat_near l hne t _ (by norm_num) ht0.le ht24 hall
  set m := medianFloat l
  have htm : (2 / 10 ^ 13 + 1 / 10 ^ 14 + 2 / 10 ^ 14 : ℚ) ≤ t * (1 / 10 ^ 9) := by
    have : (2 / 10 ^ 13 + 1 / 10 ^ 14 + 2 / 10 ^ 14 : ℚ) ≤ 1 / 3600 * (1 / 10 ^ 9) := by norm_num
    exact this.trans (mul_le_mul_of_nonneg_right ht1 (by norm_num))
  obtain ⟨m1, m2⟩ := abs_le.1 (hmed.trans htm)
  have hm0 : 0 < m := by
    have : 0 < t * (1 - 1 / 10 ^ 9) := mul_pos ht0 (by norm_num)
    linarith
  have hkq : (60 : ℚ) * minutes = k * s := by exact_mod_cast hk
  have hmq : (1 : ℚ) ≤ minutes := by exact_mod_cast hm1
  have hmq2 : (minutes : ℚ) ≤ 1440 := by exact_mod_cast hm2
  have hk1 : (1 : ℚ) ≤ k := by
    have : 1 ≤ k := by
      rcases Nat.eq_zero_or_pos k with h | h
      · rw [h, Nat.zero_mul] at hk
        omega
      · exact h
    exact_mod_cast this
  have hk2 : (k : ℚ) ≤ 86400 := by
    have : (k : ℚ) * 1 ≤ k * s := mul_le_mul_of_nonneg_left h1' (by linarith)
    linarith
  have hmt : (minutes : ℚ) = 60 * k * t := by
    rw [ht]
    linarith
  -- quotient
  have q1 : 60 * (k : ℚ) * (1 - 2 / 10 ^ 9) ≤ minutes / m := by
    rw [le_div_iff₀ hm0, hmt]
    have : 60 * (k : ℚ) * (1 - 2 / 10 ^ 9) * m ≤ 60 * (k : ℚ) * (1 - 2 / 10 ^ 9) * (t * (1 + 1 / 10 ^ 9)) :=
      mul_le_mul_of_nonneg_left (by linarith) (mul_nonneg (by linarith) (by norm_num))
    refine this.trans ?_
    have e : 60 * (k : ℚ) * (1 - 2 / 10 ^ 9) * (t * (1 + 1 / 10 ^ 9)) = 60 * k * t * ((1 - 2 / 10 ^ 9) * (1 + 1 / 10 ^ 9)) := by ring
    rw [e]
    exact mul_le_of_le_one_right (by positivity) (by norm_num)
  have q2 : minutes / m ≤ 60 * (k : ℚ) * (1 + 2 / 10 ^ 9) := by
    rw [div_le_iff₀ hm0, hmt]
    have : 60 * (k : ℚ) * (1 + 2 / 10 ^ 9) * (t * (1 - 1 / 10 ^ 9)) ≤ 60 * (k : ℚ) * (1 + 2 / 10 ^ 9) * m :=
      mul_le_mul_of_nonneg_left (by linarith) (by positivity)
    refine le_trans ?_ this
    have e : 60 * (k : ℚ) * (1 + 2 / 10 ^ 9) * (t * (1 - 1 / 10 ^ 9)) = 60 * k * t * ((1 + 2 / 10 ^ 9) * (1 - 1 / 10 ^ 9)) := by ring
    rw [e]
    exact le_mul_of_one_le_right (by positivity) (by norm_num)
  have hu := flUnit_pos
  have hu' : flUnit ≤ 1 / 10 ^ 15 := by unfold flUnit; norm_num
  have p1 : 1 / 100000 ≤ (minutes : ℚ) / m := by
    refine le_trans ?_ q1
    linarith
  have r1 := abs_le.1 (fl_error _ p1)
  have hb1 : (minutes : ℚ) / m * flUnit ≤ 61 * k * (1 / 10 ^ 15) := by
    refine mul_le_mul (q2.trans ?_) hu' hu.le (by positivity)
    linarith
  set z1 := fl ((minutes : ℚ) / m)
  have p2 : 1 / 100000 ≤ z1 / 60 := by linarith
  have r2 := abs_le.1 (fl_error _ p2)
  have hb2 : z1 / 60 * flUnit ≤ 2 * k * (1 / 10 ^ 15) := by
    refine mul_le_mul ?_ hu' hu.le (by positivity)
    linarith
  apply npRound_near
  rw [abs_lt]
  push_cast
  constructor <;> linarith

/-- **C182.** The window of four hours for the freezing level (`freezing.py:50`) has 480 points on the standard grid. -/
theorem C182_freezing : ∃ n g, timeGridFloat ((30 : ℕ) : ℤ) = .ok (n, g) ∧ nElementsTimeFloat n g 240 = 480 := by
  obtain ⟨n, g, hg, h⟩ := C182_window 30 (by norm_num) (by norm_num) 240 480 (by norm_num) (by norm_num) (by norm_num)
  exact ⟨n, g, hg, by exact_mod_cast h⟩

end Cloudnet
