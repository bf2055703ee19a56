import Verif.Radar.Model
import Verif.Droplet.Props
import Verif.Classify.Props
import Mathlib.Tactic.Linarith
import Mathlib.Tactic.NormNum

namespace Cloudnet

/-! C84 -/

/-- `m` is the median of the values: the mean of the two middle order statistics. -/
def Spec.IsMedian (l : List ℝ) (m : ℝ) : Prop :=
  ∃ s : List ℝ, s.Perm l ∧ s.Pairwise (· ≤ ·) ∧ ∃ a b, s[(l.length - 1) / 2]? = some a ∧ s[l.length / 2]? = some b ∧
    m = (a + b) / 2

/-- `m` is the quantile `p` of the values: it lies at the fractional position `p (n - 1)` of the sorted values. -/
def Spec.IsQuantile (l : List ℝ) (p m : ℝ) : Prop :=
  ∃ s : List ℝ, s.Perm l ∧ s.Pairwise (· ≤ ·) ∧ ∃ (i : ℕ) (w a : ℝ), 0 ≤ w ∧ w < 1 ∧ i + w = p * (l.length - 1) ∧
    s[i]? = some a ∧ (w = 0 ∧ m = a ∨ ∃ b, s[i + 1]? = some b ∧ m = (1 - w) * a + w * b)

/-- The measured values of a field, in any order. -/
def Spec.ValuesOf (nT nH : ℕ) (z : Grid (Option ℝ)) (l : List ℝ) : Prop :=
  ∃ pixels : List Pixel, pixels.Nodup ∧ (∀ t h, (t, h) ∈ pixels ↔ t < nT ∧ h < nH ∧ z t h ≠ none) ∧
    l = pixels.map fun p => (z p.1 p.2).getD 0

theorem median_isMedian (l : List ℝ) (hl : l ≠ []) : Spec.IsMedian l (median l) := by
  have hlen : 0 < l.length := List.length_pos_iff.2 hl
  have hs := List.length_insertionSort (· ≤ ·) l
  refine ⟨l.insertionSort (· ≤ ·), List.perm_insertionSort _ _, List.pairwise_insertionSort _ _,
    (l.insertionSort (· ≤ ·)).getD ((l.length - 1) / 2) 0, (l.insertionSort (· ≤ ·)).getD (l.length / 2) 0, ?_, ?_, ?_⟩
  · rw [List.getD_eq_getElem _ _ (by omega), List.getElem?_eq_getElem]
  · rw [List.getD_eq_getElem _ _ (by omega), List.getElem?_eq_getElem]
  · unfold median
    simp only
    split
    · rw [show (l.length - 1) / 2 = l.length / 2 by omega]
      ring
    · rw [show (l.length - 1) / 2 = l.length / 2 - 1 by omega]

theorem percentile_isQuantile (l : List ℝ) (hl : l ≠ []) (q : ℝ) (h0 : 0 ≤ q) (h1 : q < 100) :
    Spec.IsQuantile l (q / 100) (percentile l q) := by
  have hlen : 0 < l.length := List.length_pos_iff.2 hl
  have hs := List.length_insertionSort (· ≤ ·) l
  have hcast : ((l.length - 1 : ℕ) : ℝ) = (l.length : ℝ) - 1 := by push_cast [Nat.cast_sub hlen]; ring
  have hn1 : (0 : ℝ) ≤ (l.length : ℝ) - 1 := by rw [← hcast]; positivity
  have hpos : 0 ≤ q / 100 * ((l.length - 1 : ℕ) : ℝ) := by positivity
  have hfl : ((⌊q / 100 * ((l.length - 1 : ℕ) : ℝ)⌋.toNat : ℕ) : ℝ) = ⌊q / 100 * ((l.length - 1 : ℕ) : ℝ)⌋ := by
    have : ((⌊q / 100 * ((l.length - 1 : ℕ) : ℝ)⌋.toNat : ℕ) : ℤ) = ⌊q / 100 * ((l.length - 1 : ℕ) : ℝ)⌋ :=
      Int.toNat_of_nonneg (Int.floor_nonneg.2 hpos)
    exact_mod_cast this
  obtain ⟨i, hi⟩ : ∃ i, i = ⌊q / 100 * ((l.length - 1 : ℕ) : ℝ)⌋.toNat := ⟨_, rfl⟩
  have hle := Int.floor_le (q / 100 * ((l.length - 1 : ℕ) : ℝ))
  have hlt := Int.lt_floor_add_one (q / 100 * ((l.length - 1 : ℕ) : ℝ))
  rw [← hfl, ← hi] at hle hlt
  have hil : i < l.length := by
    have : (i : ℝ) ≤ ((l.length - 1 : ℕ) : ℝ) := by
      refine hle.trans ?_
      rw [hcast]
      nlinarith
    have : i ≤ l.length - 1 := by exact_mod_cast this
    omega
  refine ⟨l.insertionSort (· ≤ ·), List.perm_insertionSort _ _, List.pairwise_insertionSort _ _, i,
    q / 100 * ((l.length - 1 : ℕ) : ℝ) - i, (l.insertionSort (· ≤ ·)).getD i 0, by linarith, by linarith,
    by rw [hcast]; ring, ?_, ?_⟩
  · rw [List.getD_eq_getElem _ _ (by omega), List.getElem?_eq_getElem]
  · unfold percentile
    simp only
    rw [← hi]
    rcases Nat.lt_or_ge (i + 1) l.length with h2 | h2
    · right
      refine ⟨(l.insertionSort (· ≤ ·)).getD (i + 1) 0, ?_, ?_⟩
      · rw [List.getD_eq_getElem _ _ (by omega), List.getElem?_eq_getElem]
      · rw [show min (i + 1) (l.length - 1) = i + 1 by omega]
        ring
    · left
      have hie : i = l.length - 1 := by omega
      rw [show min (i + 1) (l.length - 1) = i by omega, sub_self, mul_zero, add_zero]
      refine ⟨?_, rfl⟩
      have : q / 100 * ((l.length - 1 : ℕ) : ℝ) ≤ ((l.length - 1 : ℕ) : ℝ) := by
        rw [hcast]; nlinarith
      rw [← hie] at this
      rw [← hie] at hle ⊢
      linarith

theorem compressed_values (nT nH : ℕ) (z : Grid (Option ℝ)) : Spec.ValuesOf nT nH z (compressed nT nH z) := by
  refine ⟨(List.range nT).flatMap fun t => ((List.range nH).filter fun h => (z t h).isSome).map fun h => (t, h),
    ?_, ?_, ?_⟩
  · rw [List.nodup_flatMap]
    constructor
    · intro t _
      exact (List.nodup_range.filter _).map fun a b h => (Prod.mk.inj h).2
    · apply List.nodup_range.imp
      intro a b hab
      simp only [Function.onFun]
      intro p hp hq
      simp only [List.mem_map] at hp hq
      obtain ⟨x, -, rfl⟩ := hp
      obtain ⟨y, -, hy⟩ := hq
      exact hab (Prod.mk.inj hy).1.symm
  · intro t h
    simp only [List.mem_flatMap, List.mem_map, List.mem_filter, List.mem_range, Prod.mk.injEq]
    constructor
    · rintro ⟨t', ht', h', ⟨hh', hz⟩, rfl, rfl⟩
      exact ⟨ht', hh', Option.ne_none_iff_isSome.2 hz⟩
    · rintro ⟨ht, hh, hz⟩
      exact ⟨t, ht, h, ⟨hh, Option.ne_none_iff_isSome.1 hz⟩, rfl, rfl⟩
  · unfold compressed
    rw [List.map_flatMap]
    congr 1
    funext t
    induction List.range nH with
    | nil => rfl
    | cons a l ih =>
      rcases hz : z t a with _ | x
      · simp [hz, ih]
      · simp [hz, ih]

/-- C84. The smallest detectable echo power: the 0.1 % quantile of all range-corrected echoes, zero without echoes. -/
def Spec.IsPowerMin (nT nH : ℕ) (z : Grid (Option ℝ)) (range : ℕ → ℝ) (p : ℝ) : Prop :=
  (∃ l, Spec.ValuesOf nT nH (fun t h => (z t h).map fun x => x - 20 * Real.logb 10 (range h)) l ∧ l ≠ [] ∧
    Spec.IsQuantile l (1 / 1000) p) ∨
  (∀ t < nT, ∀ h < nH, z t h = none) ∧ p = 0

theorem zPowerMin_spec (nT nH : ℕ) (z : Grid (Option ℝ)) (range : ℕ → ℝ) :
    Spec.IsPowerMin nT nH z range (zPowerMin nT nH z range) := by
  have hv := compressed_values nT nH (zPower z range)
  unfold zPowerMin
  split
  · rename_i h
    right
    refine ⟨fun t ht h' hh => ?_, rfl⟩
    obtain ⟨px, -, h1, h2⟩ := hv
    rw [h] at h2
    have hpx : px = [] := List.map_eq_nil_iff.1 h2.symm
    by_contra hz
    have := (h1 t h').2 ⟨ht, hh, by
      unfold zPower
      rcases hz' : z t h' with _ | x
      · exact absurd hz' hz
      · simp⟩
    rw [hpx] at this
    simp at this
  · rename_i h
    left
    refine ⟨_, hv, h, ?_⟩
    have := percentile_isQuantile _ h (1 / 10) (by norm_num) (by norm_num)
    rwa [show (1 : ℝ) / 10 / 100 = 1 / 1000 by norm_num] at this

/-- C84. The sensitivity reported for a gate. A gate with measured ground clutter: the median of the clutter echoes.
Any other gate: the smallest detectable power moved to the gate's range plus the mean gas attenuation. -/
theorem C84_sensitivity (nT nH : ℕ) (z : Grid (Option ℝ)) (range : ℕ → ℝ) (gas : Grid ℝ) (clutter : Grid Bool) (h : ℕ) :
    let s := zSensitivity nT nH z range gas clutter h
    ((∃ t < nT, clutter t h = true ∧ z t h ≠ none) →
      ∃ ts : List ℕ, ts.Nodup ∧ (∀ t, t ∈ ts ↔ t < nT ∧ clutter t h = true ∧ z t h ≠ none) ∧
        Spec.IsMedian (ts.map fun t => (z t h).getD 0) s) ∧
    ((∀ t < nT, clutter t h = true → z t h = none) →
      ∃ p, Spec.IsPowerMin nT nH z range p ∧
        s = p + 20 * Real.logb 10 (range h) + (∑ t ∈ Finset.range nT, gas t h) / nT) := by
  intro s
  have hlist : ((List.range nT).filterMap fun t => if clutter t h then z t h else none) =
      ((List.range nT).filter fun t => clutter t h && (z t h).isSome).map fun t => (z t h).getD 0 := by
    induction List.range nT with
    | nil => rfl
    | cons a l ih =>
      cases hc : clutter a h <;> rcases hz : z a h with _ | x <;> simp [hc, hz, ih]
  have hmem : ∀ t, t ∈ ((List.range nT).filter fun t => clutter t h && (z t h).isSome) ↔
      t < nT ∧ clutter t h = true ∧ z t h ≠ none := by
    intro t
    rw [List.mem_filter, List.mem_range, Bool.and_eq_true, Option.ne_none_iff_isSome]
  have hs : s = if ((List.range nT).filterMap fun t => if clutter t h then z t h else none) = [] then
      zPowerMin nT nH z range + lin2db (range h) 20 + ((List.range nT).map fun t => gas t h).sum / nT
      else median ((List.range nT).filterMap fun t => if clutter t h then z t h else none) := rfl
  rw [hlist] at hs
  constructor
  · rintro ⟨t, ht⟩
    have hne : ((List.range nT).filter fun t => clutter t h && (z t h).isSome) ≠ [] := by
      intro he
      have := (hmem t).2 ht
      rw [he] at this
      simp at this
    refine ⟨_, List.nodup_range.filter _, hmem, ?_⟩
    have hne' : ((List.range nT).filter fun t => clutter t h && (z t h).isSome).map (fun t => (z t h).getD 0) ≠ [] := by
      simpa only [ne_eq, List.map_eq_nil_iff] using hne
    rw [hs, if_neg hne']
    exact median_isMedian _ hne'
  · intro hno
    have hempty : ((List.range nT).filter fun t => clutter t h && (z t h).isSome) = [] := by
      rw [List.eq_nil_iff_forall_not_mem]
      intro t ht
      obtain ⟨h1, h2, h3⟩ := (hmem t).1 ht
      exact h3 (hno t h1 h2)
    refine ⟨_, zPowerMin_spec nT nH z range, ?_⟩
    rw [hs, hempty, if_pos (by rfl), ← List.sum_toFinset _ List.nodup_range, List.toFinset_range]
    rfl

/-- Clutter echoes 6, 2 and 1 dBZ: their median is 2. The theorem applies to the first gate of such a field. -/
example : Spec.IsMedian [6, 2, 1] 2 ∧
    ∃ t < 3, (fun _ h => h == 0 : Grid Bool) t 0 = true ∧
      (fun t h => if h = 0 then [some 6, some 2, some 1].getD t none else none : Grid (Option ℝ)) t 0 ≠ none := by
  refine ⟨⟨[1, 2, 6], ?_, ?_, 2, 2, rfl, rfl, by norm_num⟩, 1, by decide, rfl, by simp⟩
  · have h1 : [(1 : ℝ), 2, 6].Perm [2, 1, 6] := List.Perm.swap _ _ _
    have h2 : [(2 : ℝ), 1, 6].Perm [2, 6, 1] := (List.Perm.swap _ _ _).cons _
    have h3 : [(2 : ℝ), 6, 1].Perm [6, 2, 1] := List.Perm.swap _ _ _
    exact h1.trans (h2.trans h3)
  · norm_num [List.pairwise_cons]

theorem mdiff_pos (n : ℕ) (hn : 2 ≤ n) (x : ℕ → ℝ) (h : ∀ i, i + 1 < n → x i < x (i + 1)) : 0 < mdiff n x := by
  obtain ⟨c, hc⟩ : ∃ c, ∀ i, i + 1 < n → x (i + 1) - x i < c := by
    refine ⟨(∑ i ∈ Finset.range n, |x (i + 1) - x i|) + 1, fun i hi => ?_⟩
    have h1 := Finset.single_le_sum (f := fun i => |x (i + 1) - x i|) (fun _ _ => abs_nonneg _)
      (Finset.mem_range.2 (by omega : i < n))
    have h2 := le_abs_self (x (i + 1) - x i)
    linarith
  exact (mdiff_lt n hn x c fun i hi => ⟨h i hi, hc i hi⟩).1

theorem isMedian_scale (l : List ℝ) (m c : ℝ) (hc : 0 ≤ c) (h : Spec.IsMedian l m) :
    Spec.IsMedian (l.map (· * c)) (m * c) := by
  obtain ⟨s, h1, h2, a, b, h3, h4, h5⟩ := h
  refine ⟨s.map (· * c), h1.map _, List.Pairwise.map _ (fun x y hxy => mul_le_mul_of_nonneg_right hxy hc) h2,
    a * c, b * c, ?_, ?_, ?_⟩
  · rw [List.length_map, List.getElem?_map, h3]; rfl
  · rw [List.length_map, List.getElem?_map, h4]; rfl
  · rw [h5]; ring

/-- C84. The precision of the echo is given exactly where the echo and a positive width are known. It is positive,
grows as the echo weakens and falls with the width. -/
theorem C84_precision (nT nH : ℕ) (z : Grid (Option ℝ)) (range : ℕ → ℝ) (width : Option (Grid (Option ℝ)))
    (time : ℕ → ℝ) (frequency : ℝ) (hn : 2 ≤ nT) (htime : ∀ i, i + 1 < nT → time i < time (i + 1))
    (hf : 0 < frequency) (hw : ∀ w, width = some w → ∀ t h x, w t h = some x → 0 ≤ x) (t h : ℕ) :
    let p := zPrecision nT nH z range width time frequency t h
    (p ≠ none ↔ z t h ≠ none ∧ ∀ w, width = some w → ∃ x, w t h = some x ∧ 0 < x) ∧
    ∀ e v, p = some e → z t h = some v → ∃ m x dwell, Spec.IsPowerMin nT nH z range m ∧
      0 < x ∧ (width = none → x = 3 / 10) ∧ (∀ w, width = some w → w t h = some x) ∧
      Spec.IsMedian ((List.range (nT - 1)).map fun i => (time (i + 1) - time i) * 3600) dwell ∧ 0 < dwell ∧
      e = 10 / Real.log 10 / Real.sqrt (4 * Real.sqrt Real.pi * dwell * x / (3 / 10 / frequency)) *
        (1 + (10 : ℝ) ^ ((m - (v - 20 * Real.logb 10 (range h))) / 10) / 3) ∧ 0 < e := by
  have hpi := Real.pi_pos
  have hstep := mdiff_pos nT hn time htime
  have hlog : 0 < Real.log 10 := Real.log_pos (by norm_num)
  have hdw : Spec.IsMedian ((List.range (nT - 1)).map fun i => (time (i + 1) - time i) * 3600) (mdiff nT time * 3600) := by
    have := isMedian_scale _ _ 3600 (by norm_num)
      (median_isMedian ((List.range (nT - 1)).map fun i => time (i + 1) - time i) (by simp; omega))
    rw [List.map_map] at this
    exact this
  obtain ⟨w, hwdef⟩ : ∃ w : Option ℝ, w = (match (generalizing := false) width with
    | none => (z t h).map fun _ => 3 / 10
    | some w => w t h) := ⟨_, rfl⟩
  intro p
  have hp : p = maMap2 (fun f p => f * (1 + (10 : ℝ) ^ ((zPowerMin nT nH z range - p) / 10) / 3))
      (maDivide (10 / Real.log 10) ((w.map fun w =>
        4 * Real.sqrt Real.pi * (mdiff nT time * 3600) * w / (300000000 / (frequency * 1000000000))).map Real.sqrt))
      (zPower z range t h) := by
    rw [hwdef]
    rfl
  have hwl : (300000000 : ℝ) / (frequency * 1000000000) = 3 / 10 / frequency := by
    field_simp
    norm_num
  rw [hwl] at hp
  have hroot : ∀ x : ℝ, 0 < x → 0 < Real.sqrt (4 * Real.sqrt Real.pi * (mdiff nT time * 3600) * x / (3 / 10 / frequency)) := by
    intro x hx
    apply Real.sqrt_pos.2
    positivity
  rcases hz : z t h with _ | v
  · have hp0 : p = none := by
      rw [hp]
      unfold zPower maMap2
      rw [hz]
      cases maDivide (10 / Real.log 10) _ <;> rfl
    refine ⟨?_, fun e v he => ?_⟩
    · simp [hp0]
    · rw [hp0] at he
      cases he
  · have hwv : (∃ x, w = some x ∧ 0 < x ∧ (width = none → x = 3 / 10) ∧ ∀ g, width = some g → g t h = some x) ∨
        ((w = none ∨ w = some 0) ∧ ∃ g, width = some g ∧ g t h = w) := by
      rcases width with _ | g
      · left
        rw [hz] at hwdef
        exact ⟨3 / 10, hwdef, by norm_num, fun _ => rfl, fun g hg => by cases hg⟩
      · simp only at hwdef
        rcases hg : g t h with _ | x
        · right
          exact ⟨Or.inl (by rw [hwdef, hg]), g, rfl, hwdef.symm⟩
        · rcases (hw g rfl t h x hg).lt_or_eq with hx | hx
          · left
            refine ⟨x, by rw [hwdef, hg], hx, fun h => (by cases h), fun g' hg' => ?_⟩
            obtain rfl := Option.some.inj hg'
            exact hg
          · right
            exact ⟨Or.inr (by rw [hwdef, hg, hx]), g, rfl, hwdef.symm⟩
    rcases hwv with ⟨x, h1, h2, h3, h4⟩ | ⟨h1, g, h2, h3⟩
    · have hr := hroot x h2
      rw [h1] at hp
      simp only [Option.map_some, maDivide, Option.bind_some, if_neg hr.ne', maMap2, zPower, hz] at hp
      refine ⟨⟨fun _ => ⟨by simp, fun g hg => ⟨x, h4 g hg, h2⟩⟩, fun _ => by rw [hp]; simp⟩, fun e v' he hv' => ?_⟩
      obtain rfl := Option.some.inj hv'
      rw [hp] at he
      refine ⟨_, x, _, zPowerMin_spec nT nH z range, h2, h3, h4, hdw, by positivity, (Option.some.inj he).symm, ?_⟩
      rw [← Option.some.inj he]
      positivity
    · have hp0 : p = none := by
        rw [hp]
        rcases h1 with h1 | h1 <;> simp [h1, maDivide, maMap2]
      refine ⟨⟨fun h => absurd hp0 h, fun h => ?_⟩, fun e v he => ?_⟩
      · exfalso
        obtain ⟨x, hx, hx0⟩ := h.2 g h2
        rw [h3] at hx
        rcases h1 with h1 | h1
        · rw [h1] at hx; cases hx
        · rw [h1] at hx
          have := Option.some.inj hx
          linarith
      · rw [hp0] at he
        cases he

/-! C85 -/

section
variable {α : Type} [Field α] [LinearOrder α] [IsStrictOrderedRing α]

theorem filter_lt_length (n : ℕ) (time : ℕ → α) (x : α) (hinc : ∀ i j, i < j → j < n → time i < time j) :
    ∃ k ≤ n, ((List.range n).filter fun i => decide (time i < x)).length = k ∧ ∀ i < n, time i < x ↔ i < k := by
  induction n with
  | zero => exact ⟨0, le_rfl, rfl, fun i hi => by omega⟩
  | succ n ih =>
    obtain ⟨k, h1, h2, h3⟩ := ih fun i j hij hj => hinc i j hij (by omega)
    rw [List.range_succ, List.filter_append, List.length_append, h2]
    by_cases hn : time n < x
    · have hk : k = n := by
        by_contra hne
        have hk : k < n := by omega
        have := (h3 k hk).1 ((hinc k n hk (by omega)).trans hn)
        omega
      subst hk
      refine ⟨k + 1, le_rfl, by simp [hn], fun i hi => ⟨fun _ => hi, fun _ => ?_⟩⟩
      rcases Nat.lt_or_ge i k with h | h
      · exact (h3 i h).2 h
      · rw [show i = k by omega]; exact hn
    · refine ⟨k, by omega, by simp [hn], fun i hi => ?_⟩
      rcases Nat.lt_or_ge i n with h | h
      · exact h3 i h
      · rw [show i = n by omega]
        exact ⟨fun h => absurd h hn, fun h => by omega⟩

/-- C85. The position of a moving radar is taken from the time stamp closest to the requested time, the later one of
two equally close ones. -/
theorem C85_closest_time (n : ℕ) (hn : 0 < n) (time : ℕ → α) (hinc : ∀ i j, i < j → j < n → time i < time j) (x : α) :
    let c := closestIndex n time x
    c < n ∧ ∀ i < n, |x - time c| ≤ |x - time i| ∧ (|x - time i| = |x - time c| → i ≤ c) := by
  obtain ⟨k, hk, h1, h2⟩ := filter_lt_length n time x hinc
  intro c
  have hc : c = if |x - time (min (k - 1) (n - 1))| < |x - time (min k (n - 1))| then min (k - 1) (n - 1)
      else min k (n - 1) := by
    rw [← h1]
    rfl
  have hmono : ∀ i j, i ≤ j → j < n → time i ≤ time j := by
    intro i j hij hj
    rcases hij.lt_or_eq with h | h
    · exact (hinc i j h hj).le
    · rw [h]
  have below : ∀ i, i < k → |x - time i| = x - time i := fun i hi =>
    abs_of_pos (sub_pos.2 ((h2 i (by omega)).2 hi))
  have above : ∀ i, k ≤ i → i < n → |x - time i| = time i - x := by
    intro i hi hin
    rw [abs_sub_comm]
    exact abs_of_nonneg (sub_nonneg.2 (not_lt.1 fun h => by have := (h2 i hin).1 h; omega))
  rcases Nat.eq_zero_or_pos k with h0 | h0
  · -- before the first time stamp
    have hc0 : c = 0 := by
      rw [hc, h0]
      simp
    rw [hc0]
    refine ⟨hn, fun i hi => ?_⟩
    rw [above 0 (by omega) hn, above i (by omega) hi]
    have := hmono 0 i (by omega) hi
    refine ⟨by linarith, fun he => ?_⟩
    by_contra hne
    have := hinc 0 i (by omega) hi
    linarith
  · rcases hk.lt_or_eq with hkn | hkn
    · rw [show min (k - 1) (n - 1) = k - 1 by omega, show min k (n - 1) = k by omega, below (k - 1) (by omega),
        above k le_rfl hkn] at hc
      split at hc
      · rename_i hlt
        rw [hc]
        refine ⟨by omega, fun i hi => ?_⟩
        rw [below (k - 1) (by omega)]
        rcases Nat.lt_or_ge i k with hik | hik
        · rw [below i hik]
          have := hmono i (k - 1) (by omega) (by omega)
          exact ⟨by linarith, fun _ => by omega⟩
        · rw [above i hik hi]
          have := hmono k i hik hi
          refine ⟨by linarith, fun he => ?_⟩
          linarith
      · rename_i hge
        rw [not_lt] at hge
        rw [hc]
        refine ⟨by omega, fun i hi => ?_⟩
        rw [above k le_rfl hkn]
        rcases Nat.lt_or_ge i k with hik | hik
        · rw [below i hik]
          have := hmono i (k - 1) (by omega) (by omega)
          exact ⟨by linarith, fun _ => by omega⟩
        · rw [above i hik hi]
          have := hmono k i hik hi
          refine ⟨by linarith, fun he => ?_⟩
          by_contra hne
          have := hinc k i (by omega) hi
          linarith
    · have hc0 : c = n - 1 := by
        rw [hc, hkn]
        simp
      rw [hc0]
      refine ⟨by omega, fun i hi => ?_⟩
      rw [below (n - 1) (by omega), below i (by omega)]
      have := hmono i (n - 1) (by omega) (by omega)
      exact ⟨by linarith, fun _ => by omega⟩

end

/-- Half-way between the time stamps 1 and 3 the later one is chosen, slightly earlier the earlier one. -/
example : closestIndex 3 (fun i => (2 * i + 1 : ℚ)) 2 = 1 ∧ closestIndex 3 (fun i => (2 * i + 1 : ℚ)) (19 / 10) = 0 ∧
    closestIndex 3 (fun i => (2 * i + 1 : ℚ)) 9 = 2 := by decide +kernel

/-! C86 -/

/-- Segment `s` of a profile contains gate `h`: it starts at or below the gate and no later segment does. `first` is
the number of the first gate (0 or 1) in the numbering used by the starts. -/
def Spec.InChirp (nSeg : ℕ) (starts : ℕ → ℤ) (first : ℤ) (h s : ℕ) : Prop :=
  s < nSeg ∧ starts s ≤ h + first ∧ ∀ s', s < s' → s' < nSeg → h + first < starts s'

theorem replicate_segments {β : Type} (m : ℕ) (a : ℕ → ℕ) (f : ℕ → β) (d : β) (hmono : ∀ s < m, a s ≤ a (s + 1)) :
    ((List.range m).flatMap fun s => List.replicate (a (s + 1) - a s) (f s)).length = a m - a 0 ∧
    a 0 ≤ a m ∧ ∀ s < m, ∀ h, a s ≤ h + a 0 → h + a 0 < a (s + 1) →
      ((List.range m).flatMap fun s => List.replicate (a (s + 1) - a s) (f s)).getD h d = f s := by
  induction m with
  | zero => exact ⟨by simp, le_rfl, fun s hs => by omega⟩
  | succ m ih =>
    obtain ⟨h1, h2, h3⟩ := ih fun s hs => hmono s (by omega)
    have hm := hmono m (by omega)
    rw [List.range_succ, List.flatMap_append, List.length_append, h1]
    refine ⟨by simp; omega, by omega, fun s hs h hle hlt => ?_⟩
    have hmon : ∀ j ≤ m, a j ≤ a m := by
      intro j hj
      induction hj using Nat.decreasingInduction with
      | self => exact le_rfl
      | of_succ j hj ih2 => exact (hmono j (by omega)).trans ih2
    rcases Nat.lt_or_ge s m with hsm | hsm
    · have := hmon (s + 1) (by omega)
      rw [List.getD_append _ _ _ _ (by rw [h1]; omega)]
      exact h3 s hsm h hle hlt
    · obtain rfl : s = m := by omega
      rw [List.getD_append_right _ _ _ _ (by rw [h1]; omega), h1]
      simp only [List.flatMap_cons, List.flatMap_nil, List.append_nil]
      rw [List.getD_eq_getElem _ _ (by rw [List.length_replicate]; omega), List.getElem_replicate]

/-- C86. The folding velocities of chirp segments are expanded to the gates: starts that begin with 0 or 1, do not
decrease and stay within the profile are accepted, and each gate gets the velocity of the segment it lies in. -/
theorem C86_chirps {β : Type} (nT nH nSeg : ℕ) (hs : 0 < nSeg) (starts : ℕ → ℕ → ℤ) (fvel : ℕ → ℕ → β) (d : β)
    (hfirst : ∀ t < nT, starts t 0 = 0 ∨ starts t 0 = 1)
    (hmono : ∀ t < nT, ∀ s, s + 1 < nSeg → starts t s ≤ starts t (s + 1))
    (hlast : ∀ t < nT, starts t (nSeg - 1) ≤ nH + starts t 0) :
    ∃ g, expandFolding nT nH nSeg starts fvel d = .ok g ∧ ∀ t < nT, ∀ h < nH,
      (∃ s, Spec.InChirp nSeg (starts t) (starts t 0) h s) ∧
      ∀ s, Spec.InChirp nSeg (starts t) (starts t 0) h s → g t h = fvel t s := by
  unfold expandFolding
  rw [if_neg (by
    rw [List.any_eq_true]
    rintro ⟨t, ht, h⟩
    have := hfirst t (List.mem_range.1 ht)
    rw [decide_eq_true_eq] at h
    omega)]
  have hsz : ∀ t < nT, ∀ s < nSeg,
      0 ≤ (if s + 1 < nSeg then starts t (s + 1) - starts t 0 else (nH : ℤ)) - (starts t s - starts t 0) := by
    intro t ht s hs'
    split
    · rename_i h
      have := hmono t ht s h
      omega
    · have := hlast t ht
      rw [show nSeg - 1 = s by omega] at this
      omega
  simp only
  rw [if_neg (by
    rw [List.any_eq_true]
    rintro ⟨t, ht, h⟩
    rw [List.any_eq_true] at h
    obtain ⟨s, hs', h⟩ := h
    rw [decide_eq_true_eq] at h
    have := hsz t (List.mem_range.1 ht) s (List.mem_range.1 hs')
    omega)]
  refine ⟨_, rfl, fun t ht h hh => ?_⟩
  have hge : ∀ s < nSeg, starts t 0 ≤ starts t s := by
    intro s hs'
    induction s with
    | zero => exact le_rfl
    | succ s ih => exact (ih (by omega)).trans (hmono t ht s hs')
  have hmon : ∀ s s', s ≤ s' → s' < nSeg → starts t s ≤ starts t s' := by
    intro s s' hss hs'
    induction hss with
    | refl => exact le_rfl
    | step hle ih => exact (ih (by omega)).trans (hmono t ht _ (by omega))
  constructor
  · -- the last segment that starts at or below the gate
    have hex : ∃ k, k < nSeg ∧ ∀ s', k < s' → s' < nSeg → (h : ℤ) + starts t 0 < starts t s' :=
      ⟨nSeg - 1, by omega, fun s' h1 h2 => by omega⟩
    classical
    obtain ⟨k1, k2⟩ := Nat.find_spec hex
    refine ⟨Nat.find hex, k1, ?_, k2⟩
    rcases Nat.eq_zero_or_pos (Nat.find hex) with h0 | h0
    · rw [h0]; omega
    · by_contra hlt
      rw [not_le] at hlt
      refine Nat.find_min hex (m := Nat.find hex - 1) (by omega) ⟨by omega, fun s' h1 h2 => ?_⟩
      rcases Nat.lt_or_ge (Nat.find hex) s' with h3 | h3
      · exact k2 s' h3 h2
      · rw [show s' = Nat.find hex by omega]
        exact hlt
  · rintro s ⟨hs1, hs2, hs3⟩
    obtain ⟨a, ha⟩ : ∃ a : ℕ → ℕ, a = fun s => if s < nSeg then (starts t s - starts t 0).toNat else nH := ⟨_, rfl⟩
    have ha1 : ∀ s, s < nSeg → (a s : ℤ) = starts t s - starts t 0 := by
      intro s hs'
      rw [ha]
      simp only [if_pos hs']
      exact Int.toNat_of_nonneg (by have := hge s hs'; omega)
    have ha2 : a nSeg = nH := by rw [ha]; simp
    have hnext : ∀ s < nSeg, (a (s + 1) : ℤ) = if s + 1 < nSeg then starts t (s + 1) - starts t 0 else (nH : ℤ) := by
      intro s hs'
      split
      · rename_i hlt
        exact ha1 _ hlt
      · rw [show s + 1 = nSeg by omega, ha2]
    have hsize : ∀ s < nSeg, ((if s + 1 < nSeg then starts t (s + 1) - starts t 0 else (nH : ℤ)) -
        (starts t s - starts t 0)).toNat = a (s + 1) - a s := by
      intro s hs'
      rw [← hnext s hs', ← ha1 s hs']
      omega
    have hlist : ((List.range nSeg).flatMap fun s => List.replicate
        ((if s + 1 < nSeg then starts t (s + 1) - starts t 0 else (nH : ℤ)) - (starts t s - starts t 0)).toNat
        (fvel t s)) = (List.range nSeg).flatMap fun s => List.replicate (a (s + 1) - a s) (fvel t s) := by
      simp only [List.flatMap]
      congr 1
      apply List.map_congr_left
      intro s hs'
      rw [hsize s (List.mem_range.1 hs')]
    show List.getD _ h d = _
    rw [hlist]
    refine (replicate_segments nSeg a (fvel t) d fun s hs' => ?_).2.2 s hs1 h ?_ ?_
    · have h1 := hsz t ht s hs'
      rw [← hnext s hs', ← ha1 s hs'] at h1
      omega
    · have h1 := ha1 s hs1
      have h0 := ha1 0 hs
      omega
    · have h0 := ha1 0 hs
      rcases Nat.lt_or_ge (s + 1) nSeg with h1 | h1
      · have h2 := ha1 _ h1
        have h3 := hs3 (s + 1) (by omega) h1
        omega
      · rw [show s + 1 = nSeg by omega, ha2]
        omega

/-- C86. Starts that do not begin with 0 or 1, or that decrease, raise. -/
theorem C86_raises {β : Type} (nT nH nSeg : ℕ) (starts : ℕ → ℕ → ℤ) (fvel : ℕ → ℕ → β) (d : β)
    (h : ∃ t < nT, (starts t 0 ≠ 0 ∧ starts t 0 ≠ 1) ∨ ∃ s, s + 1 < nSeg ∧ starts t (s + 1) < starts t s) :
    ∃ e, expandFolding nT nH nSeg starts fvel d = .error e := by
  unfold expandFolding
  split
  · exact ⟨_, rfl⟩
  · rename_i h1
    simp only
    rw [if_pos]
    · exact ⟨_, rfl⟩
    · obtain ⟨t, ht, h2 | ⟨s, hs, h2⟩⟩ := h
      · exfalso
        apply h1
        rw [List.any_eq_true]
        exact ⟨t, List.mem_range.2 ht, by rw [decide_eq_true_eq]; exact h2⟩
      · rw [List.any_eq_true]
        refine ⟨t, List.mem_range.2 ht, ?_⟩
        rw [List.any_eq_true]
        refine ⟨s, List.mem_range.2 (by omega), ?_⟩
        rw [decide_eq_true_eq, if_pos hs]
        omega

/-- Three segments numbered from one; gates 0 and 1 belong to the first one. -/
example : (expandFolding 1 6 3 (fun _ s => [1, 3, 4].getD s 0) (fun _ s => [5, 6, 7].getD s 0) (0 : ℚ)).toOption.map
    (fun g => (List.range 6).map (g 0)) = some [5, 5, 6, 7, 7, 7] := by decide +kernel

end Cloudnet
