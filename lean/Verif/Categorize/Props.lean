import Verif.Categorize.Model
import Verif.Interp.Props
import Verif.Rebin.Props
import Verif.Times.Props
import Verif.Radar.Props

namespace Cloudnet

/-! C87 -/

section
variable {α : Type} [Field α] [LinearOrder α] [IsStrictOrderedRing α]

/-- `i` is the point closest to `v` among the points with `P`, the first one of two equally close ones. -/
def Spec.IsClosest (P : ℕ → Prop) (x : ℕ → α) (v : α) (i : ℕ) : Prop :=
  P i ∧ ∀ k, P k → |x i - v| ≤ |x k - v| ∧ (k < i → |x i - v| < |x k - v|)

theorem prefix_length (n : ℕ) (p : ℕ → Bool) (hp : ∀ i j, i < j → j < n → p j = true → p i = true) :
    ∃ k ≤ n, ((List.range n).filter p).length = k ∧ ∀ i < n, p i = true ↔ i < k := by
  induction n with
  | zero => exact ⟨0, le_rfl, rfl, fun i hi => by omega⟩
  | succ n ih =>
    obtain ⟨k, h1, h2, h3⟩ := ih fun i j hij hj => hp i j hij (by omega)
    rw [List.range_succ, List.filter_append, List.length_append, h2]
    by_cases hn : p n = true
    · have hk : k = n := by
        by_contra hne
        have hk : k < n := by omega
        have := (h3 k hk).1 (hp k n hk (by omega) hn)
        omega
      subst hk
      refine ⟨k + 1, le_rfl, by simp [hn], fun i hi => ⟨fun _ => hi, fun _ => ?_⟩⟩
      rcases Nat.lt_or_ge i k with h | h
      · exact (h3 i h).2 h
      · rw [show i = k by omega]; exact hn
    · refine ⟨k, by omega, by simp [hn], fun i hi => ?_⟩
      rcases Nat.lt_or_ge i n with h | h
      · exact h3 i h
      · rw [show i = n by omega]
        exact ⟨fun h => absurd h hn, fun h => by omega⟩

theorem regularNearest_spec {m : ℕ} (hm : 1 ≤ m) {x : ℕ → α} (hx : Spec.Increasing m x) (v : α) :
    (regularNearest m x v = none ↔ v < x 0 ∨ x (m - 1) < v) ∧
    ∀ i, regularNearest m x v = some i → Spec.IsClosest (· < m) x v i := by
  unfold regularNearest
  by_cases c : v < x 0 ∨ x (m - 1) < v
  · rw [if_pos c]
    exact ⟨by simp [c], fun i hi => by cases hi⟩
  rw [if_neg c]
  rw [not_or, not_lt, not_lt] at c
  obtain ⟨c1, c2⟩ := c
  have hc : ¬ (v < x 0 ∨ x (m - 1) < v) := by
    rw [not_or, not_lt, not_lt]; exact ⟨c1, c2⟩
  by_cases h1 : m = 1
  · rw [if_pos h1]
    refine ⟨by simp [hc], fun i hi => ?_⟩
    obtain rfl := Option.some.inj hi
    subst h1
    refine ⟨by omega, fun k hk => ?_⟩
    obtain rfl : k = 0 := by omega
    exact ⟨le_rfl, fun h => by omega⟩
  rw [if_neg h1]
  refine ⟨by simp [hc], fun i hi => ?_⟩
  obtain ⟨k, k1, k2, k3⟩ := prefix_length m (fun k => decide (x k ≤ v)) (by
    intro i j hij hj h
    rw [decide_eq_true_eq] at h ⊢
    exact (hx i j hij hj).le.trans h)
  simp only [decide_eq_true_eq] at k3
  simp only [k2] at hi
  have hk0 : 0 < k := (k3 0 (by omega)).1 c1
  obtain ⟨a, ha⟩ : ∃ a, a = min (k - 1) (m - 2) := ⟨_, rfl⟩
  rw [← ha] at hi
  have hi := Option.some.inj hi
  have ha1 : x a ≤ v := (k3 a (by omega)).2 (by omega)
  have ha2 : v ≤ x (a + 1) := by
    rcases Nat.lt_or_ge (k - 1) (m - 2) with h | h
    · rw [show a + 1 = k by omega]
      exact le_of_lt (not_le.1 fun hle => by have := (k3 k (by omega)).1 hle; omega)
    · rw [show a + 1 = m - 1 by omega]; exact c2
  have hstep : x a < x (a + 1) := hx a (a + 1) (by omega) (by omega)
  have hmid : (v - x a) / (x (a + 1) - x a) ≤ 1 / 2 ↔ v - x a ≤ x (a + 1) - v := by
    rw [div_le_iff₀ (by linarith)]
    constructor <;> intro h <;> linarith
  have below : ∀ j ≤ a, |x j - v| = v - x j := by
    intro j hj
    have : x j ≤ x a := hx.le hj (by omega)
    rw [abs_sub_comm, abs_of_nonneg (by linarith)]
  have above : ∀ j, a + 1 ≤ j → j < m → |x j - v| = x j - v := by
    intro j hj hjm
    have : x (a + 1) ≤ x j := hx.le hj hjm
    rw [abs_of_nonneg (by linarith)]
  split at hi
  · rename_i h
    rw [hmid] at h
    subst hi
    refine ⟨by omega, fun j hj => ?_⟩
    rw [below a le_rfl]
    rcases Nat.lt_or_ge a j with hja | hja
    · rw [above j hja hj]
      have : x (a + 1) ≤ x j := hx.le hja hj
      exact ⟨by linarith, fun h => by omega⟩
    · rw [below j hja]
      have : x j ≤ x a := hx.le hja (by omega)
      refine ⟨by linarith, fun h => ?_⟩
      have : x j < x a := hx j a h (by omega)
      linarith
  · rename_i h
    rw [hmid, not_le] at h
    subst hi
    refine ⟨by omega, fun j hj => ?_⟩
    rw [above (a + 1) le_rfl (by omega)]
    rcases Nat.lt_or_ge a j with hja | hja
    · rw [above j hja hj]
      have : x (a + 1) ≤ x j := hx.le hja hj
      exact ⟨by linarith, fun h => by omega⟩
    · rw [below j hja]
      have : x j ≤ x a := hx.le hja (by omega)
      exact ⟨by linarith, fun _ => by linarith⟩

theorem isClosest_unique {P : ℕ → Prop} {x : ℕ → α} {v : α} {i j : ℕ} (hi : Spec.IsClosest P x v i)
    (hj : Spec.IsClosest P x v j) : i = j := by
  rcases Nat.lt_trichotomy i j with h | h | h
  · exact absurd ((hj.2 i hi.1).2 h) (not_lt.2 (hi.2 j hj.1).1)
  · exact h
  · exact absurd ((hi.2 j hj.1).2 h) (not_lt.2 (hj.2 i hi.1).1)

theorem exists_closest {m : ℕ} (hm : 1 ≤ m) {x : ℕ → α} (hx : Spec.Increasing m x) (v : α) :
    ∃ i, Spec.IsClosest (· < m) x v i := by
  obtain ⟨a, h1, -, h2, h3⟩ := interpNearest_spec hm hx (fun _ => 0) v
  exact ⟨a, h1, fun k hk => ⟨h2 k hk, h3 k⟩⟩

theorem getD_filter_range (n : ℕ) (p : ℕ → Bool) :
    let l := (List.range n).filter p
    (∀ a b, a < b → b < l.length → l.getD a 0 < l.getD b 0) ∧
    (∀ a < l.length, l.getD a 0 < n ∧ p (l.getD a 0) = true) ∧
    ∀ t, t < n → p t = true → ∃ a < l.length, l.getD a 0 = t := by
  intro l
  have hpw : l.Pairwise (· < ·) := List.Pairwise.filter _ List.pairwise_lt_range
  refine ⟨fun a b hab hb => ?_, fun a ha => ?_, fun t ht hpt => ?_⟩
  · rw [List.getD_eq_getElem _ _ (by omega), List.getD_eq_getElem _ _ hb]
    exact List.pairwise_iff_getElem.1 hpw a b (by omega) hb hab
  · rw [List.getD_eq_getElem _ _ ha]
    have := List.mem_filter.1 (List.getElem_mem ha)
    exact ⟨List.mem_range.1 this.1, this.2⟩
  · have hmem : t ∈ l := List.mem_filter.2 ⟨List.mem_range.2 ht, hpt⟩
    obtain ⟨a, ha, he⟩ := List.getElem_of_mem hmem
    exact ⟨a, ha, by rw [List.getD_eq_getElem _ _ ha, he]⟩

/-- A lidar profile with at least one value. -/
def Spec.Measured (nT nH : ℕ) (beta : Grid (Option α)) (t : ℕ) : Prop := t < nT ∧ ∃ h < nH, beta t h ≠ none

/-- C87. Lidar data on the new grid. Profiles without any value are ignored. A new time is a gap exactly if no measured
profile is within one minute. A pixel gets the value at the closest measured profile and the closest gate; it is missing
if its time is a gap, if no gate is within 100 m, or if it lies outside the measured times or heights. -/
theorem C87_lidar (nT : ℕ) (time : ℕ → α) (nH : ℕ) (height : ℕ → α) (beta : Grid (Option α)) (nTn : ℕ) (timeNew : ℕ → α)
    (nHn : ℕ) (heightNew : ℕ → α) (hsome : ∃ t, Spec.Measured nT nH beta t)
    (htime : ∀ s t, Spec.Measured nT nH beta s → Spec.Measured nT nH beta t → s < t → time s < time t)
    (hheight : Spec.Increasing nH height) :
    ∃ r gaps, lidarToGrid nT time nH height beta nTn timeNew nHn heightNew = .ok (r, gaps) ∧
      gaps.Pairwise (· < ·) ∧
      (∀ k, k ∈ gaps ↔ k < nTn ∧ ∀ t, Spec.Measured nT nH beta t → 1 / 60 < |timeNew k - time t|) ∧
      ∀ k < nTn, ∀ h < nHn,
        (∃ i j, Spec.IsClosest (Spec.Measured nT nH beta) time (timeNew k) i ∧
          Spec.IsClosest (· < nH) height (heightNew h) j) ∧
        ∀ i j, Spec.IsClosest (Spec.Measured nT nH beta) time (timeNew k) i →
          Spec.IsClosest (· < nH) height (heightNew h) j →
          ((1 / 60 < |time i - timeNew k| ∨ 100 < |height j - heightNew h| ∨
            (∀ t, Spec.Measured nT nH beta t → timeNew k < time t) ∨ (∀ t, Spec.Measured nT nH beta t → time t < timeNew k) ∨
            (∀ g < nH, heightNew h < height g) ∨ (∀ g < nH, height g < heightNew h)) → r k h = none) ∧
          (¬ (1 / 60 < |time i - timeNew k| ∨ 100 < |height j - heightNew h| ∨
            (∀ t, Spec.Measured nT nH beta t → timeNew k < time t) ∨ (∀ t, Spec.Measured nT nH beta t → time t < timeNew k) ∨
            (∀ g < nH, heightNew h < height g) ∨ (∀ g < nH, height g < heightNew h)) → r k h = beta i j) := by
  obtain ⟨p, hp⟩ : ∃ p : ℕ → Bool, p = fun t => (List.range nH).any fun h => (beta t h).isSome := ⟨_, rfl⟩
  have hpm : ∀ t, Spec.Measured nT nH beta t ↔ t < nT ∧ p t = true := by
    intro t
    rw [hp]
    simp only [Spec.Measured, List.any_eq_true, List.mem_range, Option.ne_none_iff_isSome]
  obtain ⟨L, hL⟩ : ∃ L, L = (List.range nT).filter p := ⟨_, rfl⟩
  obtain ⟨l1, l2, l3⟩ := getD_filter_range nT p
  rw [← hL] at l1 l2 l3
  have hLm : ∀ a < L.length, Spec.Measured nT nH beta (L.getD a 0) := fun a ha => (hpm _).2 (l2 a ha)
  have hmL : ∀ t, Spec.Measured nT nH beta t → ∃ a < L.length, L.getD a 0 = t := fun t ht =>
    l3 t ((hpm t).1 ht).1 ((hpm t).1 ht).2
  have hm : 1 ≤ L.length := by
    obtain ⟨t, ht⟩ := hsome
    obtain ⟨a, ha, -⟩ := hmL t ht
    omega
  have hnH : 1 ≤ nH := by
    obtain ⟨t, -, h, hh, -⟩ := hsome
    omega
  obtain ⟨x, hx⟩ : ∃ x : ℕ → α, x = fun i => time (L.getD i 0) := ⟨_, rfl⟩
  have hxinc : Spec.Increasing L.length x := by
    intro a b hab hb
    rw [hx]
    exact htime _ _ (hLm a (by omega)) (hLm b hb) (l1 a b hab hb)
  have hcl : ∀ v a, a < L.length → (Spec.IsClosest (Spec.Measured nT nH beta) time v (L.getD a 0) ↔
      Spec.IsClosest (· < L.length) x v a) := by
    intro v a ha
    constructor
    · rintro ⟨-, h⟩
      refine ⟨ha, fun b hb => ?_⟩
      obtain ⟨h1, h2⟩ := h (L.getD b 0) (hLm b hb)
      rw [hx]
      exact ⟨h1, fun hba => h2 (l1 b a hba ha)⟩
    · rintro ⟨-, h⟩
      refine ⟨hLm a ha, fun t ht => ?_⟩
      obtain ⟨b, hb, rfl⟩ := hmL t ht
      obtain ⟨h1, h2⟩ := h b hb
      rw [hx] at h1 h2
      refine ⟨h1, fun hlt => h2 ?_⟩
      by_contra hge
      rcases Nat.lt_or_ge a b with h3 | h3
      · have := l1 a b h3 hb; omega
      · rw [show a = b by omega] at hlt; omega
  obtain ⟨g1, g2⟩ := C33_gap_indices L.length x (fun i j hij hj => hxinc.le hij hj) nTn timeNew (1 / 60)
  obtain ⟨e1, -⟩ := C33_gap_indices nH height (fun i j hij hj => hheight.le hij hj) nHn heightNew 100
  have hrun : lidarToGrid nT time nH height beta nTn timeNew nHn heightNew = .ok (fun t h =>
      if h ∈ getGapInd nH height nHn heightNew 100 then none else
      if t ∈ getGapInd L.length x nTn timeNew (1 / 60) then none else
      (regularNearest L.length x (timeNew t)).bind fun i =>
        (regularNearest nH height (heightNew h)).bind fun j => beta (L.getD i 0) j,
      getGapInd L.length x nTn timeNew (1 / 60)) := by
    unfold lidarToGrid
    simp only [← hp, ← hL]
    rw [if_neg (by omega), if_neg]
    · rw [hx]
      refine congrArg Except.ok (Prod.ext (funext fun t => funext fun h => ?_) rfl)
      simp only [Grid.assign, cond_eq_ite, decide_eq_true_eq]
    · rw [Bool.or_eq_true, List.any_eq_true, List.any_eq_true]
      rintro (⟨i, hi, h⟩ | ⟨i, hi, h⟩)
      · rw [decide_eq_true_eq] at h
        rw [List.mem_range] at hi
        have := hxinc i (i + 1) (by omega) (by omega)
        rw [hx] at this
        exact absurd this (not_lt.2 h)
      · rw [decide_eq_true_eq] at h
        rw [List.mem_range] at hi
        exact absurd (hheight i (i + 1) (by omega) (by omega)) (not_lt.2 h)
  refine ⟨_, _, hrun, g2, fun k => ?_, fun k hk h hh => ?_⟩
  · rw [g1 k]
    refine and_congr_right fun _ => ⟨fun h t ht => ?_, fun h a ha => ?_⟩
    · obtain ⟨a, ha, rfl⟩ := hmL t ht
      have := h a ha
      rwa [hx] at this
    · rw [hx]
      exact h _ (hLm a ha)
  obtain ⟨a, ha⟩ := exists_closest hm hxinc (timeNew k)
  obtain ⟨j, hj⟩ := exists_closest hnH hheight (heightNew h)
  refine ⟨⟨L.getD a 0, j, (hcl _ a ha.1).2 ha, hj⟩, fun i' j' hi' hj' => ?_⟩
  obtain rfl := isClosest_unique ((hcl _ a ha.1).2 ha) hi'
  obtain rfl := isClosest_unique hj hj'
  obtain ⟨rx1, rx2⟩ := regularNearest_spec hm hxinc (timeNew k)
  obtain ⟨ry1, ry2⟩ := regularNearest_spec hnH hheight (heightNew h)
  have hgapT : k ∈ getGapInd L.length x nTn timeNew (1 / 60) ↔ 1 / 60 < |time (L.getD a 0) - timeNew k| := by
    rw [g1 k]
    have hxa : x a = time (L.getD a 0) := by rw [hx]
    rw [← hxa]
    constructor
    · rintro ⟨-, h1⟩
      rw [abs_sub_comm]
      exact h1 a ha.1
    · intro h1
      refine ⟨hk, fun b hb => ?_⟩
      rw [abs_sub_comm]
      exact h1.trans_le (ha.2 b hb).1
  have hgapH : h ∈ getGapInd nH height nHn heightNew 100 ↔ 100 < |height j - heightNew h| := by
    rw [e1 h]
    constructor
    · rintro ⟨-, h1⟩
      rw [abs_sub_comm]
      exact h1 j hj.1
    · intro h1
      refine ⟨hh, fun b hb => ?_⟩
      rw [abs_sub_comm]
      exact h1.trans_le (hj.2 b hb).1
  have houtT : (regularNearest L.length x (timeNew k) = none) ↔
      (∀ t, Spec.Measured nT nH beta t → timeNew k < time t) ∨ (∀ t, Spec.Measured nT nH beta t → time t < timeNew k) := by
    rw [rx1]
    have hxe : ∀ b, x b = time (L.getD b 0) := fun b => by rw [hx]
    refine or_congr ⟨fun h1 t ht => ?_, fun h1 => ?_⟩ ⟨fun h1 t ht => ?_, fun h1 => ?_⟩
    · obtain ⟨b, hb, rfl⟩ := hmL t ht
      rw [← hxe]
      exact h1.trans_le (hxinc.le (Nat.zero_le b) hb)
    · rw [hxe]
      exact h1 _ (hLm 0 (by omega))
    · obtain ⟨b, hb, rfl⟩ := hmL t ht
      rw [← hxe]
      exact lt_of_le_of_lt (hxinc.le (by omega) (by omega)) h1
    · rw [hxe]
      exact h1 _ (hLm _ (by omega))
  have houtH : (regularNearest nH height (heightNew h) = none) ↔
      (∀ g < nH, heightNew h < height g) ∨ (∀ g < nH, height g < heightNew h) := by
    rw [ry1]
    refine or_congr ⟨fun h1 g hg => ?_, fun h1 => ?_⟩ ⟨fun h1 g hg => ?_, fun h1 => ?_⟩
    · exact h1.trans_le (hheight.le (Nat.zero_le g) hg)
    · exact h1 0 (by omega)
    · exact lt_of_le_of_lt (hheight.le (by omega) (by omega)) h1
    · exact h1 _ (by omega)
  simp only [hgapT, hgapH]
  constructor
  · intro hbad
    rcases hbad with h1 | h1 | h1
    · rw [if_pos h1]; split <;> rfl
    · rw [if_pos h1]
    · split
      · rfl
      · split
        · rfl
        · rcases h1 with h1 | h1 | h1 | h1
          · rw [houtT.2 (Or.inl h1)]; rfl
          · rw [houtT.2 (Or.inr h1)]; rfl
          · rw [houtH.2 (Or.inl h1)]
            cases regularNearest L.length x (timeNew k) <;> rfl
          · rw [houtH.2 (Or.inr h1)]
            cases regularNearest L.length x (timeNew k) <;> rfl
  · intro hgood
    simp only [not_or] at hgood
    obtain ⟨n1, n2, n3, n4, n5, n6⟩ := hgood
    rw [if_neg n2, if_neg n1]
    rcases hrx : regularNearest L.length x (timeNew k) with _ | a'
    · rcases houtT.1 hrx with h1 | h1
      · exact absurd h1 n3
      · exact absurd h1 n4
    · rcases hry : regularNearest nH height (heightNew h) with _ | j'
      · rcases houtH.1 hry with h1 | h1
        · exact absurd h1 n5
        · exact absurd h1 n6
      · obtain rfl := isClosest_unique (rx2 a' hrx) ha
        obtain rfl := isClosest_unique (ry2 j' hry) hj
        rfl

/-- Three profiles, the second one empty; new times 30 s after the first and 3 minutes after it. -/
example :
    let beta : Grid (Option ℚ) := fun t h => if t = 1 then none else some (10 * t + h)
    let r := lidarToGrid (α := ℚ) 3 (fun t => t / 10) 2 (fun h => 50 * h) beta 2 (fun k => if k = 0 then 1 / 120 else 1 / 20) 2
      (fun h => 20 + 200 * h)
    r.toOption.map (fun r => (r.1 0 0, r.1 0 1, r.1 1 0, r.2)) = some (some 0, none, none, [1]) := by
  decide +kernel

end

/-! C65 -/

/-- A stored variable after keeping the profiles `ind` of `n`: vectors and fields with one record per profile keep
exactly these records; everything else is unchanged. -/
def Spec.keepProfiles {α : Type} (n : ℕ) (ind : List ℕ) : NdArray α → NdArray α
  | .d1 xs => .d1 (if xs.length = n then Spec.records ind xs else xs)
  | .d2 xs => .d2 (if xs.length = n then Spec.records ind xs else xs)
  | a => a

theorem validIndices_spec (n : ℕ) (a b c : List ℕ) :
    (validIndices n a b c).Pairwise (· < ·) ∧ ∀ i, i ∈ validIndices n a b c ↔ i < n ∧ i ∉ a ∧ i ∉ b ∧ i ∉ c := by
  unfold validIndices
  refine ⟨List.Pairwise.filter _ List.pairwise_lt_range, fun i => ?_⟩
  simp only [List.mem_filter, List.mem_range, List.mem_append, decide_eq_true_eq, not_or]
  tauto

theorem screenProfiles_spec {α : Type} (n : ℕ) (hn : n ≠ 1) (ind : List ℕ) (hind : ∀ i ∈ ind, i < n) (a : NdArray α) :
    screenProfiles n ind a = .ok (Spec.keepProfiles n ind a) := by
  unfold screenProfiles
  cases a with
  | d0 x => rfl
  | d1 xs =>
    by_cases h : xs.length = n
    · simp only [NdArray.len?, h, Option.some.injEq, hn, reduceCtorEq, or_self, if_false, if_true, Spec.keepProfiles]
      rw [take_idx ind xs (by rw [h]; exact hind)]
      rfl
    · simp [NdArray.len?, h, Spec.keepProfiles]
  | d2 xs =>
    by_cases h : xs.length = n
    · simp only [NdArray.len?, h, Option.some.injEq, hn, reduceCtorEq, or_self, if_false, if_true, Spec.keepProfiles]
      rw [take_idx ind xs (by rw [h]; exact hind)]
      rfl
    · simp [NdArray.len?, h, Spec.keepProfiles]
  | d3 xs => simp [NdArray.len?, Spec.keepProfiles]
  | dn xs => simp [NdArray.len?, Spec.keepProfiles]

/-- C65. Let the valid profiles be those that are no gap of radar, lidar and model. Fewer than two raise. Else they are
kept, in their order, in the time of the radar, in every vector and field with one record per profile, of every source,
and in the dense model fields; nothing else changes. -/
theorem C65_screening {α : Type} (time : List α) (hn : time.length ≠ 1) (radarGap lidarGap modelGap : List ℕ)
    (d : CatData α) (hd : ∀ v ∈ d.modelDense, v.2.length = time.length) :
    ∃ valid : List ℕ, valid.Pairwise (· < ·) ∧
      (∀ i, i ∈ valid ↔ i < time.length ∧ i ∉ radarGap ∧ i ∉ lidarGap ∧ i ∉ modelGap) ∧
      (valid.length < 2 → screenObservations time radarGap lidarGap modelGap d = .error "ValidTimeStampError") ∧
      (2 ≤ valid.length → screenObservations time radarGap lidarGap modelGap d = .ok
        { sources := d.sources.map fun s => (s.1, s.2.map fun v => (v.1, Spec.keepProfiles time.length valid v.2))
          modelDense := d.modelDense.map fun v => (v.1, Spec.records valid v.2)
          radarTime := Spec.records valid time }) := by
  obtain ⟨h1, h2⟩ := validIndices_spec time.length radarGap lidarGap modelGap
  refine ⟨_, h1, h2, fun h => ?_, fun h => ?_⟩
  · unfold screenObservations
    exact if_pos h
  · unfold screenObservations
    simp only
    rw [if_neg (by omega)]
    generalize validIndices time.length radarGap lidarGap modelGap = valid at *
    have hv : ∀ i ∈ valid, i < time.length := fun i hi => ((h2 i).1 hi).1
    unfold screenBadTimeIndices
    rw [take_idx valid time hv]
    simp only [bind, Except.bind, pure, Except.pure]
    rw [mapM_ok (g := fun s => (s.1, s.2.map fun v => (v.1, Spec.keepProfiles time.length valid v.2)))]
    · simp only
      rw [mapM_ok (g := fun v => (v.1, Spec.records valid v.2))]
      · rfl
      · intro v hv'
        rw [take_idx valid v.2 (by rw [hd v hv']; exact hv)]
        rfl
    · intro s _
      rw [mapM_ok (g := fun v => (v.1, Spec.keepProfiles time.length valid v.2))]
      intro v _
      rw [screenProfiles_spec _ hn valid hv]


/-- C65. The profiles kept, for the gaps found by the three sources: those with a radar profile in the bin, a lidar
profile with data within one minute and some model temperature. -/
theorem C65_kept_profiles {α : Type} [Field α] [LinearOrder α] [IsStrictOrderedRing α]
    (nRadar : ℕ) (radarTime : ℕ → α) (z : Grid (Option α)) (nLidar : ℕ) (lidarTime : ℕ → α) (nGates : ℕ) (gates : ℕ → α)
    (beta : Grid (Option α)) (hsome : ∃ t, Spec.Measured nLidar nGates beta t)
    (htime : ∀ s t, Spec.Measured nLidar nGates beta s → Spec.Measured nLidar nGates beta t → s < t →
      lidarTime s < lidarTime t) (hgates : Spec.Increasing nGates gates)
    (n : ℕ) (hn : 2 ≤ n) (time : ℕ → α) (step : α) (hgrid : Spec.EvenlySpaced n time step) (nH : ℕ) (height : ℕ → α)
    (temperature : Grid (Option α)) :
    ∃ rebinned lidar lidarGap, rebin2d maMean nRadar radarTime z n time 1 false = .ok rebinned ∧
      lidarToGrid nLidar lidarTime nGates gates beta n time nH height = .ok (lidar, lidarGap) ∧
      ∀ i, i ∈ validIndices n rebinned.emptyBins lidarGap (findMaskedProfiles n nH temperature) ↔
        i < n ∧ (Spec.profilesInBin nRadar radarTime (time i) step).Nonempty ∧
        (∃ t, Spec.Measured nLidar nGates beta t ∧ |time i - lidarTime t| ≤ 1 / 60) ∧
        ∃ h < nH, temperature i h ≠ none := by
  obtain ⟨r, r1, r2, -⟩ := C30_rebin_2d_mean nRadar radarTime z hn hgrid (nMin := 1) le_rfl
  obtain ⟨l, g, l1, -, l2, -⟩ := C87_lidar nLidar lidarTime nGates gates beta n time nH height hsome htime hgates
  refine ⟨r, l, g, r1, l1, fun i => ?_⟩
  rw [(validIndices_spec _ _ _ _).2 i]
  refine and_congr_right fun hi => ?_
  have h1 : i ∈ r.emptyBins ↔ ¬ (Spec.profilesInBin nRadar radarTime (time i) step).Nonempty := by
    rw [(r2 i hi 0).1, ← Finset.card_pos]
    omega
  have h3 : i ∈ findMaskedProfiles n nH temperature ↔ ¬ ∃ h < nH, temperature i h ≠ none := by
    unfold findMaskedProfiles
    rw [List.mem_filter, List.mem_range, decide_eq_true_eq, List.length_eq_zero_iff, List.filter_eq_nil_iff]
    simp only [List.mem_range, Option.ne_none_iff_isSome]
    constructor
    · rintro ⟨-, h⟩ ⟨k, hk, hs⟩
      exact h k hk hs
    · intro h
      exact ⟨hi, fun k hk hs => h ⟨k, hk, hs⟩⟩
  rw [h1, h3, l2 i, not_not, not_not]
  refine and_congr_right fun _ => and_congr_left fun _ => ?_
  constructor
  · intro h
    by_contra hno
    exact h ⟨hi, fun t ht => not_le.1 fun hle => hno ⟨t, ht, hle⟩⟩
  · rintro ⟨t, ht, hle⟩ ⟨-, h⟩
    exact absurd (h t ht) (not_lt.2 hle)

/-- Profile 1 is a lidar gap: time, echo and model field lose it, the heights stay. -/
example : (screenObservations [0, 1, 2] [] [1] []
      { sources := [("radar", [("Z", .d2 [[1, 2], [3, 4], [5, 6]]), ("height", .d1 [7, 8])])]
        modelDense := [("q", [[1], [2], [3]])], radarTime := [] : CatData ℕ }) =
    .ok { sources := [("radar", [("Z", .d2 [[1, 2], [5, 6]]), ("height", .d1 [7, 8])])]
          modelDense := [("q", [[1], [3]])], radarTime := [0, 2] } := by
  rfl

/-! C66 -/

section
variable {β : Type}

theorem lookup_dictSet (d : List (String × β)) (k : String) (v : β) (name : String) :
    (dictSet d k v).lookup name = if name = k then some v else d.lookup name := by
  unfold dictSet
  by_cases hk : name = k
  · subst hk
    rw [if_pos rfl]
    split
    · rename_i h
      induction d with
      | nil => simp at h
      | cons p d ih =>
        obtain ⟨k', x⟩ := p
        by_cases h' : k' = name
        · subst h'; simp
        · have h1 : (k' == name) = false := by simpa using h'
          have h2 : (name == k') = false := by simpa using fun h => h' h.symm
          simp only [List.any_cons, h1, Bool.false_or] at h
          simp only [List.map_cons, h1, List.lookup, h2, Bool.false_eq_true, if_false]
          exact ih h
    · rename_i h
      rw [List.lookup_append]
      have : d.lookup name = none := by
        rw [List.lookup_eq_none_iff]
        intro p hp
        rw [Bool.not_eq_true, List.any_eq_false] at h
        have := h p hp
        simp only [beq_iff_eq, bne_iff_ne] at this ⊢
        exact fun he => this he.symm
      simp [this, List.lookup]
  · rw [if_neg hk]
    have hk' : (name == k) = false := by simpa using hk
    split
    · induction d with
      | nil => rfl
      | cons p d ih =>
        obtain ⟨k', x⟩ := p
        by_cases h' : k' = k
        · subst h'
          simp only [List.map_cons, beq_self_eq_true, if_true, List.lookup, hk']
          by_cases hany : d.any fun p => p.1 == k'
          · exact ih hany
          · have : d.map (fun p => if p.1 == k' then (k', v) else p) = d := by
              rw [Bool.not_eq_true, List.any_eq_false] at hany
              conv_rhs => rw [← List.map_id d]
              apply List.map_congr_left
              intro p hp
              rw [if_neg (hany p hp)]
              rfl
            rw [this]
        · have h1 : (k' == k) = false := by simpa using h'
          rename_i h
          simp only [List.any_cons, h1, Bool.false_or] at h
          simp only [List.map_cons, h1, List.lookup, Bool.false_eq_true, if_false]
          cases name == k'
          · exact ih h
          · rfl
    · rw [List.lookup_append]
      simp [List.lookup, hk']

theorem keys_dictSet (d : List (String × β)) (k : String) (v : β) (h : (d.map Prod.fst).Nodup) :
    ((dictSet d k v).map Prod.fst).Nodup := by
  unfold dictSet
  split
  · have : (d.map fun p => if p.1 == k then (k, v) else p).map Prod.fst = d.map Prod.fst := by
      rw [List.map_map]
      apply List.map_congr_left
      intro p _
      by_cases hp : p.1 = k
      · simp [hp]
      · simp [hp]
    rwa [this]
  · rename_i hno
    rw [List.map_append, List.nodup_append]
    refine ⟨h, by simp, ?_⟩
    intro a ha b hb
    simp only [List.map_cons, List.map_nil, List.mem_singleton] at hb
    subst hb
    rintro rfl
    apply hno
    rw [List.any_eq_true]
    obtain ⟨p, hp, rfl⟩ := List.mem_map.1 ha
    exact ⟨p, hp, by simp⟩

theorem lookup_dictMerge (a b : List (String × β)) (hb : (b.map Prod.fst).Nodup) (name : String) :
    (dictMerge a b).lookup name = (b.lookup name).or (a.lookup name) := by
  unfold dictMerge
  induction b generalizing a with
  | nil => rfl
  | cons p b ih =>
    obtain ⟨k, v⟩ := p
    rw [List.map_cons, List.nodup_cons] at hb
    rw [List.foldl_cons, ih _ hb.2, lookup_dictSet]
    by_cases hk : name = k
    · subst hk
      have : b.lookup name = none := by
        rw [List.lookup_eq_none_iff]
        intro p hp
        simp only [bne_iff_ne]
        rintro rfl
        exact hb.1 (List.mem_map.2 ⟨p, hp, rfl⟩)
      simp [this, List.lookup]
    · have hk' : (name == k) = false := by simpa using hk
      rw [if_neg hk]
      simp [List.lookup, hk']

theorem keys_dictMerge (a b : List (String × β)) (ha : (a.map Prod.fst).Nodup) :
    ((dictMerge a b).map Prod.fst).Nodup := by
  unfold dictMerge
  induction b generalizing a with
  | nil => exact ha
  | cons p b ih =>
    rw [List.foldl_cons]
    exact ih _ (keys_dictSet a p.1 p.2 ha)

theorem lookup_dictPop (d : List (String × β)) (k name : String) :
    (dictPop d k).lookup name = if name = k then none else d.lookup name := by
  unfold dictPop
  induction d with
  | nil => simp
  | cons p d ih =>
    obtain ⟨k', v⟩ := p
    by_cases h1 : k' = k
    · subst h1
      simp only [List.filter_cons, bne_self_eq_false, Bool.false_eq_true, if_false]
      rw [ih]
      by_cases h2 : name = k'
      · simp [h2]
      · have : (name == k') = false := by simpa using h2
        simp [List.lookup, this, h2]
    · have h1' : (k' != k) = true := by simpa using h1
      simp only [List.filter_cons, h1', if_true]
      by_cases h2 : name = k'
      · subst h2
        simp [List.lookup, h1]
      · have : (name == k') = false := by simpa using h2
        simp only [List.lookup, this]
        exact ih

/-- C66. Every variable of the categorize output comes from the last source that has it, in the order radar, results of
the processing, lidar, model, sparse model fields, microwave radiometer, disdrometer. With a disdrometer the rainfall
rate of the radar is dropped; the particle number of the disdrometer is never written, and of the sparse model fields
only temperature, pressure, humidity and wind. No name appears twice. -/
theorem C66_output (radar lidar model sparse : List (String × β)) (mwr disdrometer : Option (List (String × β)))
    (r : CatResults β) (hr : (radar.map Prod.fst).Nodup) (hl : (lidar.map Prod.fst).Nodup)
    (hm : (model.map Prod.fst).Nodup) (hmwr : ∀ d, mwr = some d → (d.map Prod.fst).Nodup)
    (hdis : ∀ d, disdrometer = some d → (d.map Prod.fst).Nodup) (t p q u v : β)
    (ht : sparse.lookup "temperature" = some t) (hp : sparse.lookup "pressure" = some p)
    (hq : sparse.lookup "q" = some q) (hu : sparse.lookup "uwind" = some u) (hv : sparse.lookup "vwind" = some v) :
    ∃ out, prepareOutput radar lidar model sparse mwr disdrometer r = .ok out ∧ (out.map Prod.fst).Nodup ∧
      ∀ name, out.lookup name =
        ((if name = "n_particles" then none else disdrometer.bind fun d => d.lookup name).or <|
          (mwr.bind fun d => d.lookup name).or <|
          ([("temperature", t), ("pressure", p), ("q", q), ("uwind", u), ("vwind", v)].lookup name).or <|
          (model.lookup name).or <| (lidar.lookup name).or <|
          ([("time", r.time), ("height", r.height), ("radar_frequency", r.radarFrequency),
            ("radar_gas_atten", r.gasAtten), ("radar_liquid_atten", r.liquidAtten), ("radar_rain_atten", r.rainAtten),
            ("radar_melting_atten", r.meltingAtten), ("quality_bits", r.qualityBits), ("insect_prob", r.insectProb),
            ("rain_detected", r.rainDetected), ("category_bits", r.categoryBits)].lookup name).or <|
          (if name = "liquid_prob" then r.liquidProb else none).or <|
          (if name = "rainfall_rate" ∧ disdrometer ≠ none then none else radar.lookup name)) := by
  have hsp : screenSparseFields sparse =
      .ok [("temperature", t), ("pressure", p), ("q", q), ("uwind", u), ("vwind", v)] := by
    simp [screenSparseFields, List.mapM_cons, ht, hp, hq, hu, hv, bind, Except.bind, pure, Except.pure]
  have hpop : ∀ (d : List (String × β)) k, (d.map Prod.fst).Nodup → ((dictPop d k).map Prod.fst).Nodup :=
    fun d k hd => hd.sublist (List.filter_sublist.map _)
  have hd2 : (((disdrometer.map fun d => dictPop d "n_particles").getD []).map Prod.fst).Nodup := by
    rcases disdrometer with _ | d
    · exact List.nodup_nil
    · exact hpop d _ (hdis d rfl)
  have hm2 : ((mwr.getD []).map Prod.fst).Nodup := by
    rcases mwr with _ | d
    · exact List.nodup_nil
    · exact hmwr d rfl
  have ht2 : (r.toList2.map Prod.fst).Nodup := by
    unfold CatResults.toList2 CatResults.liquidProbList
    cases r.liquidProb <;> simp
  have ht1 : (r.toList.map Prod.fst).Nodup := by
    unfold CatResults.toList
    simp
  obtain ⟨radar1, hr1⟩ : ∃ x, x = dictMerge radar r.toList := ⟨_, rfl⟩
  obtain ⟨radar2, hr2⟩ : ∃ x, x = if disdrometer.isSome then dictPop radar1 "rainfall_rate" else radar1 := ⟨_, rfl⟩
  have k1 : (radar1.map Prod.fst).Nodup := by rw [hr1]; exact keys_dictMerge _ _ hr
  have k2 : (radar2.map Prod.fst).Nodup := by
    rw [hr2]
    split
    · exact hpop _ _ k1
    · exact k1
  have hout : prepareOutput radar lidar model sparse mwr disdrometer r = .ok
      (dictMerge (dictMerge (dictMerge (dictMerge (dictMerge (dictMerge radar2 r.toList2) lidar) model)
        [("temperature", t), ("pressure", p), ("q", q), ("uwind", u), ("vwind", v)]) (mwr.getD []))
        ((disdrometer.map fun d => dictPop d "n_particles").getD [])) := by
    unfold prepareOutput
    rw [hsp, hr2, hr1]
    rfl
  refine ⟨_, hout, ?_, fun name => ?_⟩
  · exact keys_dictMerge _ _ (keys_dictMerge _ _ (keys_dictMerge _ _ (keys_dictMerge _ _ (keys_dictMerge _ _
      (keys_dictMerge _ _ k2)))))
  · rw [lookup_dictMerge _ _ hd2, lookup_dictMerge _ _ hm2, lookup_dictMerge _ _ (by simp), lookup_dictMerge _ _ hm,
      lookup_dictMerge _ _ hl, lookup_dictMerge _ _ ht2]
    have e1 : ((disdrometer.map fun d => dictPop d "n_particles").getD []).lookup name =
        if name = "n_particles" then none else disdrometer.bind fun d => d.lookup name := by
      rcases disdrometer with _ | d
      · simp
      · exact lookup_dictPop d "n_particles" name
    have e2 : (mwr.getD []).lookup name = mwr.bind fun d => d.lookup name := by
      rcases mwr with _ | d <;> rfl
    have e3 : radar2.lookup name = if name = "rainfall_rate" ∧ disdrometer ≠ none then none
        else (r.toList.lookup name).or (radar.lookup name) := by
      rw [hr2, ← lookup_dictMerge radar r.toList ht1, ← hr1]
      rcases disdrometer with _ | d
      · simp
      · simp only [Option.isSome_some, if_true, lookup_dictPop]
        simp
    rw [e1, e2, e3]
    congr 5
    unfold CatResults.toList CatResults.toList2
    by_cases h1 : name = "rainfall_rate" ∧ disdrometer ≠ none
    · obtain ⟨rfl, h2⟩ := h1
      simp only [h2, ne_eq, not_false_eq_true, and_self, if_true]
      unfold CatResults.liquidProbList
      cases r.liquidProb <;> simp [List.lookup]
    · simp only [if_neg h1]
      clear * -
      obtain ⟨A, hA⟩ : ∃ A, A = [("radar_gas_atten", r.gasAtten), ("radar_liquid_atten", r.liquidAtten),
          ("radar_rain_atten", r.rainAtten), ("radar_melting_atten", r.meltingAtten), ("quality_bits", r.qualityBits),
          ("insect_prob", r.insectProb), ("rain_detected", r.rainDetected), ("category_bits", r.categoryBits)] := ⟨_, rfl⟩
      obtain ⟨B, hB⟩ : ∃ B, B = [("time", r.time), ("height", r.height), ("radar_frequency", r.radarFrequency)] :=
        ⟨_, rfl⟩
      have hBA : B ++ A = [("time", r.time), ("height", r.height), ("radar_frequency", r.radarFrequency),
            ("radar_gas_atten", r.gasAtten), ("radar_liquid_atten", r.liquidAtten), ("radar_rain_atten", r.rainAtten),
            ("radar_melting_atten", r.meltingAtten), ("quality_bits", r.qualityBits), ("insect_prob", r.insectProb),
            ("rain_detected", r.rainDetected), ("category_bits", r.categoryBits)] := by
        rw [hA, hB]
        rfl
      have hC : r.liquidProbList.lookup name = if name = "liquid_prob" then r.liquidProb else none := by
        unfold CatResults.liquidProbList
        by_cases h : name = "liquid_prob"
        · subst h
          cases r.liquidProb <;> simp [List.lookup]
        · have h' : (name == "liquid_prob") = false := by simpa using h
          cases r.liquidProb <;> simp [List.lookup, h, h']
      rw [← hBA, ← hA, ← hB, List.lookup_append, List.lookup_append, hC, Option.or_assoc, Option.or_assoc]
      have hdis : B.lookup name = none ∨ A.lookup name = none ∧ name ≠ "liquid_prob" := by
        rw [hA, hB]
        by_cases a1 : name = "time"
        · subst a1; right; simp [List.lookup]
        by_cases a2 : name = "height"
        · subst a2; right; simp [List.lookup]
        by_cases a3 : name = "radar_frequency"
        · subst a3; right; simp [List.lookup]
        left
        simp only [List.lookup, beq_false_of_ne a1, beq_false_of_ne a2, beq_false_of_ne a3]
      rcases hdis with h | ⟨h1, h2⟩
      · rw [h]; simp
      · rw [h1, if_neg h2]; simp

/-- C66. A sparse model field that is needed but missing raises. -/
theorem C66_raises (radar lidar model sparse : List (String × β)) (mwr disdrometer : Option (List (String × β)))
    (r : CatResults β) (name : String) (hname : name ∈ ["temperature", "pressure", "q", "uwind", "vwind"])
    (h : sparse.lookup name = none) :
    prepareOutput radar lidar model sparse mwr disdrometer r = .error "KeyError" := by
  have hsp : screenSparseFields sparse = .error "KeyError" := by
    unfold screenSparseFields
    simp only [List.mem_cons, List.not_mem_nil, or_false] at hname
    simp only [List.mapM_cons, List.mapM_nil, bind, Except.bind, pure, Except.pure]
    rcases hname with rfl | rfl | rfl | rfl | rfl <;> rw [h] <;> cases sparse.lookup "temperature" <;>
      cases sparse.lookup "pressure" <;> cases sparse.lookup "q" <;> cases sparse.lookup "uwind" <;> rfl
  unfold prepareOutput
  rw [hsp]
  rfl

/-- The rainfall rate of the disdrometer replaces that of the radar. -/
example : (prepareOutput [("Z", 1), ("rainfall_rate", 2)] [("beta", 3)] [("Tw", 4)]
      [("temperature", 5), ("rh", 0), ("pressure", 6), ("q", 7), ("uwind", 8), ("vwind", 9)] none
      (some [("rainfall_rate", 10), ("n_particles", 11)])
      ⟨20, 21, 22, 23, 24, 25, 26, 27, 28, 29, 30, none⟩).toOption.map (fun d =>
      (d.lookup "rainfall_rate", d.lookup "n_particles", d.lookup "rh", d.lookup "temperature", d.lookup "Z")) =
    some (some 10, none, none, some 5, some 1) := by
  decide +kernel

end

/-- C87. Without any value of the lidar there is no product. -/
theorem C87_lidar_refused {α : Type} [Field α] [LinearOrder α] [IsStrictOrderedRing α] (nT : ℕ) (time : ℕ → α) (nH : ℕ) (height : ℕ → α) (beta : Grid (Option α)) (nTn : ℕ) (timeNew : ℕ → α)
    (nHn : ℕ) (heightNew : ℕ → α) (h : ∀ t, ¬ Spec.Measured nT nH beta t) :
    lidarToGrid nT time nH height beta nTn timeNew nHn heightNew = .error "IndexError" := by
  have e : ((List.range nT).filter fun t => (List.range nH).any fun h => (beta t h).isSome) = [] := by
    rw [List.filter_eq_nil_iff]
    intro t ht hs
    rw [List.any_eq_true] at hs
    obtain ⟨g, hg, hs⟩ := hs
    exact h t ⟨List.mem_range.1 ht, g, List.mem_range.1 hg, Option.ne_none_iff_isSome.2 hs⟩
  unfold lidarToGrid
  simp only [e]
  rfl
/-- C87. Nor is there one if the times of measured profiles, or the heights, do not increase. -/
theorem C87_lidar_order {α : Type} [Field α] [LinearOrder α] [IsStrictOrderedRing α] (nT : ℕ) (time : ℕ → α) (nH : ℕ) (height : ℕ → α)
    (beta : Grid (Option α)) (nTn : ℕ) (timeNew : ℕ → α) (nHn : ℕ) (heightNew : ℕ → α)
    (h : (∃ s t, Spec.Measured nT nH beta s ∧ Spec.Measured nT nH beta t ∧ s < t ∧ time t ≤ time s) ∨ ∃ i j, i < j ∧ j < nH ∧ height j ≤ height i) :
    ∃ e, lidarToGrid nT time nH height beta nTn timeNew nHn heightNew = .error e := by
  have chain : ∀ (n : ℕ) (x : ℕ → α), (List.range (n - 1)).any (fun i => decide (x (i + 1) ≤ x i)) = false → ∀ i j, i < j → j < n → x i < x j := by
    intro n x hx i j hij hj
    rw [List.any_eq_false] at hx
    have step : ∀ k, k + 1 < n → x k < x (k + 1) := fun k hk => by
      have := hx k (List.mem_range.2 (by omega))
      simpa using this
    induction j with
    | zero => omega
    | succ j ih =>
      rcases Nat.lt_or_ge i j with h1 | h1
      · exact (ih h1 (by omega)).trans (step j hj)
      · rw [show i = j by omega]; exact step j hj
  obtain ⟨p, hp⟩ : ∃ p : ℕ → Bool, p = fun t => (List.range nH).any fun h => (beta t h).isSome := ⟨_, rfl⟩
  have hpm : ∀ t, Spec.Measured nT nH beta t ↔ t < nT ∧ p t = true := by
    intro t
    rw [hp]
    simp only [Spec.Measured, List.any_eq_true, List.mem_range, Option.ne_none_iff_isSome]
  obtain ⟨L, hL⟩ : ∃ L, L = (List.range nT).filter p := ⟨_, rfl⟩
  obtain ⟨l1, -, l3⟩ := getD_filter_range nT p
  rw [← hL] at l1 l3
  unfold lidarToGrid
  simp only [← hp, ← hL]
  by_cases h0 : L.length = 0 ∨ nH = 0
  · rw [if_pos h0]; exact ⟨_, rfl⟩
  rw [if_neg h0]
  by_cases h1 : ((List.range (L.length - 1)).any (fun i => decide (time (L.getD (i + 1) 0) ≤ time (L.getD i 0))) ||
      (List.range (nH - 1)).any (fun i => decide (height (i + 1) ≤ height i))) = true
  · rw [if_pos h1]; exact ⟨_, rfl⟩
  exfalso
  rw [Bool.not_eq_true, Bool.or_eq_false_iff] at h1
  rcases h with ⟨s, t, hs, ht, hst, hle⟩ | ⟨i, j, hij, hj, hle⟩
  · obtain ⟨a, ha, ea⟩ := l3 s ((hpm s).1 hs).1 ((hpm s).1 hs).2
    obtain ⟨b, hb, eb⟩ := l3 t ((hpm t).1 ht).1 ((hpm t).1 ht).2
    have hab : a < b := by
      by_contra hge
      rcases Nat.lt_or_ge b a with h2 | h2
      · have := l1 b a h2 ha; omega
      · have : a = b := by omega
        subst this; omega
    have := chain L.length (fun i => time (L.getD i 0)) h1.1 a b hab hb
    simp only [ea, eb] at this
    exact absurd this (not_lt.2 hle)
  · exact absurd (chain nH height h1.2 i j hij hj) (not_lt.2 hle)
/-- The second profile was measured before the first one. -/
example : (∃ s t, Spec.Measured 2 1 (fun _ _ => some (1 : ℚ)) s ∧ Spec.Measured 2 1 (fun _ _ => some (1 : ℚ)) t ∧ s < t ∧
    (fun t : ℕ => if t = 0 then (1 : ℚ) else 0) t ≤ (fun t : ℕ => if t = 0 then (1 : ℚ) else 0) s) :=
  ⟨0, 1, ⟨by norm_num, 0, by norm_num, by simp⟩, ⟨by norm_num, 0, by norm_num, by simp⟩, by norm_num, by norm_num⟩

end Cloudnet
