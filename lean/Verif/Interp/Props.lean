import Verif.Interp.Model
import Verif.Search.Props
import Verif.Arrays.Props
import Mathlib.Algebra.Order.Floor.Semiring
import Mathlib.Algebra.Order.Ring.Rat
import Mathlib.Data.Rat.Floor
import Mathlib.Data.List.GetD
import Mathlib.Tactic.Linarith
import Mathlib.Tactic.FieldSimp
import Mathlib.Tactic.Ring
import Mathlib.Tactic.NormNum
import Mathlib.Tactic.Positivity

/-!
Properties C32 (interpolation along height), C33 (gap detection), C34 (1-D interpolation), C35 (time
grid), C36 (seconds to hours), C75 (gate edges to mid points).
-/

set_option linter.unusedSectionVars false
set_option linter.unusedSimpArgs false

namespace Cloudnet

variable {α : Type} [Field α] [LinearOrder α] [IsStrictOrderedRing α]

/-- The first `m` elements of `x` are strictly increasing. -/
def Spec.Increasing (m : ℕ) (x : ℕ → α) : Prop := ∀ i j, i < j → j < m → x i < x j

theorem Spec.Increasing.le {m : ℕ} {x : ℕ → α} (hx : Spec.Increasing m x) {i j : ℕ} (hij : i ≤ j)
    (hj : j < m) : x i ≤ x j := by
  rcases Nat.eq_or_lt_of_le hij with h | h
  · rw [h]
  · exact le_of_lt (hx i j h hj)

theorem vmin_spec (y : ℕ → α) (m : ℕ) : (∃ i ≤ m, vmin y m = y i) ∧ ∀ i ≤ m, vmin y m ≤ y i := by
  unfold vmin
  induction m with
  | zero => exact ⟨⟨0, le_refl _, rfl⟩, fun i hi => by rw [Nat.le_zero.1 hi]; exact le_refl _⟩
  | succ m ih =>
    obtain ⟨⟨i, hi, h1⟩, h2⟩ := ih
    simp only [argmin]
    split
    · next hlt =>
      refine ⟨⟨m + 1, le_refl _, rfl⟩, fun j hj => ?_⟩
      rcases Nat.lt_or_ge j (m + 1) with h | h
      · exact le_trans (le_of_lt hlt) (h2 j (by omega))
      · rw [show j = m + 1 by omega]
    · next hlt =>
      refine ⟨⟨i, by omega, h1⟩, fun j hj => ?_⟩
      rcases Nat.lt_or_ge j (m + 1) with h | h
      · exact h2 j (by omega)
      · rw [show j = m + 1 by omega]; exact not_lt.1 hlt

theorem vmax_spec (y : ℕ → α) (m : ℕ) : (∃ i ≤ m, vmax y m = y i) ∧ ∀ i ≤ m, y i ≤ vmax y m := by
  unfold vmax
  induction m with
  | zero => exact ⟨⟨0, le_refl _, rfl⟩, fun i hi => by rw [Nat.le_zero.1 hi]; exact le_refl _⟩
  | succ m ih =>
    obtain ⟨⟨i, hi, h1⟩, h2⟩ := ih
    simp only [argmax]
    split
    · next hlt =>
      refine ⟨⟨m + 1, le_refl _, rfl⟩, fun j hj => ?_⟩
      rcases Nat.lt_or_ge j (m + 1) with h | h
      · exact le_trans (h2 j (by omega)) (le_of_lt hlt)
      · rw [show j = m + 1 by omega]
    · next hlt =>
      refine ⟨⟨i, by omega, h1⟩, fun j hj => ?_⟩
      rcases Nat.lt_or_ge j (m + 1) with h | h
      · exact h2 j (by omega)
      · rw [show j = m + 1 by omega]; exact not_lt.1 hlt

/-- C32. `interpolate_2D_along_y` with increasing heights: a new height inside the range gets, at every
time, the value (or mask) of the nearest gate, the lower one if two are equally near; a new height
outside the range is masked. -/
theorem C32_nearest_gate (m : ℕ) (hm : 1 ≤ m) (y : ℕ → α) (hy : Spec.Increasing m y)
    (z : Grid (Option α)) (v : α) :
    (y 0 ≤ v ∧ v ≤ y (m - 1) → ∃ i < m, (∀ j < m, |y i - v| ≤ |y j - v|) ∧
      (∀ j < i, |y i - v| < |y j - v|) ∧ ∀ t, interpolateAlongY m y z t v = z t i) ∧
    (v < y 0 ∨ y (m - 1) < v → ∀ t, interpolateAlongY m y z t v = none) := by
  have hmin : vmin y (m - 1) = y 0 := by
    obtain ⟨⟨i, hi, h1⟩, h2⟩ := vmin_spec y (m - 1)
    apply le_antisymm (h2 0 (by omega))
    rw [h1]; exact hy.le (by omega) (by omega)
  have hmax : vmax y (m - 1) = y (m - 1) := by
    obtain ⟨⟨i, hi, h1⟩, h2⟩ := vmax_spec y (m - 1)
    apply le_antisymm _ (h2 (m - 1) (by omega))
    rw [h1]; exact hy.le (by omega) (by omega)
  unfold interpolateAlongY
  rw [hmin, hmax]
  constructor
  · rintro ⟨h0, h1⟩
    have hcond : ¬ (v < y 0 ∨ y (m - 1) < v) := by
      rintro (h | h)
      · exact absurd h (not_lt.2 h0)
      · exact absurd h (not_lt.2 h1)
    simp only [if_neg hcond]
    obtain ⟨b1, b2⟩ := C74_bisect_left y v m (fun i j hij hj => hy.le hij hj)
    set b := bisectLeft y v m with hb
    have hbm : b ≤ m - 1 := by
      by_contra hc
      exact absurd ((b2 (m - 1) (by omega)).1 (by omega)) (not_lt.2 h1)
    have hbv : v ≤ y b := not_lt.1 fun hc => absurd ((b2 b (by omega)).2 hc) (lt_irrefl _)
    refine ⟨nearestIndex m y v, ?_, ?_⟩
    · unfold nearestIndex; simp only [← hb]; split <;> omega
    have hidx : min b (m - 1) = b := by omega
    by_cases hb0 : b = 0
    · have hv : v = y 0 := le_antisymm (hb0 ▸ hbv) h0
      have hn : nearestIndex m y v = 0 := by
        unfold nearestIndex
        simp only [← hb, hidx]
        rw [if_pos (Or.inl hb0), hb0]
      rw [hn, hv]
      exact ⟨fun j _ => by simp, fun j hj => by omega, fun _ => rfl⟩
    · have hlv : y (b - 1) < v := (b2 (b - 1) (by omega)).1 (by omega)
      have hr : |y b - v| = y b - v := abs_of_nonneg (sub_nonneg.2 hbv)
      have hl : |v - y (b - 1)| = v - y (b - 1) := abs_of_nonneg (sub_nonneg.2 (le_of_lt hlv))
      have hl' : |y (b - 1) - v| = v - y (b - 1) := by rw [abs_sub_comm, hl]
      have below : ∀ j < b, v - y (b - 1) ≤ |y j - v| := by
        intro j hj
        rw [abs_sub_comm]
        have : y j ≤ y (b - 1) := hy.le (by omega) (by omega)
        exact le_trans (by linarith) (le_abs_self _)
      have above : ∀ j < m, b ≤ j → y b - v ≤ |y j - v| := by
        intro j hj hbj
        have : y b ≤ y j := hy.le hbj hj
        exact le_trans (by linarith) (le_abs_self _)
      by_cases hch : |y b - v| < |v - y (b - 1)|
      · have hn : nearestIndex m y v = b := by
          unfold nearestIndex
          simp only [← hb, hidx]
          rw [if_pos (Or.inr ⟨by omega, hch⟩)]
        rw [hn]
        rw [hr, hl] at hch
        refine ⟨fun j hj => ?_, fun j hj => ?_, fun _ => rfl⟩
        · rw [hr]
          rcases Nat.lt_or_ge j b with h | h
          · exact le_trans (le_of_lt hch) (below j h)
          · exact above j hj h
        · rw [hr]; exact lt_of_lt_of_le hch (below j hj)
      · have hn : nearestIndex m y v = b - 1 := by
          unfold nearestIndex
          simp only [← hb, hidx]
          rw [if_neg]
          rintro (h | ⟨_, h⟩)
          · exact hb0 h
          · exact hch h
        rw [hn]
        rw [hr, hl, not_lt] at hch
        refine ⟨fun j hj => ?_, fun j hj => ?_, fun _ => rfl⟩
        · rw [hl']
          rcases Nat.lt_or_ge j b with h | h
          · exact below j h
          · exact le_trans hch (above j hj h)
        · rw [hl', abs_sub_comm]
          have : y j < y (b - 1) := hy j (b - 1) hj (by omega)
          exact lt_of_lt_of_le (by linarith) (le_abs_self _)
  · intro hout t
    rw [if_pos hout]

example : Spec.Increasing 3 (fun i => (100 * i : ℚ)) ∧
    (List.map (fun v => interpolateAlongY (α := ℚ) 3 (fun i => 100 * i)
      (fun _ i => some (i : ℚ)) 0 v) [-1, 0, 50, 51, 200, 201] =
      [none, some 0, some 0, some 1, some 2, none]) := by
  refine ⟨fun i j h _ => ?_, by decide +kernel⟩
  have : (i : ℚ) < j := by exact_mod_cast h
  linarith

/-- C33. `get_gap_ind` for a sorted grid returns, in increasing order, exactly the positions of the new
grid whose distance to every point of the old grid exceeds the threshold (all, if the old grid is
empty). -/
theorem C33_gap_indices (g : ℕ) (grid : ℕ → α) (hg : ∀ i j, i ≤ j → j < g → grid i ≤ grid j) (n : ℕ)
    (newGrid : ℕ → α) (threshold : α) :
    (∀ k, k ∈ getGapInd g grid n newGrid threshold ↔
      k < n ∧ ∀ j < g, threshold < |newGrid k - grid j|) ∧
    (getGapInd g grid n newGrid threshold).Pairwise (· < ·) := by
  unfold getGapInd
  by_cases h0 : g = 0
  · rw [if_pos h0]
    refine ⟨fun k => ?_, List.pairwise_lt_range⟩
    rw [List.mem_range]
    exact ⟨fun h => ⟨h, fun j hj => by omega⟩, fun h => h.1⟩
  · rw [if_neg h0]
    refine ⟨fun k => ?_, List.Pairwise.filter _ List.pairwise_lt_range⟩
    rw [List.mem_filter, List.mem_range, decide_eq_true_eq]
    simp only [lt_min_iff]
    obtain ⟨b1, b2⟩ := C74_bisect_left grid (newGrid k) g hg
    set b := bisectLeft grid (newGrid k) g with hb
    have below : ∀ j < b, |newGrid k - grid (b - 1)| ≤ |newGrid k - grid j| := by
      intro j hj
      have h1 : grid j ≤ grid (b - 1) := hg j (b - 1) (by omega) (by omega)
      have h2 : grid (b - 1) < newGrid k := (b2 (b - 1) (by omega)).1 (by omega)
      rw [abs_of_nonneg (by linarith), abs_of_nonneg (by linarith)]
      linarith
    have above : ∀ j < g, b ≤ j → |newGrid k - grid b| ≤ |newGrid k - grid j| := by
      intro j hj hbj
      have h1 : grid b ≤ grid j := hg b j hbj hj
      have h2 : newGrid k ≤ grid b := not_lt.1 fun hc =>
        absurd ((b2 b (by omega)).2 hc) (lt_irrefl _)
      rw [abs_of_nonpos (by linarith), abs_of_nonpos (by linarith)]
      linarith
    apply and_congr_right
    intro _
    constructor
    · rintro ⟨hl, hr⟩ j hj
      rcases Nat.lt_or_ge j b with h | h
      · rw [if_pos (by omega)] at hl
        exact lt_of_lt_of_le (WithTop.coe_lt_coe.1 hl) (below j h)
      · rw [if_pos (by omega), min_eq_left (by omega)] at hr
        exact lt_of_lt_of_le (WithTop.coe_lt_coe.1 hr) (above j hj h)
    · intro hall
      constructor
      · split
        · exact WithTop.coe_lt_coe.2 (hall (b - 1) (by omega))
        · exact WithTop.coe_lt_top _
      · split
        · rw [min_eq_left (by omega)]; exact WithTop.coe_lt_coe.2 (hall b (by omega))
        · exact WithTop.coe_lt_top _

example : getGapInd (α := ℚ) 2 (fun i => [1, 5].getD i 0) 5 (fun k => k) 1 = [3] ∧
    getGapInd (α := ℚ) 0 (fun _ => 0) 2 (fun k => k) 1 = [0, 1] := by decide +kernel

/-! ### One-dimensional interpolation -/

theorem uniqueIndex_spec (n : ℕ) (x : ℕ → α) :
    (∀ i, i ∈ uniqueIndex n x ↔ i < n ∧ ∀ j < i, x j ≠ x i) ∧
    (uniqueIndex n x).Pairwise (fun i j => x i < x j) := by
  have hmem : ∀ i, i ∈ uniqueIndex n x ↔ i < n ∧ ∀ j < i, x j ≠ x i := by
    intro i
    unfold uniqueIndex
    rw [List.mem_insertionSort, List.mem_filter, List.mem_range, decide_eq_true_eq]
  refine ⟨hmem, ?_⟩
  have hsorted : (uniqueIndex n x).Pairwise (fun i j => x i ≤ x j) := by
    haveI : Std.Total (fun i j : ℕ => x i ≤ x j) := ⟨fun a b => le_total _ _⟩
    haveI : IsTrans ℕ (fun i j : ℕ => x i ≤ x j) := ⟨fun a b c => le_trans⟩
    exact List.pairwise_insertionSort _ _
  have hnd : (uniqueIndex n x).Nodup := by
    unfold uniqueIndex
    exact (List.perm_insertionSort _ _).nodup_iff.2 (List.nodup_range.filter _)
  rw [List.pairwise_iff_forall_sublist]
  intro a b hab
  have hle := (List.pairwise_iff_forall_sublist.1 hsorted) hab
  have hne : a ≠ b := by
    have := hnd.sublist hab
    simpa using this
  have ha := (hmem a).1 (hab.subset (by simp))
  have hb := (hmem b).1 (hab.subset (by simp))
  apply lt_of_le_of_ne hle
  rcases Nat.lt_or_gt_of_ne hne with h | h
  · exact hb.2 a h
  · exact fun he => ha.2 b h he.symm

theorem interpLinear_node {m : ℕ} {x : ℕ → α} (hx : Spec.Increasing m x) (y : ℕ → α) {a : ℕ}
    (ha : a < m) : interpLinear m x y (x a) = y a := by
  unfold interpLinear
  rw [if_neg (not_lt.2 (hx.le (Nat.zero_le a) ha)), if_neg (not_lt.2 (hx.le (by omega) (by omega)))]
  split
  · next h => rw [show a = 0 by omega]
  · next h =>
    obtain ⟨b1, b2⟩ := C74_bisect_left x (x a) m (fun i j hij hj => hx.le hij hj)
    have hb : bisectLeft x (x a) m = a := by
      apply Nat.le_antisymm
      · by_contra hc
        exact absurd ((b2 a ha).1 (by omega)) (lt_irrefl _)
      · by_contra hc
        have h1 : bisectLeft x (x a) m < a := by omega
        have h2 := (b2 (bisectLeft x (x a) m) (by omega)).2 (hx _ a h1 ha)
        omega
    simp only [hb]
    by_cases ha0 : a = 0
    · subst ha0
      have : min (max 0 1) (m - 1) = 1 := by omega
      rw [this]; simp
    · have : min (max a 1) (m - 1) = a := by omega
      rw [this]
      have hlt : x (a - 1) < x a := hx (a - 1) a (by omega) ha
      have hne : x a - x (a - 1) ≠ 0 := sub_ne_zero.2 (ne_of_gt hlt)
      rw [div_mul_cancel₀ _ hne]; ring

theorem interpLinear_between {m : ℕ} {x : ℕ → α} (hx : Spec.Increasing m x) (y : ℕ → α) {a : ℕ}
    (ha : a + 1 < m) {v : α} (h1 : x a < v) (h2 : v < x (a + 1)) :
    interpLinear m x y v = y a + (v - x a) / (x (a + 1) - x a) * (y (a + 1) - y a) := by
  unfold interpLinear
  rw [if_neg (not_lt.2 (le_trans (hx.le (Nat.zero_le a) (by omega)) (le_of_lt h1))),
    if_neg (not_lt.2 (le_trans (le_of_lt h2) (hx.le (by omega) (by omega)))), if_neg (by omega)]
  obtain ⟨b1, b2⟩ := C74_bisect_left x v m (fun i j hij hj => hx.le hij hj)
  have hb : bisectLeft x v m = a + 1 := by
    apply Nat.le_antisymm
    · by_contra hc
      exact absurd ((b2 (a + 1) ha).1 (by omega)) (not_lt.2 (le_of_lt h2))
    · by_contra hc
      have := (b2 a (by omega)).2 h1
      omega
  simp only [hb]
  have : min (max (a + 1) 1) (m - 1) = a + 1 := by omega
  rw [this, Nat.add_sub_cancel]
  ring

theorem interpNearest_spec {m : ℕ} (hm : 1 ≤ m) {x : ℕ → α} (hx : Spec.Increasing m x) (y : ℕ → α)
    (v : α) : ∃ a < m, interpNearest m x y v = y a ∧ (∀ b < m, |x a - v| ≤ |x b - v|) ∧
      ∀ b < a, |x a - v| < |x b - v| := by
  unfold interpNearest
  by_cases c1 : v < x 0
  · rw [if_pos c1]
    refine ⟨0, hm, rfl, fun b hb => ?_, fun b hb => by omega⟩
    have : x 0 ≤ x b := hx.le (Nat.zero_le _) hb
    rw [abs_of_nonneg (by linarith), abs_of_nonneg (by linarith)]; linarith
  · rw [if_neg c1]
    by_cases c2 : x (m - 1) < v
    · rw [if_pos c2]
      refine ⟨m - 1, by omega, rfl, fun b hb => ?_, fun b hb => ?_⟩
      · have : x b ≤ x (m - 1) := hx.le (by omega) (by omega)
        rw [abs_of_nonpos (by linarith), abs_of_nonpos (by linarith)]; linarith
      · have : x b < x (m - 1) := hx b (m - 1) hb (by omega)
        rw [abs_of_nonpos (by linarith), abs_of_nonpos (by linarith)]; linarith
    · rw [if_neg c2]
      have hmid : ∀ i j, i ≤ j → j < m - 1 → x i / 2 + x (i + 1) / 2 ≤ x j / 2 + x (j + 1) / 2 := by
        intro i j hij hj
        have h1 : x i ≤ x j := hx.le hij (by omega)
        have h2 : x (i + 1) ≤ x (j + 1) := hx.le (by omega) (by omega)
        linarith
      obtain ⟨b1, b2⟩ := C74_bisect_left (fun i => x i / 2 + x (i + 1) / 2) v (m - 1) hmid
      set a := bisectLeft (fun i => x i / 2 + x (i + 1) / 2) v (m - 1) with hadef
      have hmin : min a (m - 1) = a := by omega
      rw [hmin]
      have hlow : ∀ b < a, |x a - v| < |x b - v| := by
        intro b hb
        have h1 : x (a - 1) / 2 + x a / 2 < v := by
          have := (b2 (a - 1) (by omega)).1 (by omega)
          rw [show a - 1 + 1 = a by omega] at this; exact this
        have h2 : x b ≤ x (a - 1) := hx.le (by omega) (by omega)
        have h3 : x (a - 1) < x a := hx _ _ (by omega) (by omega)
        have h4 : |x b - v| = v - x b := by
          rw [abs_sub_comm, abs_of_nonneg (by linarith)]
        rw [h4, abs_lt]
        constructor <;> linarith
      refine ⟨a, by omega, rfl, fun b hb => ?_, hlow⟩
      rcases Nat.lt_trichotomy b a with h | h | h
      · exact le_of_lt (hlow b h)
      · rw [h]
      · have h1 : v ≤ x a / 2 + x (a + 1) / 2 := not_lt.1 fun hc =>
          absurd ((b2 a (by omega)).2 hc) (lt_irrefl _)
        have h2 : x (a + 1) ≤ x b := hx.le (by omega) hb
        have h3 : x a < x (a + 1) := hx _ _ (by omega) (by omega)
        have h4 : |x b - v| = x b - v := abs_of_nonneg (by linarith)
        rw [h4, abs_le]
        constructor <;> linarith

/-- The samples of `interpolate_1d`: sample `i` is unmasked and no earlier unmasked sample has the same
time. -/
def Spec.Sample (n : ℕ) (time : ℕ → α) (y : ℕ → Option α) (i : ℕ) (v : α) : Prop :=
  i < n ∧ y i = some v ∧ ∀ j < i, (y j).isSome → time j ≠ time i

/-- The vectors that `interpolate_1d` hands to SciPy. -/
theorem interpolate1d_unfold (n : ℕ) (time : ℕ → α) (y : ℕ → Option α) (nNew : ℕ) (timeNew : ℕ → α)
    (maxTime : α) (nearest : Bool) (hn : 0 < n) (ht : ∀ i < n, 0 ≤ time i ∧ time i ≤ 24)
    (hs : ∃ i < n, (y i).isSome) :
    ∃ (m : ℕ) (idx : ℕ → ℕ), 0 < m ∧ Spec.Increasing m (fun a => time (idx a)) ∧
      (∀ a < m, ∃ v, Spec.Sample n time y (idx a) v) ∧
      (∀ i v, Spec.Sample n time y i v → ∃ a < m, idx a = i) ∧
      (∀ i < n, (y i).isSome → ∃ a < m, time (idx a) = time i) ∧
      interpolate1d n time y nNew timeNew maxTime nearest = .ok fun k =>
        if k ∈ getGapInd m (fun a => time (idx a)) nNew timeNew (maxTime / 60) then none
        else some ((if nearest then interpNearest m (fun a => time (idx a)) (fun a => (y (idx a)).getD 0)
          else interpLinear m (fun a => time (idx a)) (fun a => (y (idx a)).getD 0)) (timeNew k)) := by
  unfold interpolate1d
  rw [if_neg (by omega)]
  have hcond : ¬ (vmax time (n - 1) > 24 ∨ vmin time (n - 1) < 0) := by
    obtain ⟨⟨i, hi, h1⟩, _⟩ := vmax_spec time (n - 1)
    obtain ⟨⟨j, hj, h2⟩, _⟩ := vmin_spec time (n - 1)
    rintro (h | h)
    · rw [h1] at h; exact absurd h (not_lt.2 (ht i (by omega)).2)
    · rw [h2] at h; exact absurd h (not_lt.2 (ht j (by omega)).1)
  rw [if_neg hcond]
  set valid := (List.range n).filter fun i => (y i).isSome with hvalid
  have hvmem : ∀ i, i ∈ valid ↔ i < n ∧ (y i).isSome := by
    intro i; rw [hvalid, List.mem_filter, List.mem_range]
  have hne : valid ≠ [] := by
    obtain ⟨i, hi, h⟩ := hs
    exact List.ne_nil_of_mem ((hvmem i).2 ⟨hi, h⟩)
  simp only [if_neg hne]
  have hvsort : valid.Pairwise (· < ·) := List.Pairwise.filter _ List.pairwise_lt_range
  have hvget : ∀ a, a < valid.length → valid.getD a 0 ∈ valid := by
    intro a ha
    rw [List.getD_eq_getElem _ _ ha]; exact List.getElem_mem _
  have hvlt : ∀ a b, a < b → b < valid.length → valid.getD a 0 < valid.getD b 0 := by
    intro a b hab hb
    rw [List.getD_eq_getElem _ _ hb, List.getD_eq_getElem _ _ (by omega)]
    exact List.pairwise_iff_getElem.1 hvsort a b _ _ hab
  have hvsurj : ∀ i ∈ valid, ∃ a < valid.length, valid.getD a 0 = i := by
    intro i hi
    obtain ⟨a, ha, h⟩ := List.getElem_of_mem hi
    exact ⟨a, ha, by rw [List.getD_eq_getElem _ _ ha]; exact h⟩
  obtain ⟨hu, husort⟩ := uniqueIndex_spec valid.length (fun i => time (valid.getD i 0))
  set u := uniqueIndex valid.length (fun i => time (valid.getD i 0)) with hudef
  have huget : ∀ a, a < u.length → u.getD a 0 ∈ u := by
    intro a ha
    rw [List.getD_eq_getElem _ _ ha]; exact List.getElem_mem _
  have husurj : ∀ i ∈ u, ∃ a < u.length, u.getD a 0 = i := by
    intro i hi
    obtain ⟨a, ha, h⟩ := List.getElem_of_mem hi
    exact ⟨a, ha, by rw [List.getD_eq_getElem _ _ ha]; exact h⟩
  have hfirst : ∀ p, p < valid.length → ∃ q ∈ u, q ≤ p ∧
      time (valid.getD q 0) = time (valid.getD p 0) := by
    intro p
    induction p using Nat.strong_induction_on with
    | _ p ih =>
      intro hp
      by_cases hc : ∀ j < p, time (valid.getD j 0) ≠ time (valid.getD p 0)
      · exact ⟨p, (hu p).2 ⟨hp, hc⟩, le_refl _, rfl⟩
      · push Not at hc
        obtain ⟨j, hj, he⟩ := hc
        obtain ⟨q, hq, h1, h2⟩ := ih j hj (by omega)
        exact ⟨q, hq, by omega, h2.trans he⟩
  refine ⟨u.length, fun a => valid.getD (u.getD a 0) 0, ?_, ?_, ?_, ?_, ?_, ?_⟩
  · obtain ⟨i, hi, h⟩ := hs
    obtain ⟨p, hp, _⟩ := hvsurj i ((hvmem i).2 ⟨hi, h⟩)
    obtain ⟨q, hq, _⟩ := hfirst p hp
    exact List.length_pos_of_mem hq
  · intro a b hab hb
    simp only
    rw [List.getD_eq_getElem u _ hb, List.getD_eq_getElem u _ (by omega : a < u.length)]
    exact List.pairwise_iff_getElem.1 husort a b _ _ hab
  · intro a ha
    obtain ⟨h1, h2⟩ := (hu _).1 (huget a ha)
    obtain ⟨h3, h4⟩ := (hvmem _).1 (hvget _ h1)
    obtain ⟨v, hv⟩ := Option.isSome_iff_exists.1 h4
    refine ⟨v, h3, hv, ?_⟩
    intro j hj hsome
    simp only at hj ⊢
    obtain ⟨q, hq, h5⟩ := hvsurj j ((hvmem j).2 ⟨by omega, hsome⟩)
    rw [← h5]
    apply h2
    by_contra hc
    rcases Nat.eq_or_lt_of_le (not_lt.1 hc) with he | he
    · rw [he] at hj; omega
    · have := hvlt _ _ he hq
      omega
  · rintro i v ⟨h1, h2, h3⟩
    obtain ⟨p, hp, h4⟩ := hvsurj i ((hvmem i).2 ⟨h1, by rw [h2]; rfl⟩)
    have hpu : p ∈ u := by
      rw [hu]
      refine ⟨hp, fun j hj => ?_⟩
      rw [h4]
      have hlt := hvlt j p hj hp
      exact h3 _ (by omega) ((hvmem _).1 (hvget j (by omega))).2
    obtain ⟨a, ha, h5⟩ := husurj p hpu
    exact ⟨a, ha, by simp only [h5, h4]⟩
  · intro i hi hsome
    obtain ⟨p, hp, h4⟩ := hvsurj i ((hvmem i).2 ⟨hi, hsome⟩)
    obtain ⟨q, hq, _, h6⟩ := hfirst p hp
    obtain ⟨a, ha, h5⟩ := husurj q hq
    exact ⟨a, ha, by simp only [h5, h6, h4]⟩
  · cases nearest <;> rfl

/-- C34. `interpolate_1d` raises iff there is no time or some time lies outside 0..24. -/
theorem C34_raises (n : ℕ) (time : ℕ → α) (y : ℕ → Option α) (nNew : ℕ) (timeNew : ℕ → α)
    (maxTime : α) (nearest : Bool) :
    (∃ e, interpolate1d n time y nNew timeNew maxTime nearest = .error e) ↔
      n = 0 ∨ ∃ i < n, time i < 0 ∨ 24 < time i := by
  constructor
  · rintro ⟨e, he⟩
    by_contra hc
    push Not at hc
    obtain ⟨h0, h1⟩ := hc
    by_cases hs : ∃ i < n, (y i).isSome
    · obtain ⟨m, idx, _, _, _, _, _, h⟩ := interpolate1d_unfold n time y nNew timeNew maxTime nearest
        (by omega) (fun i hi => h1 i hi) hs
      rw [h] at he; cases he
    · unfold interpolate1d at he
      rw [if_neg h0] at he
      split at he
      · next hcond =>
        obtain ⟨⟨i, hi, g1⟩, _⟩ := vmax_spec time (n - 1)
        obtain ⟨⟨j, hj, g2⟩, _⟩ := vmin_spec time (n - 1)
        rcases hcond with h | h
        · rw [g1] at h; exact absurd h (not_lt.2 (h1 i (by omega)).2)
        · rw [g2] at h; exact absurd h (not_lt.2 (h1 j (by omega)).1)
      · have hnil : (List.range n).filter (fun i => (y i).isSome) = [] := by
          rw [List.filter_eq_nil_iff]
          intro i hi h
          exact hs ⟨i, List.mem_range.1 hi, h⟩
        simp only [hnil, if_true] at he
        cases he
  · rintro (h | ⟨i, hi, h⟩)
    · exact ⟨_, by unfold interpolate1d; rw [if_pos h]⟩
    · unfold interpolate1d
      rw [if_neg (by omega), if_pos]
      · exact ⟨_, rfl⟩
      rcases h with h | h
      · right; exact lt_of_le_of_lt ((vmin_spec time (n - 1)).2 i (by omega)) h
      · left; exact lt_of_lt_of_le h ((vmax_spec time (n - 1)).2 i (by omega))

/-- C34. For times in 0..24 a new time gets a value iff an unmasked sample lies within `max_time`
minutes; in particular everything is masked when all samples are masked. With linear interpolation the
value at a sample time is the sample; between neighbouring sample times it is on the straight line;
before the first and after the last sample it is the first resp. last sample. Of several samples with
the same time the first one counts. -/
theorem C34_linear (n : ℕ) (time : ℕ → α) (y : ℕ → Option α) (nNew : ℕ) (timeNew : ℕ → α)
    (maxTime : α) (hn : 0 < n) (ht : ∀ i < n, 0 ≤ time i ∧ time i ≤ 24) :
    ∃ r, interpolate1d n time y nNew timeNew maxTime false = .ok r ∧ ∀ k < nNew,
      ((r k).isSome ↔ ∃ i < n, (y i).isSome ∧ |timeNew k - time i| ≤ maxTime / 60) ∧
      ∀ w, r k = some w →
        (∀ i v, Spec.Sample n time y i v → timeNew k = time i → w = v) ∧
        (∀ i v j u, Spec.Sample n time y i v → Spec.Sample n time y j u →
          time i < timeNew k → timeNew k < time j →
          (∀ l < n, (y l).isSome → time l ≤ time i ∨ time j ≤ time l) →
          w = v + (timeNew k - time i) / (time j - time i) * (u - v)) ∧
        (∀ i v, Spec.Sample n time y i v → (∀ l < n, (y l).isSome → time i ≤ time l) →
          timeNew k ≤ time i → w = v) ∧
        (∀ i v, Spec.Sample n time y i v → (∀ l < n, (y l).isSome → time l ≤ time i) →
          time i ≤ timeNew k → w = v) := by
  by_cases hs : ∃ i < n, (y i).isSome
  · obtain ⟨m, idx, hm, hinc, hsam, hsurj, hcov, heq⟩ :=
      interpolate1d_unfold n time y nNew timeNew maxTime false hn ht hs
    refine ⟨_, heq, ?_⟩
    intro k hk
    simp only [Bool.false_eq_true, if_false]
    have hgap := (C33_gap_indices m (fun a => time (idx a)) (fun i j hij hj => hinc.le hij hj) nNew
      timeNew (maxTime / 60)).1 k
    constructor
    · constructor
      · intro h
        split at h
        · cases h
        · next hc =>
          rw [hgap] at hc
          push Not at hc
          obtain ⟨a, ha, h1⟩ := hc hk
          obtain ⟨v, h2, h3, _⟩ := hsam a ha
          exact ⟨idx a, h2, by rw [h3]; rfl, h1⟩
      · rintro ⟨i, hi, h1, h2⟩
        rw [if_neg]
        · rfl
        · rw [hgap]
          rintro ⟨_, h3⟩
          obtain ⟨a, ha, h4⟩ := hcov i hi h1
          have := h3 a ha
          rw [h4] at this
          exact absurd this (not_lt.2 h2)
    · intro w hw
      split at hw
      · cases hw
      · have hw' := (Option.some.inj hw).symm
        have hval : ∀ i v, Spec.Sample n time y i v → (y i).getD 0 = v := by
          rintro i v ⟨_, h, _⟩; rw [h]; rfl
        have hle : ∀ {a b}, a < m → b < m → time (idx a) < time (idx b) → a < b := by
          intro a b ha hb h
          by_contra hc
          exact absurd h (not_lt.2 (hinc.le (not_lt.1 hc) ha))
        have hsome : ∀ a < m, (y (idx a)).isSome ∧ idx a < n := by
          intro a ha
          obtain ⟨v, h1, h2, _⟩ := hsam a ha
          exact ⟨by rw [h2]; rfl, h1⟩
        have hnode : ∀ i v, Spec.Sample n time y i v → timeNew k = time i → w = v := by
          intro i v hi he
          obtain ⟨a, ha, h1⟩ := hsurj i v hi
          rw [hw', he, ← h1, interpLinear_node hinc _ ha, h1]
          exact hval i v hi
        refine ⟨hnode, ?_, ?_, ?_⟩
        · intro i v j u hi hj h1 h2 hno
          obtain ⟨a, ha, h3⟩ := hsurj i v hi
          obtain ⟨b, hb, h4⟩ := hsurj j u hj
          have hab : a < b := hle ha hb (by rw [h3, h4]; exact lt_trans h1 h2)
          have hb1 : b = a + 1 := by
            by_contra hc
            have h5 := hno (idx (a + 1)) (hsome (a + 1) (by omega)).2 (hsome (a + 1) (by omega)).1
            have h6 : time (idx a) < time (idx (a + 1)) := hinc a (a + 1) (by omega) (by omega)
            have h7 : time (idx (a + 1)) < time (idx b) := hinc (a + 1) b (by omega) hb
            rw [h3] at h6; rw [h4] at h7
            rcases h5 with h5 | h5
            · exact absurd h6 (not_lt.2 h5)
            · exact absurd h7 (not_lt.2 h5)
          subst hb1
          rw [hw', interpLinear_between hinc _ (a := a) hb (by rw [h3]; exact h1)
            (by rw [h4]; exact h2), h3, h4, hval i v hi, hval j u hj]
        · intro i v hi hall hle'
          rcases eq_or_lt_of_le hle' with he | hlt
          · exact hnode i v hi he
          · obtain ⟨a, ha, h1⟩ := hsurj i v hi
            have ha0 : a = 0 := by
              by_contra hc
              have h2 : time (idx 0) < time (idx a) := hinc 0 a (by omega) ha
              have := hall (idx 0) (hsome 0 hm).2 (hsome 0 hm).1
              rw [h1] at h2; exact absurd h2 (not_lt.2 this)
            subst ha0
            rw [hw']
            unfold interpLinear
            rw [if_pos (show timeNew k < time (idx 0) by rw [h1]; exact hlt)]
            show (y (idx 0)).getD 0 = v
            rw [h1]; exact hval i v hi
        · intro i v hi hall hle'
          rcases eq_or_lt_of_le hle' with he | hlt
          · exact hnode i v hi he.symm
          · obtain ⟨a, ha, h1⟩ := hsurj i v hi
            have ha0 : a = m - 1 := by
              by_contra hc
              have h2 : time (idx a) < time (idx (m - 1)) := hinc a (m - 1) (by omega) (by omega)
              have := hall (idx (m - 1)) (hsome (m - 1) (by omega)).2 (hsome (m - 1) (by omega)).1
              rw [h1] at h2; exact absurd h2 (not_lt.2 this)
            have hlt' : time (idx (m - 1)) < timeNew k := by rw [← ha0, h1]; exact hlt
            rw [hw']
            unfold interpLinear
            rw [if_neg (not_lt.2 (le_of_lt (lt_of_le_of_lt (hinc.le (Nat.zero_le _)
              (by omega : m - 1 < m)) hlt'))), if_pos hlt', ← ha0]
            show (y (idx a)).getD 0 = v
            rw [h1]; exact hval i v hi
  · have hnil : (List.range n).filter (fun i => (y i).isSome) = [] := by
      rw [List.filter_eq_nil_iff]
      intro i hi h
      exact hs ⟨i, List.mem_range.1 hi, h⟩
    have hcond : ¬ (vmax time (n - 1) > 24 ∨ vmin time (n - 1) < 0) := by
      obtain ⟨⟨i, hi, h1⟩, _⟩ := vmax_spec time (n - 1)
      obtain ⟨⟨j, hj, h2⟩, _⟩ := vmin_spec time (n - 1)
      rintro (h | h)
      · rw [h1] at h; exact absurd h (not_lt.2 (ht i (by omega)).2)
      · rw [h2] at h; exact absurd h (not_lt.2 (ht j (by omega)).1)
    refine ⟨fun _ => none, ?_, ?_⟩
    · unfold interpolate1d
      rw [if_neg (by omega), if_neg hcond]
      simp only [hnil, if_true]
    · intro k _
      refine ⟨?_, fun w hw => by cases hw⟩
      simp only [Option.isSome_none, Bool.false_eq_true, false_iff]
      rintro ⟨i, hi, h, _⟩
      exact hs ⟨i, hi, h⟩

/-- C34. Linear interpolation never leaves the range of the samples: below every value there is a sample
not larger, and above it one not smaller. -/
theorem C34_within_range (n : ℕ) (time : ℕ → α) (y : ℕ → Option α) (nNew : ℕ) (timeNew : ℕ → α)
    (maxTime : α) (hn : 0 < n) (ht : ∀ i < n, 0 ≤ time i ∧ time i ≤ 24) (r : ℕ → Option α)
    (hr : interpolate1d n time y nNew timeNew maxTime false = .ok r) (k : ℕ) (w : α)
    (hw : r k = some w) :
    (∃ i < n, ∃ v, y i = some v ∧ v ≤ w) ∧ ∃ i < n, ∃ v, y i = some v ∧ w ≤ v := by
  by_cases hs : ∃ i < n, (y i).isSome
  · obtain ⟨m, idx, hm, hinc, hsam, hsurj, hcov, heq⟩ :=
      interpolate1d_unfold n time y nNew timeNew maxTime false hn ht hs
    rw [heq] at hr
    rw [← Except.ok.inj hr] at hw
    simp only [Bool.false_eq_true, if_false] at hw
    split at hw
    · cases hw
    · have hw' := (Option.some.inj hw).symm
      have one : ∀ a < m, w = (y (idx a)).getD 0 → (∃ i < n, ∃ v, y i = some v ∧ v ≤ w) ∧
          ∃ i < n, ∃ v, y i = some v ∧ w ≤ v := by
        intro a ha he
        obtain ⟨v, h1, h2, _⟩ := hsam a ha
        rw [h2] at he
        simp only [Option.getD_some] at he
        exact ⟨⟨idx a, h1, v, h2, le_of_eq he.symm⟩, ⟨idx a, h1, v, h2, le_of_eq he⟩⟩
      rcases lt_or_ge (timeNew k) (time (idx 0)) with c1 | c1
      · apply one 0 hm
        rw [hw']; unfold interpLinear; rw [if_pos c1]
      rcases lt_or_ge (time (idx (m - 1))) (timeNew k) with c2 | c2
      · apply one (m - 1) (by omega)
        rw [hw']; unfold interpLinear; rw [if_neg (not_lt.2 c1), if_pos c2]
      -- find the segment
      have hseg : ∀ p, p < m → timeNew k ≤ time (idx p) →
          (∃ a < m, timeNew k = time (idx a)) ∨
          ∃ a, a + 1 < m ∧ time (idx a) < timeNew k ∧ timeNew k < time (idx (a + 1)) := by
        intro p
        induction p with
        | zero => intro hp h; exact Or.inl ⟨0, hp, le_antisymm h c1⟩
        | succ p ih =>
          intro hp h
          rcases le_or_gt (timeNew k) (time (idx p)) with h1 | h1
          · exact ih (by omega) h1
          · rcases eq_or_lt_of_le h with h2 | h2
            · exact Or.inl ⟨p + 1, hp, h2⟩
            · exact Or.inr ⟨p, hp, h1, h2⟩
      rcases hseg (m - 1) (by omega) c2 with ⟨a, ha, he⟩ | ⟨a, ha, h1, h2⟩
      · apply one a ha
        rw [hw', he, interpLinear_node hinc _ ha]
      · have hval := interpLinear_between hinc (fun a => (y (idx a)).getD 0) ha h1 h2
        rw [hval] at hw'
        obtain ⟨v, s1, s2, _⟩ := hsam a (by omega)
        obtain ⟨u, t1, t2, _⟩ := hsam (a + 1) ha
        simp only [s2, t2, Option.getD_some] at hw'
        have hpos : 0 < time (idx (a + 1)) - time (idx a) := sub_pos.2 (lt_trans h1 h2)
        set q := (timeNew k - time (idx a)) / (time (idx (a + 1)) - time (idx a)) with hq
        have q0 : 0 ≤ q := div_nonneg (sub_nonneg.2 (le_of_lt h1)) (le_of_lt hpos)
        have q1 : q ≤ 1 := by rw [hq, div_le_one hpos]; linarith
        rcases le_total v u with hvu | hvu
        · refine ⟨⟨_, s1, v, s2, ?_⟩, ⟨_, t1, u, t2, ?_⟩⟩
          · rw [hw']; have := mul_nonneg q0 (sub_nonneg.2 hvu); linarith
          · rw [hw']; have := mul_le_mul_of_nonneg_right q1 (sub_nonneg.2 hvu); linarith
        · refine ⟨⟨_, t1, u, t2, ?_⟩, ⟨_, s1, v, s2, ?_⟩⟩
          · rw [hw']; have := mul_le_mul_of_nonneg_right q1 (sub_nonneg.2 hvu); linarith
          · rw [hw']; have := mul_nonneg q0 (sub_nonneg.2 hvu); linarith
  · obtain ⟨r', h1, h2⟩ := C34_linear n time y (k + 1) timeNew maxTime hn ht
    have h3 := (h2 k (by omega)).1
    exfalso
    have hnil : (List.range n).filter (fun i => (y i).isSome) = [] := by
      rw [List.filter_eq_nil_iff]
      intro i hi h
      exact hs ⟨i, List.mem_range.1 hi, h⟩
    unfold interpolate1d at hr
    rw [if_neg (by omega)] at hr
    split at hr
    · cases hr
    · simp only [hnil, if_true] at hr
      rw [← Except.ok.inj hr] at hw
      cases hw

/-- C34. With method "nearest" a value, where given, is that of a nearest unmasked sample (the earlier
one if two are equally near, the first one of several at the same time). -/
theorem C34_nearest (n : ℕ) (time : ℕ → α) (y : ℕ → Option α) (nNew : ℕ) (timeNew : ℕ → α)
    (maxTime : α) (hn : 0 < n) (ht : ∀ i < n, 0 ≤ time i ∧ time i ≤ 24) (hs : ∃ i < n, (y i).isSome) :
    ∃ r, interpolate1d n time y nNew timeNew maxTime true = .ok r ∧ ∀ k < nNew,
      ((r k).isSome ↔ ∃ i < n, (y i).isSome ∧ |timeNew k - time i| ≤ maxTime / 60) ∧
      ∀ w, r k = some w → ∃ i, Spec.Sample n time y i w ∧
        ∀ j < n, (y j).isSome → |time i - timeNew k| ≤ |time j - timeNew k| ∧
          (|time i - timeNew k| = |time j - timeNew k| → time i ≤ time j) := by
  obtain ⟨m, idx, hm, hinc, hsam, hsurj, hcov, heq⟩ :=
    interpolate1d_unfold n time y nNew timeNew maxTime true hn ht hs
  refine ⟨_, heq, ?_⟩
  intro k hk
  simp only [if_true]
  have hgap := (C33_gap_indices m (fun a => time (idx a)) (fun i j hij hj => hinc.le hij hj) nNew
    timeNew (maxTime / 60)).1 k
  constructor
  · constructor
    · intro h
      split at h
      · cases h
      · next hc =>
        rw [hgap] at hc
        push Not at hc
        obtain ⟨a, ha, h1⟩ := hc hk
        obtain ⟨v, h2, h3, _⟩ := hsam a ha
        exact ⟨idx a, h2, by rw [h3]; rfl, h1⟩
    · rintro ⟨i, hi, h1, h2⟩
      rw [if_neg]
      · rfl
      · rw [hgap]
        rintro ⟨_, h3⟩
        obtain ⟨a, ha, h4⟩ := hcov i hi h1
        have := h3 a ha
        rw [h4] at this
        exact absurd this (not_lt.2 h2)
  · intro w hw
    split at hw
    · cases hw
    · obtain ⟨a, ha, h1, h2, h3⟩ := interpNearest_spec hm hinc (fun a => (y (idx a)).getD 0) (timeNew k)
      rw [h1] at hw
      obtain ⟨v, hv⟩ := hsam a ha
      have hwv : v = w := by
        have := hv.2.1
        simp only [this, Option.getD_some] at hw
        exact Option.some.inj hw
      refine ⟨idx a, hwv ▸ hv, ?_⟩
      intro j hj hsome
      obtain ⟨b, hb, hbt⟩ := hcov j hj hsome
      rw [← hbt]
      refine ⟨h2 b hb, fun he => ?_⟩
      by_contra hc
      have hba : b < a := by
        by_contra hba
        exact hc (hinc.le (not_lt.1 hba) hb)
      exact absurd he (ne_of_lt (h3 b hba))

/-- Samples at 1 h (twice), 3 h (masked) and 2 h; 45 minutes allowed. -/
example : (match interpolate1d (α := ℚ) 4 (fun i => [1, 1, 3, 2].getD i 0)
      (fun i => [some 10, some 99, some 5, some 20].getD i none) 4
      (fun k => [1, 3/2, 5/2, 4].getD k 0) 45 false with
    | .ok r => decide ((List.range 4).map r = [some 10, some 15, some (25/2), none])
    | .error _ => false) = true := by decide +kernel

/-! ### Time vectors -/

/-- C35. `time_grid` rejects steps below one second. Otherwise its points are the mid points of
consecutive steps counted from midnight, and their number is the least for which the steps cover the
day; when the step divides the day all points are inside the day. -/
theorem C35_time_grid [FloorRing α] (step : α) :
    (step < 1 → ∃ e, timeGrid step = .error e) ∧
    (1 ≤ step → ∃ n g, timeGrid step = .ok (n, g) ∧
      (∀ i, g i = (i + 1 / 2) * (step / 3600)) ∧
      86400 ≤ n * step ∧ (∀ m : ℕ, 86400 ≤ m * step → n ≤ m) ∧
      (∀ N : ℕ, N * step = 86400 → n = N ∧ ∀ i < n, 0 < g i ∧ g i < 24)) := by
  constructor
  · intro h; exact ⟨_, by unfold timeGrid; rw [if_pos h]⟩
  · intro h
    have hpos : 0 < step := by linarith
    have hg : ∀ i : ℕ, step / 3600 / 2 + (i : α) * (step / 3600 / 2 * 2) =
        (i + 1 / 2) * (step / 3600) := by intro i; field_simp; ring
    have hle : ∀ m : ℕ, ⌈(24 + step / 3600 / 2 - step / 3600 / 2) / (step / 3600 / 2 * 2)⌉₊ ≤ m ↔
        86400 ≤ m * step := by
      intro m
      rw [Nat.ceil_le, div_le_iff₀ (by positivity)]
      constructor
      · intro h1; have : (24 : α) ≤ m * (step / 3600) := by
          calc (24 : α) = 24 + step / 3600 / 2 - step / 3600 / 2 := by ring
            _ ≤ _ := h1
            _ = _ := by ring
        rw [← mul_div_assoc, le_div_iff₀ (by norm_num)] at this
        linarith
      · intro h1
        have : (24 : α) ≤ m * (step / 3600) := by
          rw [← mul_div_assoc, le_div_iff₀ (by norm_num)]; linarith
        calc 24 + step / 3600 / 2 - step / 3600 / 2 = 24 := by ring
          _ ≤ _ := this
          _ = _ := by ring
    refine ⟨_, _, by unfold timeGrid; rw [if_neg (not_lt.2 h)], hg, (hle _).1 (le_refl _),
      fun m hm => (hle m).2 hm, ?_⟩
    intro N hN
    have hn : ⌈(24 + step / 3600 / 2 - step / 3600 / 2) / (step / 3600 / 2 * 2)⌉₊ = N := by
      apply le_antisymm ((hle N).2 (le_of_eq hN.symm))
      by_contra hc
      have h1 : (⌈(24 + step / 3600 / 2 - step / 3600 / 2) / (step / 3600 / 2 * 2)⌉₊ : α) + 1 ≤ N := by
        exact_mod_cast not_le.1 hc
      have h2 := (hle _).1 (le_refl ⌈(24 + step / 3600 / 2 - step / 3600 / 2) / (step / 3600 / 2 * 2)⌉₊)
      nlinarith
    refine ⟨hn, ?_⟩
    intro i hi
    rw [hn] at hi
    rw [hg i]
    constructor
    · have : (0 : α) ≤ i := Nat.cast_nonneg i
      positivity
    · have h1 : (i : α) + 1 ≤ N := by exact_mod_cast hi
      have h2 : ((i : α) + 1 / 2) * step < 86400 := by
        rw [← hN]; nlinarith
      calc ((i : α) + 1 / 2) * (step / 3600) = ((i : α) + 1 / 2) * step / 3600 := by ring
        _ < 86400 / 3600 := by apply div_lt_div_of_pos_right h2; norm_num
        _ = 24 := by norm_num

/-- C35. When the step does not divide the day the last point can lie after midnight: with seven hours
the last of the four points is 24.5 h. -/
theorem C35_last_point_after_midnight :
    ∃ g, timeGrid (25200 : ℚ) = .ok (4, g) ∧ g 3 = 49 / 2 := by
  refine ⟨fun i => 7 / 2 + i * (7 / 2 * 2), ?_, ?_⟩
  · unfold timeGrid
    rw [if_neg (by norm_num)]
    have : ⌈((24 : ℚ) + 25200 / 3600 / 2 - 25200 / 3600 / 2) / (25200 / 3600 / 2 * 2)⌉₊ = 4 := by
      rw [Nat.ceil_eq_iff (by norm_num)]; norm_num
    simp only [this]
    congr 2
    funext i
    norm_num
  · norm_num

example : ∃ n g, timeGrid (30 : ℚ) = .ok (n, g) ∧ n = 2880 := by
  obtain ⟨n, g, h1, _, _, _, h2⟩ := (C35_time_grid (30 : ℚ)).2 (by norm_num)
  exact ⟨n, g, h1, (h2 2880 (by norm_num)).1⟩

theorem npMod_spec [FloorRing α] (x m : α) (hm : 0 < m) :
    0 ≤ npMod x m ∧ npMod x m < m ∧ ∃ k : ℤ, x = m * k + npMod x m := by
  unfold npMod
  have h1 := Int.floor_le (x / m)
  have h2 := Int.lt_floor_add_one (x / m)
  rw [le_div_iff₀ hm] at h1
  rw [div_lt_iff₀ hm] at h2
  exact ⟨by linarith, by linarith, ⌊x / m⌋, by ring⟩

/-- C36. `seconds2hours` gives for every time stamp the time of day in hours: it differs from the time
stamp by whole days and is in `[0, 24)`; only a last time stamp at exactly midnight is 24 instead of 0.
An empty vector raises. -/
theorem C36_seconds2hours [FloorRing α] (n : ℕ) (s : ℕ → α) :
    (n = 0 → ∃ e, seconds2hours n s = .error e) ∧
    (0 < n → ∃ f, seconds2hours n s = .ok f ∧ ∀ i < n,
      (∃ k : ℤ, s i = 86400 * k + 3600 * f i) ∧
      (0 ≤ f i ∧ f i < 24 ∨ i = n - 1 ∧ f i = 24) ∧ (i = n - 1 → 0 < f i)) := by
  constructor
  · intro h; exact ⟨_, by unfold seconds2hours; rw [if_pos h]⟩
  · intro hn
    refine ⟨_, by unfold seconds2hours; rw [if_neg (by omega)], ?_⟩
    intro i hi
    simp only
    obtain ⟨h1, h2, k, h3⟩ := npMod_spec (s i) 86400 (by norm_num)
    have e1 : 0 ≤ npMod (s i) 86400 / 3600 := by positivity
    have e2 : npMod (s i) 86400 / 3600 < 24 := by
      rw [div_lt_iff₀ (by norm_num)]; linarith
    split
    · next hc =>
      obtain ⟨hi', hz⟩ := hc
      rw [← hi'] at hz
      have hz0 : npMod (s i) 86400 = 0 := by
        rw [div_eq_zero_iff] at hz
        rcases hz with hz | hz
        · exact hz
        · norm_num at hz
      refine ⟨⟨k - 1, ?_⟩, Or.inr ⟨hi', rfl⟩, fun _ => by norm_num⟩
      rw [h3, hz0]; push_cast; ring
    · next hc =>
      refine ⟨⟨k, ?_⟩, Or.inl ⟨e1, e2⟩, ?_⟩
      · rw [mul_div_cancel₀ _ (by norm_num)]; exact h3
      · intro hi'
        rcases eq_or_lt_of_le e1 with he | he
        · exact absurd ⟨hi', by rw [← hi']; exact he.symm⟩ hc
        · exact he

/-- C36. Increasing time stamps of one day (the last one may be the following midnight) give increasing
hours. -/
theorem C36_monotone [FloorRing α] (n : ℕ) (s f : ℕ → α) (D : ℤ) (hf : seconds2hours n s = .ok f)
    (hs : ∀ i < n, 86400 * D ≤ s i ∧ s i ≤ 86400 * (D + 1))
    (i j : ℕ) (hij : i < j) (hj : j < n) (hinc : ∀ i j, i < j → j < n → s i < s j) : f i < f j := by
  obtain ⟨f', hf', hall⟩ := (C36_seconds2hours n s).2 (by omega)
  rw [hf] at hf'
  rw [← Except.ok.inj hf'] at hall
  have hlt := hinc i j hij hj
  -- the time of day of a stamp that is not the last one
  have hday : ∀ l < n, s l < 86400 * (D + 1) → s l > 86400 * D ∨ l ≠ n - 1 →
      3600 * f l = s l - 86400 * D := by
    intro l hl h1 h2
    obtain ⟨⟨k, h3⟩, h4, h5⟩ := hall l hl
    obtain ⟨h6, h7⟩ := hs l hl
    rcases h4 with ⟨h8, h9⟩ | ⟨h8, h9⟩
    · have hk1 : (k : α) < D + 1 := by
        by_contra hc
        have := not_lt.1 hc
        nlinarith
      have hk2 : (D : α) < k + 1 := by
        by_contra hc
        have := not_lt.1 hc
        nlinarith
      have hk1' : k < D + 1 := by exact_mod_cast hk1
      have hk2' : D < k + 1 := by exact_mod_cast hk2
      have : k = D := by omega
      rw [h3, this]; ring
    · rw [h9] at h3
      have hk1 : (k : α) + 1 < D + 1 := by
        by_contra hc
        have := not_lt.1 hc
        nlinarith
      have hk2 : (D : α) ≤ k + 1 := by
        by_contra hc
        have := not_le.1 hc
        nlinarith
      have hk1' : k + 1 < D + 1 := by exact_mod_cast hk1
      have hk2' : D ≤ k + 1 := by exact_mod_cast hk2
      have : k = D - 1 := by omega
      rw [this] at h3
      push_cast at h3
      rcases h2 with h2 | h2
      · exfalso; linarith
      · exact absurd h8 h2
  obtain ⟨i1, i2⟩ := hs i (by omega)
  obtain ⟨j1, j2⟩ := hs j hj
  have hi := hday i (by omega) (lt_of_lt_of_le hlt j2) (Or.inr (by omega))
  rcases eq_or_lt_of_le j2 with he | hl
  · -- following midnight: `j` must be the last stamp
    have hjn : j = n - 1 := by
      by_contra hc
      have := hinc j (j + 1) (by omega) (by omega)
      have := (hs (j + 1) (by omega)).2
      linarith
    obtain ⟨⟨k, h3⟩, h4, h5⟩ := hall j hj
    rcases h4 with ⟨h8, h9⟩ | ⟨_, h9⟩
    · have h10 := h5 hjn
      have hk1 : (k : α) < D + 1 := by
        by_contra hc
        have := not_lt.1 hc
        nlinarith
      have hk2 : (D : α) < k := by
        by_contra hc
        have := not_lt.1 hc
        nlinarith
      have hk1' : k < D + 1 := by exact_mod_cast hk1
      have hk2' : D < k := by exact_mod_cast hk2
      omega
    · rw [h9]; linarith
  · have := hday j hj hl (Or.inl (lt_of_le_of_lt i1 hlt))
    linarith

example : (match seconds2hours (α := ℚ) 3 (fun i => [0, 3600, 86400].getD i 0) with
    | .ok f => decide ((List.range 3).map f = [0, 1, 24])
    | .error _ => false) = true := by decide +kernel

/-- C36. `datetime2decimal_hours` is the time of day in hours to the second (fractions of a second are
dropped), in `[0, 24)` for valid times. -/
theorem C36_datetime2decimal_hours (t : ClockTime) (h1 : t.hour < 24) (h2 : t.minute < 60)
    (h3 : t.second < 60) :
    (datetime2decimalHours t : α) * 3600 = ((3600 * t.hour + 60 * t.minute + t.second : ℕ) : α) ∧
    0 ≤ (datetime2decimalHours t : α) ∧ (datetime2decimalHours t : α) < 24 := by
  have e : (datetime2decimalHours t : α) * 3600 =
      ((3600 * t.hour + 60 * t.minute + t.second : ℕ) : α) := by
    unfold datetime2decimalHours; push_cast; field_simp; ring
  refine ⟨e, ?_, ?_⟩
  · unfold datetime2decimalHours; positivity
  · have : ((3600 * t.hour + 60 * t.minute + t.second : ℕ) : α) < (86400 : ℕ) := by
      exact_mod_cast (by omega : 3600 * t.hour + 60 * t.minute + t.second < 86400)
    rw [← e] at this
    push_cast at this
    linarith

example : (datetime2decimalHours ⟨12, 30, 36, 0⟩ : ℚ) = 1251 / 100 := by
  norm_num [datetime2decimalHours]

/-- C75. `edges2mid`: with reference "lower" the result is the mid point of each gate and the gate above
(the last gate is as thick as the one below it); with reference "upper" the mid point of each gate and
the gate below (the first gate is as thick as the one above it). Fewer than two gates raise. -/
theorem C75_edges2mid (n : ℕ) (x : ℕ → α) :
    (n < 2 → ∀ b, ∃ e, edges2mid n x b = .error e) ∧
    (2 ≤ n → (∃ f, edges2mid n x true = .ok f ∧ (∀ i, i + 1 < n → f i = (x i + x (i + 1)) / 2) ∧
        f (n - 1) = x (n - 1) + (x (n - 1) - x (n - 2)) / 2) ∧
      ∃ f, edges2mid n x false = .ok f ∧ (∀ i, 0 < i → i < n → f i = (x (i - 1) + x i) / 2) ∧
        f 0 = x 0 - (x 1 - x 0) / 2) := by
  constructor
  · intro h b; exact ⟨_, by unfold edges2mid; rw [if_pos h]⟩
  · intro h
    unfold edges2mid
    have h2 : ¬ n < 2 := by omega
    simp only [h2, if_true, Bool.false_eq_true, if_false]
    refine ⟨⟨_, rfl, fun i hi => ?_, ?_⟩, ⟨_, rfl, fun i hi hin => ?_, ?_⟩⟩
    · rw [if_neg (by omega)]; ring
    · simp only [if_true]; rw [show n - 2 + 1 = n - 1 by omega]
    · rw [if_neg (by omega), show i - 1 + 1 = i by omega]; ring
    · simp only [if_true, zero_add]

example : (match edges2mid (α := ℚ) 3 (fun i => [0, 10, 30].getD i 0) true with
    | .ok f => decide ((List.range 3).map f = [5, 20, 40])
    | .error _ => false) = true := by decide +kernel

end Cloudnet
