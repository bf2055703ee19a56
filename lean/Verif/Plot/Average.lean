import Verif.Plot.Model
import Mathlib.Tactic

/-! C146 (averages in figures). -/

namespace Cloudnet

namespace Spec

/-- `a` to `b` (without) is a run of indices below `n` with `p`, as long as possible. -/
def IsRun (n : ℕ) (p : ℕ → Prop) (a b : ℕ) : Prop := a < b ∧ b ≤ n ∧ (∀ i, a ≤ i → i < b → p i) ∧ (a = 0 ∨ ¬ p (a - 1)) ∧ (b = n ∨ ¬ p b)

/-- Samples continued with the first and the last one; `h` before the first. -/
def padded {α : Type} (n : ℕ) (data : ℕ → α) (h j : ℕ) : α := if j < h then data 0 else if j - h < n then data (j - h) else data (n - 1)

end Spec

/-! ### Runs -/

/-- The cuts between `s` and `n` where `inv` changes. -/
def IsCuts (inv : ℕ → Bool) (s n : ℕ) (cuts : List ℕ) : Prop :=
  cuts.Pairwise (· < ·) ∧ ∀ x, x ∈ cuts ↔ s < x ∧ x < n ∧ inv (x - 1) ≠ inv x

/-- A run from `s`. -/
def IsRunFrom (inv : ℕ → Bool) (s n a b : ℕ) : Prop := s ≤ a ∧ a < b ∧ b ≤ n ∧ (∀ i, a ≤ i → i < b → inv i = false) ∧ (a = s ∨ inv (a - 1) = true) ∧
  (b = n ∨ inv b = true)

theorem IsCuts.tail {inv : ℕ → Bool} {s n c : ℕ} {cs : List ℕ} (h : IsCuts inv s n (c :: cs)) : IsCuts inv c n cs := by
  obtain ⟨h1, h2⟩ := h
  rw [List.pairwise_cons] at h1
  have hc := (h2 c).1 (by simp)
  refine ⟨h1.2, fun x => ?_⟩
  constructor
  · intro hx
    exact ⟨h1.1 x hx, ((h2 x).1 (by simp [hx])).2⟩
  · rintro ⟨h3, h4⟩
    have := (h2 x).2 ⟨by omega, h4⟩
    rcases List.mem_cons.1 this with rfl | h
    · omega
    · exact h

theorem inv_const {inv : ℕ → Bool} {s e : ℕ} (h : ∀ x, s < x → x < e → inv (x - 1) = inv x) (i : ℕ) (h1 : s ≤ i) (h2 : i < e) : inv i = inv s := by
  induction i, h1 using Nat.le_induction with
  | base => rfl
  | succ i hi ih =>
    have := h (i + 1) (by omega) h2
    rw [Nat.add_sub_cancel] at this
    rw [← this]
    exact ih (by omega)

theorem IsCuts.const {inv : ℕ → Bool} {s n c : ℕ} {cs : List ℕ} (h : IsCuts inv s n (c :: cs)) : (∀ i, s ≤ i → i < c → inv i = inv s) ∧
    s < c ∧ c < n ∧ inv c ≠ inv s := by
  obtain ⟨h1, h2⟩ := h
  rw [List.pairwise_cons] at h1
  obtain ⟨c1, c2, c3⟩ := (h2 c).1 (by simp)
  have key : ∀ i, s ≤ i → i < c → inv i = inv s := inv_const fun x hx hxc => by
    by_contra hne
    rcases List.mem_cons.1 ((h2 x).2 ⟨hx, by omega, hne⟩) with rfl | h
    · omega
    · have := h1.1 x h; omega
  refine ⟨key, c1, c2, ?_⟩
  rw [← key (c - 1) (by omega) (by omega)]
  exact c3.symm

/-- Blocks of `validBlocks` from `s`. -/
def blocksFrom (inv : ℕ → Bool) (n s : ℕ) (cuts : List ℕ) : List (ℕ × ℕ) :=
  everySecond (((s :: cuts).zip (cuts ++ [n])).drop (if inv s then 1 else 0))

theorem blocksFrom_cons {inv : ℕ → Bool} {s n c : ℕ} {cs : List ℕ} (h : IsCuts inv s n (c :: cs)) :
    blocksFrom inv n s (c :: cs) = if inv s then blocksFrom inv n c cs else (s, c) :: blocksFrom inv n c cs := by
  obtain ⟨-, -, -, hne⟩ := h.const
  unfold blocksFrom
  have e : (s :: c :: cs).zip (c :: cs ++ [n]) = (s, c) :: (c :: cs).zip (cs ++ [n]) := rfl
  rw [e]
  cases hs : inv s
  · have hc : inv c = true := by rw [hs] at hne; simpa using hne
    rw [hc]
    obtain ⟨y, ys, hy⟩ : ∃ y ys, (c :: cs).zip (cs ++ [n]) = y :: ys := by cases cs <;> exact ⟨_, _, rfl⟩
    rw [hy]
    simp [everySecond]
  · have hc : inv c = false := by rw [hs] at hne; simpa using hne
    rw [hc]
    simp

theorem mem_blocksFrom {inv : ℕ → Bool} {n : ℕ} (cuts : List ℕ) (s : ℕ) (hs : s < n) (h : IsCuts inv s n cuts) (a b : ℕ) :
    (a, b) ∈ blocksFrom inv n s cuts ↔ IsRunFrom inv s n a b := by
  induction cuts generalizing s with
  | nil =>
    have hconst : ∀ i, s ≤ i → i < n → inv i = inv s := inv_const fun x hx hxn => by
      by_contra hne
      exact absurd ((h.2 x).2 ⟨hx, hxn, hne⟩) (by simp)
    unfold blocksFrom IsRunFrom
    cases he : inv s
    · rw [he] at hconst
      constructor
      · intro hm
        obtain ⟨rfl, rfl⟩ := Prod.mk.inj (List.mem_singleton.1 hm)
        exact ⟨le_rfl, hs, le_rfl, hconst, Or.inl rfl, Or.inl rfl⟩
      · rintro ⟨h1, h2, h3, h4, h5, h6⟩
        have ha : a = s := by
          rcases h5 with h | h
          · exact h
          · by_contra hne
            have := hconst (a - 1) (by omega) (by omega)
            rw [h] at this; cases this
        have hb : b = n := by
          rcases h6 with h | h
          · exact h
          · by_contra hne
            have := hconst b (by omega) (by omega)
            rw [h] at this; cases this
        subst ha; subst hb
        exact List.mem_singleton.2 rfl
    · rw [he] at hconst
      constructor
      · intro hm; cases hm
      · rintro ⟨h1, h2, h3, h4, -, -⟩
        have := h4 a le_rfl h2
        rw [hconst a h1 (by omega)] at this; cases this
  | cons c cs ih =>
    obtain ⟨hconst, hsc, hcn, hne⟩ := h.const
    have i := ih c hcn h.tail
    rw [blocksFrom_cons h]
    cases he : inv s
    · rw [he] at hconst hne
      have hc : inv c = true := by simpa using hne
      simp only [Bool.false_eq_true, if_false]
      rw [List.mem_cons, i]
      unfold IsRunFrom
      constructor
      · rintro (hm | ⟨h1, h2, h3, h4, h5, h6⟩)
        · obtain ⟨rfl, rfl⟩ := Prod.mk.inj hm
          exact ⟨le_rfl, hsc, hcn.le, hconst, Or.inl rfl, Or.inr hc⟩
        · refine ⟨by omega, h2, h3, h4, Or.inr ?_, h6⟩
          rcases h5 with rfl | h5
          · rw [h4 a le_rfl h2] at hc; cases hc
          · exact h5
      · rintro ⟨h1, h2, h3, h4, h5, h6⟩
        by_cases hac : a < c
        · left
          have ha : a = s := by
            rcases h5 with h | h
            · exact h
            · by_contra hn
              rw [hconst (a - 1) (by omega) (by omega)] at h; cases h
          have hb : b = c := by
            by_contra hn
            rcases lt_or_gt_of_ne hn with hlt | hgt
            · rcases h6 with h | h
              · omega
              · rw [hconst b (by omega) hlt] at h; cases h
            · rw [h4 c (by omega) hgt] at hc; cases hc
          rw [ha, hb]
        · right
          refine ⟨by omega, h2, h3, h4, ?_, h6⟩
          rcases h5 with h | h
          · omega
          · exact Or.inr h
    · rw [he] at hconst hne
      have hc : inv c = false := by simpa using hne
      simp only [if_true]
      rw [i]
      unfold IsRunFrom
      constructor
      · rintro ⟨h1, h2, h3, h4, h5, h6⟩
        refine ⟨by omega, h2, h3, h4, Or.inr ?_, h6⟩
        rcases h5 with rfl | h5
        · exact hconst (a - 1) (by omega) (by omega)
        · exact h5
      · rintro ⟨h1, h2, h3, h4, h5, h6⟩
        have hac : c ≤ a := by
          by_contra hn
          have := h4 a le_rfl h2
          rw [hconst a h1 (by omega)] at this; cases this
        refine ⟨hac, h2, h3, h4, ?_, h6⟩
        rcases h5 with h | h
        · omega
        · exact Or.inr h

theorem blocks_flat {inv : ℕ → Bool} {n : ℕ} (cuts : List ℕ) (s : ℕ) (hs : s < n) (h : IsCuts inv s n cuts) :
    (blocksFrom inv n s cuts).flatMap (fun r => List.range' r.1 (r.2 - r.1)) = (List.range' s (n - s)).filter fun i => !inv i := by
  induction cuts generalizing s with
  | nil =>
    have hconst : ∀ i, s ≤ i → i < n → inv i = inv s := inv_const fun x hx hxn => by
      by_contra hne
      exact absurd ((h.2 x).2 ⟨hx, hxn, hne⟩) (by simp)
    unfold blocksFrom
    cases he : inv s
    · have : (List.range' s (n - s)).filter (fun i => !inv i) = List.range' s (n - s) := by
        apply List.filter_eq_self.2
        intro i hi
        have := List.mem_range'_1.1 hi
        rw [hconst i this.1 (by omega), he]; rfl
      rw [this]
      simp [everySecond]
    · have : (List.range' s (n - s)).filter (fun i => !inv i) = [] := by
        apply List.filter_eq_nil_iff.2
        intro i hi
        have := List.mem_range'_1.1 hi
        rw [hconst i this.1 (by omega), he]; simp
      rw [this]
      simp [everySecond]
  | cons c cs ih =>
    obtain ⟨hconst, hsc, hcn, hne⟩ := h.const
    have i := ih c hcn h.tail
    have hsplit : List.range' s (n - s) = List.range' s (c - s) ++ List.range' c (n - c) := by
      have := List.range'_append_1 (s := s) (m := c - s) (n := n - c)
      rw [show s + (c - s) = c by omega, show c - s + (n - c) = n - s by omega] at this
      exact this.symm
    rw [blocksFrom_cons h, hsplit, List.filter_append, ← i]
    cases he : inv s
    · have : (List.range' s (c - s)).filter (fun i => !inv i) = List.range' s (c - s) := by
        apply List.filter_eq_self.2
        intro i hi
        have := List.mem_range'_1.1 hi
        rw [hconst i this.1 (by omega), he]; rfl
      rw [this]
      simp
    · have : (List.range' s (c - s)).filter (fun i => !inv i) = [] := by
        apply List.filter_eq_nil_iff.2
        intro i hi
        have := List.mem_range'_1.1 hi
        rw [hconst i this.1 (by omega), he]; simp
      rw [this]
      simp

theorem isCuts_range (inv : ℕ → Bool) (n : ℕ) : IsCuts inv 0 n (((List.range (n - 1)).filter fun i => inv i != inv (i + 1)).map (· + 1)) := by
  constructor
  · rw [List.pairwise_map]
    exact (List.pairwise_lt_range.filter _).imp fun h => by omega
  · intro x
    rw [List.mem_map]
    constructor
    · rintro ⟨i, hi, rfl⟩
      obtain ⟨h1, h2⟩ := List.mem_filter.1 hi
      have := List.mem_range.1 h1
      exact ⟨by omega, by omega, by simpa using h2⟩
    · rintro ⟨h1, h2, h3⟩
      refine ⟨x - 1, List.mem_filter.2 ⟨List.mem_range.2 (by omega), ?_⟩, by omega⟩
      rw [show x - 1 + 1 = x by omega]
      simpa using h3

theorem validBlocks_eq (n : ℕ) (inv : ℕ → Bool) :
    validBlocks n inv = blocksFrom inv n 0 (((List.range (n - 1)).filter fun i => inv i != inv (i + 1)).map (· + 1)) := rfl

/-- **C146.** Averages are taken over runs of valid samples, as long as possible; each valid sample is in one run, in order. -/
theorem C146_runs (n : ℕ) (hn : 0 < n) (invalid : ℕ → Bool) : (∀ a b, (a, b) ∈ validBlocks n invalid ↔ Spec.IsRun n (fun i => invalid i = false) a b) ∧
    (validBlocks n invalid).flatMap (fun r => List.range' r.1 (r.2 - r.1)) = (List.range n).filter fun i => !invalid i := by
  constructor
  · intro a b
    rw [validBlocks_eq, mem_blocksFrom _ 0 hn (isCuts_range invalid n)]
    unfold IsRunFrom Spec.IsRun
    simp only [Nat.zero_le, true_and, Bool.not_eq_false]
  · rw [validBlocks_eq, blocks_flat _ 0 hn (isCuts_range invalid n), List.range_eq_range']
    rfl

/-- Three runs. -/
example : validBlocks 7 (fun i => decide (i = 2 ∨ i = 5)) = [(0, 2), (3, 5), (6, 7)] := by decide +kernel

/-! ### Averages -/

section
variable {α : Type} [Field α] [LinearOrder α] [IsStrictOrderedRing α] [FloorRing α]

omit [IsStrictOrderedRing α] in
theorem windowSize_odd (window dt : α) : windowSize window dt % 2 = 1 := by
  unfold windowSize
  dsimp only
  split_ifs with h <;> omega

/-- **C146.** The average is over an odd number of samples, which cover the window to within one step. -/
theorem C146_window (window dt : α) (hw : 0 ≤ window) (hd : 0 < dt) : windowSize window dt % 2 = 1 ∧
    |(windowSize window dt : α) * dt - window / 60| ≤ dt := by
  refine ⟨windowSize_odd window dt, ?_⟩
  have h0 : 0 ≤ window / 60 / dt := by positivity
  have hf : 0 ≤ ⌊window / 60 / dt⌋ := Int.floor_nonneg.2 h0
  have h1 : ((⌊window / 60 / dt⌋ : ℤ) : α) * dt ≤ window / 60 := by
    have := mul_le_mul_of_nonneg_right (Int.floor_le (window / 60 / dt)) hd.le
    rwa [div_mul_cancel₀ _ hd.ne'] at this
  have h2 : window / 60 < (((⌊window / 60 / dt⌋ : ℤ) : α) + 1) * dt := by
    have := mul_lt_mul_of_pos_right (Int.lt_floor_add_one (window / 60 / dt)) hd
    rwa [div_mul_cancel₀ _ hd.ne'] at this
  have h3 : ((⌊window / 60 / dt⌋.toNat : ℕ) : α) = ((⌊window / 60 / dt⌋ : ℤ) : α) := by
    rw [← Int.cast_natCast, Int.toNat_of_nonneg hf]
  rw [← h3] at h1 h2
  unfold windowSize
  generalize ⌊window / 60 / dt⌋.toNat = m at h1 h2
  dsimp only
  rw [abs_le]
  rcases Nat.eq_zero_or_pos m with rfl | hm
  · rw [if_neg (by norm_num)]
    push_cast at h1 h2 ⊢
    have := div_nonneg hw (show (0 : α) ≤ 60 by norm_num)
    simp only [zero_add, one_mul, max_eq_left (zero_le_one' α)] at h2 ⊢
    constructor <;> linarith
  · rw [max_eq_right hm]
    split_ifs with hodd
    · push_cast
      constructor <;> nlinarith
    · constructor <;> nlinarith

omit [IsStrictOrderedRing α] [FloorRing α] in
theorem padded_eq (n : ℕ) (hn : 0 < n) (data : ℕ → α) (h j : ℕ) : data (min (j - h) (n - 1)) = Spec.padded n data h j := by
  unfold Spec.padded
  split_ifs with h1 h2
  · rw [show j - h = 0 by omega, Nat.zero_min]
  · rw [min_eq_left (by omega)]
  · rw [min_eq_right (by omega)]

omit [FloorRing α] in
theorem convolve_get (n : ℕ) (hn : 0 < n) (data : ℕ → α) (w : ℕ) (hw : 0 < w) (i : ℕ) (hi : i < n) :
    (w : α) * (convolveMean n data w).getD i 0 = ((List.range w).map fun k => Spec.padded n data (w / 2) (i + k)).sum := by
  have hw' : (w : α) ≠ 0 := by exact_mod_cast hw.ne'
  unfold convolveMean
  rw [List.getD_eq_getElem?_getD, List.getElem?_map, List.getElem?_range hi]
  simp only [Option.map_some, Option.getD_some]
  rw [List.sum_map_mul_left, ← mul_assoc, mul_one_div_cancel hw', one_mul]
  congr 1
  apply List.map_congr_left
  intro k _
  exact padded_eq n hn data (w / 2) (i + k)

/-- **C146.** The moving average has the length of the samples, and each value is the mean of the samples around it, where the first and the last
sample stand for samples before and after. -/
theorem C146_mean (n : ℕ) (data time : ℕ → α) (window : α) (out : List α) (h : movingAverage n data time window = .ok out) :
    out.length = n ∧ (2 ≤ n → ∃ m, 2 * m + 1 = windowSize window (mdiff n time) ∧ ∀ i < n,
      (2 * m + 1 : α) * out.getD i 0 = ((List.range (2 * m + 1)).map fun k => Spec.padded n data m (i + k)).sum) ∧ (n = 1 → out = [data 0]) := by
  unfold movingAverage at h
  by_cases h0 : n = 0
  · rw [if_pos h0] at h
    cases h
    exact ⟨h0.symm, fun h => by omega, fun h => by omega⟩
  · rw [if_neg h0] at h
    by_cases h1 : n = 1
    · rw [if_pos h1] at h
      cases h
      exact ⟨h1.symm, fun h => by omega, fun _ => rfl⟩
    · rw [if_neg h1] at h
      split_ifs at h with h2
      cases h
      refine ⟨by simp [convolveMean], fun _ => ⟨windowSize window (mdiff n time) / 2, ?_, ?_⟩, fun h => absurd h h1⟩
      · have := windowSize_odd window (mdiff n time); omega
      · have hodd := windowSize_odd window (mdiff n time)
        intro i hi
        have := convolve_get n (by omega) data (windowSize window (mdiff n time)) (by omega) i hi
        have e : 2 * (windowSize window (mdiff n time) / 2) + 1 = windowSize window (mdiff n time) := by omega
        rw [e, ← this]
        congr 1
        exact_mod_cast e

/-- **C146.** Averages are within the range of the samples. -/
theorem C146_range (n : ℕ) (data time : ℕ → α) (window : α) (out : List α) (h : movingAverage n data time window = .ok out) (lo hi : α)
    (hb : ∀ i < n, lo ≤ data i ∧ data i ≤ hi) (i : ℕ) (hi' : i < n) : lo ≤ out.getD i 0 ∧ out.getD i 0 ≤ hi := by
  obtain ⟨-, h2, h3⟩ := C146_mean n data time window out h
  rcases Nat.lt_or_ge n 2 with hn | hn
  · have hn1 : n = 1 := by omega
    have hi0 : i = 0 := by omega
    rw [h3 hn1, hi0]
    exact hb 0 (by omega)
  · obtain ⟨m, -, hm⟩ := h2 hn
    have hp : ∀ j, lo ≤ Spec.padded n data m j ∧ Spec.padded n data m j ≤ hi := by
      intro j
      unfold Spec.padded
      split_ifs
      · exact hb 0 (by omega)
      · exact hb _ (by assumption)
      · exact hb _ (by omega)
    have key : ∀ w : ℕ, (w : α) * lo ≤ ((List.range w).map fun k => Spec.padded n data m (i + k)).sum ∧
        ((List.range w).map fun k => Spec.padded n data m (i + k)).sum ≤ (w : α) * hi := by
      intro w
      induction w with
      | zero => simp
      | succ w ih =>
        rw [List.range_succ, List.map_append, List.sum_append]
        have := hp (i + w)
        push_cast
        simp only [List.map_cons, List.map_nil, List.sum_cons, List.sum_nil, add_zero]
        constructor <;> nlinarith [ih.1, ih.2, this.1, this.2]
    have k := key (2 * m + 1)
    rw [← hm i hi'] at k
    push_cast at k
    have hpos : (0 : α) < 2 * m + 1 := by positivity
    exact ⟨le_of_mul_le_mul_left k.1 hpos, le_of_mul_le_mul_left k.2 hpos⟩

/-! ### Curves -/

/-- Cuts are increasing positions between `s` and `n`. -/
theorem split_flat (n : ℕ) (cuts : List ℕ) (s : ℕ) (h1 : (s :: cuts).Pairwise (· < ·)) (h2 : ∀ c ∈ s :: cuts, c ≤ n) :
    ((s :: cuts).zip (cuts ++ [n])).flatMap (fun r => List.range' r.1 (r.2 - r.1)) = List.range' s (n - s) := by
  induction cuts generalizing s with
  | nil => simp
  | cons c cs ih =>
    have e : (s :: c :: cs).zip (c :: cs ++ [n]) = (s, c) :: (c :: cs).zip (cs ++ [n]) := rfl
    have hsc : s < c := (List.pairwise_cons.1 h1).1 c (by simp)
    have hcn : c ≤ n := h2 c (by simp)
    rw [e, List.flatMap_cons, ih c (List.pairwise_cons.1 h1).2 fun x hx => h2 x (by simp [hx])]
    have := List.range'_append_1 (s := s) (m := c - s) (n := n - c)
    rw [show s + (c - s) = c by omega, show c - s + (n - c) = n - s by omega] at this
    exact this

/-- No cut is inside of a part. -/
theorem split_inside (n : ℕ) (cuts : List ℕ) (s : ℕ) (h1 : (s :: cuts).Pairwise (· < ·)) (h2 : ∀ c ∈ s :: cuts, c ≤ n) (r : ℕ × ℕ)
    (hr : r ∈ (s :: cuts).zip (cuts ++ [n])) : s ≤ r.1 ∧ r.1 ≤ r.2 ∧ r.2 ≤ n ∧ ∀ c ∈ cuts, c ≤ r.1 ∨ r.2 ≤ c := by
  induction cuts generalizing s with
  | nil =>
    obtain rfl := List.mem_singleton.1 hr
    exact ⟨le_rfl, h2 s (by simp), le_rfl, fun c hc => by cases hc⟩
  | cons c cs ih =>
    have e : (s :: c :: cs).zip (c :: cs ++ [n]) = (s, c) :: (c :: cs).zip (cs ++ [n]) := rfl
    have hsc : s < c := (List.pairwise_cons.1 h1).1 c (by simp)
    rw [e] at hr
    rcases List.mem_cons.1 hr with rfl | hr
    · refine ⟨le_rfl, hsc.le, h2 c (by simp), fun x hx => ?_⟩
      rcases List.mem_cons.1 hx with rfl | hx
      · exact Or.inr le_rfl
      · exact Or.inr ((List.pairwise_cons.1 (List.pairwise_cons.1 h1).2).1 x hx).le
    · obtain ⟨i1, i2, i3, i4⟩ := ih c (List.pairwise_cons.1 h1).2 (fun x hx => h2 x (by simp [hx])) hr
      refine ⟨hsc.le.trans i1, i2, i3, fun x hx => ?_⟩
      rcases List.mem_cons.1 hx with rfl | hx
      · exact Or.inl i1
      · exact i4 x hx

omit [IsStrictOrderedRing α] [FloorRing α] in
theorem curveCuts_spec (n : ℕ) (time : ℕ → α) (gap : α) : (0 :: curveCuts n time gap).Pairwise (· < ·) ∧ (∀ c ∈ 0 :: curveCuts n time gap, c ≤ n) ∧
    ∀ c, c ∈ curveCuts n time gap ↔ 0 < c ∧ c < n ∧ gap / 60 < time c - time (c - 1) := by
  have hm : ∀ c, c ∈ curveCuts n time gap ↔ 0 < c ∧ c < n ∧ gap / 60 < time c - time (c - 1) := by
    intro c
    unfold curveCuts
    rw [List.mem_map]
    constructor
    · rintro ⟨i, hi, rfl⟩
      obtain ⟨h1, h2⟩ := List.mem_filter.1 hi
      have := List.mem_range.1 h1
      exact ⟨by omega, by omega, by simpa using h2⟩
    · rintro ⟨h1, h2, h3⟩
      refine ⟨c - 1, List.mem_filter.2 ⟨List.mem_range.2 (by omega), ?_⟩, by omega⟩
      rw [show c - 1 + 1 = c by omega]
      simpa using h3
  refine ⟨List.pairwise_cons.2 ⟨fun c hc => ((hm c).1 hc).1, ?_⟩, ?_, hm⟩
  · unfold curveCuts
    rw [List.pairwise_map]
    exact (List.pairwise_lt_range.filter _).imp fun h => by omega
  · intro c hc
    rcases List.mem_cons.1 hc with rfl | hc
    · omega
    · have := (hm c).1 hc; omega

omit [IsStrictOrderedRing α] [FloorRing α] in
theorem blockCurves_flat (time : ℕ → α) (gap : α) (a b : ℕ) (sma : List α) :
    (blockCurves time gap (a, b) sma).flatten = (List.range (b - a)).map fun i => (time (a + i), sma.getD i 0) := by
  obtain ⟨h1, h2, -⟩ := curveCuts_spec (b - a) (fun i => time (a + i)) gap
  have := split_flat (b - a) _ 0 h1 h2
  rw [Nat.sub_zero, ← List.range_eq_range'] at this
  unfold blockCurves npSplit
  dsimp only
  rw [← this, List.map_flatMap, List.flatMap_def]
  congr 1
  apply List.map_congr_left
  intro r _
  rw [List.range'_eq_map_range, List.map_map]
  rfl

/-- **C146.** The curves show each valid sample once, in order, at its time, with the average over its run of valid samples. No curve joins
samples that are not in one run, or samples with more than the allowed gap between them. Finding: the average itself is over the run, also across
gaps of time. -/
theorem C146_curves (n : ℕ) (hn : 0 < n) (data time : ℕ → α) (invalid : ℕ → Bool) (gap : α) (out : List (List (α × α)))
    (h : averageCurves n data time invalid gap = .ok out) :
    (out.flatten.map Prod.fst = ((List.range n).filter fun i => !invalid i).map time) ∧
    (∀ p ∈ out.flatten, ∃ a b i sma, Spec.IsRun n (fun i => invalid i = false) a b ∧ a + i < b ∧
      movingAverage (b - a) (fun k => data (a + k)) (fun k => time (a + k)) 5 = .ok sma ∧ p = (time (a + i), sma.getD i 0)) ∧
    ∀ c ∈ out, ∃ a b, (∀ i, a ≤ i → i < b → i < n ∧ invalid i = false) ∧ c.map Prod.fst = (List.range' a (b - a)).map time ∧
      ∀ i, a ≤ i → i + 1 < b → time (i + 1) - time i ≤ gap / 60 := by
  obtain ⟨hr1, hr2⟩ := C146_runs n hn invalid
  unfold averageCurves at h
  cases hm : (validBlocks n invalid).mapM fun b => (movingAverage (b.2 - b.1) (fun i => data (b.1 + i)) (fun i => time (b.1 + i)) 5).map
      (blockCurves time gap b) with
  | error e => rw [hm] at h; cases h
  | ok cs =>
    rw [hm] at h
    cases h
    have hall : List.Forall₂ (fun (b : ℕ × ℕ) c => ∃ sma, movingAverage (b.2 - b.1) (fun i => data (b.1 + i)) (fun i => time (b.1 + i)) 5 = .ok sma ∧
        c = blockCurves time gap b sma) (validBlocks n invalid) cs := by
      clear hr1 hr2
      generalize validBlocks n invalid = bs at hm
      induction bs generalizing cs with
      | nil => cases hm; exact List.Forall₂.nil
      | cons b bs ih =>
        rw [List.mapM_cons] at hm
        cases hb : movingAverage (b.2 - b.1) (fun i => data (b.1 + i)) (fun i => time (b.1 + i)) 5 with
        | error e => rw [hb] at hm; cases hm
        | ok sma =>
          rw [hb] at hm
          cases hrest : bs.mapM fun b => (movingAverage (b.2 - b.1) (fun i => data (b.1 + i)) (fun i => time (b.1 + i)) 5).map
              (blockCurves time gap b) with
          | error e => rw [hrest] at hm; cases hm
          | ok cs' =>
            rw [hrest] at hm
            cases hm
            exact List.Forall₂.cons ⟨sma, hb, rfl⟩ (ih cs' hrest)
    have hmem : ∀ c ∈ cs, ∃ a b sma, Spec.IsRun n (fun i => invalid i = false) a b ∧
        movingAverage (b - a) (fun k => data (a + k)) (fun k => time (a + k)) 5 = .ok sma ∧ c = blockCurves time gap (a, b) sma := by
      intro c hc
      obtain ⟨i, hi, rfl⟩ := List.mem_iff_getElem.1 hc
      have hi' : i < (validBlocks n invalid).length := by rw [hall.length_eq]; exact hi
      obtain ⟨sma, h1, h2⟩ := (List.forall₂_iff_get.1 hall).2 i hi' hi
      obtain ⟨a, b⟩ : ℕ × ℕ := (validBlocks n invalid)[i]
      exact ⟨((validBlocks n invalid)[i]).1, ((validBlocks n invalid)[i]).2, sma, (hr1 _ _).1 (List.getElem_mem hi'), h1, h2⟩
    refine ⟨?_, ?_, ?_⟩
    · rw [← hr2]
      clear hr1 hr2 hmem hm
      generalize validBlocks n invalid = bs at hall
      induction hall with
      | nil => rfl
      | cons hb _ ih =>
        obtain ⟨sma, -, rfl⟩ := hb
        rw [List.flatten_cons, List.flatten_append, List.map_append, ih, List.flatMap_cons, List.map_append]
        congr 1
        rename_i b _ _ _ _
        obtain ⟨b1, b2⟩ := b
        rw [blockCurves_flat, List.map_map, List.range'_eq_map_range, List.map_map]
        rfl
    · intro p hp
      rw [List.mem_flatten] at hp
      obtain ⟨c, hc, hp⟩ := hp
      obtain ⟨cc, hcc, hc⟩ := List.mem_flatten.1 hc
      obtain ⟨a, b, sma, hrun, hs, rfl⟩ := hmem cc hcc
      have : p ∈ (blockCurves time gap (a, b) sma).flatten := List.mem_flatten.2 ⟨c, hc, hp⟩
      rw [blockCurves_flat] at this
      obtain ⟨i, hi, rfl⟩ := List.mem_map.1 this
      have := List.mem_range.1 hi
      exact ⟨a, b, i, sma, hrun, by omega, hs, rfl⟩
    · intro c hc
      obtain ⟨cc, hcc, hc⟩ := List.mem_flatten.1 hc
      obtain ⟨a, b, sma, hrun, hs, rfl⟩ := hmem cc hcc
      unfold blockCurves npSplit at hc
      dsimp only at hc
      obtain ⟨r, hr, rfl⟩ := List.mem_map.1 hc
      obtain ⟨c1, c2, c3⟩ := curveCuts_spec (b - a) (fun i => time (a + i)) gap
      obtain ⟨-, r1, r2, r3⟩ := split_inside (b - a) _ 0 c1 c2 r hr
      refine ⟨a + r.1, a + r.2, ?_, ?_, ?_⟩
      · intro i h1 h2
        exact ⟨by have := hrun.2.1; omega, hrun.2.2.1 i (by omega) (by omega)⟩
      · rw [List.map_map, List.range'_eq_map_range, List.map_map, show a + r.2 - (a + r.1) = r.2 - r.1 by omega]
        apply List.map_congr_left
        intro i _
        simp only [Function.comp]
        rw [Nat.add_assoc]
      · intro i h1 h2
        by_contra hg
        have hcut := (c3 (i + 1 - a)).2 ⟨by omega, by omega, by
          rw [show a + (i + 1 - a) = i + 1 by omega, show a + (i + 1 - a - 1) = i by omega]
          exact not_le.1 hg⟩
        rcases r3 _ hcut with h | h <;> omega

/-- **C146, finding.** Samples 22 hours apart are averaged, although the curve is broken there. -/
theorem C146_across_gap : ∃ (data time : ℕ → ℚ) (out : List (List (ℚ × ℚ))), averageCurves 6 data time (fun _ => false) 10 = .ok out ∧
    (∀ i < 5, time i < time (i + 1)) ∧ (∀ i < 3, data i = 0) ∧ 22 < time 3 - time 2 ∧ ∃ c ∈ out, ∃ p ∈ c, p.1 = time 2 ∧ p.2 ≠ 0 := by
  refine ⟨fun i => if i < 3 then 0 else 9, fun i => if i < 3 then i / 60 else 23 + i / 60,
    [[(0, 0), (1 / 60, 9 / 5), (2 / 60, 18 / 5)], [(23 + 3 / 60, 27 / 5), (23 + 4 / 60, 36 / 5), (23 + 5 / 60, 9)]], by decide +kernel, by decide +kernel, by decide +kernel,
    by decide +kernel, _, List.mem_cons_self, (2 / 60, 18 / 5), by decide +kernel, by decide +kernel, by decide +kernel⟩

end

end Cloudnet
