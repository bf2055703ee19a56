import Verif.Rebin.Model
import Mathlib.Algebra.BigOperators.Group.Finset.Basic
import Mathlib.Algebra.BigOperators.Field
import Mathlib.Algebra.Order.BigOperators.Group.List
import Mathlib.Algebra.Order.Ring.Rat
import Mathlib.Tactic.Linarith
import Mathlib.Tactic.FieldSimp
import Mathlib.Tactic.Ring
import Mathlib.Tactic.NormNum

/-!
Properties C29 (bin edges), C30 (2-D rebinning), C31 (1-D rebinning).
-/

set_option linter.unusedSectionVars false
set_option linter.unusedSimpArgs false

namespace Cloudnet

section
variable {α : Type} [Field α] [LinearOrder α] [IsStrictOrderedRing α]

/-- The first `n` elements of `x` are equally spaced with a positive step `d`. -/
def Spec.EvenlySpaced (n : ℕ) (x : ℕ → α) (d : α) : Prop := 0 < d ∧ ∀ i < n, x i = x 0 + i * d

/-- The value `v` is in the bin of width `d` around the centre `c` (lower edge included). -/
def Spec.InBin (c d v : α) : Prop := c - d / 2 ≤ v ∧ v < c + d / 2

/-- The profiles (indices below `nIn`) whose time is in the bin around `c`. -/
noncomputable def Spec.profilesInBin (nIn : ℕ) (xIn : ℕ → α) (c d : α) : Finset ℕ :=
  open Classical in (Finset.range nIn).filter fun i => Spec.InBin c d (xIn i)

theorem binvec_even {n : ℕ} (hn : 2 ≤ n) {x : ℕ → α} {d : α} (hx : Spec.EvenlySpaced n x d) :
    binvec n x = .ok fun i => x 0 - d / 2 + i * d := by
  obtain ⟨hd, hx⟩ := hx
  unfold binvec
  rw [if_neg (by omega)]
  have h1 : x 1 = x 0 + d := by have := hx 1 (by omega); simpa using this
  have h2 := hx (n - 1) (by omega)
  have h3 := hx (n - 2) (by omega)
  have e1 : ((n - 1 : ℕ) : α) = n - 1 := by rw [Nat.cast_sub (by omega)]; simp
  have e2 : ((n - 2 : ℕ) : α) = n - 2 := by rw [Nat.cast_sub hn]; simp
  have hn0 : (n : α) ≠ 0 := Nat.cast_ne_zero.2 (by omega)
  simp only
  refine congrArg Except.ok (funext fun i => ?_)
  rw [h2, h3, h1, e1, e2]
  field_simp
  ring

/-- C29. For two or more equally spaced points `binvec` returns bin edges `e` with `e i` and `e (i+1)`
exactly half a step below and above the `i`-th point; the edges increase and every point lies in its own
bin only. -/
theorem C29_bin_edges {n : ℕ} (hn : 2 ≤ n) {x : ℕ → α} {d : α} (hx : Spec.EvenlySpaced n x d) :
    ∃ e, binvec n x = .ok e ∧ ∀ i < n,
      e i = x i - d / 2 ∧ e (i + 1) = x i + d / 2 ∧ e i < e (i + 1) ∧
      ∀ j < n, (e j ≤ x i ∧ x i < e (j + 1)) ↔ j = i := by
  refine ⟨_, binvec_even hn hx, ?_⟩
  obtain ⟨hd, hx⟩ := hx
  intro i hi
  rw [hx i hi]
  refine ⟨by ring, by push_cast; ring, by push_cast; linarith, ?_⟩
  intro j hj
  constructor
  · rintro ⟨h1, h2⟩
    push_cast at h2
    have h3 : (j : α) < i + 1 := by
      by_contra hc
      have : ((i : α) + 1) * d ≤ j * d := mul_le_mul_of_nonneg_right (not_lt.1 hc) (le_of_lt hd)
      linarith
    have h4 : (i : α) < j + 1 := by
      by_contra hc
      have : ((j : α) + 1) * d ≤ i * d := mul_le_mul_of_nonneg_right (not_lt.1 hc) (le_of_lt hd)
      linarith
    have h3' : j < i + 1 := by exact_mod_cast h3
    have h4' : i < j + 1 := by exact_mod_cast h4
    omega
  · rintro rfl
    push_cast
    constructor <;> linarith

/-- C29. For any increasing vector the edges start and end half a step outside the first and last point
and split that interval into equal bins. -/
theorem C29_equal_bins {n : ℕ} (hn : 2 ≤ n) {x : ℕ → α} (hx : ∀ i j, i < j → j < n → x i < x j) :
    ∃ e w, binvec n x = .ok e ∧ 0 < w ∧ e 0 = x 0 - (x 1 - x 0) / 2 ∧
      e n = x (n - 1) + (x (n - 1) - x (n - 2)) / 2 ∧ ∀ i, e (i + 1) = e i + w := by
  have hn0 : (n : α) ≠ 0 := Nat.cast_ne_zero.2 (by omega)
  have hpos : (0 : α) < n := Nat.cast_pos.2 (by omega)
  have h1 := hx 0 1 (by omega) (by omega)
  have h2 := hx (n - 2) (n - 1) (by omega) (by omega)
  have h3 := hx 0 (n - 1) (by omega) (by omega)
  refine ⟨_, (x (n - 1) + (x (n - 1) - x (n - 2)) / 2 - (x 0 - (x 1 - x 0) / 2)) / n,
    by unfold binvec; rw [if_neg (by omega)], div_pos (by linarith) hpos, by simp, ?_, ?_⟩
  · field_simp
    ring
  · intro i
    push_cast
    ring

/-- C29. On an uneven grid a point need not lie in its own bin: the point 1 of the grid 0, 1, 10 is in the
first bin, not in the second. -/
theorem C29_uneven_grid :
    (match binvec (α := ℚ) 3 (fun i => [0, 1, 10].getD i 0) with
      | .ok e => decide (e 0 ≤ 1 ∧ (1 : ℚ) < e 1)
      | .error _ => false) = true := by decide +kernel

/-- C29. `binvec` fails for vectors with fewer than two points. -/
theorem C29_too_short (n : ℕ) (hn : n < 2) (x : ℕ → α) : ∃ e, binvec n x = .error e :=
  ⟨_, by unfold binvec; rw [if_pos hn]⟩

example : Spec.EvenlySpaced 3 (fun i => (i : ℚ) + 1) 1 :=
  ⟨by norm_num, fun i _ => by push_cast; ring⟩

theorem filter_range_down (p : ℕ → Bool) (m : ℕ) (hp : ∀ i j, i ≤ j → j < m → p j = true → p i = true) :
    ∀ i < m, (p i = true ↔ i < ((List.range m).filter p).length) := by
  induction m with
  | zero => intro i hi; omega
  | succ m ih =>
    intro i hi
    rw [List.range_succ, List.filter_append]
    have ih' := ih (fun i j h1 h2 => hp i j h1 (by omega))
    rcases Bool.eq_false_or_eq_true (p m) with hm | hm
    · have hall : ∀ k < m + 1, p k = true := fun k hk => hp k m (by omega) (by omega) hm
      have : (List.range m).filter p = List.range m := by
        rw [List.filter_eq_self]
        intro k hk; exact hall k (by rw [List.mem_range] at hk; omega)
      rw [this]
      simp only [hall i hi, true_iff]
      simp [hm, hi]
    · have : [m].filter p = [] := by simp [hm]
      rw [this, List.append_nil]
      by_cases him : i = m
      · subst him
        simp only [hm, Bool.false_eq_true, false_iff, not_lt]
        refine le_trans (List.length_filter_le _ _) (by simp)
      · exact ih' i (by omega)

theorem binNumber_iff {n : ℕ} {e : ℕ → α} (he : ∀ i, e i < e (i + 1)) (v : α) {k : ℕ} (hk : k < n) :
    binNumber n e v = k ↔ e k ≤ v ∧ v < e (k + 1) := by
  have hmono : ∀ i j, i ≤ j → e i ≤ e j := by
    intro i j hij
    induction j with
    | zero => have : i = 0 := by omega
              rw [this]
    | succ j ih =>
      rcases Nat.lt_or_ge i (j + 1) with h | h
      · exact le_trans (ih (by omega)) (le_of_lt (he j))
      · have : i = j + 1 := by omega
        rw [this]
  have key := filter_range_down (fun i => decide (e i ≤ v)) (n + 1) (by
    intro i j hij _ h
    simp only [decide_eq_true_eq] at h ⊢
    exact le_trans (hmono i j hij) h)
  have hlen : ((List.range (n + 1)).filter fun i => decide (e i ≤ v)).length ≤ n + 1 := by
    refine le_trans (List.length_filter_le _ _) (by simp)
  unfold binNumber digitize
  set c := ((List.range (n + 1)).filter fun i => decide (e i ≤ v)).length with hc
  have k1 := key k (by omega)
  have k2 := key (k + 1) (by omega)
  simp only [decide_eq_true_eq] at k1 k2
  rw [k1, ← not_le (a := e (k + 1)), k2]
  constructor
  · intro h; constructor <;> omega
  · rintro ⟨h1, h2⟩; omega

theorem binNumber_last {n : ℕ} {e : ℕ → α} (he : ∀ i, e i < e (i + 1)) (v : α) :
    binNumber n e v = n ↔ e n ≤ v := by
  have hmono : ∀ i j, i ≤ j → e i ≤ e j := fun i j hij => (strictMono_nat_of_lt_succ he).monotone hij
  have key := filter_range_down (fun i => decide (e i ≤ v)) (n + 1) (by
    intro i j hij _ h
    simp only [decide_eq_true_eq] at h ⊢
    exact le_trans (hmono i j hij) h)
  have hlen : ((List.range (n + 1)).filter fun i => decide (e i ≤ v)).length ≤ n + 1 := by
    refine le_trans (List.length_filter_le _ _) (by simp)
  unfold binNumber digitize
  have k1 := key n (by omega)
  simp only [decide_eq_true_eq] at k1
  rw [k1]
  omega

theorem binNumber_le (n : ℕ) (e : ℕ → α) (v : α) : binNumber n e v ≤ n := by
  have hlen : ((List.range (n + 1)).filter fun i => decide (e i ≤ v)).length ≤ n + 1 := by
    refine le_trans (List.length_filter_le _ _) (by simp)
  unfold binNumber digitize
  omega

theorem nCounts_spec (nIn : ℕ) (xIn : ℕ → α) (n : ℕ) (e : ℕ → α) :
    (nCounts nIn xIn n e = n ∨ nCounts nIn xIn n e = n + 1) ∧
    (nCounts nIn xIn n e = n + 1 ↔ ∃ i < nIn, binNumber n e (xIn i) = n) := by
  have h : ∀ (l : List ℕ) m, (m = n ∨ m = n + 1) →
      let r := l.foldl (fun m i => max m (binNumber n e (xIn i) + 1).toNat) m
      (r = n ∨ r = n + 1) ∧ (r = n + 1 ↔ m = n + 1 ∨ ∃ i ∈ l, binNumber n e (xIn i) = n) := by
    intro l
    induction l with
    | nil => intro m hm; simp [hm]
    | cons a l ih =>
      intro m hm
      simp only [List.foldl_cons]
      have hle := binNumber_le n e (xIn a)
      have hm' : max m (binNumber n e (xIn a) + 1).toNat = n ∨
          max m (binNumber n e (xIn a) + 1).toNat = n + 1 := by omega
      obtain ⟨i1, i2⟩ := ih _ hm'
      refine ⟨i1, i2.trans ?_⟩
      have : max m (binNumber n e (xIn a) + 1).toNat = n + 1 ↔
          m = n + 1 ∨ binNumber n e (xIn a) = n := by omega
      rw [this]
      simp only [List.mem_cons, exists_eq_or_imp]
      tauto
  have := h (List.range nIn) n (Or.inl rfl)
  simp only [List.mem_range] at this
  refine ⟨this.1, this.2.trans ?_⟩
  constructor
  · rintro (h | h)
    · omega
    · exact h
  · exact Or.inr

theorem mem_profilesInBin (nIn : ℕ) (xIn : ℕ → α) (c d : α) (i : ℕ) :
    i ∈ Spec.profilesInBin nIn xIn c d ↔ i < nIn ∧ Spec.InBin c d (xIn i) := by
  simp [Spec.profilesInBin]

theorem even_edges {n : ℕ} {x : ℕ → α} {d : α} (hx : Spec.EvenlySpaced n x d) :
    (∀ i : ℕ, x 0 - d / 2 + (i : α) * d < x 0 - d / 2 + ((i + 1 : ℕ) : α) * d) ∧
    ∀ k < n, ∀ v, (x 0 - d / 2 + (k : α) * d ≤ v ∧ v < x 0 - d / 2 + ((k + 1 : ℕ) : α) * d) ↔
      Spec.InBin (x k) d v := by
  obtain ⟨hd, hx⟩ := hx
  refine ⟨fun i => by push_cast; linarith, fun k hk v => ?_⟩
  unfold Spec.InBin
  rw [hx k hk]
  push_cast
  constructor
  · rintro ⟨h1, h2⟩; constructor <;> linarith
  · rintro ⟨h1, h2⟩; constructor <;> linarith

theorem inBin_even {n : ℕ} {x : ℕ → α} {d : α} (hx : Spec.EvenlySpaced n x d) (nIn : ℕ) (xIn : ℕ → α)
    {k : ℕ} (hk : k < n) :
    (∀ i, i ∈ inBin nIn xIn n (fun i => x 0 - d / 2 + (i : α) * d) k ↔
      i ∈ Spec.profilesInBin nIn xIn (x k) d) ∧
    (inBin nIn xIn n (fun i => x 0 - d / 2 + (i : α) * d) k).Nodup := by
  obtain ⟨h1, h2⟩ := even_edges hx
  constructor
  · intro i
    rw [mem_profilesInBin, inBin, List.mem_filter, List.mem_range, decide_eq_true_eq,
      binNumber_iff h1 _ hk, h2 k hk]
  · exact List.nodup_range.filter _

theorem nodup_sum_eq {β : Type*} [AddCommMonoid β] {l : List ℕ} (hl : l.Nodup) {s : Finset ℕ}
    (h : ∀ i, i ∈ l ↔ i ∈ s) (f : ℕ → β) : (l.map f).sum = ∑ i ∈ s, f i := by
  have : s = l.toFinset := by ext i; rw [List.mem_toFinset, h]
  rw [this, List.sum_toFinset f hl]

theorem nodup_length_eq {l : List ℕ} (hl : l.Nodup) {s : Finset ℕ}
    (h : ∀ i, i ∈ l ↔ i ∈ s) : l.length = s.card := by
  have : s = l.toFinset := by ext i; rw [List.mem_toFinset, h]
  rw [this, List.toFinset_card_of_nodup hl]

theorem filterMap_map_id {l : List ℕ} (f : ℕ → Option α) :
    (l.map f).filterMap id = (l.filter fun i => (f i).isSome).map fun i => (f i).getD 0 := by
  induction l with
  | nil => rfl
  | cons a l ih =>
    cases ha : f a with
    | none =>
      simp only [List.map_cons, ha, List.filterMap_cons, List.filter_cons, Option.isSome_none,
        Bool.false_eq_true, if_false]
      exact ih
    | some v =>
      simp only [List.map_cons, ha, List.filterMap_cons, List.filter_cons, Option.isSome_some, if_true,
        Option.getD_some, ← ih]
      rfl

/-- The unmasked values at height `h` of a set of profiles. -/
noncomputable def Spec.unmasked (array : Grid (Option α)) (h : ℕ) (s : Finset ℕ) : Finset ℕ :=
  s.filter fun i => (array i h).isSome

/-- What a statistic has to return for the unmasked values `f i`, `i ∈ s`. -/
def Spec.IsMean (s : Finset ℕ) (f : ℕ → α) (v : α) : Prop := v = (∑ i ∈ s, f i) / s.card
def Spec.IsMax (s : Finset ℕ) (f : ℕ → α) (v : α) : Prop := (∃ i ∈ s, f i = v) ∧ ∀ i ∈ s, f i ≤ v

/-- A statistic that is masked exactly for sets without unmasked values and otherwise fulfils `P`. -/
def Statistic (statFn : List (Option α) → Option α) (P : Finset ℕ → (ℕ → α) → α → Prop) : Prop :=
  ∀ (l : List ℕ) (f : ℕ → Option α), l.Nodup →
    match statFn (l.map f) with
    | none => ∀ i ∈ l, f i = none
    | some v => (∃ i ∈ l, (f i).isSome) ∧
      P (l.toFinset.filter fun i => (f i).isSome) (fun i => (f i).getD 0) v

theorem statistic_mean : Statistic (α := α) maMean Spec.IsMean := by
  intro l f hl
  unfold maMean
  rw [filterMap_map_id]
  simp only [List.map_eq_nil_iff, List.filter_eq_nil_iff]
  by_cases hall : ∀ a ∈ l, ¬ (f a).isSome = true
  · rw [if_pos hall]
    intro i hi; simpa using hall i hi
  · rw [if_neg hall]
    push Not at hall
    refine ⟨hall, ?_⟩
    unfold Spec.IsMean
    have hn : (l.filter fun i => (f i).isSome).Nodup := hl.filter _
    have hm : ∀ i, i ∈ (l.filter fun i => (f i).isSome) ↔
        i ∈ l.toFinset.filter fun i => (f i).isSome := by
      intro i; simp
    rw [nodup_sum_eq hn hm, List.length_map, nodup_length_eq hn hm]

theorem foldl_max_spec (l : List α) (v : α) :
    (l.foldl max v = v ∨ l.foldl max v ∈ l) ∧ v ≤ l.foldl max v ∧ ∀ x ∈ l, x ≤ l.foldl max v := by
  induction l generalizing v with
  | nil => simp
  | cons a l ih =>
    rw [List.foldl_cons]
    obtain ⟨h1, h2, h3⟩ := ih (max v a)
    refine ⟨?_, le_trans (le_max_left _ _) h2, ?_⟩
    · rcases h1 with h1 | h1
      · rcases max_choice v a with hc | hc
        · left; rw [h1, hc]
        · right; rw [h1, hc]; exact List.mem_cons_self
      · right; exact List.mem_cons_of_mem _ h1
    · intro x hx
      rcases List.mem_cons.1 hx with rfl | hx
      · exact le_trans (le_max_right _ _) h2
      · exact h3 x hx

theorem statistic_max : Statistic (α := α) maMax Spec.IsMax := by
  intro l f hl
  unfold maMax
  rw [filterMap_map_id]
  have hmem : ∀ x, x ∈ ((l.filter fun i => (f i).isSome).map fun i => (f i).getD 0) ↔
      ∃ i ∈ l.toFinset.filter (fun i => (f i).isSome), (f i).getD 0 = x := by
    intro x
    simp [List.mem_map, and_assoc]
  cases hc : ((l.filter fun i => (f i).isSome).map fun i => (f i).getD 0) with
  | nil =>
    simp only [List.map_eq_nil_iff, List.filter_eq_nil_iff] at hc
    intro i hi; simpa using hc i hi
  | cons v vs =>
    rw [hc] at hmem
    obtain ⟨h1, h2, h3⟩ := foldl_max_spec vs v
    simp only
    have hin : vs.foldl max v ∈ v :: vs := by
      rcases h1 with h1 | h1
      · rw [h1]; exact List.mem_cons_self
      · exact List.mem_cons_of_mem _ h1
    obtain ⟨i, hi, hv⟩ := (hmem _).1 hin
    refine ⟨?_, ⟨i, hi, hv⟩, ?_⟩
    · simp only [Finset.mem_filter, List.mem_toFinset] at hi
      exact ⟨i, hi.1, hi.2⟩
    · intro j hj
      have : (f j).getD 0 ∈ v :: vs := (hmem _).2 ⟨j, hj, rfl⟩
      show (f j).getD 0 ≤ _
      rcases List.mem_cons.1 this with h | h
      · rw [h]; exact h2
      · exact h3 _ h

/-- C30, for any of the statistics. -/
theorem rebin2d_spec {statFn : List (Option α) → Option α} {P : Finset ℕ → (ℕ → α) → α → Prop}
    (hP : Statistic statFn P) (nIn : ℕ) (xIn : ℕ → α) (array : Grid (Option α)) {n : ℕ} (hn : 2 ≤ n)
    {xNew : ℕ → α} {d : α} (hx : Spec.EvenlySpaced n xNew d) {nMin : ℕ} :
    ∃ r, rebin2d statFn nIn xIn array n xNew nMin false = .ok r ∧
      (∀ k < n, ∀ h,
        let profiles := Spec.profilesInBin nIn xIn (xNew k) d
        (k ∈ r.emptyBins ↔ profiles.card < nMin) ∧
        (r.result k h = none ↔ profiles.card < nMin ∨ ∀ i ∈ profiles, array i h = none) ∧
        ∀ v, r.result k h = some v →
          P (Spec.unmasked array h profiles) (fun i => (array i h).getD 0) v) ∧
      ∀ k, n ≤ k → (k ∈ r.emptyBins ↔ k = n ∧
        ∃ s : Finset ℕ, (∀ i, i ∈ s ↔ i < nIn ∧ xNew (n - 1) + d / 2 ≤ xIn i) ∧ 0 < s.card ∧
          s.card < nMin) := by
  obtain ⟨hmono, hbin⟩ := even_edges hx
  unfold rebin2d
  rw [binvec_even hn hx]
  refine ⟨_, rfl, ?_, ?_⟩
  · intro k hk h
    simp only [Bool.false_eq_true, if_false]
    obtain ⟨m1, m2⟩ := inBin_even hx nIn xIn hk
    have hcard := nodup_length_eq m2 m1
    have hnc := (nCounts_spec nIn xIn n (fun i => xNew 0 - d / 2 + (i : α) * d)).1
    have htf : (inBin nIn xIn n (fun i => xNew 0 - d / 2 + (i : α) * d) k).toFinset =
        Spec.profilesInBin nIn xIn (xNew k) d := by
      ext i; rw [List.mem_toFinset, m1]
    refine ⟨?_, ?_, ?_⟩
    · rw [List.mem_filter, List.mem_range, decide_eq_true_eq, hcard]
      constructor
      · exact fun h => h.2
      · exact fun h => ⟨by omega, h⟩
    · simp only [hcard]
      split
      · next hlt => simp [hlt]
      · next hlt =>
        have := hP _ (fun i => array i h) m2
        simp only [hlt, false_or]
        cases hs : statFn ((inBin nIn xIn n (fun i => xNew 0 - d / 2 + (i : α) * d) k).map
            fun i => array i h) with
        | none =>
          rw [hs] at this
          simp only [true_iff]
          intro i hi; exact this i ((m1 i).2 hi)
        | some v =>
          rw [hs] at this
          simp only [reduceCtorEq, false_iff]
          intro hc
          obtain ⟨i, hi, hsome⟩ := this.1
          rw [hc i ((m1 i).1 hi)] at hsome
          cases hsome
    · intro v hv
      simp only [hcard] at hv
      split at hv
      · cases hv
      · have := hP _ (fun i => array i h) m2
        rw [hv] at this
        rw [htf] at this
        exact this.2
  · intro k hk
    obtain ⟨c1, c2⟩ := nCounts_spec nIn xIn n (fun i => xNew 0 - d / 2 + (i : α) * d)
    have hlast : xNew (n - 1) + d / 2 = xNew 0 - d / 2 + (n : α) * d := by
      rw [hx.2 (n - 1) (by omega), Nat.cast_sub (by omega)]; push_cast; ring
    have hmemn : ∀ i, i ∈ inBin nIn xIn n (fun i => xNew 0 - d / 2 + (i : α) * d) n ↔
        i < nIn ∧ xNew (n - 1) + d / 2 ≤ xIn i := by
      intro i
      rw [inBin, List.mem_filter, List.mem_range, decide_eq_true_eq, binNumber_last hmono, hlast]
    have hnd : (inBin nIn xIn n (fun i => xNew 0 - d / 2 + (i : α) * d) n).Nodup :=
      List.nodup_range.filter _
    have hcn : nCounts nIn xIn n (fun i => xNew 0 - d / 2 + (i : α) * d) = n + 1 ↔
        0 < (inBin nIn xIn n (fun i => xNew 0 - d / 2 + (i : α) * d) n).length := by
      rw [c2, List.length_pos_iff_exists_mem]
      constructor
      · rintro ⟨i, hi, hb⟩
        exact ⟨i, (hmemn i).2 ⟨hi, by rw [hlast]; exact (binNumber_last hmono _).1 hb⟩⟩
      · rintro ⟨i, hi⟩
        obtain ⟨h1, h2⟩ := (hmemn i).1 hi
        exact ⟨i, h1, (binNumber_last hmono _).2 (by rw [← hlast]; exact h2)⟩
    simp only [List.mem_filter, List.mem_range, decide_eq_true_eq]
    constructor
    · rintro ⟨h1, h2⟩
      have hkn : k = n := by omega
      subst hkn
      refine ⟨rfl, (inBin nIn xIn k (fun i => xNew 0 - d / 2 + (i : α) * d) k).toFinset, ?_, ?_, ?_⟩
      · intro i; rw [List.mem_toFinset, hmemn]
      · rw [List.toFinset_card_of_nodup hnd]; exact hcn.1 (by omega)
      · rw [List.toFinset_card_of_nodup hnd]; exact h2
    · rintro ⟨rfl, s, hs, hs1, hs2⟩
      have hlen := nodup_length_eq hnd (s := s) (fun i => (hmemn i).trans (hs i).symm)
      refine ⟨?_, by rw [hlen]; exact hs2⟩
      have := hcn.2 (by rw [hlen]; exact hs1)
      omega

/-- C30. `rebin_2d` with statistic "mean" on an evenly spaced target grid with step `d`: bin `k` collects
the profiles with time in `[x_k - d/2, x_k + d/2)`. The bin is reported as empty iff it has fewer than
`n_min` profiles; its value at height `h` is masked iff it is empty or all its profiles are masked there,
and otherwise is the mean of the unmasked values. (An index one beyond the last bin is reported, too,
when between one and `n_min - 1` profiles lie beyond the grid; impossible for `n_min = 1`.) -/
theorem C30_rebin_2d_mean (nIn : ℕ) (xIn : ℕ → α) (array : Grid (Option α)) {n : ℕ} (hn : 2 ≤ n)
    {xNew : ℕ → α} {d : α} (hx : Spec.EvenlySpaced n xNew d) {nMin : ℕ} (_hm : 1 ≤ nMin) :
    ∃ r, rebin2d maMean nIn xIn array n xNew nMin false = .ok r ∧
      (∀ k < n, ∀ h,
        let profiles := Spec.profilesInBin nIn xIn (xNew k) d
        (k ∈ r.emptyBins ↔ profiles.card < nMin) ∧
        (r.result k h = none ↔ profiles.card < nMin ∨ ∀ i ∈ profiles, array i h = none) ∧
        ∀ v, r.result k h = some v →
          Spec.IsMean (Spec.unmasked array h profiles) (fun i => (array i h).getD 0) v) ∧
      ∀ k, n ≤ k → (k ∈ r.emptyBins ↔ k = n ∧
        ∃ s : Finset ℕ, (∀ i, i ∈ s ↔ i < nIn ∧ xNew (n - 1) + d / 2 ≤ xIn i) ∧ 0 < s.card ∧
          s.card < nMin) :=
  rebin2d_spec statistic_mean nIn xIn array hn hx

/-- C30. The same with statistic "max". -/
theorem C30_rebin_2d_max (nIn : ℕ) (xIn : ℕ → α) (array : Grid (Option α)) {n : ℕ} (hn : 2 ≤ n)
    {xNew : ℕ → α} {d : α} (hx : Spec.EvenlySpaced n xNew d) {nMin : ℕ} (_hm : 1 ≤ nMin) :
    ∃ r, rebin2d maMax nIn xIn array n xNew nMin false = .ok r ∧
      (∀ k < n, ∀ h,
        let profiles := Spec.profilesInBin nIn xIn (xNew k) d
        (k ∈ r.emptyBins ↔ profiles.card < nMin) ∧
        (r.result k h = none ↔ profiles.card < nMin ∨ ∀ i ∈ profiles, array i h = none) ∧
        ∀ v, r.result k h = some v →
          Spec.IsMax (Spec.unmasked array h profiles) (fun i => (array i h).getD 0) v) ∧
      ∀ k, n ≤ k → (k ∈ r.emptyBins ↔ k = n ∧
        ∃ s : Finset ℕ, (∀ i, i ∈ s ↔ i < nIn ∧ xNew (n - 1) + d / 2 ≤ xIn i) ∧ 0 < s.card ∧
          s.card < nMin) :=
  rebin2d_spec statistic_max nIn xIn array hn hx

/-- C30. Every input profile inside the target grid is in exactly one bin, any other profile in none. -/
theorem C30_partition (nIn : ℕ) (xIn : ℕ → α) {n : ℕ} (hn : 1 ≤ n) {xNew : ℕ → α} {d : α}
    (hx : Spec.EvenlySpaced n xNew d) (i : ℕ) (hi : i < nIn) :
    (xNew 0 - d / 2 ≤ xIn i ∧ xIn i < xNew (n - 1) + d / 2 →
      ∃! k, k < n ∧ i ∈ Spec.profilesInBin nIn xIn (xNew k) d) ∧
    (¬ (xNew 0 - d / 2 ≤ xIn i ∧ xIn i < xNew (n - 1) + d / 2) →
      ∀ k < n, i ∉ Spec.profilesInBin nIn xIn (xNew k) d) := by
  obtain ⟨hd, hx⟩ := hx
  have hlast : xNew (n - 1) + d / 2 = xNew 0 - d / 2 + (n : α) * d := by
    rw [hx (n - 1) (by omega), Nat.cast_sub (by omega)]; push_cast; ring
  constructor
  · rintro ⟨h1, h2⟩
    have : ∀ m, m ≤ n → xIn i < xNew 0 - d / 2 + (m : α) * d →
        ∃ k < m, xNew 0 - d / 2 + (k : α) * d ≤ xIn i ∧
          xIn i < xNew 0 - d / 2 + ((k : α) + 1) * d := by
      intro m
      induction m with
      | zero => intro _ h; simp at h; exact absurd h (not_lt.2 h1)
      | succ m ih =>
        intro hm h
        rcases lt_or_ge (xIn i) (xNew 0 - d / 2 + (m : α) * d) with hc | hc
        · obtain ⟨k, hk, h3⟩ := ih (by omega) hc
          exact ⟨k, by omega, h3⟩
        · exact ⟨m, by omega, hc, by push_cast at h; exact h⟩
    obtain ⟨k, hk, h3, h4⟩ := this n (le_refl _) (by rw [← hlast]; exact h2)
    refine ⟨k, ⟨hk, (mem_profilesInBin _ _ _ _ _).2 ⟨hi, ?_⟩⟩, ?_⟩
    · unfold Spec.InBin; rw [hx k hk]; constructor <;> linarith
    · rintro j ⟨hj, hm⟩
      obtain ⟨_, h5, h6⟩ := (mem_profilesInBin _ _ _ _ _).1 hm
      rw [hx j hj] at h5 h6
      have g1 : (j : α) < k + 1 := by
        by_contra hc
        have : ((k : α) + 1) * d ≤ j * d := mul_le_mul_of_nonneg_right (not_lt.1 hc) (le_of_lt hd)
        linarith
      have g2 : (k : α) < j + 1 := by
        by_contra hc
        have : ((j : α) + 1) * d ≤ k * d := mul_le_mul_of_nonneg_right (not_lt.1 hc) (le_of_lt hd)
        linarith
      have g1' : j < k + 1 := by exact_mod_cast g1
      have g2' : k < j + 1 := by exact_mod_cast g2
      omega
  · intro hnot k hk hm
    apply hnot
    obtain ⟨_, h5, h6⟩ := (mem_profilesInBin _ _ _ _ _).1 hm
    rw [hx k hk] at h5 h6
    have g0 : (0 : α) ≤ k * d := mul_nonneg (Nat.cast_nonneg _) (le_of_lt hd)
    have g1 : ((k : α) + 1) * d ≤ n * d := by
      apply mul_le_mul_of_nonneg_right _ (le_of_lt hd)
      exact_mod_cast hk
    rw [hlast]
    constructor <;> linarith

/-- C30. With `mask_zeros` exactly the zero values are masked in addition, and the reported bins do not
change. -/
theorem C30_mask_zeros (statFn : List (Option α) → Option α) (nIn : ℕ) (xIn : ℕ → α)
    (array : Grid (Option α)) (n : ℕ) (xNew : ℕ → α) (nMin : ℕ) (r : Rebinned α)
    (hr : rebin2d statFn nIn xIn array n xNew nMin false = .ok r) :
    ∃ r', rebin2d statFn nIn xIn array n xNew nMin true = .ok r' ∧ r'.emptyBins = r.emptyBins ∧
      ∀ k h v, r'.result k h = some v ↔ r.result k h = some v ∧ v ≠ 0 := by
  unfold rebin2d at hr ⊢
  cases hb : binvec n xNew with
  | error e => rw [hb] at hr; cases hr
  | ok e =>
    rw [hb] at hr
    have hr' := Except.ok.inj hr
    refine ⟨_, rfl, by rw [← hr'], ?_⟩
    intro k h v
    rw [← hr']
    simp only [if_true, Bool.false_eq_true, if_false]
    set o := (if (inBin nIn xIn n e k).length < nMin then none
      else statFn ((inBin nIn xIn n e k).map fun i => array i h)) with ho
    by_cases hz : o = some 0
    · rw [if_pos hz, hz]
      simp only [reduceCtorEq, false_iff, not_and, not_not]
      intro h1; exact (Option.some.inj h1).symm
    · rw [if_neg hz]
      constructor
      · intro h1; exact ⟨h1, fun h2 => hz (by rw [h1, h2])⟩
      · exact fun h1 => h1.1

/-- C30. With `keepdim` each input profile in a bin with enough profiles gets the value `rebin_2d` gives
to that bin; all other profiles are masked. -/
theorem C30_keepdim (statFn : List (Option α) → Option α) (nIn : ℕ) (xIn : ℕ → α)
    (array : Grid (Option α)) {n : ℕ} (hn : 2 ≤ n) {xNew : ℕ → α} {d : α}
    (hx : Spec.EvenlySpaced n xNew d) (nMin : ℕ) :
    ∃ r r', rebin2d statFn nIn xIn array n xNew nMin false = .ok r ∧
      rebin2dKeepdim statFn nIn xIn array n xNew nMin = .ok r' ∧
      (∀ k < n, ∀ i ∈ Spec.profilesInBin nIn xIn (xNew k) d, ∀ h, r' i h = r.result k h) ∧
      ∀ i, (∀ k < n, i ∉ Spec.profilesInBin nIn xIn (xNew k) d) → ∀ h, r' i h = none := by
  unfold rebin2d rebin2dKeepdim
  rw [binvec_even hn hx]
  refine ⟨_, _, rfl, rfl, ?_, ?_⟩
  all_goals
    set e : ℕ → α := fun i => xNew 0 - d / 2 + (i : α) * d with he
  · intro k hk i hi h
    simp only [Bool.false_eq_true, if_false]
    have hik : i ∈ inBin nIn xIn n e k := ((inBin_even hx nIn xIn hk).1 i).2 hi
    have honly : ∀ j, i ∈ inBin nIn xIn n e j → j = k := by
      intro j hj
      simp only [inBin, List.mem_filter, decide_eq_true_eq] at hj hik
      have := hj.2.symm.trans hik.2
      exact_mod_cast this
    have : ∀ m, m ≤ n → ((List.range m).foldl (fun (res : Grid (Option α)) k =>
        if (inBin nIn xIn n e k).length < nMin then res
        else fun i h => if i ∈ inBin nIn xIn n e k then
            statFn ((inBin nIn xIn n e k).map fun i => array i h)
          else res i h) (Grid.const none)) i h =
        if k < m then (if (inBin nIn xIn n e k).length < nMin then none
          else statFn ((inBin nIn xIn n e k).map fun i => array i h)) else none := by
      intro m
      induction m with
      | zero => intro _; simp
      | succ m ih =>
        intro hm
        rw [List.range_succ, List.foldl_append, List.foldl_cons, List.foldl_nil]
        have ih' := ih (by omega)
        by_cases hmk : m = k
        · subst hmk
          rw [if_pos (by omega : m < m + 1)]
          rw [if_neg (by omega : ¬ m < m)] at ih'
          by_cases hl : (inBin nIn xIn n e m).length < nMin
          · rw [if_pos hl, if_pos hl]; exact ih'
          · rw [if_neg hl, if_neg hl]; simp only [hik, if_true]
        · have hni : i ∉ inBin nIn xIn n e m := fun hc => hmk (honly m hc)
          have hiff : (k < m + 1) ↔ k < m := by omega
          simp only [hiff]
          by_cases hl : (inBin nIn xIn n e m).length < nMin
          · rw [if_pos hl]; exact ih'
          · rw [if_neg hl]; simp only [hni, if_false]; exact ih'
    rw [this n (le_refl _), if_pos hk]
  · intro i hi h
    have : ∀ m, m ≤ n → ((List.range m).foldl (fun (res : Grid (Option α)) k =>
        if (inBin nIn xIn n e k).length < nMin then res
        else fun i h => if i ∈ inBin nIn xIn n e k then
            statFn ((inBin nIn xIn n e k).map fun i => array i h)
          else res i h) (Grid.const none)) i h = none := by
      intro m
      induction m with
      | zero => intro _; rfl
      | succ m ih =>
        intro hm
        rw [List.range_succ, List.foldl_append, List.foldl_cons, List.foldl_nil]
        have hni : i ∉ inBin nIn xIn n e m := fun hc =>
          hi m (by omega) (((inBin_even hx nIn xIn (by omega)).1 i).1 hc)
        by_cases hl : (inBin nIn xIn n e m).length < nMin
        · rw [if_pos hl]; exact ih (by omega)
        · rw [if_neg hl]; simp only [hni, if_false]; exact ih (by omega)
    exact this n (le_refl _)

/-- Four profiles in two bins; the third bin is empty. -/
example : (match rebin2d (α := ℚ) maMean 4 (fun i => [1, 5/4, 2, 9/4].getD i 0)
      (fun i _ => [some 1, some 3, none, some 7].getD i none) 3 (fun i => i + 1) 1 false with
    | .ok r => decide (r.result 0 0 = some 2 ∧ r.result 1 0 = some 7 ∧ r.result 2 0 = none ∧
        r.emptyBins = [2])
    | .error _ => false) = true := by decide +kernel

theorem rebin1d_spec {statFn : List (Option α) → Option α} {P : Finset ℕ → (ℕ → α) → α → Prop}
    (hstat : Statistic statFn P) (nIn : ℕ) (xIn : ℕ → α) (array : ℕ → Option α) {n : ℕ} (hn : 2 ≤ n)
    {xNew : ℕ → α} {d : α} (hx : Spec.EvenlySpaced n xNew d)
    (hne : ∃ i < nIn, ∃ v, array i = some v ∧ v ≠ 0) :
    ∃ r, rebin1d statFn nIn xIn array n xNew = .ok r ∧ ∀ k < n, ∃ s : Finset ℕ,
      (∀ i, i ∈ s ↔ i < nIn ∧ (array i).isSome ∧ (Spec.InBin (xNew k) d (xIn i) ∨
        k = n - 1 ∧ xIn i = xNew k + d / 2)) ∧
      (r k = none ↔ s = ∅) ∧ ∀ v, r k = some v → P s (fun i => (array i).getD 0) v := by
  obtain ⟨hmono, hbin⟩ := even_edges hx
  have hlast : xNew (n - 1) + d / 2 = xNew 0 - d / 2 + (n : α) * d := by
    rw [hx.2 (n - 1) (by omega), Nat.cast_sub (by omega)]; push_cast; ring
  unfold rebin1d
  rw [binvec_even hn hx]
  have hany : ((List.range nIn).any fun i => decide ((array i).getD 0 ≠ 0)) = true := by
    obtain ⟨i, hi, v, hv, h0⟩ := hne
    rw [List.any_eq_true]
    exact ⟨i, List.mem_range.2 hi, by simp [hv, h0]⟩
  simp only [bind, Except.bind, hany, if_true]
  refine ⟨_, rfl, ?_⟩
  intro k hk
  set e : ℕ → α := fun i => xNew 0 - d / 2 + (i : α) * d with he
  set l := (List.range nIn).filter fun i => (array i).isSome &&
      decide (binNumber1d n e (xIn i) = k) with hl
  have hmem : ∀ i, i ∈ l ↔ i < nIn ∧ (array i).isSome ∧ (Spec.InBin (xNew k) d (xIn i) ∨
        k = n - 1 ∧ xIn i = xNew k + d / 2) := by
    intro i
    rw [hl, List.mem_filter, List.mem_range, Bool.and_eq_true, decide_eq_true_eq]
    have : binNumber1d n e (xIn i) = k ↔ (Spec.InBin (xNew k) d (xIn i) ∨
        k = n - 1 ∧ xIn i = xNew k + d / 2) := by
      unfold binNumber1d
      by_cases hen : xIn i = e n
      · rw [if_pos hen]
        have hnot : ¬ Spec.InBin (xNew k) d (xIn i) ∨ False := by
          left
          rw [← hbin k hk]
          rintro ⟨_, h2⟩
          have : e (k + 1) ≤ e n := (strictMono_nat_of_lt_succ hmono).monotone hk
          rw [hen] at h2
          exact absurd h2 (not_lt.2 this)
        constructor
        · intro h1
          have hkn : k = n - 1 := by omega
          right; refine ⟨hkn, ?_⟩
          rw [hkn, hlast, hen]
        · rintro (h1 | ⟨h1, _⟩)
          · rcases hnot with h2 | h2
            · exact absurd h1 h2
            · exact absurd h2 id
          · omega
      · rw [if_neg hen, binNumber_iff hmono _ hk, hbin k hk]
        constructor
        · exact Or.inl
        · rintro (h1 | ⟨h1, h2⟩)
          · exact h1
          · exfalso; apply hen; rw [h2, h1, hlast]
    rw [this]
  have hnd : l.Nodup := List.nodup_range.filter _
  refine ⟨l.toFinset, fun i => by rw [List.mem_toFinset, hmem], ?_, ?_⟩
  · have := hstat l array hnd
    cases hs : statFn (l.map array) with
    | none =>
      rw [hs] at this
      simp only [true_iff, List.toFinset_eq_empty_iff]
      rw [List.eq_nil_iff_forall_not_mem]
      intro i hi
      have h1 := this i hi
      have h2 := ((hmem i).1 hi).2.1
      rw [h1] at h2; cases h2
    | some v =>
      rw [hs] at this
      simp only [reduceCtorEq, false_iff]
      obtain ⟨i, hi, _⟩ := this.1
      intro hc
      have : i ∈ l.toFinset := List.mem_toFinset.2 hi
      rw [hc] at this
      simp at this
  · intro v hv
    have := hstat l array hnd
    rw [hv] at this
    have hf : l.toFinset.filter (fun i => (array i).isSome = true) = l.toFinset := by
      rw [Finset.filter_eq_self]
      intro i hi; exact ((hmem i).1 (List.mem_toFinset.1 hi)).2.1
    rw [hf] at this
    exact this.2

/-- C31. The bins of `rebin_1d`: the bin `k` of an evenly spaced grid holds the unmasked samples at most
half a step away from the grid point (the upper edge is excluded except for the last bin). -/
noncomputable def Spec.samplesInBin (nIn : ℕ) (xIn : ℕ → α) (array : ℕ → Option α) (n : ℕ)
    (xNew : ℕ → α) (d : α) (k : ℕ) : Finset ℕ :=
  open Classical in (Finset.range nIn).filter fun i => array i ≠ none ∧
    (Spec.InBin (xNew k) d (xIn i) ∨ k = n - 1 ∧ xIn i = xNew k + d / 2)

/-- What the user gets from `rebin_1d`, for a statistic `P`: a bin without unmasked samples is masked and
the others hold the statistic of their unmasked samples. If all unmasked samples are zero (or there is
none), every bin is zero instead, with or without samples. -/
def Spec.Rebinned1d (P : Finset ℕ → (ℕ → α) → α → Prop) (nIn : ℕ) (xIn : ℕ → α) (array : ℕ → Option α)
    (n : ℕ) (xNew : ℕ → α) (d : α) (r : ℕ → Option α) : Prop :=
  ((∃ i < nIn, ∃ v, array i = some v ∧ v ≠ 0) → ∀ k < n,
    (r k = none ↔ Spec.samplesInBin nIn xIn array n xNew d k = ∅) ∧
    ∀ v, r k = some v →
      P (Spec.samplesInBin nIn xIn array n xNew d k) (fun i => (array i).getD 0) v) ∧
  ((∀ i < nIn, ∀ v, array i = some v → v = 0) → ∀ k < n, r k = some 0)

/-- C31. If every unmasked sample is zero (or none is left), `rebin_1d` returns unmasked zeros in all
bins, including bins without any sample. -/
theorem C31_all_zero_fails (statFn : List (Option α) → Option α) (nIn : ℕ) (xIn : ℕ → α) (array : ℕ → Option α) {n : ℕ} (hn : 2 ≤ n)
    (xNew : ℕ → α) (hz : ∀ i < nIn, ∀ v, array i = some v → v = 0) :
    ∃ r, rebin1d statFn nIn xIn array n xNew = .ok r ∧ ∀ k, r k = some 0 := by
  unfold rebin1d binvec
  rw [if_neg (by omega)]
  have hany : ((List.range nIn).any fun i => decide ((array i).getD 0 ≠ 0)) = false := by
    rw [List.any_eq_false]
    intro i hi
    rw [List.mem_range] at hi
    cases ha : array i with
    | none => simp
    | some v => simp [hz i hi v ha]
  simp only [bind, Except.bind, hany]
  exact ⟨_, rfl, fun _ => rfl⟩

theorem rebin1d_rebinned {statFn : List (Option α) → Option α} {P : Finset ℕ → (ℕ → α) → α → Prop}
    (hstat : Statistic statFn P) (nIn : ℕ) (xIn : ℕ → α) (array : ℕ → Option α) {n : ℕ} (hn : 2 ≤ n)
    {xNew : ℕ → α} {d : α} (hx : Spec.EvenlySpaced n xNew d) :
    ∃ r, rebin1d statFn nIn xIn array n xNew = .ok r ∧
      Spec.Rebinned1d P nIn xIn array n xNew d r := by
  by_cases hne : ∃ i < nIn, ∃ v, array i = some v ∧ v ≠ 0
  · obtain ⟨r, h1, h2⟩ := rebin1d_spec hstat nIn xIn array hn hx hne
    refine ⟨r, h1, fun _ k hk => ?_, fun hz => ?_⟩
    · obtain ⟨s, hs, h3, h4⟩ := h2 k hk
      have : s = Spec.samplesInBin nIn xIn array n xNew d k := by
        ext i
        unfold Spec.samplesInBin
        simp only [hs, Finset.mem_filter, Finset.mem_range, Option.isSome_iff_ne_none]
      rw [← this]
      exact ⟨h3, h4⟩
    · obtain ⟨i, hi, v, hv, h0⟩ := hne
      exact absurd (hz i hi v hv) h0
  · push Not at hne
    obtain ⟨r, h1, h2⟩ := C31_all_zero_fails statFn nIn xIn array hn xNew hne
    refine ⟨r, h1, fun hc => ?_, fun _ k _ => h2 k⟩
    obtain ⟨i, hi, v, hv, h0⟩ := hc
    exact absurd (hne i hi v hv) h0

/-- C31. `rebin_1d` with the statistic "mean". -/
theorem C31_rebin_1d_mean (nIn : ℕ) (xIn : ℕ → α) (array : ℕ → Option α) {n : ℕ} (hn : 2 ≤ n)
    {xNew : ℕ → α} {d : α} (hx : Spec.EvenlySpaced n xNew d) :
    ∃ r, rebin1d maMean nIn xIn array n xNew = .ok r ∧
      Spec.Rebinned1d Spec.IsMean nIn xIn array n xNew d r :=
  rebin1d_rebinned statistic_mean nIn xIn array hn hx

/-- C31. `rebin_1d` with the statistic "max". -/
theorem C31_rebin_1d_max (nIn : ℕ) (xIn : ℕ → α) (array : ℕ → Option α) {n : ℕ} (hn : 2 ≤ n)
    {xNew : ℕ → α} {d : α} (hx : Spec.EvenlySpaced n xNew d) :
    ∃ r, rebin1d maMax nIn xIn array n xNew = .ok r ∧
      Spec.Rebinned1d Spec.IsMax nIn xIn array n xNew d r :=
  rebin1d_rebinned statistic_max nIn xIn array hn hx

/-- C31. A bin without samples is reported as an unmasked zero when all samples are zero. -/
theorem C31_empty_bin_zero :
    (match rebin1d (α := ℚ) maMean 2 (fun i => i) (fun _ => some 0) 3 (fun i => i) with
      | .ok r => decide (r 2 = some 0)
      | .error _ => false) = true := by decide +kernel

example : (match rebin1d (α := ℚ) maMean 3 (fun i => [1, 5/4, 7/2].getD i 0)
      (fun i => [some 1, some 3, some 7].getD i none) 3 (fun i => i + 1) with
    | .ok r => decide (r 0 = some 2 ∧ r 1 = none ∧ r 2 = some 7)
    | .error _ => false) = true := by decide +kernel

end

/-- The population standard deviation of `f i`, `i ∈ s`. -/
def Spec.IsStd (s : Finset ℕ) (f : ℕ → ℝ) (v : ℝ) : Prop :=
  0 ≤ v ∧ v ^ 2 = (∑ i ∈ s, (f i - (∑ j ∈ s, f j) / s.card) ^ 2) / s.card

theorem statistic_std : Statistic maStd Spec.IsStd := by
  intro l f hl
  unfold maStd
  rw [filterMap_map_id]
  simp only [List.map_eq_nil_iff, List.filter_eq_nil_iff]
  by_cases hall : ∀ a ∈ l, ¬ (f a).isSome = true
  · rw [if_pos hall]
    intro i hi; simpa using hall i hi
  · rw [if_neg hall]
    push Not at hall
    refine ⟨hall, Real.sqrt_nonneg _, ?_⟩
    have hn : (l.filter fun i => (f i).isSome).Nodup := hl.filter _
    have hm : ∀ i, i ∈ (l.filter fun i => (f i).isSome) ↔
        i ∈ l.toFinset.filter fun i => (f i).isSome := by
      intro i; simp
    rw [List.map_map, nodup_sum_eq hn hm, nodup_sum_eq hn hm, List.length_map, nodup_length_eq hn hm,
      Real.sq_sqrt]
    · rfl
    · apply div_nonneg _ (Nat.cast_nonneg _)
      apply Finset.sum_nonneg
      intro i _; exact sq_nonneg _

/-- C31. `rebin_1d` with the statistic "std". -/
theorem C31_rebin_1d_std (nIn : ℕ) (xIn : ℕ → ℝ) (array : ℕ → Option ℝ) {n : ℕ} (hn : 2 ≤ n)
    {xNew : ℕ → ℝ} {d : ℝ} (hx : Spec.EvenlySpaced n xNew d) :
    ∃ r, rebin1d maStd nIn xIn array n xNew = .ok r ∧
      Spec.Rebinned1d Spec.IsStd nIn xIn array n xNew d r :=
  rebin1d_rebinned statistic_std nIn xIn array hn hx

/-- C30. The same with statistic "std". -/
theorem C30_rebin_2d_std (nIn : ℕ) (xIn : ℕ → ℝ) (array : Grid (Option ℝ)) {n : ℕ} (hn : 2 ≤ n)
    {xNew : ℕ → ℝ} {d : ℝ} (hx : Spec.EvenlySpaced n xNew d) {nMin : ℕ} (_hm : 1 ≤ nMin) :
    ∃ r, rebin2d maStd nIn xIn array n xNew nMin false = .ok r ∧
      (∀ k < n, ∀ h,
        let profiles := Spec.profilesInBin nIn xIn (xNew k) d
        (k ∈ r.emptyBins ↔ profiles.card < nMin) ∧
        (r.result k h = none ↔ profiles.card < nMin ∨ ∀ i ∈ profiles, array i h = none) ∧
        ∀ v, r.result k h = some v →
          Spec.IsStd (Spec.unmasked array h profiles) (fun i => (array i h).getD 0) v) ∧
      ∀ k, n ≤ k → (k ∈ r.emptyBins ↔ k = n ∧
        ∃ s : Finset ℕ, (∀ i, i ∈ s ↔ i < nIn ∧ xNew (n - 1) + d / 2 ≤ xIn i) ∧ 0 < s.card ∧
          s.card < nMin) :=
  rebin2d_spec statistic_std nIn xIn array hn hx

end Cloudnet
