import Verif.Atmos.Model
import Verif.Atmos.Spec
import Verif.Arrays.Lemmas
import Mathlib.Tactic.Ring
import Mathlib.Tactic.Linarith
import Mathlib.Data.List.Range
import Mathlib.Algebra.BigOperators.Intervals

set_option linter.unusedSectionVars false
set_option linter.unusedSimpArgs false

namespace Cloudnet

open Spec

theorem findCloudBasesRow_iff (a : ℕ → Bool) (j : ℕ) :
    findCloudBasesRow a j = true ↔ a j = true ∧ (j = 0 ∨ a (j - 1) = false) := by
  unfold findCloudBasesRow
  cases j with
  | zero => cases h : a 0 <;> simp [h]
  | succ j => cases h : a (j + 1) <;> cases h' : a j <;> simp [h, h']

theorem findCloudTopsRow_iff (n : ℕ) (a : ℕ → Bool) {j : ℕ} (hj : j < n) :
    findCloudTopsRow n a j = true ↔ a j = true ∧ (j + 1 = n ∨ a (j + 1) = false) := by
  unfold findCloudTopsRow
  show findCloudBasesRow (fliplr n a) (n - 1 - j) = true ↔ _
  rw [findCloudBasesRow_iff]
  unfold fliplr
  have h1 : n - 1 - (n - 1 - j) = j := by omega
  rw [h1]
  by_cases h : j + 1 = n
  · have : n - 1 - j = 0 := by omega
    simp [h, this]
  · have h2 : n - 1 - (n - 1 - j - 1) = j + 1 := by omega
    have h3 : n - 1 - j ≠ 0 := by omega
    rw [h2]
    simp [h, h3]

/-- Pairing invariant after scanning the gates below `m`. -/
theorem pairing_prefix (n : ℕ) (a : ℕ → Bool) (m : ℕ) (hm : m ≤ n) :
    ∃ ps : List (ℕ × ℕ), (∀ q ∈ ps, IsLayer n a q.1 q.2) ∧
      (List.range m).filter (findCloudTopsRow n a) = ps.map Prod.snd ∧
      ((¬ (0 < m ∧ a (m - 1) = true ∧ m < n ∧ a m = true) ∧
          (List.range m).filter (findCloudBasesRow a) = ps.map Prod.fst) ∨
        ((0 < m ∧ a (m - 1) = true ∧ m < n ∧ a m = true) ∧
          ∃ b, (List.range m).filter (findCloudBasesRow a) = ps.map Prod.fst ++ [b] ∧ b < m ∧
            (∀ h, b ≤ h → h < m → a h = true) ∧ (b = 0 ∨ a (b - 1) = false))) := by
  induction m with
  | zero => exact ⟨[], by simp, by simp, Or.inl ⟨by simp, by simp⟩⟩
  | succ m ih =>
    obtain ⟨ps, hps, htops, hb⟩ := ih (by omega)
    have htop := findCloudTopsRow_iff n a (show m < n by omega)
    have hbase := findCloudBasesRow_iff a m
    rw [List.range_succ, List.filter_append, List.filter_append, htops]
    by_cases ham : a m = true
    · -- a cloud gate
      by_cases hrun' : m + 1 < n ∧ a (m + 1) = true
      · -- not a top: the run stays open
        have hnt : findCloudTopsRow n a m = false := by
          rw [Bool.eq_false_iff, Ne, htop]; rintro ⟨_, h | h⟩
          · omega
          · rw [hrun'.2] at h; simp at h
        refine ⟨ps, hps, by simp [hnt], Or.inr ⟨⟨by omega, ham, hrun'.1, hrun'.2⟩, ?_⟩⟩
        rcases hb with ⟨hn, hb⟩ | ⟨hr, b, hb, hbm, hfull, hbelow⟩
        · have hbs : m = 0 ∨ a (m - 1) = false := by
            by_contra hc
            push Not at hc
            exact hn ⟨by omega, by simpa using hc.2, by omega, ham⟩
          have : findCloudBasesRow a m = true := hbase.2 ⟨ham, hbs⟩
          refine ⟨m, by simp [hb, this], by omega, ?_, hbs⟩
          intro h h1 h2; obtain rfl : h = m := by omega
          exact ham
        · have hnb : findCloudBasesRow a m = false := by
            rw [Bool.eq_false_iff, Ne, hbase]; rintro ⟨_, h | h⟩
            · omega
            · rw [hr.2.1] at h; simp at h
          refine ⟨b, by simp [hb, hnb], by omega, ?_, hbelow⟩
          intro h h1 h2
          rcases Nat.lt_or_ge h m with h3 | h3
          · exact hfull h h1 h3
          · obtain rfl : h = m := by omega
            exact ham
      · -- a top: close the run
        have habove : m + 1 = n ∨ a (m + 1) = false := by
          by_contra hc; push Not at hc
          exact hrun' ⟨by omega, by simpa using hc.2⟩
        have ht : findCloudTopsRow n a m = true := htop.2 ⟨ham, habove⟩
        have hnrun : ¬ (0 < m + 1 ∧ a (m + 1 - 1) = true ∧ m + 1 < n ∧ a (m + 1) = true) := by
          rintro ⟨_, _, h3, h4⟩; exact hrun' ⟨h3, h4⟩
        rcases hb with ⟨hn, hb⟩ | ⟨hr, b, hb, hbm, hfull, hbelow⟩
        · have hbs : m = 0 ∨ a (m - 1) = false := by
            by_contra hc
            push Not at hc
            exact hn ⟨by omega, by simpa using hc.2, by omega, ham⟩
          have hbb : findCloudBasesRow a m = true := hbase.2 ⟨ham, hbs⟩
          refine ⟨ps ++ [(m, m)], ?_, by simp [ht], Or.inl ⟨hnrun, by simp [hb, hbb]⟩⟩
          intro q hq
          rcases List.mem_append.1 hq with hq | hq
          · exact hps q hq
          · obtain rfl : q = (m, m) := by simpa using hq
            exact ⟨le_refl _, by show m < n; omega, fun h h1 h2 => by
              obtain rfl : h = m := by simp at h1 h2; omega
              exact ham, hbs, habove⟩
        · have hnb : findCloudBasesRow a m = false := by
            rw [Bool.eq_false_iff, Ne, hbase]; rintro ⟨_, h | h⟩
            · omega
            · rw [hr.2.1] at h; simp at h
          refine ⟨ps ++ [(b, m)], ?_, by simp [ht], Or.inl ⟨hnrun, by simp [hb, hnb]⟩⟩
          intro q hq
          rcases List.mem_append.1 hq with hq | hq
          · exact hps q hq
          · obtain rfl : q = (b, m) := by simpa using hq
            refine ⟨by show b ≤ m; omega, by show m < n; omega, ?_, hbelow, habove⟩
            intro h h1 h2
            simp only at h1 h2
            rcases Nat.lt_or_ge h m with h3 | h3
            · exact hfull h h1 h3
            · obtain rfl : h = m := by omega
              exact ham
    · have h1 : findCloudBasesRow a m = false := by
        rw [Bool.eq_false_iff, Ne, hbase]; rintro ⟨h, _⟩; exact ham h
      have h2 : findCloudTopsRow n a m = false := by
        rw [Bool.eq_false_iff, Ne, htop]; rintro ⟨h, _⟩; exact ham h
      refine ⟨ps, hps, by simp [h2], Or.inl ⟨?_, ?_⟩⟩
      · rintro ⟨_, h, _⟩; exact ham (by simpa using h)
      · rcases hb with ⟨hn, hb⟩ | ⟨hr, _⟩
        · simp [hb, h1]
        · exact absurd hr.2.2.2 ham

/-- In one profile the bases and the tops are the two ends of one list of maximal runs. -/
theorem pairing_row (n : ℕ) (a : ℕ → Bool) :
    ∃ ps : List (ℕ × ℕ), (∀ q ∈ ps, IsLayer n a q.1 q.2) ∧
      (List.range n).filter (findCloudTopsRow n a) = ps.map Prod.snd ∧
      (List.range n).filter (findCloudBasesRow a) = ps.map Prod.fst := by
  obtain ⟨ps, h1, h2, h3⟩ := pairing_prefix n a n (le_refl _)
  refine ⟨ps, h1, h2, ?_⟩
  rcases h3 with ⟨_, h⟩ | ⟨h, _⟩
  · exact h
  · omega

theorem IsLayer.unique {n : ℕ} {a : ℕ → Bool} {b p b' p' h : ℕ} (h1 : IsLayer n a b p)
    (h2 : IsLayer n a b' p') (hb : b ≤ h) (hp : h ≤ p) (hb' : b' ≤ h) (hp' : h ≤ p') :
    b = b' ∧ p = p' := by
  constructor
  · rcases lt_trichotomy b b' with hlt | heq | hlt
    · rcases h2.below with h0 | h0
      · omega
      · rw [h1.full (b' - 1) (by omega) (by omega)] at h0; simp at h0
    · exact heq
    · rcases h1.below with h0 | h0
      · omega
      · rw [h2.full (b - 1) (by omega) (by omega)] at h0; simp at h0
  · have := h1.top_lt
    have := h2.top_lt
    rcases lt_trichotomy p p' with hlt | heq | hlt
    · rcases h1.above with h0 | h0
      · omega
      · rw [h2.full (p + 1) (by omega) (by omega)] at h0; simp at h0
    · exact heq
    · rcases h2.above with h0 | h0
      · omega
      · rw [h1.full (p' + 1) (by omega) (by omega)] at h0; simp at h0

/-- Every set gate has a base below it in the same run. -/
theorem exists_base (a : ℕ → Bool) (h : ℕ) (ha : a h = true) :
    ∃ b ≤ h, (∀ k, b ≤ k → k ≤ h → a k = true) ∧ (b = 0 ∨ a (b - 1) = false) := by
  induction h with
  | zero => exact ⟨0, le_refl _, fun k _ hk => by
      obtain rfl : k = 0 := by omega
      exact ha, Or.inl rfl⟩
  | succ h ih =>
    by_cases h' : a h = true
    · obtain ⟨b, hb, hf, hbelow⟩ := ih h'
      refine ⟨b, by omega, ?_, hbelow⟩
      intro k h1 h2
      rcases Nat.lt_or_ge k (h + 1) with h3 | h3
      · exact hf k h1 (by omega)
      · obtain rfl : k = h + 1 := by omega
        exact ha
    · refine ⟨h + 1, le_refl _, ?_, Or.inr (by simpa using h')⟩
      intro k h1 h2
      obtain rfl : k = h + 1 := by omega
      exact ha

/-- The pairs of one profile cover every set gate. -/
theorem pairing_row_cover {n : ℕ} {a : ℕ → Bool} {ps : List (ℕ × ℕ)}
    (hps : ∀ q ∈ ps, IsLayer n a q.1 q.2)
    (hb : (List.range n).filter (findCloudBasesRow a) = ps.map Prod.fst)
    {h : ℕ} (hn : h < n) (ha : a h = true) : ∃ q ∈ ps, q.1 ≤ h ∧ h ≤ q.2 := by
  obtain ⟨b, hbh, hf, hbelow⟩ := exists_base a h ha
  have : b ∈ ps.map Prod.fst := by
    rw [← hb, List.mem_filter]
    exact ⟨List.mem_range.2 (by omega), (findCloudBasesRow_iff a b).2 ⟨hf b (le_refl _) hbh, hbelow⟩⟩
  obtain ⟨q, hq, rfl⟩ := List.mem_map.1 this
  refine ⟨q, hq, hbh, ?_⟩
  by_contra hc
  push Not at hc
  rcases (hps q hq).above with h0 | h0
  · omega
  · have := (hps q hq).base_le_top
    rw [hf (q.2 + 1) (by omega) (by omega)] at h0; simp at h0

theorem zip_map_fst_snd {β γ : Type*} (ps : List (β × γ)) :
    (ps.map Prod.fst).zip (ps.map Prod.snd) = ps := by
  induction ps with
  | nil => rfl
  | cons q ps ih => simp [ih]

/-- All profiles: bases and tops of the whole array are the two projections of one list of layers. -/
theorem pairing_grid (nT nH : ℕ) (a : Grid Bool) :
    ∃ ps : List (Pixel × Pixel), (∀ q ∈ ps, q.1.1 < nT ∧ q.2.1 = q.1.1 ∧
        IsLayer nH (a q.1.1) q.1.2 q.2.2) ∧
      whereGrid nT nH (findCloudBases a) = ps.map Prod.fst ∧
      whereGrid nT nH (findCloudTops nH a) = ps.map Prod.snd ∧
      ∀ t < nT, ∀ h < nH, a t h = true → ∃ q ∈ ps, q.1.1 = t ∧ q.1.2 ≤ h ∧ h ≤ q.2.2 := by
  induction nT with
  | zero => exact ⟨[], by simp, by simp [whereGrid], by simp [whereGrid], by simp⟩
  | succ nT ih =>
    obtain ⟨ps, h1, h2, h3, h4⟩ := ih
    obtain ⟨qs, g1, g2, g3⟩ := pairing_row nH (a nT)
    refine ⟨ps ++ qs.map fun q => ((nT, q.1), (nT, q.2)), ?_, ?_, ?_, ?_⟩
    · intro q hq
      rcases List.mem_append.1 hq with hq | hq
      · obtain ⟨k1, k2, k3⟩ := h1 q hq
        exact ⟨by omega, k2, k3⟩
      · obtain ⟨r, hr, rfl⟩ := List.mem_map.1 hq
        exact ⟨by simp, rfl, g1 r hr⟩
    · have : whereGrid (nT + 1) nH (findCloudBases a) = whereGrid nT nH (findCloudBases a) ++
          ((List.range nH).filter (findCloudBasesRow (a nT))).map fun h => (nT, h) := by
        simp [whereGrid, List.range_succ, findCloudBases]
      rw [this, h2, g3]; simp [Function.comp_def]
    · have : whereGrid (nT + 1) nH (findCloudTops nH a) = whereGrid nT nH (findCloudTops nH a) ++
          ((List.range nH).filter (findCloudTopsRow nH (a nT))).map fun h => (nT, h) := by
        simp [whereGrid, List.range_succ, findCloudTops]
      rw [this, h3, g2]; simp [Function.comp_def]
    · intro t ht h hh hth
      rcases Nat.lt_or_ge t nT with h5 | h5
      · obtain ⟨q, hq, hq'⟩ := h4 t h5 h hh hth
        exact ⟨q, List.mem_append_left _ hq, hq'⟩
      · obtain rfl : t = nT := by omega
        obtain ⟨q, hq, hq'⟩ := pairing_row_cover g1 g3 hh hth
        exact ⟨((t, q.1), (t, q.2)), List.mem_append_right _ (List.mem_map.2 ⟨q, hq, rfl⟩), rfl, hq'⟩

theorem mem_whereGrid (nT nH : ℕ) (m : Grid Bool) (p : Pixel) :
    p ∈ whereGrid nT nH m ↔ p.1 < nT ∧ p.2 < nH ∧ m p.1 p.2 = true := by
  obtain ⟨t, h⟩ := p
  simp only [whereGrid, List.mem_flatMap, List.mem_range, List.mem_map, List.mem_filter,
    Prod.mk.injEq]
  constructor
  · rintro ⟨t', h1, h', ⟨h2, h3⟩, rfl, rfl⟩; exact ⟨h1, h2, h3⟩
  · rintro ⟨h1, h2, h3⟩; exact ⟨t, h1, h, ⟨h2, h3⟩, rfl, rfl⟩

/-- Row-major order of pixels. -/
def rmLt (p q : Pixel) : Prop := p.1 < q.1 ∨ (p.1 = q.1 ∧ p.2 < q.2)

theorem whereGrid_sorted (nT nH : ℕ) (m : Grid Bool) : (whereGrid nT nH m).Pairwise rmLt := by
  unfold whereGrid
  rw [List.pairwise_flatMap]
  constructor
  · intro t _
    rw [List.pairwise_map]
    apply List.Pairwise.filter
    exact List.pairwise_lt_range.imp fun h => Or.inr ⟨rfl, h⟩
  · apply List.pairwise_lt_range.imp
    intro t t' htt p hp q hq
    obtain ⟨h, _, rfl⟩ := List.mem_map.1 hp
    obtain ⟨h', _, rfl⟩ := List.mem_map.1 hq
    exact Or.inl htt

theorem argmaxBool_eq {n k : ℕ} {b : ℕ → Bool} (hk : k < n) (hb : b k = true)
    (hlt : ∀ i < k, b i = false) : argmaxBool n b = k := by
  unfold argmaxBool
  have : (List.range n).find? b = some k := by
    rw [List.find?_range_eq_some]
    refine ⟨hb, List.mem_range.2 hk, fun i hi => by simp [hlt i hi]⟩
  rw [this]; rfl

theorem argmaxBool_none {n : ℕ} {b : ℕ → Bool} (h : ∀ i < n, b i = false) : argmaxBool n b = 0 := by
  unfold argmaxBool
  have : (List.range n).find? b = none := by
    rw [List.find?_range_eq_none]
    intro i hi; simp [h i hi]
  rw [this]; rfl

section
variable {α : Type*} [Field α] [LinearOrder α] [IsStrictOrderedRing α]

theorem maskTimesHeight_ne_zero (mask : ℕ → Bool) (height : ℕ → α) {h : ℕ} (h0 : height h ≠ 0) :
    maskTimesHeight mask height h ≠ 0 ↔ mask h = true := by
  unfold maskTimesHeight
  cases mask h <;> simp [h0]

theorem findLowestCloudBase_some {n k : ℕ} {mask : ℕ → Bool} {height : ℕ → α}
    (h0 : ∀ h < n, height h ≠ 0) (hk : k < n) (hm : mask k = true)
    (hlow : ∀ i < k, mask i = false) : findLowestCloudBase n mask height = some (height k) := by
  unfold findLowestCloudBase findLowestHeight
  have : argmaxBool n (fun h => decide (maskTimesHeight mask height h ≠ 0)) = k := by
    apply argmaxBool_eq hk
    · simpa using (maskTimesHeight_ne_zero mask height (h0 k hk)).2 hm
    · intro i hi
      have := (maskTimesHeight_ne_zero mask height (h0 i (by omega))).not.2 (by simp [hlow i hi])
      simpa using this
  simp only [this]
  simp [maskTimesHeight, hm, h0 k hk]

theorem findLowestCloudBase_none {n : ℕ} (hn : 0 < n) {mask : ℕ → Bool} {height : ℕ → α}
    (hm : ∀ i < n, mask i = false) : findLowestCloudBase n mask height = none := by
  unfold findLowestCloudBase findLowestHeight
  have : argmaxBool n (fun h => decide (maskTimesHeight mask height h ≠ 0)) = 0 := by
    apply argmaxBool_none
    intro i hi
    simp [maskTimesHeight, hm i hi]
  simp only [this]
  simp [maskTimesHeight, hm 0 hn]

theorem findHighestCloudTop_some {n k : ℕ} {mask : ℕ → Bool} {height : ℕ → α}
    (h0 : ∀ h < n, height h ≠ 0) (hk : k < n) (hm : mask k = true)
    (hhigh : ∀ i < n, k < i → mask i = false) :
    findHighestCloudTop n mask height = some (height k) := by
  have : findHighestCloudTop n mask height =
      findLowestCloudBase n (fliplr n mask) (fliplr n height) := rfl
  rw [this, findLowestCloudBase_some (k := n - 1 - k)]
  · unfold fliplr; congr 2; omega
  · intro h hh; exact h0 _ (by omega)
  · omega
  · unfold fliplr
    have : n - 1 - (n - 1 - k) = k := by omega
    rw [this]; exact hm
  · intro i hi; exact hhigh _ (by omega) (by omega)

theorem findHighestCloudTop_none {n : ℕ} (hn : 0 < n) {mask : ℕ → Bool} {height : ℕ → α}
    (hm : ∀ i < n, mask i = false) : findHighestCloudTop n mask height = none := by
  have : findHighestCloudTop n mask height =
      findLowestCloudBase n (fliplr n mask) (fliplr n height) := rfl
  rw [this]
  exact findLowestCloudBase_none hn (fun i hi => hm _ (by omega))

theorem exists_lowest {n : ℕ} {mask : ℕ → Bool} (h : ∃ i < n, mask i = true) :
    ∃ k < n, mask k = true ∧ ∀ i < k, mask i = false := by
  classical
  obtain ⟨i, hi, hm⟩ := h
  have hex : ∃ i, mask i = true := ⟨i, hm⟩
  refine ⟨Nat.find hex, lt_of_le_of_lt (Nat.find_le hm) hi, Nat.find_spec hex, ?_⟩
  intro j hj
  simpa using Nat.find_min hex hj

theorem exists_highest {n : ℕ} {mask : ℕ → Bool} (h : ∃ i < n, mask i = true) :
    ∃ k < n, mask k = true ∧ ∀ i < n, k < i → mask i = false := by
  obtain ⟨i, hi, hm⟩ := h
  obtain ⟨k, hk, hk', hl⟩ := exists_lowest (n := n) (mask := fliplr n mask)
    ⟨n - 1 - i, by omega, by unfold fliplr; rw [show n - 1 - (n - 1 - i) = i by omega]; exact hm⟩
  refine ⟨n - 1 - k, by omega, hk', ?_⟩
  intro j hj hkj
  have := hl (n - 1 - j) (by omega)
  unfold fliplr at this
  rwa [show n - 1 - (n - 1 - j) = j by omega] at this

theorem sum_pathLengths (height : ℕ → α) (b j : ℕ) (h : b ≤ j) :
    ∑ i ∈ Finset.Ico b (j + 1), pathLengthsFromGround height i =
      height j - (if b = 0 then 0 else height (b - 1)) := by
  induction j with
  | zero =>
    obtain rfl : b = 0 := by omega
    simp [pathLengthsFromGround]
  | succ j ih =>
    rcases Nat.lt_or_ge b (j + 1) with hb | hb
    · rw [Finset.sum_Ico_succ_top (by omega), ih (by omega)]
      simp only [pathLengthsFromGround]; ring
    · obtain rfl : b = j + 1 := by omega
      simp [pathLengthsFromGround]

/-- The gradient filled into a liquid pixel is the one at the base of its own layer. -/
theorem fillCloudsWithLwcDz_layer (g : α → α → α) (nT nH : ℕ) (T P : Grid α) (liq : Grid Bool)
    {t b p h : ℕ} (ht : t < nT) (hlayer : IsLayer nH (liq t) b p) (hbh : b ≤ h) (hhp : h ≤ p)
    (hg : g (T t b) (P t b) ≠ 0) :
    fillCloudsWithLwcDz g nT nH T P liq t h = g (T t b) (P t b) := by
  have htop := hlayer.top_lt
  unfold fillCloudsWithLwcDz
  simp only [hlayer.full h hbh hhp, if_true]
  set pos := whereGrid nT nH liq with hpos
  set dz := getLwcChangeRateAtBases g T P liq with hdz
  have hmem : ∀ k, b ≤ k → k ≤ p → (t, k) ∈ pos := fun k h1 h2 =>
    (mem_whereGrid _ _ _ _).2 ⟨ht, by show k < nH; omega, hlayer.full k h1 h2⟩
  have hsort := whereGrid_sorted nT nH liq
  rw [← hpos] at hsort
  have hget : ∀ k, b ≤ k → k ≤ p → pos[pos.idxOf (t, k)]? = some (t, k) := by
    intro k h1 h2
    rw [List.getElem?_eq_some_iff]
    exact ⟨List.idxOf_lt_length_iff.2 (hmem k h1 h2), List.getElem_idxOf _⟩
  have hbase : findCloudBases liq t b = true :=
    (findCloudBasesRow_iff _ _).2 ⟨hlayer.full b (le_refl _) (by omega), hlayer.below⟩
  have hdzb : dz t b = g (T t b) (P t b) := by
    rw [hdz]; simp [getLwcChangeRateAtBases, hbase]
  have key := ffill_eq_of_last (fun i => ((pos[i]?).map fun q => dz q.1 q.2).getD 0) 0
    (j := pos.idxOf (t, h)) (k := pos.idxOf (t, b)) ?_ ?_ ?_
  · rw [key]; simp [hget b (le_refl _) (by omega), hdzb]
  · -- order of indices
    by_contra hc
    push Not at hc
    have h1 := List.pairwise_iff_getElem.1 hsort _ _
      (List.idxOf_lt_length_iff.2 (hmem h hbh hhp))
      (List.idxOf_lt_length_iff.2 (hmem b (le_refl _) (by omega))) hc
    rw [List.getElem_idxOf, List.getElem_idxOf] at h1
    rcases h1 with h1 | h1 <;> simp at h1
    omega
  · simp only [hget b (le_refl _) (by omega), Option.map_some, Option.getD_some, hdzb]; exact hg
  · intro i h1 h2
    have hlen : i < pos.length :=
      lt_of_le_of_lt h2 (List.idxOf_lt_length_iff.2 (hmem h hbh hhp))
    have k1 := List.pairwise_iff_getElem.1 hsort _ _
      (List.idxOf_lt_length_iff.2 (hmem b (le_refl _) (by omega))) hlen h1
    rw [List.getElem_idxOf] at k1
    have k2 : rmLt pos[i] (t, h) ∨ pos[i] = (t, h) := by
      rcases Nat.lt_or_ge i (pos.idxOf (t, h)) with h3 | h3
      · left
        have := List.pairwise_iff_getElem.1 hsort _ _ hlen
          (List.idxOf_lt_length_iff.2 (hmem h hbh hhp)) h3
        rwa [List.getElem_idxOf] at this
      · right
        have : i = pos.idxOf (t, h) := by omega
        subst this
        exact List.getElem_idxOf _
    have ht' : (pos[i]).1 = t ∧ b < (pos[i]).2 ∧ (pos[i]).2 ≤ h := by
      rcases k2 with k2 | k2
      · rcases k1 with k1 | k1 <;> rcases k2 with k2 | k2 <;> simp at k1 k2 <;> omega
      · rw [k2] at k1 ⊢
        rcases k1 with k1 | k1 <;> simp at k1 ⊢
        omega
    simp only [List.getElem?_eq_getElem hlen, Option.map_some, Option.getD_some]
    rw [hdz, ht'.1]
    have : findCloudBases liq t (pos[i]).2 = false := by
      rw [Bool.eq_false_iff, Ne]
      intro hcon
      rcases ((findCloudBasesRow_iff _ _).1 hcon).2 with h0 | h0
      · omega
      · rw [hlayer.full _ (by omega) (by omega)] at h0; simp at h0
    simp [getLwcChangeRateAtBases, this]

theorem fillCloudsWithLwcDz_clear (g : α → α → α) (nT nH : ℕ) (T P : Grid α) (liq : Grid Bool)
    {t h : ℕ} (hl : liq t h = false) : fillCloudsWithLwcDz g nT nH T P liq t h = 0 := by
  simp [fillCloudsWithLwcDz, hl]

/-- Restarting sum of the ones of `is_cloud` is at least one exactly in the cloud. -/
theorem cumsumr_indicator_lt_one (c : ℕ → Prop) [DecidablePred c] (j : ℕ) :
    cumsumr (fun i => if c i then (1 : ℤ) else 0) j < 1 ↔ ¬ c j := by
  have hn : ∀ n, ∀ i ≤ n, (0 : ℤ) ≤ if c i then 1 else 0 := by
    intro n i _; split <;> simp
  have hnn : ∀ j, 0 ≤ cumsumr (fun i => if c i then (1 : ℤ) else 0) j := by
    intro j
    rcases exists_last_zero (fun i => if c i then (1 : ℤ) else 0) j with h | ⟨k, hk, h0, hl⟩
    · rw [cumsumr_of_no_zero _ h]; exact Finset.sum_nonneg fun i _ => hn i i (le_refl _)
    · rw [cumsumr_of_last_zero _ hk (hn j) h0 hl]
      exact Finset.sum_nonneg fun i _ => hn i i (le_refl _)
  cases j with
  | zero =>
    by_cases h : c 0 <;> simp [cumsumr, cumsum, runMax, h]
  | succ j =>
    rw [cumsumr_succ _ (hn (j + 1))]
    by_cases h : c (j + 1)
    · have := hnn j
      simp only [h, if_true, not_true, iff_false]
      simp; omega
    · simp [h]

end

end Cloudnet
