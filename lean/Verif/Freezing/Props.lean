import Verif.Freezing.Model
import Verif.Droplet.Props
import Verif.Times.Props
import Verif.Lwc.Props

namespace Cloudnet

/-! C68 (freezing region). -/

namespace Spec

section
variable {α : Type} [Field α] [LinearOrder α]

/-- The altitude where a profile first goes below 273.16 K: the lowest gate if that is already colder, otherwise
the point where the straight line from the last gate at or above zero to the first gate below it is at zero. -/
def ZeroAltitude (nH : ℕ) (height prof : ℕ → α) (alt : α) : Prop :=
  ∃ k < nH, prof k < 27316 / 100 ∧ (∀ i < k, 27316 / 100 ≤ prof i) ∧ (k = 0 → alt = height 0) ∧
    (0 < k → alt = height (k - 1) +
      (27316 / 100 - prof (k - 1)) / (prof k - prof (k - 1)) * (height k - height (k - 1)))

/-- `m` is the median height of the gates `melting` (of `nH`): the middle gate, or half way between the two middle
gates. -/
def MedianHeight (nH : ℕ) (height : ℕ → α) (melting : ℕ → Bool) (m : α) : Prop :=
  ∃ lo hi, lo ≤ hi ∧ hi < nH ∧ melting lo = true ∧ melting hi = true ∧
    (∀ i, lo < i → i < hi → melting i = false) ∧
    (List.range nH).countP (fun i => melting i && decide (i < lo)) =
      (List.range nH).countP (fun i => melting i && decide (hi < i)) ∧
    m = (height lo + height hi) / 2

/-- The profiles where the freezing altitude is fixed before interpolation, and its value there: the melting
layer, and the altitude of the zero temperature at both ends of the day and in the middle of every `win`
profiles (of `nT`) without melting. An altitude of exactly 0 at the ends does not count as a melting layer. -/
def Anchor (nT win : ℕ) (melt : ℕ → Option α) (t0 : ℕ → α) (t : ℕ) (a : α) : Prop :=
  t < nT ∧ ((melt t = some a ∧ (a ≠ 0 ∨ (0 < t ∧ t + 1 < nT))) ∨
    (a = t0 t ∧ (((t = 0 ∨ t + 1 = nT) ∧ (melt t = none ∨ melt t = some 0)) ∨
      ∃ n, n + win < nT ∧ t = n + win / 2 ∧ ∀ i, n ≤ i → i < n + win → melt i = none)))

end

end Spec

section
variable {α : Type} [Field α] [LinearOrder α] [IsStrictOrderedRing α]

/-- The nodes of an interpolation over the profiles that satisfy `ok`. -/
theorem filter_nodes (n : ℕ) (ok : ℕ → Bool) (time : ℕ → α) (htime : Spec.Increasing n time) :
    let ind := (List.range n).filter ok
    Spec.Increasing ind.length (fun i => time (ind.getD i 0)) ∧
    (∀ t < n, ok t = true → ∃ i < ind.length, ind.getD i 0 = t) ∧
    (∀ i < ind.length, ind.getD i 0 < n ∧ ok (ind.getD i 0) = true) ∧
    (∀ i j, i < j → j < ind.length → ind.getD i 0 < ind.getD j 0) := by
  intro ind
  have hs : ind.Pairwise (· < ·) := List.Pairwise.filter _ List.pairwise_lt_range
  have hmono : ∀ i j, i < j → j < ind.length → ind.getD i 0 < ind.getD j 0 := by
    intro i j hij hj
    rw [List.getD_eq_getElem _ _ (by omega), List.getD_eq_getElem _ _ hj]
    exact List.pairwise_iff_getElem.1 hs i j (by omega) hj hij
  have hsample : ∀ i < ind.length, ind.getD i 0 < n ∧ ok (ind.getD i 0) = true := by
    intro i hi
    rw [List.getD_eq_getElem _ _ hi]
    have := List.mem_filter.1 (List.getElem_mem hi)
    exact ⟨List.mem_range.1 this.1, this.2⟩
  refine ⟨?_, ?_, hsample, hmono⟩
  · intro i j hij hj
    exact htime _ _ (hmono i j hij hj) (hsample j hj).1
  · intro t ht hok
    have : t ∈ ind := List.mem_filter.2 ⟨List.mem_range.2 ht, hok⟩
    obtain ⟨i, hi, e⟩ := List.getElem_of_mem this
    exact ⟨i, hi, by rw [List.getD_eq_getElem _ _ hi]; exact e⟩

/-- Interpolation over the profiles that satisfy `ok`: exact there, linear between two consecutive ones. -/
theorem interp_filtered (n : ℕ) (ok : ℕ → Bool) (time y : ℕ → α) (htime : Spec.Increasing n time) :
    let ind := (List.range n).filter ok
    let f := interpLinear ind.length (fun i => time (ind.getD i 0)) (fun i => y (ind.getD i 0))
    (∀ t < n, ok t = true → f (time t) = y t) ∧
    (∀ t a b, b < n → ok a = true → ok b = true → a < t → t < b → (∀ i, a < i → i < b → ok i = false) →
      f (time t) = y a + (time t - time a) / (time b - time a) * (y b - y a)) := by
  intro ind f
  obtain ⟨hinc, hex, hsam, hmono⟩ := filter_nodes n ok time htime
  change Spec.Increasing ind.length (fun i => time (ind.getD i 0)) at hinc
  change ∀ t < n, ok t = true → ∃ i < ind.length, ind.getD i 0 = t at hex
  change ∀ i < ind.length, ind.getD i 0 < n ∧ ok (ind.getD i 0) = true at hsam
  change ∀ i j, i < j → j < ind.length → ind.getD i 0 < ind.getD j 0 at hmono
  have hf : ∀ v, f v = interpLinear ind.length (fun i => time (ind.getD i 0)) (fun i => y (ind.getD i 0)) v :=
    fun v => rfl
  clear_value f ind
  constructor
  · intro t ht hok
    obtain ⟨i, hi, e⟩ := hex t ht hok
    have := interpLinear_node hinc (fun i => y (ind.getD i 0)) hi
    simp only [e] at this
    rw [hf, this]
  · intro t a b hb hoka hokb hat htb hno
    obtain ⟨i, hi, ei⟩ := hex a (by omega) hoka
    obtain ⟨j, hj, ej⟩ := hex b hb hokb
    have hij : i < j := by
      by_contra hc
      rcases Nat.lt_or_ge j i with h | h
      · have := hmono j i h hi
        omega
      · have : i = j := by omega
        subst this
        omega
    have hj1 : j = i + 1 := by
      by_contra hc
      have h1 := hmono i (i + 1) (by omega) (by omega)
      have h2 := hmono (i + 1) j (by omega) hj
      have h3 := (hsam (i + 1) (by omega)).2
      rw [hno (ind.getD (i + 1) 0) (by omega) (by omega)] at h3
      cases h3
    subst hj1
    have := interpLinear_between hinc (fun i => y (ind.getD i 0)) hj (v := time t)
      (by rw [ei]; exact htime a t hat (by omega)) (by rw [ej]; exact htime t b htb hb)
    simp only [ei, ej] at this
    rw [hf, this]

/-- C68. The altitude of the zero temperature of one profile; an error if the profile never goes below zero. -/
theorem C68_zero_altitude (nH : ℕ) (height prof : ℕ → α) :
    (∀ alt, t0Alt nH height prof = .ok alt ↔ Spec.ZeroAltitude nH height prof alt) ∧
    ((∃ e, t0Alt nH height prof = .error e) ↔ ∀ h < nH, 27316 / 100 ≤ prof h) := by
  unfold t0Alt
  rcases hf : (List.range nH).find? (fun h => decide (prof h < zeroCelsius)) with _ | k
  · rw [find_range_none] at hf
    simp only [decide_eq_false_iff_not, not_lt] at hf
    refine ⟨fun alt => ?_, ?_⟩
    · simp only [reduceCtorEq, false_iff]
      rintro ⟨k, hk, h1, -⟩
      exact absurd (hf k hk) (not_le.2 h1)
    · exact ⟨fun _ => hf, fun _ => ⟨_, rfl⟩⟩
  · rw [find_range_some] at hf
    simp only [decide_eq_false_iff_not, not_lt, decide_eq_true_eq] at hf
    obtain ⟨h1, h2, h3⟩ := hf
    have huniq : ∀ j < nH, prof j < 27316 / 100 → (∀ i < j, 27316 / 100 ≤ prof i) → j = k := by
      intro j hj hj1 hj2
      rcases Nat.lt_trichotomy j k with h | h | h
      · exact absurd (h3 j h) (not_le.2 hj1)
      · exact h
      · exact absurd (hj2 k h) (not_le.2 h1)
    have hval : 0 < k → interpLinear 2 (fun i => prof (k - i)) (fun i => height (k - i)) zeroCelsius =
        height (k - 1) + (27316 / 100 - prof (k - 1)) / (prof k - prof (k - 1)) * (height k - height (k - 1)) := by
      intro hk
      have hlt : prof k < prof (k - 1) := lt_of_lt_of_le h1 (h3 (k - 1) (by omega))
      have hx : Spec.Increasing 2 (fun i => prof (k - i)) := by
        intro i j hij hj
        have hi : i = 0 := by omega
        have hj' : j = 1 := by omega
        subst hi hj'
        exact hlt
      have hne : prof k - prof (k - 1) ≠ 0 := by
        have : prof k - prof (k - 1) < 0 := by linarith
        exact ne_of_lt this
      have hne' : prof (k - 1) - prof k ≠ 0 := by
        have : 0 < prof (k - 1) - prof k := by linarith
        exact ne_of_gt this
      rcases eq_or_lt_of_le (h3 (k - 1) (by omega)) with he | hgt
      · have := interpLinear_node hx (fun i => height (k - i)) (a := 1) (by omega)
        have he' : (27316 / 100 : α) = prof (k - 1) := he
        rw [show (zeroCelsius : α) = prof (k - 1) from he, this, he']
        simp
      · have h1' : prof (k - 0) < (zeroCelsius : α) := h1
        have := interpLinear_between hx (fun i => height (k - i)) (a := 0) (by omega) (v := zeroCelsius) h1' hgt
        rw [this]
        show height k + (27316 / 100 - prof k) / (prof (k - 1) - prof k) * (height (k - 1) - height k) = _
        field_simp
        ring
    refine ⟨fun alt => ?_, ?_⟩
    · simp only
      split
      · next hk =>
        simp only [Except.ok.injEq]
        constructor
        · intro h
          exact ⟨k, h2, h1, h3, fun _ => h.symm, fun h => by omega⟩
        · rintro ⟨j, hj, h4, h5, h6, -⟩
          exact (h6 ((huniq j hj h4 h5).trans hk)).symm
      · next hk =>
        simp only [Except.ok.injEq]
        rw [hval (by omega)]
        constructor
        · intro h
          exact ⟨k, h2, h1, h3, fun h => by omega, fun _ => h.symm⟩
        · rintro ⟨j, hj, h4, h5, -, h6⟩
          have := huniq j hj h4 h5
          subst this
          exact (h6 (by omega)).symm
    · simp only
      constructor
      · rintro ⟨e, he⟩
        split at he <;> cases he
      · intro h
        exact absurd (h k h2) (not_le.2 h1)

/-- C68. The zero altitude lies between the two gates where the temperature goes below zero. -/
theorem C68_zero_altitude_bounds (nH : ℕ) (height prof : ℕ → α) (hh : Spec.Increasing nH height) (alt : α)
    (ha : t0Alt nH height prof = .ok alt) :
    ∃ k < nH, prof k < 27316 / 100 ∧ (∀ i < k, 27316 / 100 ≤ prof i) ∧ height (k - 1) ≤ alt ∧ alt ≤ height k := by
  obtain ⟨k, hk, h1, h2, h3, h4⟩ := ((C68_zero_altitude nH height prof).1 alt).1 ha
  refine ⟨k, hk, h1, h2, ?_⟩
  rcases Nat.eq_zero_or_pos k with h0 | hpos
  · rw [h3 h0, h0]; exact ⟨le_rfl, le_rfl⟩
  · rw [h4 hpos]
    have hT := h2 (k - 1) (by omega)
    have hH := hh (k - 1) k (by omega) hk
    have hd : prof k - prof (k - 1) < 0 := by linarith
    have r0 : 0 ≤ (27316 / 100 - prof (k - 1)) / (prof k - prof (k - 1)) :=
      div_nonneg_of_nonpos (by linarith) hd.le
    have r1 : (27316 / 100 - prof (k - 1)) / (prof k - prof (k - 1)) ≤ 1 := by
      rw [div_le_one_of_neg hd]; linarith
    constructor <;> nlinarith

theorem countP_sorted_lt (g : List ℕ) (hs : g.Pairwise (· < ·)) (k : ℕ) (hk : k < g.length) :
    g.countP (fun i => decide (i < g[k])) = k ∧ g.countP (fun i => decide (g[k] < i)) = g.length - 1 - k := by
  have hp := List.pairwise_iff_getElem.1 hs
  induction g generalizing k with
  | nil => simp at hk
  | cons x xs ih =>
    have hx := (List.pairwise_cons.1 hs)
    cases k with
    | zero =>
      simp only [List.getElem_cons_zero, List.countP_cons, lt_irrefl, decide_false]
      constructor
      · simp only [Bool.false_eq_true, if_false, Nat.add_zero]
        rw [List.countP_eq_zero]
        intro y hy
        simp only [decide_eq_true_eq, not_lt]
        exact (hx.1 y hy).le
      · simp only [Bool.false_eq_true, if_false, Nat.add_zero, List.length_cons]
        rw [List.countP_eq_length.2 (fun y hy => by simpa using hx.1 y hy)]
        omega
    | succ k =>
      simp only [List.length_cons] at hk
      have hk' : k < xs.length := by omega
      obtain ⟨h1, h2⟩ := ih hx.2 k hk' (List.pairwise_iff_getElem.1 hx.2)
      have hlt : x < xs[k] := hx.1 _ (List.getElem_mem hk')
      simp only [List.getElem_cons_succ, List.countP_cons, h1, h2, hlt, decide_true, if_true,
        decide_eq_true_eq, if_neg (not_lt.2 hlt.le), List.length_cons]
      exact ⟨trivial, by omega⟩

/-- C68. The altitude of the melting layer of a profile is the median height of its melting gates, missing exactly
in a profile without. -/
theorem C68_melting_altitude (nH : ℕ) (height : ℕ → α) (hh : Spec.Increasing nH height) (melting : Grid Bool)
    (t : ℕ) :
    (meanMeltingAlt nH height melting t = none ↔ ∀ h < nH, melting t h = false) ∧
    ∀ m, meanMeltingAlt nH height melting t = some m → Spec.MedianHeight nH height (melting t) m := by
  unfold meanMeltingAlt
  simp only [List.map_eq_nil_iff, List.filter_eq_nil_iff, List.mem_range]
  constructor
  · split
    · next h => simpa using h
    · next h => simpa using h
  · intro m hm
    split at hm
    · cases hm
    next hne =>
    have hm := Option.some.inj hm
    subst hm
    generalize hg : (List.range nH).filter (fun h => melting t h) = g
    have hs : g.Pairwise (· < ·) := by
      rw [← hg]; exact List.Pairwise.filter _ List.pairwise_lt_range
    have hmem : ∀ i ∈ g, i < nH ∧ melting t i = true := by
      intro i hi
      rw [← hg, List.mem_filter, List.mem_range] at hi
      exact hi
    have hmem' : ∀ i < nH, melting t i = true → i ∈ g := by
      intro i h1 h2
      rw [← hg, List.mem_filter, List.mem_range]
      exact ⟨h1, h2⟩
    have hlen : 0 < g.length := by
      rw [List.length_pos_iff]
      intro h0
      apply hne
      intro i hi hmi
      have := hmem' i hi hmi
      rw [h0] at this
      cases this
    have hsorted : (g.map height).insertionSort (· ≤ ·) = g.map height := by
      apply List.Pairwise.insertionSort_eq
      rw [List.pairwise_map]
      refine List.Pairwise.imp_of_mem ?_ hs
      intro a b ha hb hab
      exact (hh a b hab (hmem b hb).1).le
    have hcount : ∀ q : ℕ → Bool, (List.range nH).countP (fun i => melting t i && q i) = g.countP q := by
      intro q
      rw [← hg, List.countP_filter]
      apply List.countP_congr
      intro x _
      rw [Bool.and_comm]
    have hget : ∀ k < g.length, (g.map height).getD k 0 = height (g.getD k 0) := by
      intro k hk
      rw [List.getD_eq_getElem _ _ (by simpa using hk), List.getD_eq_getElem _ _ hk, List.getElem_map]
    have hl1 : (g.length - 1) / 2 < g.length := by omega
    have hl2 : g.length / 2 < g.length := by omega
    have hp := List.pairwise_iff_getElem.1 hs
    refine ⟨g[(g.length - 1) / 2], g[g.length / 2], ?_, (hmem _ (List.getElem_mem hl2)).1,
      (hmem _ (List.getElem_mem hl1)).2, (hmem _ (List.getElem_mem hl2)).2, ?_, ?_, ?_⟩
    · rcases Nat.eq_or_lt_of_le (show (g.length - 1) / 2 ≤ g.length / 2 by omega) with h | h
      · exact le_of_eq (by congr 1)
      · exact (hp _ _ hl1 hl2 h).le
    · intro i h1 h2
      by_contra hc
      simp only [Bool.not_eq_false] at hc
      have hi := hmem' i (lt_trans h2 (hmem _ (List.getElem_mem hl2)).1) hc
      obtain ⟨k, hk, rfl⟩ := List.getElem_of_mem hi
      have k1 : (g.length - 1) / 2 < k := by
        by_contra hc
        rcases Nat.eq_or_lt_of_le (not_lt.1 hc) with h | h
        · subst h; omega
        · have := hp _ _ hk hl1 h; omega
      have k2 : k < g.length / 2 := by
        by_contra hc
        rcases Nat.eq_or_lt_of_le (not_lt.1 hc) with h | h
        · subst h; omega
        · have := hp _ _ hl2 hk h; omega
      omega
    · rw [hcount (fun i => decide (i < g[(g.length - 1) / 2])), hcount (fun i => decide (g[g.length / 2] < i)),
        (countP_sorted_lt g hs _ hl1).1, (countP_sorted_lt g hs _ hl2).2]
      omega
    · unfold median
      simp only [hsorted, List.length_map]
      split
      · next hodd =>
        have he : (g.length - 1) / 2 = g.length / 2 := by omega
        rw [hget _ hl2, List.getD_eq_getElem _ _ hl2]
        simp only [he]
        ring
      · next heven =>
        have he : g.length / 2 - 1 = (g.length - 1) / 2 := by omega
        rw [he, hget _ hl2, hget _ hl1, List.getD_eq_getElem _ _ hl2, List.getD_eq_getElem _ _ hl1]

theorem foldl_windows (melt : ℕ → Option α) (t0 : ℕ → α) (win : ℕ) (l : List ℕ) (alt : ℕ → Option α) (t : ℕ) :
    (l.foldl (fun (alt : ℕ → Option α) n =>
      if (List.range win).all fun i => (melt (n + i)).isNone then
        fun t => if t = n + win / 2 then some (t0 t) else alt t
      else alt) alt) t =
    if ∃ n ∈ l, t = n + win / 2 ∧ ∀ i < win, melt (n + i) = none then some (t0 t) else alt t := by
  induction l generalizing alt with
  | nil => simp
  | cons n l ih =>
    rw [List.foldl_cons, ih]
    by_cases hex : ∃ n ∈ l, t = n + win / 2 ∧ ∀ i < win, melt (n + i) = none
    · obtain ⟨k, hk, hk'⟩ := hex
      rw [if_pos ⟨k, hk, hk'⟩, if_pos ⟨k, List.mem_cons_of_mem _ hk, hk'⟩]
    · rw [if_neg hex]
      by_cases hn : ∀ i < win, melt (n + i) = none
      · have : (List.range win).all (fun i => (melt (n + i)).isNone) = true := by
          simpa [List.all_eq_true] using hn
        rw [if_pos this]
        by_cases ht : t = n + win / 2
        · rw [if_pos ht, if_pos ⟨n, List.mem_cons_self, ht, hn⟩]
        · rw [if_neg ht, if_neg]
          rintro ⟨k, hk, h1, h2⟩
          rcases List.mem_cons.1 hk with h | h
          · exact ht (h ▸ h1)
          · exact hex ⟨k, h, h1, h2⟩
      · have : ¬ (List.range win).all (fun i => (melt (n + i)).isNone) = true := by
          simpa [List.all_eq_true] using hn
        rw [if_neg this, if_neg]
        rintro ⟨k, hk, h1, h2⟩
        rcases List.mem_cons.1 hk with h | h
        · exact hn (h ▸ h2)
        · exact hex ⟨k, h, h1, h2⟩

/-- The altitudes before interpolation are the anchors. -/
theorem freezingAlt_anchor (nT win : ℕ) (hw : 0 < win) (melt : ℕ → Option α) (t0 : ℕ → α) (t : ℕ) (ht : t < nT)
    (a : α) : freezingAlt nT melt t0 win t = some a ↔ Spec.Anchor nT win melt t0 t a := by
  unfold freezingAlt
  simp only [foldl_windows, List.mem_range]
  unfold Spec.Anchor
  by_cases hex : ∃ n < nT - win, t = n + win / 2 ∧ ∀ i < win, melt (n + i) = none
  · rw [if_pos hex]
    obtain ⟨n, hn, h1, h2⟩ := hex
    have hmt : melt t = none := by
      have := h2 (win / 2) (by omega)
      rwa [← h1] at this
    simp only [Option.some.injEq]
    constructor
    · rintro rfl
      exact ⟨ht, Or.inr ⟨rfl, Or.inr ⟨n, by omega, h1, fun i hi1 hi2 => by
        have := h2 (i - n) (by omega)
        rwa [show n + (i - n) = i by omega] at this⟩⟩⟩
    · rintro ⟨-, ⟨h, -⟩ | ⟨h, -⟩⟩
      · rw [hmt] at h; cases h
      · exact h.symm
  · rw [if_neg hex]
    have hno : ¬ ∃ n, n + win < nT ∧ t = n + win / 2 ∧ ∀ i, n ≤ i → i < n + win → melt i = none := by
      rintro ⟨n, h1, h2, h3⟩
      exact hex ⟨n, by omega, h2, fun i hi => h3 (n + i) (by omega) (by omega)⟩
    by_cases hend : t = 0 ∨ t + 1 = nT
    · have hval : (if t = nT - 1 then if (melt (nT - 1)).getD 0 = 0 then some (t0 (nT - 1)) else melt (nT - 1)
          else if t = 0 then if (melt 0).getD 0 = 0 then some (t0 0) else melt 0 else melt t) =
          if (melt t).getD 0 = 0 then some (t0 t) else melt t := by
        by_cases h1 : t = nT - 1
        · rw [if_pos h1, ← h1]
        · have h0 : t = 0 := by omega
          rw [if_neg h1, if_pos h0, h0]
      rw [hval]
      rcases hm : melt t with _ | m
      · simp only [Option.getD_none, if_true, Option.some.injEq]
        constructor
        · rintro rfl
          exact ⟨ht, Or.inr ⟨rfl, Or.inl ⟨hend, Or.inl trivial⟩⟩⟩
        · rintro ⟨-, ⟨h, -⟩ | ⟨h, -⟩⟩
          · cases h
          · exact h.symm
      · simp only [Option.getD_some]
        by_cases h0 : m = 0
        · rw [if_pos h0]
          simp only [Option.some.injEq]
          constructor
          · rintro rfl
            exact ⟨ht, Or.inr ⟨rfl, Or.inl ⟨hend, Or.inr h0⟩⟩⟩
          · rintro ⟨-, ⟨h, h' | h'⟩ | ⟨h, -⟩⟩
            · exact absurd (h.symm.trans h0) h'
            · omega
            · exact h.symm
        · rw [if_neg h0]
          simp only [Option.some.injEq]
          constructor
          · rintro rfl
            exact ⟨ht, Or.inl ⟨rfl, Or.inl h0⟩⟩
          · rintro ⟨-, ⟨h, -⟩ | ⟨-, ⟨-, h | h⟩ | h⟩⟩
            · exact h
            · cases h
            · exact absurd h h0
            · exact absurd h hno
    · rw [if_neg (by omega), if_neg (by omega)]
      constructor
      · intro h
        exact ⟨ht, Or.inl ⟨h, Or.inr (by omega)⟩⟩
      · rintro ⟨-, ⟨h, -⟩ | ⟨-, ⟨h, -⟩ | h⟩⟩
        · exact h
        · exact absurd h hend
        · exact absurd h hno

theorem findT0Alt_ok (nT nH : ℕ) (height : ℕ → α) (tw : Grid α) (hcold : ∀ t < nT, ∃ h < nH, tw t h < 27316 / 100) :
    ∃ t0s, findT0Alt nT nH height tw = .ok t0s ∧
      ∀ t < nT, Spec.ZeroAltitude nH height (tw t) (t0s.getD t 0) := by
  have hex : ∀ t, ∃ a, t < nT → t0Alt nH height (tw t) = .ok a := by
    intro t
    rcases ha : t0Alt nH height (tw t) with e | a
    · refine ⟨0, fun ht => ?_⟩
      obtain ⟨h, hh, hlt⟩ := hcold t ht
      exact absurd (((C68_zero_altitude nH height (tw t)).2.1 ⟨e, ha⟩) h hh) (not_le.2 hlt)
    · exact ⟨a, fun _ => rfl⟩
  choose g hg using hex
  refine ⟨(List.range nT).map g, ?_, ?_⟩
  · unfold findT0Alt
    exact mapM_ok _ g _ fun t ht => hg t (List.mem_range.1 ht)
  · intro t ht
    rw [List.getD_eq_getElem _ _ (by simpa using ht), List.getElem_map, List.getElem_range]
    exact ((C68_zero_altitude nH height (tw t)).1 _).1 (hg t ht)

/-- C68. If every profile goes below zero somewhere and not (all profiles are frozen from the lowest gate on and no
melting layer was detected), each profile is freezing exactly at the gates more than one metre below an altitude
and up; that altitude is the one of the melting layer in profiles that have one, the altitude of zero temperature
at both ends of the day and in the middle of four hours without melting layer, and linear in time between. -/
theorem C68_freezing_region [FloorRing α] (nT nH : ℕ) (hT : 2 ≤ nT) (time height : ℕ → α)
    (htime : Spec.Increasing nT time) (tw : Grid α) (melting : Grid Bool)
    (hcold : ∀ t < nT, ∃ h < nH, tw t h < 27316 / 100)
    (hwin : 0 < npRound (240 / mdiff nT time / 60)) :
    ∃ freezing t0, findFreezingRegion nT nH time height tw melting = .ok freezing ∧
      (∀ t < nT, Spec.ZeroAltitude nH height (tw t) (t0 t)) ∧
      ((∀ t < nT, meanMeltingAlt nH height melting t = none ∧ t0 t ≤ height 0) → ∀ t h, freezing t h = true) ∧
      (¬ (∀ t < nT, meanMeltingAlt nH height melting t = none ∧ t0 t ≤ height 0) →
        ∃ alt : ℕ → α, (∀ t h, freezing t h = true ↔ alt t - 1 < height h) ∧
          (∀ t a, Spec.Anchor nT (npRound (240 / mdiff nT time / 60)).toNat (meanMeltingAlt nH height melting) t0
            t a → alt t = a) ∧
          (∀ t a b va vb, a < t → t < b →
            Spec.Anchor nT (npRound (240 / mdiff nT time / 60)).toNat (meanMeltingAlt nH height melting) t0 a va →
            Spec.Anchor nT (npRound (240 / mdiff nT time / 60)).toNat (meanMeltingAlt nH height melting) t0 b vb →
            (∀ i v, a < i → i < b → ¬ Spec.Anchor nT (npRound (240 / mdiff nT time / 60)).toNat
              (meanMeltingAlt nH height melting) t0 i v) →
            alt t = va + (time t - time a) / (time b - time a) * (vb - va))) := by
  obtain ⟨t0s, h1, h2⟩ := findT0Alt_ok nT nH height tw hcold
  have hw : 0 < (npRound (240 / mdiff nT time / 60)).toNat := by omega
  unfold findFreezingRegion
  simp only [h1, bind, Except.bind, pure, Except.pure]
  generalize (npRound (240 / mdiff nT time / 60)).toNat = win at hw
  generalize hmelt : meanMeltingAlt nH height melting = melt
  by_cases hall : ∀ t < nT, melt t = none ∧ t0s.getD t 0 ≤ height 0
  · have : isAllFreezing nT melt (fun t => t0s.getD t 0) (height 0) = true := by
      unfold isAllFreezing
      simp only [Bool.and_eq_true, List.all_eq_true, List.mem_range, decide_eq_true_eq, Option.isNone_iff_eq_none]
      exact ⟨fun t ht => (hall t ht).1, fun t ht => (hall t ht).2⟩
    rw [if_pos this]
    exact ⟨_, fun t => t0s.getD t 0, rfl, h2, fun _ _ _ => rfl, fun h => absurd hall h⟩
  · have : ¬ isAllFreezing nT melt (fun t => t0s.getD t 0) (height 0) = true := by
      unfold isAllFreezing
      simp only [Bool.and_eq_true, List.all_eq_true, List.mem_range, decide_eq_true_eq, Option.isNone_iff_eq_none]
      intro h
      exact hall fun t ht => ⟨h.1 t ht, h.2 t ht⟩
    rw [if_neg this, if_neg (by omega)]
    refine ⟨_, fun t => t0s.getD t 0, rfl, h2, fun h => absurd h hall, fun _ => ?_⟩
    have hanchor := fun t ht a => freezingAlt_anchor nT win hw melt (fun t => t0s.getD t 0) t ht a
    generalize freezingAlt nT melt (fun t => t0s.getD t 0) win = alt at hanchor
    obtain ⟨g1, g2⟩ := interp_filtered nT (fun t => (alt t).isSome) time (fun t => (alt t).getD 0) htime
    refine ⟨_, fun t h => decide_eq_true_iff, ?_, ?_⟩
    · intro t a ha
      have hv := (hanchor t ha.1 a).2 ha
      have := g1 t ha.1 (by rw [hv]; rfl)
      simp only [hv, Option.getD_some] at this
      exact this
    · intro t a b va vb hat htb ha hb hno
      have hva := (hanchor a ha.1 va).2 ha
      have hvb := (hanchor b hb.1 vb).2 hb
      have := g2 t a b hb.1 (by rw [hva]; rfl) (by rw [hvb]; rfl) hat htb (by
        intro i hi1 hi2
        rcases hi : alt i with _ | v
        · rfl
        · exact absurd ((hanchor i (by have := hb.1; omega) v).1 hi) (hno i v hi1 hi2))
      simp only [hva, hvb, Option.getD_some] at this
      exact this

/-- C68. The freezing region of a profile is upward closed. -/
theorem C68_upward_closed [FloorRing α] (nT nH : ℕ) (time height : ℕ → α) (hh : Spec.Increasing nH height)
    (tw : Grid α) (melting freezing : Grid Bool)
    (hf : findFreezingRegion nT nH time height tw melting = .ok freezing) (t i j : ℕ) (hij : i ≤ j) (hj : j < nH)
    (hi : freezing t i = true) : freezing t j = true := by
  unfold findFreezingRegion at hf
  rcases h1 : findT0Alt nT nH height tw with e | t0s
  · simp only [h1, bind, Except.bind, reduceCtorEq] at hf
  · simp only [h1, bind, Except.bind, pure, Except.pure] at hf
    split at hf
    · cases hf; rfl
    · split at hf
      · cases hf
      · cases hf
        simp only [decide_eq_true_eq] at hi ⊢
        exact lt_of_lt_of_le hi (hh.le hij hj)

theorem anchor_le_top (nT nH win : ℕ) (height : ℕ → α) (hh : Spec.Increasing nH height) (tw : Grid α)
    (melting : Grid Bool) (t0 : ℕ → α) (h0 : ∀ t < nT, Spec.ZeroAltitude nH height (tw t) (t0 t)) (t : ℕ) (a : α)
    (ha : Spec.Anchor nT win (meanMeltingAlt nH height melting) t0 t a) : a ≤ height (nH - 1) := by
  obtain ⟨ht, ⟨hm, -⟩ | ⟨rfl, -⟩⟩ := ha
  · obtain ⟨lo, hi, h1, h2, -, -, -, -, rfl⟩ := (C68_melting_altitude nH height hh melting t).2 a hm
    have a1 := hh.le (show lo ≤ nH - 1 by omega) (by omega)
    have a2 := hh.le (show hi ≤ nH - 1 by omega) (by omega)
    linarith
  · obtain ⟨k, hk, -, -, -, hle⟩ := C68_zero_altitude_bounds nH height (tw t) hh (t0 t)
      (((C68_zero_altitude nH height (tw t)).1 (t0 t)).2 (h0 t ht))
    exact le_trans hle (hh.le (by omega) (by omega))

/-- C68. The highest gate of every profile is in the freezing region. -/
theorem C68_highest_gate [FloorRing α] (nT nH : ℕ) (hT : 2 ≤ nT) (time height : ℕ → α)
    (htime : Spec.Increasing nT time) (hh : Spec.Increasing nH height) (tw : Grid α) (melting : Grid Bool)
    (hcold : ∀ t < nT, ∃ h < nH, tw t h < 27316 / 100) (hwin : 0 < npRound (240 / mdiff nT time / 60))
    (freezing : Grid Bool) (hf : findFreezingRegion nT nH time height tw melting = .ok freezing) (t : ℕ)
    (ht : t < nT) : freezing t (nH - 1) = true := by
  obtain ⟨f, t0, h1, h2, h3, h4⟩ := C68_freezing_region nT nH hT time height htime tw melting hcold hwin
  rw [hf] at h1
  have h1 := Except.ok.inj h1
  subst h1
  by_cases hall : ∀ t < nT, meanMeltingAlt nH height melting t = none ∧ t0 t ≤ height 0
  · exact h3 hall t _
  · obtain ⟨alt, g1, g2, g3⟩ := h4 hall
    rw [g1]
    generalize (npRound (240 / mdiff nT time / 60)).toNat = win at g2 g3
    have htop := anchor_le_top nT nH win height hh tw melting t0 h2
    suffices alt t ≤ height (nH - 1) by linarith
    by_cases hanch : ∃ a, Spec.Anchor nT win (meanMeltingAlt nH height melting) t0 t a
    · obtain ⟨a, ha⟩ := hanch
      rw [g2 t a ha]
      exact htop t a ha
    · have hend : ∀ s, s = 0 ∨ s + 1 = nT → ∃ a, Spec.Anchor nT win (meanMeltingAlt nH height melting) t0 s a := by
        intro s hs
        rcases hm : meanMeltingAlt nH height melting s with _ | m
        · exact ⟨t0 s, by omega, Or.inr ⟨rfl, Or.inl ⟨hs, Or.inl hm⟩⟩⟩
        · by_cases h0 : m = 0
          · exact ⟨t0 s, by omega, Or.inr ⟨rfl, Or.inl ⟨hs, Or.inr (by rw [hm, h0])⟩⟩⟩
          · exact ⟨m, by omega, Or.inl ⟨hm, Or.inl h0⟩⟩
      have ht0 : t ≠ 0 := fun h => hanch (hend t (Or.inl h))
      have htl : t + 1 ≠ nT := fun h => hanch (hend t (Or.inr h))
      -- the nearest anchors
      obtain ⟨b, hb, hbmin⟩ : ∃ b, (t < b ∧ ∃ v, Spec.Anchor nT win (meanMeltingAlt nH height melting) t0 b v) ∧
          ∀ i < b, ¬ (t < i ∧ ∃ v, Spec.Anchor nT win (meanMeltingAlt nH height melting) t0 i v) := by
        classical
        have hex : ∃ b, t < b ∧ ∃ v, Spec.Anchor nT win (meanMeltingAlt nH height melting) t0 b v :=
          ⟨nT - 1, by omega, hend _ (Or.inr (by omega))⟩
        exact ⟨Nat.find hex, Nat.find_spec hex, fun i hi => Nat.find_min hex hi⟩
      obtain ⟨c, hc, hcmin⟩ : ∃ c, (c < t ∧ ∃ v, Spec.Anchor nT win (meanMeltingAlt nH height melting) t0 (t - 1 - c) v) ∧
          ∀ i < c, ¬ (i < t ∧ ∃ v, Spec.Anchor nT win (meanMeltingAlt nH height melting) t0 (t - 1 - i) v) := by
        classical
        have hex : ∃ c, c < t ∧ ∃ v, Spec.Anchor nT win (meanMeltingAlt nH height melting) t0 (t - 1 - c) v :=
          ⟨t - 1, by omega, hend _ (Or.inl (by omega))⟩
        exact ⟨Nat.find hex, Nat.find_spec hex, fun i hi => Nat.find_min hex hi⟩
      obtain ⟨hb1, vb, hvb⟩ := hb
      obtain ⟨hc1, va, hva⟩ := hc
      rw [g3 t (t - 1 - c) b va vb (by omega) hb1 hva hvb (by
        intro i v h5 h6 h7
        rcases Nat.lt_trichotomy i t with h8 | h8 | h8
        · refine hcmin (t - 1 - i) (by omega) ⟨by omega, v, ?_⟩
          rw [show t - 1 - (t - 1 - i) = i by omega]
          exact h7
        · exact hanch ⟨v, by rw [← h8]; exact h7⟩
        · exact hbmin i h6 ⟨h8, v, h7⟩)]
      have e1 := htop _ _ hva
      have e2 := htop _ _ hvb
      have hb2 : b < nT := hvb.1
      have l1 : time (t - 1 - c) < time t := htime _ _ (by omega) (by omega)
      have l2 : time t < time b := htime _ _ hb1 hb2
      have w0 : 0 ≤ (time t - time (t - 1 - c)) / (time b - time (t - 1 - c)) :=
        div_nonneg (by linarith) (by linarith)
      have w1 : (time t - time (t - 1 - c)) / (time b - time (t - 1 - c)) ≤ 1 := by
        rw [div_le_one (by linarith)]
        linarith
      generalize (time t - time (t - 1 - c)) / (time b - time (t - 1 - c)) = w at w0 w1
      nlinarith [mul_nonneg w0 (sub_nonneg.2 e2), mul_nonneg (sub_nonneg.2 w1) (sub_nonneg.2 e1)]

/-- C68. A profile that never goes below zero makes the search fail, whatever the melting layer. -/
theorem C68_raises [FloorRing α] (nT nH : ℕ) (time height : ℕ → α) (tw : Grid α) (melting : Grid Bool)
    (t : ℕ) (ht : t < nT) (hwarm : ∀ h < nH, 27316 / 100 ≤ tw t h) :
    ∃ e, findFreezingRegion nT nH time height tw melting = .error e := by
  have : ∃ e, findT0Alt nT nH height tw = .error e := by
    unfold findT0Alt
    exact mapM_error _ _ t (List.mem_range.2 ht) ((C68_zero_altitude nH height (tw t)).2.2 hwarm)
  obtain ⟨e, he⟩ := this
  unfold findFreezingRegion
  simp only [he, bind, Except.bind]
  exact ⟨_, rfl⟩

end

/-- The hypotheses are met: three profiles an hour apart, 274, 273 and 272 K, no melting layer. -/
example : (match findFreezingRegion 3 3 (fun t => (t : ℚ)) (fun h => 100 * (h : ℚ)) (fun _ h => 274 - (h : ℚ))
    (fun _ _ => false) with
  | .ok r => decide (r 0 0 = false ∧ r 1 1 = true ∧ r 2 2 = true)
  | .error _ => false) = true := by decide +kernel

/-- A melting layer lowers the region: the middle profile melts at gate 0. -/
example : (match findFreezingRegion 3 3 (fun t => (t : ℚ)) (fun h => 100 * (h : ℚ)) (fun _ h => 274 - (h : ℚ))
    (fun t h => t == 1 && h == 0) with
  | .ok r => decide (r 0 0 = false ∧ r 1 0 = true ∧ r 2 0 = false)
  | .error _ => false) = true := by decide +kernel

end Cloudnet
