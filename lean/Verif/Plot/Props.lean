import Verif.Plot.ImageModel
import Verif.Plot.Gaps
import Verif.Plot.Average
import Verif.Plot.Direction
import Verif.Cli.Props
import Mathlib.Tactic

/-! C147 (images and axes). -/

namespace Cloudnet

/-! ### Classes -/

/-- The class has a label that is not shown. -/
def isHidden (p : String × String) : Bool := p.1.toList.head? == some '_'

theorem hiddenClasses_cons (p : String × String) (l : List (String × String)) :
    hiddenClasses (p :: l) = (if isHidden p then [0] else []) ++ (hiddenClasses l).map (· + 1) := by
  unfold hiddenClasses
  rw [List.length_cons, List.range_succ_eq_map, List.filter_cons, List.filter_map]
  cases h : isHidden p
  · have h' : (((p :: l).getD 0 ("", "")).1.toList.head? == some '_') = false := h
    rw [h']
    rfl
  · have h' : (((p :: l).getD 0 ("", "")).1.toList.head? == some '_') = true := h
    rw [h']
    rfl

theorem foldl_erase_cons (p : String × String) (l : List (String × String)) (inds : List ℕ) :
    (inds.map (· + 1)).foldl (fun l i => l.eraseIdx i) (p :: l) = p :: inds.foldl (fun l i => l.eraseIdx i) l := by
  induction inds generalizing l with
  | nil => rfl
  | cons i inds ih => rw [List.map_cons, List.foldl_cons, List.eraseIdx_cons_succ, ih, List.foldl_cons]

theorem hideLabels_eq (labels : List (String × String)) : hideLabels labels = labels.filter fun p => !isHidden p := by
  induction labels with
  | nil => rfl
  | cons p l ih =>
    unfold hideLabels at ih ⊢
    rw [hiddenClasses_cons, List.reverse_append, List.foldl_append, ← List.map_reverse, foldl_erase_cons, ih, List.filter_cons]
    cases h : isHidden p
    · simp
    · simp

theorem hideStep_none (inds : List ℕ) : inds.foldl hideStep none = none := by
  induction inds with
  | nil => rfl
  | cons i inds ih => rw [List.foldl_cons]; exact ih

theorem foldl_hide_succ (v : ℕ) (inds : List ℕ) : (inds.map (· + 1)).foldl hideStep (some (v + 1)) = (inds.foldl hideStep (some v)).map (· + 1) := by
  induction inds generalizing v with
  | nil => rfl
  | cons i inds ih =>
    rw [List.map_cons, List.foldl_cons, List.foldl_cons]
    unfold hideStep
    simp only [Option.bind_some, Nat.add_right_cancel_iff, Nat.add_lt_add_iff_right]
    split_ifs with h1 h2
    · have := hideStep_none
      rw [show (fun (v : Option ℕ) ind => v.bind fun x => if x = ind then none else if ind < x then some (x - 1) else some x) = hideStep from rfl]
      rw [this, this]; rfl
    · have := ih (v - 1)
      rw [show v - 1 + 1 = v + 1 - 1 by omega] at this
      exact this
    · exact ih v

theorem foldl_hide_zero (inds : List ℕ) : (inds.map (· + 1)).foldl hideStep (some 0) = some 0 := by
  induction inds with
  | nil => rfl
  | cons i inds ih =>
    rw [List.map_cons, List.foldl_cons]
    have : hideStep (some 0) (i + 1) = some 0 := by simp [hideStep]
    rw [this]
    exact ih

theorem hideValue_spec (labels : List (String × String)) (v : ℕ) : hideValue labels (some v) =
    if (labels[v]?).any isHidden then none else some (v - ((labels.take v).filter isHidden).length) := by
  induction labels generalizing v with
  | nil => simp [hideValue, hiddenClasses]
  | cons p l ih =>
    unfold hideValue at ih ⊢
    rw [hiddenClasses_cons, List.reverse_append, List.foldl_append, ← List.map_reverse]
    cases v with
    | zero =>
      rw [foldl_hide_zero]
      cases h : isHidden p
      · simp [h]
      · simp [h, hideStep]
    | succ v =>
      rw [foldl_hide_succ, ih v, List.getElem?_cons_succ, List.take_succ_cons, List.filter_cons]
      have hle : ((l.take v).filter isHidden).length ≤ v := by
        refine (List.length_filter_le _ _).trans ?_
        rw [List.length_take]
        exact min_le_left _ _
      split_ifs with h1 h2 h2
      · simp [hideStep]
      · simp
      · simp only [Option.map_some, List.reverse_cons, List.reverse_nil, List.nil_append, List.foldl_cons, List.foldl_nil, hideStep, Option.bind_some,
          List.length_cons]
        rw [if_neg (by omega), if_pos (by omega)]
        congr 1
        omega
      · simp only [Option.map_some, List.reverse_nil, List.foldl_nil]
        congr 1
        omega

/-- **C147.** Of the classes those with a label that begins with an underscore are neither in the legend nor in the image, and every other class has
in the image the number of its own label and colour; masked pixels stay masked. -/
theorem C147_classes (labels : List (String × String)) : hideLabels labels = labels.filter (fun p => !(p.1.toList.head? == some '_')) ∧
    hideValue labels none = none ∧ ∀ v p, labels[v]? = some p →
      (p.1.toList.head? = some '_' → hideValue labels (some v) = none) ∧
      (p.1.toList.head? ≠ some '_' → ∃ u, hideValue labels (some v) = some u ∧ (hideLabels labels)[u]? = some p) := by
  refine ⟨hideLabels_eq labels, hideStep_none _, fun v p hp => ⟨fun hh => ?_, fun hh => ?_⟩⟩
  · have : isHidden p = true := by simpa [isHidden] using hh
    rw [hideValue_spec, hp]
    simp [this]
  · have hn : isHidden p = false := by simpa [isHidden] using hh
    refine ⟨v - ((labels.take v).filter isHidden).length, by rw [hideValue_spec, hp]; simp [hn], ?_⟩
    obtain ⟨hv, rfl⟩ := List.getElem?_eq_some_iff.1 hp
    rw [hideLabels_eq]
    have hsplit : labels = labels.take v ++ labels[v] :: labels.drop (v + 1) := by
      rw [← List.drop_eq_getElem_cons hv, List.take_append_drop]
    have hcount : v - ((labels.take v).filter isHidden).length = ((labels.take v).filter fun p => !isHidden p).length := by
      have := List.length_eq_length_filter_add (l := labels.take v) isHidden
      rw [List.length_take, min_eq_left hv.le] at this
      omega
    rw [hcount]
    conv_lhs => rw [hsplit]
    rw [List.filter_append, List.filter_cons_of_pos (by simpa using hn)]
    rw [List.getElem?_append_right (by simp)]
    simp

/-- The third class has the second colour. -/
example : hideLabels [("Clear", "w"), ("_Aerosol", "g"), ("Ice", "b")] = [("Clear", "w"), ("Ice", "b")] ∧
    hideValue [("Clear", "w"), ("_Aerosol", "g"), ("Ice", "b")] (some 2) = some 1 ∧
    hideValue [("Clear", "w"), ("_Aerosol", "g"), ("Ice", "b")] (some 1) = none := by decide +kernel

/-! ### Axes -/

section
variable {α : Type} [Field α] [LinearOrder α]

/-- **C147.** Gates are shown up to the first one above the limit of the axis, for increasing heights of which the first is not above it. -/
theorem C147_gates (alt : List α) (hs : alt.Pairwise (· < ·)) (m : α) (h0 : ∀ h, alt.head? = some h → h ≤ m) (row : PlotRow α) :
    (∀ j < alt.length, (j < (screenHeights alt (some m) row).1.length ↔ j = 0 ∨ alt.getD (j - 1) 0 ≤ m)) ∧
    (∀ j < (screenHeights alt (some m) row).1.length, (screenHeights alt (some m) row).1.getD j 0 = alt.getD j 0) ∧
    (row.length = alt.length → (screenHeights alt (some m) row).2.length = (screenHeights alt (some m) row).1.length ∧
      ∀ j < (screenHeights alt (some m) row).2.length, (screenHeights alt (some m) row).2.getD j none = row.getD j none) := by
  have hmono : ∀ i j, i ≤ j → j < alt.length → alt.getD i 0 ≤ alt.getD j 0 := by
    intro i j hij hj
    rcases eq_or_lt_of_le hij with rfl | h
    · exact le_rfl
    · rw [List.getD_eq_getElem?_getD, List.getD_eq_getElem?_getD, List.getElem?_eq_getElem hj, List.getElem?_eq_getElem (h.trans hj)]
      exact ((List.pairwise_iff_getElem.1 hs) i j (h.trans hj) hj h).le
  have hlen : (screenHeights alt (some m) row).1.length = min (shownGates alt (some m)) alt.length := List.length_take
  refine ⟨fun j hj => ?_, fun j hj => ?_, fun hr => ⟨?_, fun j hj => ?_⟩⟩
  · rw [hlen, lt_min_iff]
    unfold shownGates
    dsimp only
    cases hf : alt.findIdx? fun h => decide (m < h) with
    | none =>
      have hall := List.findIdx?_eq_none_iff.1 hf
      rw [Option.getD_none, if_pos rfl]
      refine ⟨fun _ => ?_, fun _ => ⟨by omega, hj⟩⟩
      by_cases hj0 : j = 0
      · exact Or.inl hj0
      · right
        have hm : alt.getD (j - 1) 0 ∈ alt := by
          rw [List.getD_eq_getElem?_getD, List.getElem?_eq_getElem (by omega)]
          exact List.getElem_mem _
        simpa using hall _ hm
    | some k =>
      obtain ⟨hk, hk1, hk2⟩ := List.findIdx?_eq_some_iff_getElem.1 hf
      have hk0 : k ≠ 0 := by
        rintro rfl
        have := h0 alt[0] (by rw [List.head?_eq_getElem?, List.getElem?_eq_getElem hk])
        simp at hk1
        exact absurd hk1 (not_lt.2 this)
      rw [Option.getD_some, if_neg hk0]
      have hgk : m < alt.getD k 0 := by
        rw [List.getD_eq_getElem?_getD, List.getElem?_eq_getElem hk]
        simpa using hk1
      constructor
      · rintro ⟨h1, -⟩
        by_cases hj0 : j = 0
        · exact Or.inl hj0
        · right
          have := hk2 (j - 1) (by omega)
          rw [List.getD_eq_getElem?_getD, List.getElem?_eq_getElem (by omega)]
          simpa using this
      · rintro (rfl | h)
        · exact ⟨by omega, hj⟩
        · refine ⟨?_, hj⟩
          by_contra hc
          have := hmono k (j - 1) (by omega) (by omega)
          exact absurd (hgk.trans_le this) (not_lt.2 h)
  · rw [hlen] at hj
    unfold screenHeights
    dsimp only
    rw [List.getD_eq_getElem?_getD, List.getD_eq_getElem?_getD, List.getElem?_take_of_lt (by omega)]
  · unfold screenHeights
    dsimp only
    rw [List.length_take, List.length_take, hr]
  · unfold screenHeights at hj ⊢
    dsimp only at hj ⊢
    rw [List.length_take] at hj
    rw [List.getD_eq_getElem?_getD, List.getD_eq_getElem?_getD, List.getElem?_take_of_lt (by omega)]

/-- **C147, finding.** If all gates are above the limit, all are in the image. -/
theorem C147_all_above (alt : List α) (m h : α) (h0 : alt.head? = some h) (hm : m < h) (row : PlotRow α) (hr : row.length = alt.length) :
    screenHeights alt (some m) row = (alt, row) := by
  cases alt with
  | nil => cases h0
  | cons a l =>
    obtain rfl := Option.some.inj h0
    have : shownGates (a :: l) (some m) = (a :: l).length + 1 := by
      unfold shownGates
      simp [List.findIdx?_cons, hm]
    unfold screenHeights
    rw [this, List.take_of_length_le (by omega), List.take_of_length_le (by omega)]

end

/-- Gates to 12 km. -/
example : screenHeights ([1, 5, 11, 13, 14] : List ℚ) (some 12) [none, some 1, some 2, some 3, some 4] = ([1, 5, 11, 13], [none, some 1, some 2, some 3]) := by
  decide +kernel

section
variable {α : Type} [Field α] [LinearOrder α] [IsStrictOrderedRing α]

theorem makeEdges_get (c e : List α) (h : makeEdges c = .ok e) : 2 ≤ c.length ∧ e.length = c.length + 1 ∧
    e.getD 0 0 = c.getD 0 0 - (c.getD 1 0 - c.getD 0 0) / 2 ∧ (∀ i, i + 1 < c.length → e.getD (i + 1) 0 = (c.getD i 0 + c.getD (i + 1) 0) / 2) ∧
    e.getD c.length 0 = c.getD (c.length - 1) 0 + (c.getD (c.length - 1) 0 - c.getD (c.length - 2) 0) / 2 := by
  unfold makeEdges at h
  split_ifs at h with hn
  cases h
  have hlen : (List.map (fun i => (c.getD i 0 + c.getD (i + 1) 0) / 2) (List.range (c.length - 1))).length = c.length - 1 := by simp
  refine ⟨by omega, by simp; omega, rfl, fun i hi => ?_, ?_⟩
  · rw [List.getD_eq_getElem?_getD, List.cons_append, List.getElem?_cons_succ, List.getElem?_append_left (by rw [hlen]; omega), List.getElem?_map,
      List.getElem?_range (by omega)]
    rfl
  · have hget : ∀ (a b : α) (L : List α), (a :: L ++ [b]).getD (L.length + 1) 0 = b := by intro a b L; simp
    have := hget (c.getD 0 0 - (c.getD 1 0 - c.getD 0 0) / 2) (c.getD (c.length - 1) 0 + (c.getD (c.length - 1) 0 - c.getD (c.length - 2) 0) / 2)
      (List.map (fun i => (c.getD i 0 + c.getD (i + 1) 0) / 2) (List.range (c.length - 1)))
    rw [hlen, show c.length - 1 + 1 = c.length by omega] at this
    exact this

/-- **C147.** Cells of the image: there is one for each centre, they meet midway between centres, each holds its own centre and they do not overlap. -/
theorem C147_cells (c e : List α) (hs : c.Pairwise (· < ·)) (h : makeEdges c = .ok e) : e.length = c.length + 1 ∧
    (∀ i < c.length, e.getD i 0 < c.getD i 0 ∧ c.getD i 0 < e.getD (i + 1) 0) ∧ (∀ i, i + 1 < c.length → e.getD (i + 1) 0 = (c.getD i 0 + c.getD (i + 1) 0) / 2) ∧
    ∀ d, (∀ i, i + 1 < c.length → c.getD (i + 1) 0 - c.getD i 0 = d) → ∀ i < c.length, c.getD i 0 - e.getD i 0 = d / 2 ∧ e.getD (i + 1) 0 - c.getD i 0 = d / 2 := by
  obtain ⟨hn, hl, h0, hi, hlast⟩ := makeEdges_get c e h
  have hlt : ∀ i, i + 1 < c.length → c.getD i 0 < c.getD (i + 1) 0 := by
    intro i hi
    rw [List.getD_eq_getElem?_getD, List.getD_eq_getElem?_getD, List.getElem?_eq_getElem hi, List.getElem?_eq_getElem (by omega : i < c.length)]
    exact (List.pairwise_iff_getElem.1 hs) i (i + 1) _ _ (by omega)
  have hlow : ∀ i, 0 < i → i < c.length → e.getD i 0 = (c.getD (i - 1) 0 + c.getD i 0) / 2 := by
    intro i h1 h2
    have := hi (i - 1) (by omega)
    rwa [show i - 1 + 1 = i by omega] at this
  refine ⟨hl, fun i hil => ⟨?_, ?_⟩, hi, fun d hd i hil => ⟨?_, ?_⟩⟩
  · rcases Nat.eq_zero_or_pos i with rfl | hp
    · rw [h0]
      have := hlt 0 (by omega)
      linarith
    · rw [hlow i hp hil]
      have := hlt (i - 1) (by omega)
      rw [show i - 1 + 1 = i by omega] at this
      linarith
  · by_cases hi1 : i + 1 < c.length
    · rw [hi i hi1]
      have := hlt i hi1
      linarith
    · rw [show i + 1 = c.length by omega, hlast, show i = c.length - 1 by omega]
      have := hlt (c.length - 2) (by omega)
      rw [show c.length - 2 + 1 = c.length - 1 by omega] at this
      linarith
  · rcases Nat.eq_zero_or_pos i with rfl | hp
    · rw [h0]
      have := hd 0 (by omega)
      rw [zero_add] at this
      rw [← this]; ring
    · rw [hlow i hp hil]
      have := hd (i - 1) (by omega)
      rw [show i - 1 + 1 = i by omega] at this
      rw [← this]; ring
  · by_cases hi1 : i + 1 < c.length
    · rw [hi i hi1, ← hd i hi1]; ring
    · rw [show i + 1 = c.length by omega, hlast, show i = c.length - 1 by omega]
      have := hd (c.length - 2) (by omega)
      rw [show c.length - 2 + 1 = c.length - 1 by omega] at this
      rw [← this]; ring

/-- A cell is half as wide as the distance to its neighbours on either side. -/
theorem cell_reach (c e : List α) (h : makeEdges c = .ok e) (i : ℕ) (hi : i < c.length) (d : α)
    (h1 : i + 1 < c.length → c.getD (i + 1) 0 - c.getD i 0 ≤ d) (h2 : 0 < i → c.getD i 0 - c.getD (i - 1) 0 ≤ d) :
    c.getD i 0 - e.getD i 0 ≤ d / 2 ∧ e.getD (i + 1) 0 - c.getD i 0 ≤ d / 2 := by
  obtain ⟨hn, hl, h0, he, hlast⟩ := makeEdges_get c e h
  constructor
  · rcases Nat.eq_zero_or_pos i with rfl | hp
    · have := h1 (by omega)
      rw [zero_add] at this
      rw [h0]; linarith
    · have := he (i - 1) (by omega)
      rw [show i - 1 + 1 = i by omega] at this
      have h2 := h2 hp
      rw [this]; linarith
  · by_cases hi1 : i + 1 < c.length
    · have := h1 hi1
      rw [he i hi1]; linarith
    · have h2 := h2 (by omega)
      rw [show i + 1 = c.length by omega, hlast]
      obtain rfl : i = c.length - 1 := by omega
      rw [show c.length - 1 - 1 = c.length - 2 by omega] at h2
      linarith

/-- Neighbours in a list of a figure: at most a gap apart unless both are marks. -/
theorem fill_neighbours (m : PlotRow α) (gap : α) (hgap : gapDelta ≤ gap) (T : List α) (l : List (α × PlotRow α))
    (hm : ∀ t ∈ gapMarks (gapPairs gap (l.map Prod.fst)), t ∉ T) :
    (fillBetween m gap l).IsChain fun p q => q.1 - p.1 ≤ gap ∨ (p.1 ∉ T ∧ q.1 ∉ T) := by
  induction l with
  | nil => exact List.isChain_nil
  | cons p l ih =>
    cases l with
    | nil => exact List.isChain_singleton _
    | cons q l =>
      have hs : gapMarks (gapPairs gap ((p :: q :: l).map Prod.fst)) = (if gap < q.1 - p.1 then [p.1 + gapDelta, q.1 - gapDelta] else []) ++
          gapMarks (gapPairs gap ((q :: l).map Prod.fst)) := by
        rw [List.map_cons, List.map_cons, gapPairs, gapMarks, List.flatMap_append]
        split_ifs <;> rfl
      rw [hs] at hm
      have i := ih fun t ht => hm t (List.mem_append_right _ ht)
      obtain ⟨r, hr⟩ : ∃ r, fillBetween m gap (q :: l) = q :: r := by cases l <;> exact ⟨_, rfl⟩
      rw [fillBetween]
      split_ifs with hg
      · rw [if_pos hg] at hm
        rw [hr] at i ⊢
        simp only [List.cons_append, List.nil_append, List.isChain_cons_cons]
        refine ⟨Or.inl (by linarith), Or.inr ⟨hm _ (by simp), hm _ (by simp)⟩, Or.inl (by linarith), i⟩
      · rw [hr] at i ⊢
        simp only [List.nil_append, List.isChain_cons_cons]
        exact ⟨Or.inl (not_lt.1 hg), i⟩

theorem mark_neighbours (w : ℕ) (gap maxX : α) (l : List (α × PlotRow α)) (hne : l ≠ []) (hs : (l.map Prod.fst).Pairwise (· ≤ ·)) (hgap : 2 / 1000 ≤ gap) :
    (markGaps w gap maxX l).IsChain fun p q => q.1 - p.1 ≤ gap ∨ (p.1 ∉ l.map Prod.fst ∧ q.1 ∉ l.map Prod.fst) := by
  have hd : (0 : α) < gapDelta := gapDelta_pos
  have hgap' : 2 * gapDelta ≤ gap := by unfold gapDelta; linarith
  have hmarks := marks_not_mem gap maxX (l.map Prod.fst) hs hgap'
  obtain ⟨last, hlast⟩ : ∃ z, l.getLast? = some z := ⟨_, List.getLast?_eq_some_getLast hne⟩
  obtain ⟨p, l, rfl⟩ := List.exists_cons_of_ne_nil hne
  have hz : ((p :: l).map Prod.fst).getLast? = some last.1 := by rw [List.getLast?_map, hlast]; rfl
  have hgaps : ∀ a b, Spec.IsGap gap maxX ((p :: l).map Prod.fst) a b → a + gapDelta ∉ (p :: l).map Prod.fst ∧ b - gapDelta ∉ (p :: l).map Prod.fst := by
    intro a b hg
    have hm := (mem_allGaps gap maxX _ a b).2 hg
    exact ⟨hmarks _ (List.mem_flatMap.2 ⟨(a, b), hm, by simp⟩), hmarks _ (List.mem_flatMap.2 ⟨(a, b), hm, by simp⟩)⟩
  have hfill := fill_neighbours (List.replicate w none) gap (by linarith) ((p :: l).map Prod.fst) (p :: l) fun t ht => by
    obtain ⟨⟨a, b⟩, hab, ht⟩ := List.mem_flatMap.1 ht
    exact hmarks t (List.mem_flatMap.2 ⟨(a, b), (mem_allGaps gap maxX _ a b).2
      ⟨((mem_gapPairs gap _ a b).1 hab).1, Or.inl ((mem_gapPairs gap _ a b).1 hab).2⟩, ht⟩)
  obtain ⟨r, hr⟩ : ∃ r, fillBetween (List.replicate w none) gap (p :: l) = p :: r := by cases l <;> exact ⟨_, rfl⟩
  have hlastfill : ∀ x ∈ (fillBetween (List.replicate w none) gap (p :: l)).getLast?, x = last := by
    have : ∀ (m : PlotRow α) (l : List (α × PlotRow α)), (fillBetween m gap l).getLast? = l.getLast? := by
      intro m l
      induction l with
      | nil => rfl
      | cons a l ih =>
        cases l with
        | nil => rfl
        | cons b l =>
          obtain ⟨r, hr⟩ : ∃ r, fillBetween m gap (b :: l) = b :: r := by cases l <;> exact ⟨_, rfl⟩
          rw [List.getLast?_cons_cons, ← ih, fillBetween, hr]
          split_ifs <;> simp [List.getLast?_cons_cons]
    rw [this, hlast]
    intro x hx
    simpa using hx.symm
  rw [markGaps_eq w gap maxX p l last hlast]
  have hpre : ((if gap < p.1 then [(gapDelta, List.replicate w none), (p.1 - gapDelta, List.replicate w none)] else []) ++
      fillBetween (List.replicate w none) gap (p :: l)).IsChain fun (x y : α × PlotRow α) => y.1 - x.1 ≤ gap ∨ (x.1 ∉ (p :: l).map Prod.fst ∧ y.1 ∉ (p :: l).map Prod.fst) := by
    split_ifs with hg
    · rw [hr] at hfill ⊢
      obtain ⟨g1, g2⟩ := hgaps 0 p.1 ⟨by linarith, Or.inr (Or.inl ⟨rfl, rfl⟩)⟩
      rw [zero_add] at g1
      simp only [List.cons_append, List.nil_append, List.isChain_cons_cons]
      exact ⟨Or.inr ⟨g1, g2⟩, Or.inl (by linarith), hfill⟩
    · exact hfill
  by_cases hg : gap < maxX - last.1
  · rw [if_pos hg]
    obtain ⟨g1, g2⟩ := hgaps last.1 maxX ⟨hg, Or.inr (Or.inr ⟨hz, rfl⟩)⟩
    rw [List.isChain_append]
    refine ⟨hpre, ?_, ?_⟩
    · simp only [List.isChain_cons_cons, List.isChain_singleton, and_true]
      exact Or.inr ⟨g1, g2⟩
    · intro x hx y hy
      have hxl : x = last := by
        rw [hr] at hx hlastfill
        apply hlastfill x
        rw [List.getLast?_append, List.getLast?_eq_some_getLast (List.cons_ne_nil p r)] at hx
        rw [List.getLast?_eq_some_getLast (List.cons_ne_nil p r)]
        simpa using hx
      obtain rfl : y = (last.1 + gapDelta, List.replicate w none) := by simpa using hy.symm
      rw [hxl]
      left
      simp only [add_sub_cancel_left]
      linarith
  · rw [if_neg hg, List.append_nil]
    exact hpre

/-- **C147.** No profile is drawn farther from its time than half of what counts as a gap. -/
theorem C147_reach (w : ℕ) (gap maxX : α) (l : List (α × PlotRow α)) (hne : l ≠ []) (hs : (l.map Prod.fst).Pairwise (· ≤ ·)) (hgap : 2 / 1000 ≤ gap)
    (e : List α) (he : makeEdges ((markGaps w gap maxX l).map Prod.fst) = .ok e) (i : ℕ) (p : α × PlotRow α) (hp : (markGaps w gap maxX l)[i]? = some p)
    (hmem : p.1 ∈ l.map Prod.fst) : p.1 - e.getD i 0 ≤ gap / 2 ∧ e.getD (i + 1) 0 - p.1 ≤ gap / 2 := by
  have hc := mark_neighbours w gap maxX l hne hs hgap
  generalize markGaps w gap maxX l = s at *
  obtain ⟨hi, rfl⟩ := List.getElem?_eq_some_iff.1 hp
  have hget : ∀ k (hk : k < s.length), (s.map Prod.fst).getD k 0 = s[k].1 := by
    intro k hk
    rw [List.getD_eq_getElem?_getD, List.getElem?_map, List.getElem?_eq_getElem hk]
    rfl
  have hstep := List.isChain_iff_getElem.1 hc
  have := cell_reach (s.map Prod.fst) e he i (by simpa using hi) gap
    (fun h => by
      rw [List.length_map] at h
      rw [hget _ h, hget _ hi]
      rcases hstep i h with h' | h'
      · exact h'
      · exact absurd hmem h'.1)
    (fun h => by
      rw [hget _ hi, hget _ (by omega)]
      have := hstep (i - 1) (by omega)
      simp only [show i - 1 + 1 = i by omega] at this
      rcases this with h' | h'
      · exact h'
      · exact absurd hmem h'.2)
  rw [hget i hi] at this
  exact this

theorem foldl_extremes (l : List α) (x : α) : (l.foldl min x ∈ x :: l ∧ ∀ y ∈ x :: l, l.foldl min x ≤ y) ∧ l.foldl max x ∈ x :: l ∧
    ∀ y ∈ x :: l, y ≤ l.foldl max x := by
  induction l generalizing x with
  | nil => simp
  | cons a l ih =>
    obtain ⟨⟨h1, h2⟩, -⟩ := ih (min x a)
    obtain ⟨-, h3, h4⟩ := ih (max x a)
    rw [List.foldl_cons, List.foldl_cons]
    refine ⟨⟨?_, ?_⟩, ?_, ?_⟩
    · rcases List.mem_cons.1 h1 with h | h
      · rcases min_choice x a with e | e <;> rw [h, e] <;> simp
      · simp [h]
    · intro y hy
      have hm := h2 (min x a) (by simp)
      rcases List.mem_cons.1 hy with rfl | hy
      · exact hm.trans (min_le_left _ _)
      · rcases List.mem_cons.1 hy with rfl | hy
        · exact hm.trans (min_le_right _ _)
        · exact h2 y (by simp [hy])
    · rcases List.mem_cons.1 h3 with h | h
      · rcases max_choice x a with e | e <;> rw [h, e] <;> simp
      · simp [h]
    · intro y hy
      have hm := h4 (max x a) (by simp)
      rcases List.mem_cons.1 hy with rfl | hy
      · exact (le_max_left _ _).trans hm
      · rcases List.mem_cons.1 hy with rfl | hy
        · exact (le_max_right _ _).trans hm
        · exact h4 y (by simp [hy])

/-- **C147.** All values of a time series are strictly inside of the limits of its axis, which are not equal. -/
theorem C147_limits (data : List (Option α)) : (yLimits data).1 < (yLimits data).2 ∧ ∀ x, some x ∈ data → (yLimits data).1 < x ∧ x < (yLimits data).2 := by
  unfold yLimits
  have hmem : ∀ x, some x ∈ data ↔ x ∈ data.filterMap id := by
    intro x
    rw [List.mem_filterMap]
    exact ⟨fun h => ⟨some x, h, rfl⟩, fun ⟨y, hy, he⟩ => by cases he; exact hy⟩
  simp only [hmem]
  cases data.filterMap id with
  | nil => exact ⟨by norm_num, fun x hx => by cases hx⟩
  | cons x l =>
    obtain ⟨⟨h1, h2⟩, h3, h4⟩ := foldl_extremes l x
    dsimp only
    set lo := l.foldl min x
    set hi := l.foldl max x
    have hle : lo ≤ hi := h2 hi h3
    split_ifs with c1 c2
    · have e1 : lo = 0 := by linarith [c1.1, c1.2]
      have e2 : hi = 0 := by linarith [c1.1, c1.2]
      refine ⟨by norm_num, fun y hy => ?_⟩
      have := h2 y hy
      have := h4 y hy
      constructor <;> linarith
    · have e : lo = hi := by linarith
      have hne : lo ≠ 0 := by
        intro h0
        apply c1
        rw [← e, h0]
        norm_num
      have hp : 0 < |lo| := abs_pos.2 hne
      have e2 : lo - 5 / 100 * (hi - lo) = lo := by rw [e]; ring
      rw [e2]
      refine ⟨by rw [← e]; norm_num; linarith, fun y hy => ?_⟩
      have := h2 y hy
      have := h4 y hy
      constructor
      · linarith
      · rw [e]; have : hi - hi = 0 := sub_self hi
        rw [← e] at *
        linarith
    · have hlt : lo < hi := by
        refine lt_of_le_of_ne hle fun e => c2 ?_
        rw [e]; ring
      refine ⟨by linarith, fun y hy => ?_⟩
      have := h2 y hy
      have := h4 y hy
      constructor <;> linarith

end

/-- **C147.** The margins are five percent of the range of the values, or of their size if they are all equal. -/
theorem C147_margins {α : Type} [Field α] [LinearOrder α] [IsStrictOrderedRing α] (data : List (Option α)) (lo hi : α) (h1 : some lo ∈ data) (h2 : some hi ∈ data)
    (h3 : ∀ x, some x ∈ data → lo ≤ x ∧ x ≤ hi) : (lo < hi → yLimits data = (lo - 5 / 100 * (hi - lo), hi + 5 / 100 * (hi - lo))) ∧
    (lo = hi → lo ≠ 0 → yLimits data = (lo - 5 / 100 * |lo|, lo + 5 / 100 * |lo|)) ∧ (lo = 0 → hi = 0 → yLimits data = (-(5 / 100), 5 / 100)) := by
  have hmem : ∀ x, some x ∈ data ↔ x ∈ data.filterMap id := by
    intro x
    rw [List.mem_filterMap]
    exact ⟨fun h => ⟨some x, h, rfl⟩, fun ⟨y, hy, he⟩ => by cases he; exact hy⟩
  simp only [hmem] at h1 h2 h3
  unfold yLimits
  generalize data.filterMap id = vs at *
  cases vs with
  | nil => cases h1
  | cons x l =>
    obtain ⟨⟨g1, g2⟩, g3, g4⟩ := foldl_extremes l x
    have e1 : l.foldl min x = lo := le_antisymm (g2 lo h1) (h3 _ g1).1
    have e2 : l.foldl max x = hi := le_antisymm (h3 _ g3).2 (g4 hi h2)
    dsimp only
    rw [e1, e2]
    refine ⟨fun h => ?_, fun h h0 => ?_, fun h h' => ?_⟩
    · rw [if_neg (fun c => by linarith [c.1, c.2]), if_neg (fun c => by linarith)]
    · subst h
      have e : lo - 5 / 100 * (lo - lo) = lo := by ring
      have e' : lo + 5 / 100 * (lo - lo) = lo := by ring
      rw [e, e', if_neg (fun c => h0 c.1), if_pos rfl, mul_comm]
    · subst h
      subst h'
      rw [if_pos (by constructor <;> ring)]

/-- Values about a constant. -/
example : yLimits ([some 10, none, some 10] : List (Option ℚ)) = (95 / 10, 105 / 10) ∧ yLimits ([some 0, none] : List (Option ℚ)) = (-5 / 100, 5 / 100) ∧
    yLimits ([some 0, some 2] : List (Option ℚ)) = (-1 / 10, 21 / 10) := by decide +kernel

/-- Three cells. -/
example : makeEdges ([1, 2, 4] : List ℚ) = .ok [1 / 2, 3 / 2, 3, 5] := by decide +kernel

/-! ### Flags -/

/-- Indices at which runs of flags end, for arrays of length `n`. -/
theorem stops_succ (n : ℕ) (flag : ℕ → Bool) : ((List.range (n + 1)).filter fun i => flag i && !(if i + 1 = n + 1 then false else flag (i + 1))) =
    ((List.range n).filter fun i => flag i && !flag (i + 1)) ++ if flag n then [n] else [] := by
  rw [List.range_succ, List.filter_append]
  congr 1
  · apply List.filter_congr
    intro i hi
    rw [if_neg (by have := List.mem_range.1 hi; omega)]
  · rw [List.filter_cons]
    simp

theorem batches_spec (flag : ℕ → Bool) (n : ℕ) : ∃ L : List (ℕ × ℕ),
    ((List.range n).filter fun i => !(if i = 0 then false else flag (i - 1)) && flag i) = L.map Prod.fst ∧
    ((List.range n).filter fun i => flag i && !(if i + 1 = n then false else flag (i + 1))) = L.map Prod.snd ∧
    L.Pairwise (fun p q => p.2 < q.1) ∧ ∀ a b, (a, b) ∈ L ↔ Spec.IsRun n (fun i => flag i = true) a (b + 1) := by
  induction n with
  | zero => exact ⟨[], rfl, rfl, List.Pairwise.nil, fun a b => ⟨fun h => (by cases h), fun h => (by have := h.2.1; omega)⟩⟩
  | succ n ih =>
    obtain ⟨L, h1, h2, h3, h4⟩ := ih
    rw [List.range_succ, List.filter_append, h1, ← List.range_succ, stops_succ]
    cases hn : flag n with
    | false =>
      refine ⟨L, by simp [hn], ?_, h3, fun a b => ?_⟩
      · rw [← h2]
        simp only [Bool.false_eq_true, if_false, List.append_nil]
        apply List.filter_congr
        intro i hi
        by_cases e : i + 1 = n
        · rw [if_pos e, e, hn]
        · rw [if_neg e]
      · rw [h4]
        unfold Spec.IsRun
        constructor
        · rintro ⟨g1, g2, g3, g4, g5⟩
          refine ⟨g1, by omega, g3, g4, Or.inr ?_⟩
          rcases g5 with g5 | g5
          · rw [g5]; simp [hn]
          · exact g5
        · rintro ⟨g1, g2, g3, g4, g5⟩
          have hb : b + 1 ≠ n + 1 := fun e => by
            have : flag n = true := g3 n (by omega) (by omega)
            rw [hn] at this
            cases this
          refine ⟨g1, by omega, g3, g4, ?_⟩
          rcases g5 with g5 | g5
          · exact absurd g5 hb
          · exact Or.inr g5
    | true =>
      by_cases hp : n = 0 ∨ flag (n - 1) = false
      · refine ⟨L ++ [(n, n)], ?_, ?_, ?_, fun a b => ?_⟩
        · rw [List.map_append]
          congr 1
          rcases hp with rfl | hp
          · simp [hn]
          · simp [hn, hp]
        · rw [List.map_append, ← h2]
          congr 1
          apply List.filter_congr
          intro i hi
          have := List.mem_range.1 hi
          by_cases e : i + 1 = n
          · have : flag i = false := by
              rcases hp with rfl | hp
              · omega
              · rwa [show n - 1 = i by omega] at hp
            rw [this]; rfl
          · rw [if_neg e]
        · rw [List.pairwise_append]
          refine ⟨h3, List.pairwise_singleton _ _, fun p hp q hq => ?_⟩
          obtain rfl := List.mem_singleton.1 hq
          have := ((h4 p.1 p.2).1 hp).2.1
          exact this
        · rw [List.mem_append, h4, List.mem_singleton, Prod.mk.injEq]
          unfold Spec.IsRun
          constructor
          · rintro (⟨g1, g2, g3, g4, g5⟩ | ⟨rfl, rfl⟩)
            · have hb : b + 1 ≠ n := fun e => by
                have h' := g3 b (by omega) (by omega)
                rcases hp with rfl | hp
                · omega
                · rw [show n - 1 = b by omega, h'] at hp
                  cases hp
              refine ⟨g1, by omega, g3, g4, ?_⟩
              rcases g5 with g5 | g5
              · exact absurd g5 hb
              · exact Or.inr g5
            · refine ⟨by omega, le_rfl, fun i i1 i2 => ?_, ?_, Or.inl rfl⟩
              · rw [show i = b by omega]
                exact hn
              · rcases hp with h | h
                · exact Or.inl h
                · exact Or.inr (by simp [h])
          · rintro ⟨g1, g2, g3, g4, g5⟩
            by_cases hb : b = n
            · subst hb
              right
              refine ⟨?_, rfl⟩
              by_contra hc
              have := g3 (b - 1) (by omega) (by omega)
              rcases hp with rfl | hp
              · omega
              · rw [this] at hp
                cases hp
            · left
              refine ⟨g1, by omega, g3, g4, ?_⟩
              rcases g5 with g5 | g5
              · omega
              · exact Or.inr g5
      · push Not at hp
        obtain ⟨hn0, hp⟩ := hp
        have hp : flag (n - 1) = true := by simpa using hp
        obtain ⟨k, rfl⟩ : ∃ k, n = k + 1 := ⟨n - 1, by omega⟩
        rw [Nat.add_sub_cancel] at hp
        rw [stops_succ, hp, if_pos rfl] at h2
        obtain ⟨L', l', rfl, e1, e2⟩ := List.append_eq_map_iff.1 h2
        obtain ⟨⟨a0, b0⟩, rfl, e3⟩ : ∃ x, l' = [x] ∧ x.2 = k := by
          cases l' with
          | nil => simp at e2
          | cons x t =>
            cases t with
            | nil => exact ⟨x, rfl, by simpa using e2⟩
            | cons y t => simp at e2
        obtain rfl : b0 = k := e3
        have hrun := (h4 a0 b0).1 (by simp)
        refine ⟨L' ++ [(a0, b0 + 1)], by simp [hn, hp], ?_, ?_, fun a b => ?_⟩
        · rw [List.map_append, e1, List.range_succ, List.filter_append]
          simp [hp, hn]
        · rw [List.pairwise_append] at h3 ⊢
          refine ⟨h3.1, List.pairwise_singleton _ _, fun p hp q hq => ?_⟩
          obtain rfl := List.mem_singleton.1 hq
          exact h3.2.2 p hp (a0, b0) (by simp)
        · have hmem : (a, b) ∈ L' ↔ Spec.IsRun (b0 + 1) (fun i => flag i = true) a (b + 1) ∧ b ≠ b0 := by
            rw [← h4, List.mem_append, List.mem_singleton, Prod.mk.injEq]
            constructor
            · intro h
              refine ⟨Or.inl h, ?_⟩
              rintro rfl
              have q1 := (List.pairwise_append.1 h3).2.2 _ h (a0, b) (by simp)
              have q2 := hrun.1
              simp only at q1
              omega
            · rintro ⟨h | h, hb⟩
              · exact h
              · exact absurd h.2 hb
          rw [List.mem_append, hmem, List.mem_singleton, Prod.mk.injEq]
          obtain ⟨r1, r2, r3, r4, -⟩ := hrun
          unfold Spec.IsRun
          constructor
          · rintro (⟨⟨g1, g2, g3, g4, g5⟩, hb⟩ | ⟨rfl, rfl⟩)
            · refine ⟨g1, by omega, g3, g4, ?_⟩
              rcases g5 with g5 | g5
              · omega
              · exact Or.inr g5
            · refine ⟨by omega, le_rfl, fun i i1 i2 => ?_, r4, Or.inl rfl⟩
              by_cases e : i = b0 + 1
              · rw [e]; exact hn
              · exact r3 i i1 (by omega)
          · rintro ⟨g1, g2, g3, g4, g5⟩
            by_cases hb : b = b0 + 1
            · right
              refine ⟨?_, hb⟩
              subst hb
              by_contra hc
              rcases lt_or_gt_of_ne hc with h | h
              · rcases r4 with r4 | r4
                · omega
                · exact r4 (g3 _ (by omega) (by omega))
              · rcases g4 with g4 | g4
                · omega
                · by_cases e : a = b0 + 2
                  · omega
                  · exact g4 (r3 _ (by omega) (by omega))
            · left
              have hb0 : b ≠ b0 := by
                rintro rfl
                rcases g5 with g5 | g5
                · omega
                · exact g5 hn
              refine ⟨⟨g1, by omega, g3, g4, ?_⟩, hb0⟩
              rcases g5 with g5 | g5
              · omega
              · exact Or.inr g5

/-- **C147.** The batches are the longest runs of flagged profiles, in order. -/
theorem C147_batches (n : ℕ) (flag : ℕ → Bool) : (∀ a b, (a, b) ∈ findBatches n flag ↔ Spec.IsRun n (fun i => flag i = true) a (b + 1)) ∧
    (findBatches n flag).Pairwise (fun p q => p.2 < q.1) := by
  obtain ⟨L, h1, h2, h3, h4⟩ := batches_spec flag n
  have : findBatches n flag = L := by
    unfold findBatches
    dsimp only
    rw [h1, h2, List.zip_map', List.map_id'' fun p => rfl]
  rw [this]
  exact ⟨h4, h3⟩

/-- **C147.** Shaded are the times from the first to the last profile of each run of at least two flagged ones. -/
theorem C147_shaded {α : Type} [Field α] (time : List α) (flag : ℕ → Bool) (s e : α) : (s, e) ∈ shaded time flag ↔
    ∃ a b, a < b ∧ Spec.IsRun time.length (fun i => flag i = true) a (b + 1) ∧ time[a]? = some s ∧ time[b]? = some e := by
  unfold shaded
  rw [List.mem_map]
  constructor
  · rintro ⟨⟨a, b⟩, h, he⟩
    obtain ⟨h1, h2⟩ := List.mem_filter.1 h
    have hr := ((C147_batches _ flag).1 a b).1 h1
    simp only [bne_iff_ne, ne_eq] at h2
    have hb : b < time.length := hr.2.1
    have hab := hr.1
    refine ⟨a, b, by omega, hr, ?_, ?_⟩
    · have : time.getD a 0 = s := congrArg Prod.fst he
      rw [← this, List.getElem?_eq_getElem (by omega), List.getD_eq_getElem?_getD, List.getElem?_eq_getElem (by omega)]
      rfl
    · have : time.getD b 0 = e := congrArg Prod.snd he
      rw [← this, List.getElem?_eq_getElem hb, List.getD_eq_getElem?_getD, List.getElem?_eq_getElem hb]
      rfl
  · rintro ⟨a, b, hab, hr, h1, h2⟩
    refine ⟨(a, b), List.mem_filter.2 ⟨((C147_batches _ flag).1 a b).2 hr, by simp; omega⟩, ?_⟩
    rw [List.getD_eq_getElem?_getD, List.getD_eq_getElem?_getD, h1, h2]
    rfl

/-- **C147, finding.** A single flagged profile is not shaded. -/
theorem C147_single_flag {α : Type} [Field α] (time : List α) (i : ℕ) (flag : ℕ → Bool) (h : ∀ j, flag j = true ↔ j = i) : shaded time flag = [] := by
  rw [List.eq_nil_iff_forall_not_mem]
  rintro ⟨s, e⟩ hm
  obtain ⟨a, b, hab, hr, -⟩ := (C147_shaded time flag s e).1 hm
  have h1 := (h a).1 (hr.2.2.1 a le_rfl (by omega))
  have h2 := (h b).1 (hr.2.2.1 b (by omega) (by omega))
  omega

/-- Two runs, the second of one profile. -/
example : findBatches 7 (fun i => decide (i = 1 ∨ i = 2 ∨ i = 6)) = [(1, 2), (6, 6)] ∧
    shaded ([1, 2, 3, 4, 5, 6, 7] : List ℚ) (fun i => decide (i = 1 ∨ i = 2 ∨ i = 6)) = [(2, 3)] := by decide +kernel

/-! ### Variables -/

/-- The name is one of brightness temperatures with the number of a channel. -/
def Spec.hasChannel (name : String) : Prop := (∃ r, name.toList = "tb_".toList ++ r) ∨ ∃ r, name.toList = "irt_".toList ++ r

theorem plotVariable_other (parse : String → Option ℤ) (name : String) (h : ¬ Spec.hasChannel name) : plotVariable parse name = .ok (name, none) := by
  unfold plotVariable
  rw [if_neg]
  rw [Bool.or_eq_true, List.isPrefixOf_iff_prefix, List.isPrefixOf_iff_prefix]
  rintro (⟨r, hr⟩ | ⟨r, hr⟩)
  · exact h (Or.inl ⟨r, hr.symm⟩)
  · exact h (Or.inr ⟨r, hr.symm⟩)

theorem splitOn_pre (c : Char) (a b : List Char) (ha : c ∉ a) (hb : c ∉ b) : (a ++ c :: b).splitOn c = [a, b] := by
  have := List.splitOn_intercalate (ls := [a, b]) c (by simp [ha, hb]) (by simp)
  rw [← this]
  simp [List.intercalate]

theorem plotVariable_channel (parse : String → Option ℤ) (pre num : String) (hpre : pre = "tb" ∨ pre = "irt") (hnum : '_' ∉ num.toList) :
    plotVariable parse (pre ++ "_" ++ num) = match parse num with
      | none => .error "ValueError: invalid literal for int()"
      | some i => .ok (pre, some i) := by
  have hl : (pre ++ "_" ++ num).toList = pre.toList ++ '_' :: num.toList := by simp
  have hsplit : splitChar '_' (pre ++ "_" ++ num) = [pre, num] := by
    unfold splitChar
    rw [hl, splitOn_pre _ _ _ (by rcases hpre with rfl | rfl <;> decide) hnum]
    simp
  unfold plotVariable
  rw [hsplit, if_pos]
  · rfl
  · rw [Bool.or_eq_true, List.isPrefixOf_iff_prefix, List.isPrefixOf_iff_prefix, hl]
    rcases hpre with rfl | rfl
    · exact Or.inl ⟨num.toList, rfl⟩
    · exact Or.inr ⟨num.toList, rfl⟩

/-- **C147.** Names are looked for as they are, and those of brightness temperatures with an index after the underscore. -/
theorem C147_name (parse : String → Option ℤ) (name : String) : (¬ Spec.hasChannel name → plotVariable parse name = .ok (name, none)) ∧
    ∀ pre num, (pre = "tb" ∨ pre = "irt") → '_' ∉ num.toList → name = pre ++ "_" ++ num → (∀ i, parse num = some i → plotVariable parse name = .ok (pre, some i)) ∧
      (parse num = none → plotVariable parse name = .error "ValueError: invalid literal for int()") := by
  refine ⟨plotVariable_other parse name, fun pre num hp hn e => ?_⟩
  subst e
  rw [plotVariable_channel parse pre num hp hn]
  exact ⟨fun i hi => by rw [hi], fun hi => by rw [hi]⟩

theorem plotVariablesLoop_spec (parse : String → Option ℤ) (has : String → Bool) (names : List String) (l : List (String × Option ℤ)) :
    plotVariablesLoop parse has names = .ok l ↔ ∃ all, List.Forall₂ (fun n p => plotVariable parse n = .ok p) names all ∧ l = all.filter fun p => has p.1 := by
  induction names generalizing l with
  | nil =>
    constructor
    · intro h
      cases h
      exact ⟨[], .nil, rfl⟩
    · rintro ⟨all, h, rfl⟩
      cases h
      rfl
  | cons n names ih =>
    rw [plotVariablesLoop]
    constructor
    · intro h
      cases hv : plotVariable parse n with
      | error e => rw [hv] at h; cases h
      | ok p =>
        rw [hv] at h
        cases hr : plotVariablesLoop parse has names with
        | error e => rw [hr] at h; cases h
        | ok r =>
          rw [hr] at h
          obtain ⟨all, ha, rfl⟩ := (ih r).1 hr
          cases h
          refine ⟨p :: all, .cons hv ha, ?_⟩
          rw [List.filter_cons]
    · rintro ⟨all, h, rfl⟩
      cases h with
      | cons hv ha =>
        rename_i p all
        rw [hv, (ih _).2 ⟨all, ha, rfl⟩, List.filter_cons]
        rfl

/-- **C147.** Variables of the figure are those of the wanted ones which the file has, in the same order; there is an error if it has none. -/
theorem C147_variables (parse : String → Option ℤ) (has : String → Bool) (names : List String) (all : List (String × Option ℤ))
    (h : List.Forall₂ (fun n p => plotVariable parse n = .ok p) names all) :
    plotVariables parse has names = if ∃ p ∈ all, has p.1 = true then .ok (all.filter fun p => has p.1) else .error "PlottingError" := by
  unfold plotVariables
  rw [(plotVariablesLoop_spec parse has names _).2 ⟨all, h, rfl⟩]
  change (if _ then _ else _) = _
  by_cases he : ∃ p ∈ all, has p.1 = true
  · rw [if_pos he, if_neg]
    obtain ⟨p, hp, hh⟩ := he
    intro hc
    have : p ∈ all.filter fun p => has p.1 := List.mem_filter.2 ⟨hp, hh⟩
    rw [hc] at this
    cases this
  · rw [if_neg he, if_pos]
    rw [List.filter_eq_nil_iff]
    intro p hp hc
    exact he ⟨p, hp, hc⟩

/-- **C147, finding.** One name that begins like a channel but has no number is an error even if the file has all other variables. -/
theorem C147_bad_channel (parse : String → Option ℤ) (has : String → Bool) (names : List String) (pre num : String) (hp : pre = "tb" ∨ pre = "irt")
    (hn : '_' ∉ num.toList) (hm : pre ++ "_" ++ num ∈ names) (hnum : parse num = none) : ∃ e, plotVariables parse has names = .error e := by
  cases h : plotVariables parse has names with
  | error e => exact ⟨e, rfl⟩
  | ok l =>
    exfalso
    unfold plotVariables at h
    cases hl : plotVariablesLoop parse has names with
    | error e => rw [hl] at h; cases h
    | ok r =>
      obtain ⟨all, ha, -⟩ := (plotVariablesLoop_spec parse has names r).1 hl
      clear h hl
      induction ha with
      | nil => cases hm
      | cons hv ha ih =>
        rcases List.mem_cons.1 hm with rfl | hm
        · rw [plotVariable_channel parse pre num hp hn, hnum] at hv
          cases hv
        · exact ih hm

/-- The second channel. -/
example : plotVariables (fun s => if s = "2" then some 2 else none) (fun s => s = "tb" || s = "lwp") ["lwp", "iwv", "tb_2"] = .ok [("lwp", none), ("tb", some 2)] := by
  decide +kernel

end Cloudnet
