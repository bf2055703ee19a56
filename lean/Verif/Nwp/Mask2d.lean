import Verif.Nwp.Interp2d

/-! Properties C136: interpolation of masked data. -/

set_option linter.unusedSectionVars false
set_option linter.unusedVariables false
set_option linter.unusedSimpArgs false

namespace Cloudnet

section
variable {α : Type} [Field α] [LinearOrder α] [IsStrictOrderedRing α]

/-! ### Weighted means -/

theorem weighted_bounds {β : Type} (l : List β) (w f : β → α) (hw : ∀ c ∈ l, 0 ≤ w c) (lo hi : α) (h : ∀ c ∈ l, lo ≤ f c ∧ f c ≤ hi) :
    lo * (l.map w).sum ≤ (l.map fun c => w c * f c).sum ∧ (l.map fun c => w c * f c).sum ≤ hi * (l.map w).sum := by
  induction l with
  | nil => simp
  | cons a l ih =>
    have := ih (fun c hc => hw c (List.mem_cons_of_mem _ hc)) (fun c hc => h c (List.mem_cons_of_mem _ hc))
    have ha := hw a (List.mem_cons_self ..)
    have hf := h a (List.mem_cons_self ..)
    simp only [List.map_cons, List.sum_cons]
    constructor
    · nlinarith [mul_le_mul_of_nonneg_left hf.1 ha]
    · nlinarith [mul_le_mul_of_nonneg_left hf.2 ha]

theorem weighted_affine {β : Type} (l : List β) (w p q f : β → α) (a b c : α) (h : ∀ k ∈ l, f k = a + b * p k + c * q k) :
    (l.map fun k => w k * f k).sum =
      a * (l.map w).sum + b * (l.map fun k => w k * p k).sum + c * (l.map fun k => w k * q k).sum := by
  induction l with
  | nil => simp
  | cons k l ih =>
    simp only [List.map_cons, List.sum_cons]
    rw [ih fun k hk => h k (List.mem_cons_of_mem _ hk), h k (List.mem_cons_self ..)]
    ring

theorem weighted_single {β : Type} (l : List β) (w f : β → α) (r : α) (h : ∀ k ∈ l, w k ≠ 0 → f k = r) :
    (l.map fun k => w k * f k).sum = r * (l.map w).sum := by
  induction l with
  | nil => simp
  | cons k l ih =>
    simp only [List.map_cons, List.sum_cons]
    rw [ih fun k hk => h k (List.mem_cons_of_mem _ hk)]
    by_cases h0 : w k = 0
    · rw [h0]; ring
    · rw [h k (List.mem_cons_self ..) h0]; ring

theorem list_sum_zero (l : List α) (h : ∀ a ∈ l, 0 ≤ a) (h0 : l.sum = 0) : ∀ a ∈ l, a = 0 := by
  induction l with
  | nil => simp
  | cons b l ih =>
    have hb := h b (List.mem_cons_self ..)
    have hl := List.sum_nonneg fun a ha => h a (List.mem_cons_of_mem b ha)
    rw [List.sum_cons] at h0
    intro a ha
    rcases List.mem_cons.1 ha with rfl | ha
    · linarith
    · exact ih (fun a ha => h a (List.mem_cons_of_mem b ha)) (by linarith) a ha

/-! ### Parts of `interpolate_2d_mask` -/

theorem maskedPart_eq {n m : ℕ} {x y : ℕ → α} {z : Grid (Option α)} (hx : Spec.Increasing n x) (hy : Spec.Increasing m y) {u v w : α}
    (h : Spec.MaskedPart n x m y z u v w) : maskPart n x m y z u v = w := by
  obtain ⟨i, j, u', v', e1, e2, hi, hj, a1, a2, b1, b2, e⟩ := h
  unfold maskPart
  rw [C136_edge n m x y _ (by omega) (by omega) hx hy, ← e1, ← e2, C136_cell n m x y _ hx hy i j hi hj _ _ ⟨a1, a2⟩ ⟨b1, b2⟩, e]
  simp only [Option.isNone_iff_eq_none]

/-- There always is a masked part. -/
theorem maskedPart_exists {n m : ℕ} {x y : ℕ → α} (z : Grid (Option α)) (hx : Spec.Increasing n x) (hy : Spec.Increasing m y)
    (hn : 2 ≤ n) (hm : 2 ≤ m) (u v : α) : ∃ w, Spec.MaskedPart n x m y z u v w := by
  have hx0 := hx.le (Nat.zero_le (n - 1)) (by omega)
  have hy0 := hy.le (Nat.zero_le (m - 1)) (by omega)
  obtain ⟨i, hi, a1, a2⟩ := cell_exists hx hn (v := max (x 0) (min u (x (n - 1)))) (le_max_left _ _) (max_le hx0 (min_le_right _ _))
  obtain ⟨j, hj, b1, b2⟩ := cell_exists hy hm (v := max (y 0) (min v (y (m - 1)))) (le_max_left _ _) (max_le hy0 (min_le_right _ _))
  exact ⟨_, i, j, _, _, rfl, rfl, hi, hj, a1, a2, b1, b2, rfl⟩

theorem interpolate2dMask_ok {delaunay : (ℕ → ℕ → Bool) → Option (Triangulation α)} {n : ℕ} {x : ℕ → α} {m : ℕ} {y : ℕ → α}
    {z : Grid (Option α)} {xNew : ℕ → α} {nNew : ℕ} {yNew : ℕ → α} {ex : Bool} {out : Grid (Option α)}
    (h : interpolate2dMask delaunay n x m y z xNew nNew yNew ex = .ok out) :
    ∃ tri, delaunay (fun i j => (z i j).isSome) = some tri ∧ ∀ k l, out k l =
      if maskPart n x m y z (xNew k) (yNew l) < 1 / 2 then
        (if ex then extrapolateRow nNew yNew (fun l => gridData tri z (xNew k) (yNew l)) else
          fun l => gridData tri z (xNew k) (yNew l)) l else none := by
  unfold interpolate2dMask at h
  cases hd : delaunay (fun i j => (z i j).isSome) with
  | none => rw [hd] at h; cases h
  | some tri =>
    rw [hd] at h
    cases h
    exact ⟨tri, rfl, fun k l => rfl⟩

theorem gridData_isSome {delaunay : (ℕ → ℕ → Bool) → Option (Triangulation α)} {n : ℕ} {x : ℕ → α} {m : ℕ} {y : ℕ → α}
    (hd : Spec.Delaunay n x m y delaunay) {z : Grid (Option α)} {tri : Triangulation α}
    (ht : delaunay (fun i j => (z i j).isSome) = some tri) (u v : α) :
    (gridData tri z u v).isSome = true ↔ Spec.InHull n x m y (fun i j => (z i j).isSome) u v := by
  unfold gridData
  cases h : tri u v with
  | none => simpa using hd.outside _ _ ht u v h
  | some cs => simpa using ⟨cs, hd.triangle _ _ ht u v cs h⟩

theorem gridData_combination {delaunay : (ℕ → ℕ → Bool) → Option (Triangulation α)} {n : ℕ} {x : ℕ → α} {m : ℕ} {y : ℕ → α}
    (hd : Spec.Delaunay n x m y delaunay) {z : Grid (Option α)} {tri : Triangulation α}
    (ht : delaunay (fun i j => (z i j).isSome) = some tri) {u v r : α} (h : gridData tri z u v = some r) :
    ∃ cs, tri u v = some cs ∧ Spec.Combination n x m y (fun i j => (z i j).isSome) u v cs ∧
      r = (cs.map fun c => c.weight * (z c.row c.column).getD 0).sum := by
  unfold gridData at h
  rw [Option.map_eq_some_iff] at h
  obtain ⟨cs, h1, h2⟩ := h
  exact ⟨cs, h1, hd.triangle _ _ ht u v cs h1, h2.symm⟩

/-! ### `interpolate_2d_mask` -/

variable (delaunay : (ℕ → ℕ → Bool) → Option (Triangulation α)) (n : ℕ) (x : ℕ → α) (m : ℕ) (y : ℕ → α) (z : Grid (Option α))
  (xNew : ℕ → α) (nNew : ℕ) (yNew : ℕ → α)

/-- **C136.** Masked interpolation fails if and only if all valid points are on a line. -/
theorem C136_error (hd : Spec.Delaunay n x m y delaunay) (ex : Bool) :
    (∃ e, interpolate2dMask delaunay n x m y z xNew nNew yNew ex = .error e) ↔ ∃ a b c : α, (a ≠ 0 ∨ b ≠ 0) ∧
      ∀ i < n, ∀ j < m, z i j ≠ none → a * x i + b * y j = c := by
  have he := hd.exists_iff fun i j => (z i j).isSome
  simp only [Option.isSome_iff_ne_none] at he
  rw [← he]
  unfold interpolate2dMask
  cases delaunay (fun i j => (z i j).isSome) <;> simp

/-- **C136.** A pixel of the result is known if and only if less than half of the data around it are masked and it is in the
convex hull of the valid data or, if extrapolation is allowed, at least two pixels of its row are. -/
theorem C136_known (hd : Spec.Delaunay n x m y delaunay) (hx : Spec.Increasing n x) (hy : Spec.Increasing m y)
    (hn : Spec.Increasing nNew yNew) (ex : Bool) (out : Grid (Option α))
    (h : interpolate2dMask delaunay n x m y z xNew nNew yNew ex = .ok out) (k l : ℕ) (hl : l < nNew) (w : α)
    (hw : Spec.MaskedPart n x m y z (xNew k) (yNew l) w) :
    (∃ r, out k l = some r) ↔ w < 1 / 2 ∧ (Spec.InHull n x m y (fun i j => (z i j).isSome) (xNew k) (yNew l) ∨
      ex = true ∧ Spec.AtLeastTwo nNew fun l => Spec.InHull n x m y (fun i j => (z i j).isSome) (xNew k) (yNew l)) := by
  obtain ⟨tri, ht, ho⟩ := interpolate2dMask_ok h
  simp only [← gridData_isSome hd ht]
  rw [ho k l, maskedPart_eq hx hy hw]
  by_cases hw2 : w < 1 / 2
  · rw [if_pos hw2]
    obtain ⟨c1, c2, c3⟩ := extrapolateRow_cases nNew yNew hn (fun l => gridData tri z (xNew k) (yNew l)) l hl
    simp only [hw2, true_and]
    cases ex with
    | false => simp [Option.isSome_iff_exists]
    | true =>
      rw [if_pos rfl]
      cases hg : gridData tri z (xNew k) (yNew l) with
      | some r => rw [c1 r hg]; simp
      | none =>
        by_cases h2 : Spec.AtLeastTwo nNew fun l => (gridData tri z (xNew k) (yNew l)).isSome = true
        · rw [c3 hg h2]; simpa using h2
        · rw [c2 hg h2]; simpa using h2
  · rw [if_neg hw2]; exact iff_of_false (by simp) fun h => hw2 h.1

/-- **C136.** In the convex hull, the value is a weighted mean of valid values at grid points whose weighted mean is the pixel. -/
theorem C136_inside (hd : Spec.Delaunay n x m y delaunay) (hn : Spec.Increasing nNew yNew) (ex : Bool) (out : Grid (Option α))
    (h : interpolate2dMask delaunay n x m y z xNew nNew yNew ex = .ok out) (k l : ℕ) (hl : l < nNew) (r : α) (hr : out k l = some r)
    (hi : Spec.InHull n x m y (fun i j => (z i j).isSome) (xNew k) (yNew l)) :
    ∃ cs, Spec.Combination n x m y (fun i j => (z i j).isSome) (xNew k) (yNew l) cs ∧
      r = (cs.map fun c => c.weight * (z c.row c.column).getD 0).sum := by
  obtain ⟨tri, ht, ho⟩ := interpolate2dMask_ok h
  rw [ho k l] at hr
  split at hr
  · obtain ⟨s, hs⟩ := Option.isSome_iff_exists.1 ((gridData_isSome hd ht _ _).2 hi)
    have : r = s := by
      cases ex with
      | false => rw [if_neg (by simp), hs] at hr; exact (Option.some.inj hr).symm
      | true =>
        rw [if_pos rfl, (extrapolateRow_cases nNew yNew hn (fun l => gridData tri z (xNew k) (yNew l)) l hl).1 s hs] at hr
        exact (Option.some.inj hr).symm
    obtain ⟨cs, _, h1, h2⟩ := gridData_combination hd ht hs
    exact ⟨cs, h1, this.trans h2⟩
  · cases hr

/-- **C136.** In the convex hull, values are within the range of the valid data. -/
theorem C136_range (hd : Spec.Delaunay n x m y delaunay) (hn : Spec.Increasing nNew yNew) (ex : Bool) (out : Grid (Option α))
    (h : interpolate2dMask delaunay n x m y z xNew nNew yNew ex = .ok out) (k l : ℕ) (hl : l < nNew) (r : α) (hr : out k l = some r)
    (hi : Spec.InHull n x m y (fun i j => (z i j).isSome) (xNew k) (yNew l)) (lo hi : α)
    (hz : ∀ i < n, ∀ j < m, ∀ a, z i j = some a → lo ≤ a ∧ a ≤ hi) : lo ≤ r ∧ r ≤ hi := by
  obtain ⟨cs, hc, rfl⟩ := C136_inside delaunay n x m y z xNew nNew yNew hd hn ex out h k l hl r hr ‹_›
  have := weighted_bounds cs (fun c => c.weight) (fun c => (z c.row c.column).getD 0) (fun c hcs => (hc.points c hcs).2.2.2) lo hi
    fun c hcs => by
      obtain ⟨h1, h2, h3, _⟩ := hc.points c hcs
      obtain ⟨a, ha⟩ := Option.isSome_iff_exists.1 h3
      rw [ha]
      exact hz _ h1 _ h2 a ha
  rw [hc.total, mul_one, mul_one] at this
  exact this

/-- **C136.** If the valid data are a linear function of both coordinates, so are all known pixels, those that were
extrapolated too. -/
theorem C136_affine (hd : Spec.Delaunay n x m y delaunay) (hn : Spec.Increasing nNew yNew) (ex : Bool) (out : Grid (Option α))
    (h : interpolate2dMask delaunay n x m y z xNew nNew yNew ex = .ok out) (a b c : α)
    (hz : ∀ i < n, ∀ j < m, ∀ r, z i j = some r → r = a + b * x i + c * y j) (k l : ℕ) (hl : l < nNew) (r : α)
    (hr : out k l = some r) : r = a + b * xNew k + c * yNew l := by
  obtain ⟨tri, ht, ho⟩ := interpolate2dMask_ok h
  have hg : ∀ u v s, gridData tri z u v = some s → s = a + b * u + c * v := by
    intro u v s hs
    obtain ⟨cs, _, hc, rfl⟩ := gridData_combination hd ht hs
    rw [weighted_affine cs (fun c => c.weight) (fun c => x c.row) (fun c => y c.column) _ a b c, hc.total, hc.first, hc.second, mul_one]
    intro d hdm
    obtain ⟨h1, h2, h3, _⟩ := hc.points d hdm
    obtain ⟨e, he⟩ := Option.isSome_iff_exists.1 h3
    rw [he]
    exact hz _ h1 _ h2 e he
  rw [ho k l] at hr
  split at hr
  swap
  · cases hr
  cases ex with
  | false => rw [if_neg (by simp)] at hr; exact hg _ _ _ hr
  | true =>
    rw [if_pos rfl] at hr
    obtain ⟨c1, c2, c3⟩ := extrapolateRow_cases nNew yNew hn (fun l => gridData tri z (xNew k) (yNew l)) l hl
    cases hgd : gridData tri z (xNew k) (yNew l) with
    | some s =>
      rw [c1 s hgd] at hr
      exact hg _ _ _ (by rw [hgd, ← hr])
    | none =>
      by_cases h2 : Spec.AtLeastTwo nNew fun l => (gridData tri z (xNew k) (yNew l)).isSome = true
      · rw [c3 hgd h2] at hr
        rw [← Option.some.inj hr]
        refine lineThrough_affine ((knownPoints_two nNew yNew hn _).2 h2) (knownPoints_increasing nNew yNew hn _) _ (a + b * xNew k) c ?_ _
        intro i hi
        rw [List.getD_eq_getElem _ _ hi]
        obtain ⟨q, hq, e1, e2⟩ := (knownPoints_mem nNew yNew _ _).1 (List.getElem_mem hi)
        rw [hg _ _ _ e1, e2]
      · rw [c2 hgd h2] at hr; cases hr

/-- **C136.** At a valid point of the grid the value is kept. -/
theorem C136_node (hd : Spec.Delaunay n x m y delaunay) (hx : Spec.Increasing n x) (hy : Spec.Increasing m y)
    (hn : Spec.Increasing nNew yNew) (hn1 : 1 ≤ n) (hm1 : 1 ≤ m) (ex : Bool) (out : Grid (Option α))
    (h : interpolate2dMask delaunay n x m y z xNew nNew yNew ex = .ok out) (k l : ℕ) (hl : l < nNew) (i j : ℕ) (hi : i < n) (hj : j < m)
    (hk : xNew k = x i) (hl' : yNew l = y j) : out k l = z i j := by
  obtain ⟨tri, ht, ho⟩ := interpolate2dMask_ok h
  rw [ho k l]
  have hm : maskPart n x m y z (xNew k) (yNew l) = if (z i j).isNone then 1 else 0 := by
    unfold maskPart
    rw [hk, hl']
    exact (C136_values n m x y _ hn1 hm1 hx hy).1 i hi j hj
  rw [hm]
  cases hz : z i j with
  | none =>
    rw [if_neg]
    simp only [Option.isNone_none, if_true, not_lt]
    linarith [show (1 : α) / 2 ≤ 1 by linarith [show (0 : α) < 1 from zero_lt_one]]
  | some r =>
    have hv : (z i j).isSome = true := by rw [hz]; rfl
    have hin : Spec.InHull n x m y (fun i j => (z i j).isSome) (xNew k) (yNew l) :=
      ⟨[⟨i, j, 1⟩], by simpa using ⟨hi, hj, hv⟩, by simp, by simp [hk], by simp [hl']⟩
    obtain ⟨s, hs⟩ := Option.isSome_iff_exists.1 ((gridData_isSome hd ht _ _).2 hin)
    have e : s = r := by
      obtain ⟨cs, h0, hc, rfl⟩ := gridData_combination hd ht hs
      rw [weighted_single cs (fun c => c.weight) _ r, hc.total, mul_one]
      intro c hcs hne
      rw [hk, hl'] at h0
      obtain ⟨e1, e2⟩ := hd.node _ _ ht i hi j hj hv cs h0 c hcs hne
      rw [e1, e2, hz]
      rfl
    rw [if_pos (by simp)]
    cases ex with
    | false => rw [if_neg (by simp), hs, e]
    | true =>
      rw [if_pos rfl, (extrapolateRow_cases nNew yNew hn (fun l => gridData tri z (xNew k) (yNew l)) l hl).1 s hs, e]

/-! ### Extrapolation -/

theorem knownPoints_split (row : ℕ → Option α) (a b c : List ℕ) (p q : ℕ) (rp rq : α)
    (hr : List.range nNew = a ++ p :: (b ++ q :: c)) (hb : ∀ k ∈ b, row k = none) (hp : row p = some rp) (hq : row q = some rq) :
    knownPoints nNew yNew row = (a.filterMap fun k => (row k).map fun r => (yNew k, r)) ++ (yNew p, rp) :: (yNew q, rq) ::
      c.filterMap fun k => (row k).map fun r => (yNew k, r) := by
  unfold knownPoints
  rw [hr, List.filterMap_append, List.filterMap_cons_some (b := (yNew p, rp)) (by simp [hp]), List.filterMap_append,
    List.filterMap_cons_some (b := (yNew q, rq)) (by simp [hq])]
  have : (b.filterMap fun k => (row k).map fun r => (yNew k, r)) = [] := by
    rw [List.filterMap_eq_nil_iff]
    intro k hk
    simp [hb k hk]
  rw [this]
  rfl

theorem range_split {p q nNew : ℕ} (hpq : p < q) (hq : q < nNew) :
    List.range nNew = List.range p ++ p :: ((List.range' (p + 1) (q - p - 1)) ++ q :: List.range' (q + 1) (nNew - q - 1)) := by
  have h1 : List.range nNew = List.range' 0 nNew := List.range_eq_range' ..
  have h2 : List.range p = List.range' 0 p := List.range_eq_range' ..
  have e1 : q :: List.range' (q + 1) (nNew - q - 1) = List.range' q (nNew - q) := by
    rw [show nNew - q = (nNew - q - 1) + 1 by omega, List.range'_succ]; simp
  have e2 : List.range' (p + 1) (q - p - 1) ++ List.range' q (nNew - q) = List.range' (p + 1) (nNew - p - 1) := by
    have := List.range'_append_1 (s := p + 1) (m := q - p - 1) (n := nNew - q)
    rw [show p + 1 + (q - p - 1) = q by omega] at this
    rw [this]
    congr 1
    omega
  have e3 : p :: List.range' (p + 1) (nNew - p - 1) = List.range' p (nNew - p) := by
    rw [show nNew - p = (nNew - p - 1) + 1 by omega, List.range'_succ]; simp
  have e4 := List.range'_append_1 (s := 0) (m := p) (n := nNew - p)
  rw [h1, h2, e1, e2, e3]
  rw [Nat.zero_add] at e4
  rw [e4]
  congr 1
  omega

/-- **C136.** Above the convex hull the values are on the line through the two highest pixels of the row in the hull; the values
of these are the weighted means of `C136_inside`. -/
theorem C136_above (hd : Spec.Delaunay n x m y delaunay) (hn : Spec.Increasing nNew yNew) (out : Grid (Option α))
    (h : interpolate2dMask delaunay n x m y z xNew nNew yNew true = .ok out) (k p q l : ℕ) (hpq : p < q) (hql : q < l) (hl : l < nNew)
    (hp : Spec.InHull n x m y (fun i j => (z i j).isSome) (xNew k) (yNew p))
    (hq : Spec.InHull n x m y (fun i j => (z i j).isSome) (xNew k) (yNew q))
    (hb : ∀ i, p < i → i < nNew → i ≠ q → ¬ Spec.InHull n x m y (fun i j => (z i j).isSome) (xNew k) (yNew i)) (rp rq r : α)
    (hrp : out k p = some rp) (hrq : out k q = some rq) (hr : out k l = some r) :
    r = Spec.lineAt (yNew p) rp (yNew q) rq (yNew l) := by
  obtain ⟨tri, ht, ho⟩ := interpolate2dMask_ok h
  simp only [← gridData_isSome hd ht] at hp hq hb
  have strip : ∀ l r, out k l = some r → extrapolateRow nNew yNew (fun l => gridData tri z (xNew k) (yNew l)) l = some r := by
    intro l r hr
    rw [ho k l] at hr
    split at hr
    · rw [if_pos rfl] at hr; exact hr
    · cases hr
  have known : ∀ l s, l < nNew → out k l = some s → (gridData tri z (xNew k) (yNew l)).isSome = true →
      gridData tri z (xNew k) (yNew l) = some s := by
    intro l s hl hs hsome
    obtain ⟨w, hw⟩ := Option.isSome_iff_exists.1 hsome
    have := strip l s hs
    rw [(extrapolateRow_cases nNew yNew hn (fun l => gridData tri z (xNew k) (yNew l)) l hl).1 w hw] at this
    rw [hw, this]
  have gp := known p rp (by omega) hrp hp
  have gq := known q rq (by omega) hrq hq
  have gl : gridData tri z (xNew k) (yNew l) = none := Option.not_isSome_iff_eq_none.1 (hb l (by omega) hl (by omega))
  have h2 : Spec.AtLeastTwo nNew fun l => (gridData tri z (xNew k) (yNew l)).isSome = true := ⟨p, q, hpq, by omega, hp, hq⟩
  have hv := strip l r hr
  rw [(extrapolateRow_cases nNew yNew hn (fun l => gridData tri z (xNew k) (yNew l)) l hl).2.2 gl h2] at hv
  rw [← Option.some.inj hv]
  have hinc := knownPoints_increasing nNew yNew hn fun l => gridData tri z (xNew k) (yNew l)
  have hs := knownPoints_split nNew yNew (fun l => gridData tri z (xNew k) (yNew l)) _ _ _ p q rp rq
    (range_split hpq (by omega : q < nNew)) (fun i hi => by
      rw [List.mem_range'_1] at hi
      exact Option.not_isSome_iff_eq_none.1 (hb i (by omega) (by omega) (by omega))) gp gq
  have hnil : ((List.range' (q + 1) (nNew - q - 1)).filterMap fun k_1 =>
      (gridData tri z (xNew k) (yNew k_1)).map fun r => (yNew k_1, r)) = [] := by
    rw [List.filterMap_eq_nil_iff]
    intro i hi
    rw [List.mem_range'_1] at hi
    rw [Option.not_isSome_iff_eq_none.1 (hb i (by omega) (by omega) (by omega))]
    rfl
  rw [hnil] at hs
  generalize hA : ((List.range p).filterMap fun k_1 =>
      (gridData tri z (xNew k) (yNew k_1)).map fun r => (yNew k_1, r)) = A at hs
  rw [hs] at hinc ⊢
  have hlen : (A ++ [(yNew p, rp), (yNew q, rq)]).length = A.length + 2 := by simp
  have g0 : (A ++ [(yNew p, rp), (yNew q, rq)]).getD A.length (0, 0) = (yNew p, rp) := by
    rw [List.getD_append_right _ _ _ _ (le_refl _), Nat.sub_self]; rfl
  have g1 : (A ++ [(yNew p, rp), (yNew q, rq)]).getD (A.length + 1) (0, 0) = (yNew q, rq) := by
    rw [List.getD_append_right _ _ _ _ (by omega), Nat.add_sub_cancel_left]; rfl
  rw [hlen] at hinc ⊢
  have := hn p l (by omega) hl
  rw [lineThrough_cell hinc _ (a := A.length) (by omega) (Or.inr (by rw [g0]; exact this)) (Or.inl rfl), g0, g1]

/-- **C136.** Below the convex hull the values are on the line through the two lowest pixels of the row in the hull. -/
theorem C136_below (hd : Spec.Delaunay n x m y delaunay) (hn : Spec.Increasing nNew yNew) (out : Grid (Option α))
    (h : interpolate2dMask delaunay n x m y z xNew nNew yNew true = .ok out) (k p q l : ℕ) (hpq : p < q) (hlp : l < p) (hqn : q < nNew)
    (hp : Spec.InHull n x m y (fun i j => (z i j).isSome) (xNew k) (yNew p))
    (hq : Spec.InHull n x m y (fun i j => (z i j).isSome) (xNew k) (yNew q))
    (hb : ∀ i, i < q → i ≠ p → ¬ Spec.InHull n x m y (fun i j => (z i j).isSome) (xNew k) (yNew i)) (rp rq r : α)
    (hrp : out k p = some rp) (hrq : out k q = some rq) (hr : out k l = some r) :
    r = Spec.lineAt (yNew p) rp (yNew q) rq (yNew l) := by
  obtain ⟨tri, ht, ho⟩ := interpolate2dMask_ok h
  simp only [← gridData_isSome hd ht] at hp hq hb
  have strip : ∀ l r, out k l = some r → extrapolateRow nNew yNew (fun l => gridData tri z (xNew k) (yNew l)) l = some r := by
    intro l r hr
    rw [ho k l] at hr
    split at hr
    · rw [if_pos rfl] at hr; exact hr
    · cases hr
  have known : ∀ l s, l < nNew → out k l = some s → (gridData tri z (xNew k) (yNew l)).isSome = true →
      gridData tri z (xNew k) (yNew l) = some s := by
    intro l s hl hs hsome
    obtain ⟨w, hw⟩ := Option.isSome_iff_exists.1 hsome
    have := strip l s hs
    rw [(extrapolateRow_cases nNew yNew hn (fun l => gridData tri z (xNew k) (yNew l)) l hl).1 w hw] at this
    rw [hw, this]
  have gp := known p rp (by omega) hrp hp
  have gq := known q rq (by omega) hrq hq
  have gl : gridData tri z (xNew k) (yNew l) = none := Option.not_isSome_iff_eq_none.1 (hb l (by omega) (by omega))
  have h2 : Spec.AtLeastTwo nNew fun l => (gridData tri z (xNew k) (yNew l)).isSome = true := ⟨p, q, hpq, by omega, hp, hq⟩
  have hv := strip l r hr
  rw [(extrapolateRow_cases nNew yNew hn (fun l => gridData tri z (xNew k) (yNew l)) l (by omega)).2.2 gl h2] at hv
  rw [← Option.some.inj hv]
  have hinc := knownPoints_increasing nNew yNew hn fun l => gridData tri z (xNew k) (yNew l)
  have hs := knownPoints_split nNew yNew (fun l => gridData tri z (xNew k) (yNew l)) _ _ _ p q rp rq
    (range_split hpq (by omega : q < nNew)) (fun i hi => by
      rw [List.mem_range'_1] at hi
      exact Option.not_isSome_iff_eq_none.1 (hb i (by omega) (by omega))) gp gq
  have hnil : ((List.range p).filterMap fun k_1 =>
      (gridData tri z (xNew k) (yNew k_1)).map fun r => (yNew k_1, r)) = [] := by
    rw [List.filterMap_eq_nil_iff]
    intro i hi
    rw [List.mem_range] at hi
    rw [Option.not_isSome_iff_eq_none.1 (hb i (by omega) (by omega))]
    rfl
  rw [hnil, List.nil_append] at hs
  generalize hA : ((List.range' (q + 1) (nNew - q - 1)).filterMap fun k_1 =>
      (gridData tri z (xNew k) (yNew k_1)).map fun r => (yNew k_1, r)) = A at hs
  rw [hs] at hinc ⊢
  have := hn l q (by omega) (by omega)
  exact lineThrough_cell hinc _ (a := 0) (by simp) (Or.inl rfl) (Or.inr (le_of_lt this))

/-! ### Complete data -/

theorem inHull_cell (hx : Spec.Increasing n x) (hy : Spec.Increasing m y) (hz : ∀ i < n, ∀ j < m, z i j ≠ none) {i j : ℕ}
    (hi : i + 1 < n) (hj : j + 1 < m) {u v : α} (a1 : x i ≤ u) (a2 : u ≤ x (i + 1)) (b1 : y j ≤ v) (b2 : v ≤ y (j + 1)) :
    Spec.InHull n x m y (fun i j => (z i j).isSome) u v := by
  have hx1 := hx i (i + 1) (by omega) hi
  have hy1 := hy j (j + 1) (by omega) hj
  set s := (u - x i) / (x (i + 1) - x i) with hs
  set t := (v - y j) / (y (j + 1) - y j) with ht
  have s0 : 0 ≤ s := div_nonneg (by linarith) (by linarith)
  have s1 : s ≤ 1 := (div_le_one (by linarith)).2 (by linarith)
  have t0 : 0 ≤ t := div_nonneg (by linarith) (by linarith)
  have t1 : t ≤ 1 := (div_le_one (by linarith)).2 (by linarith)
  have es : s * (x (i + 1) - x i) = u - x i := div_mul_cancel₀ _ (by linarith)
  have et : t * (y (j + 1) - y j) = v - y j := div_mul_cancel₀ _ (by linarith)
  refine ⟨[⟨i, j, (1 - s) * (1 - t)⟩, ⟨i, j + 1, (1 - s) * t⟩, ⟨i + 1, j, s * (1 - t)⟩, ⟨i + 1, j + 1, s * t⟩], ?_, ?_, ?_, ?_⟩
  · have hv : ∀ a < n, ∀ b < m, (z a b).isSome = true := fun a ha b hb => Option.isSome_iff_ne_none.2 (hz a ha b hb)
    intro c hc
    simp only [List.mem_cons, List.not_mem_nil, or_false] at hc
    rcases hc with rfl | rfl | rfl | rfl
    · exact ⟨by dsimp only; omega, by dsimp only; omega, hv _ (by dsimp only; omega) _ (by dsimp only; omega), mul_nonneg (by linarith) (by linarith)⟩
    · exact ⟨by dsimp only; omega, by dsimp only; omega, hv _ (by dsimp only; omega) _ (by dsimp only; omega), mul_nonneg (by linarith) (by linarith)⟩
    · exact ⟨by dsimp only; omega, by dsimp only; omega, hv _ (by dsimp only; omega) _ (by dsimp only; omega), mul_nonneg (by linarith) (by linarith)⟩
    · exact ⟨by dsimp only; omega, by dsimp only; omega, hv _ (by dsimp only; omega) _ (by dsimp only; omega), mul_nonneg (by linarith) (by linarith)⟩
  · simp only [List.map_cons, List.map_nil, List.sum_cons, List.sum_nil]; ring
  · simp only [List.map_cons, List.map_nil, List.sum_cons, List.sum_nil]; linear_combination es
  · simp only [List.map_cons, List.map_nil, List.sum_cons, List.sum_nil]; linear_combination et

/-- **C136.** If nothing is masked, all pixels of a row in the time range are known as soon as two of its pixels are in the height
range. -/
theorem C136_complete (hd : Spec.Delaunay n x m y delaunay) (hx : Spec.Increasing n x) (hy : Spec.Increasing m y)
    (hn2 : 2 ≤ n) (hm2 : 2 ≤ m) (hn : Spec.Increasing nNew yNew) (out : Grid (Option α))
    (h : interpolate2dMask delaunay n x m y z xNew nNew yNew true = .ok out) (hz : ∀ i < n, ∀ j < m, z i j ≠ none) (k : ℕ)
    (hk : x 0 ≤ xNew k ∧ xNew k ≤ x (n - 1)) (p q : ℕ) (hpq : p < q) (hq : q < nNew)
    (hp' : y 0 ≤ yNew p ∧ yNew p ≤ y (m - 1)) (hq' : y 0 ≤ yNew q ∧ yNew q ≤ y (m - 1)) :
    ∀ l < nNew, ∃ r, out k l = some r := by
  intro l hl
  obtain ⟨w, hw⟩ := maskedPart_exists z hx hy hn2 hm2 (xNew k) (yNew l)
  rw [C136_known delaunay n x m y z xNew nNew yNew hd hx hy hn true out h k l hl w hw]
  constructor
  · obtain ⟨i, j, u', v', e1, e2, hi, hj, _, _, _, _, e⟩ := hw
    rw [if_neg (hz i (by omega) j (by omega)), if_neg (hz i (by omega) _ hj), if_neg (hz _ hi j (by omega)), if_neg (hz _ hi _ hj)] at e
    unfold Spec.fourCorners at e
    rw [e]
    simp
  · right
    refine ⟨rfl, p, q, hpq, hq, ?_, ?_⟩
    all_goals
      obtain ⟨i, hi, a1, a2⟩ := cell_exists hx hn2 hk.1 hk.2
    · obtain ⟨j, hj, b1, b2⟩ := cell_exists hy hm2 hp'.1 hp'.2
      exact inHull_cell n x m y z hx hy hz hi hj a1 a2 b1 b2
    · obtain ⟨j, hj, b1, b2⟩ := cell_exists hy hm2 hq'.1 hq'.2
      exact inHull_cell n x m y z hx hy hz hi hj a1 a2 b1 b2

/-- **C136.** There is no extrapolation in the first coordinate (time): rows outside of the range of the valid data are masked. -/
theorem C136_outside (hd : Spec.Delaunay n x m y delaunay) (hn : Spec.Increasing nNew yNew) (hx : Spec.Increasing n x)
    (hy : Spec.Increasing m y) (hn2 : 2 ≤ n) (hm2 : 2 ≤ m) (ex : Bool) (out : Grid (Option α))
    (h : interpolate2dMask delaunay n x m y z xNew nNew yNew ex = .ok out) (k : ℕ)
    (hk : (∀ i < n, ∀ j < m, z i j ≠ none → xNew k < x i) ∨ ∀ i < n, ∀ j < m, z i j ≠ none → x i < xNew k) :
    ∀ l < nNew, out k l = none := by
  have hout : ∀ v, ¬ Spec.InHull n x m y (fun i j => (z i j).isSome) (xNew k) v := by
    rintro v ⟨cs, hc⟩
    have hsum := hc.first
    have key : ∀ c ∈ cs, z c.row c.column ≠ none := fun c hcs => Option.isSome_iff_ne_none.1 (hc.points c hcs).2.2.1
    have strict : ∀ (f : Corner α → α), (∀ c ∈ cs, 0 < f c) → 0 < (cs.map fun c => c.weight * f c).sum := by
      intro f hf
      by_contra hle
      have hall : ∀ c ∈ cs, c.weight * f c = 0 := by
        have hnn : ∀ a ∈ cs.map fun c => c.weight * f c, 0 ≤ a := by
          intro a ha
          obtain ⟨c, hcs, rfl⟩ := List.mem_map.1 ha
          exact mul_nonneg (hc.points c hcs).2.2.2 (hf c hcs).le
        have h0 := le_antisymm (not_lt.1 hle) (List.sum_nonneg hnn)
        intro c hcs
        exact list_sum_zero _ hnn h0 _ (List.mem_map.2 ⟨c, hcs, rfl⟩)
      have : (cs.map fun c => c.weight).sum = 0 := by
        apply List.sum_eq_zero
        intro a ha
        obtain ⟨c, hcs, rfl⟩ := List.mem_map.1 ha
        exact (mul_eq_zero.1 (hall c hcs)).resolve_right (hf c hcs).ne'
      rw [hc.total] at this
      exact one_ne_zero this
    rcases hk with hk | hk
    · have := strict (fun c => x c.row - xNew k) fun c hcs => sub_pos.2 (hk _ (hc.points c hcs).1 _ (hc.points c hcs).2.1 (key c hcs))
      rw [weighted_affine cs (fun c => c.weight) (fun c => x c.row) (fun c => 0) _ (-xNew k) 1 0 (fun c _ => by ring), hc.total, hsum] at this
      linarith
    · have := strict (fun c => xNew k - x c.row) fun c hcs => sub_pos.2 (hk _ (hc.points c hcs).1 _ (hc.points c hcs).2.1 (key c hcs))
      rw [weighted_affine cs (fun c => c.weight) (fun c => x c.row) (fun c => 0) _ (xNew k) (-1) 0 (fun c _ => by ring), hc.total, hsum] at this
      linarith
  intro l hl
  obtain ⟨w, hw⟩ := maskedPart_exists z hx hy hn2 hm2 (xNew k) (yNew l)
  have := C136_known delaunay n x m y z xNew nNew yNew hd hx hy hn ex out h k l hl w hw
  cases ho : out k l with
  | none => rfl
  | some r =>
    obtain ⟨_, h1 | ⟨_, p, q, _, _, h1, _⟩⟩ := this.1 ⟨r, ho⟩
    · exact absurd h1 (hout _)
    · exact absurd h1 (hout _)

/-- **C136 (finding).** Products interpolate the model fields of the categorize file again, with the numbers that are stored under
the mask. Take a pixel at the height of a level, between a profile `i` where it has the value `a` and the next one, where it is masked
and `fill` is stored. The field of the categorize program is within the range of the valid data, but that of the products is a mean of
`a` and the fill value. -/
theorem C136_hidden_fill (hd : Spec.Delaunay n x m y delaunay) (hx : Spec.Increasing n x) (hy : Spec.Increasing m y)
    (hn : Spec.Increasing nNew yNew) (ex : Bool) (out : Grid (Option α))
    (h : interpolate2dMask delaunay n x m y z xNew nNew yNew ex = .ok out) (k l : ℕ) (hl : l < nNew) (r : α) (hr : out k l = some r)
    (hi : Spec.InHull n x m y (fun i j => (z i j).isSome) (xNew k) (yNew l)) (lo hi : α)
    (hz : ∀ i < n, ∀ j < m, ∀ a, z i j = some a → lo ≤ a ∧ a ≤ hi)
    (stored : Grid α) (hstored : ∀ i j a, z i j = some a → stored i j = a) (i j : ℕ) (hi' : i + 1 < n) (hj : j < m)
    (hk : x i ≤ xNew k ∧ xNew k ≤ x (i + 1)) (hl' : yNew l = y j) (a fill : α) (ha : z i j = some a) (hf : stored (i + 1) j = fill) :
    (lo ≤ r ∧ r ≤ hi) ∧ interpolateModel n x m y stored xNew yNew k l =
      (1 - (xNew k - x i) / (x (i + 1) - x i)) * a + (xNew k - x i) / (x (i + 1) - x i) * fill := by
  refine ⟨C136_range delaunay n x m y z xNew nNew yNew hd hn ex out h k l hl r hr ‹_› lo hi hz, ?_⟩
  unfold interpolateModel interpolate2d
  rw [interpLinear_cell hx _ hi' hk.1 hk.2, hl', interpLinear_node hy _ hj, interpLinear_node hy _ hj, hf, hstored i j a ha]
  ring

/-! ### The hypotheses can be met -/

open Classical in
/-- For all increasing coordinates there is a triangulation as assumed. -/
theorem delaunay_exists (hx : Spec.Increasing n x) (hy : Spec.Increasing m y) : ∃ delaunay, Spec.Delaunay n x m y delaunay := by
  have inj : ∀ {n : ℕ} {x : ℕ → α}, Spec.Increasing n x → ∀ i j, i < n → j < n → x i = x j → i = j := by
    intro n x hx i j hi hj e
    rcases lt_trichotomy i j with h | h | h
    · exact absurd e (hx i j h hj).ne
    · exact h
    · exact absurd e (hx j i h hi).ne'
  let node (valid : ℕ → ℕ → Bool) (u v : α) : Prop := ∃ p : ℕ × ℕ, p.1 < n ∧ p.2 < m ∧ valid p.1 p.2 = true ∧ u = x p.1 ∧ v = y p.2
  let tri (valid : ℕ → ℕ → Bool) : Triangulation α := fun u v =>
    if hn : node valid u v then some [⟨hn.choose.1, hn.choose.2, 1⟩]
    else if hh : Spec.InHull n x m y valid u v then some hh.choose else none
  refine ⟨fun valid => if ∃ a b c : α, (a ≠ 0 ∨ b ≠ 0) ∧ ∀ i < n, ∀ j < m, valid i j = true → a * x i + b * y j = c
    then none else some (tri valid), ?_, ?_, ?_, ?_⟩
  · intro valid
    split
    · next h => exact iff_of_true rfl h
    · next h => exact iff_of_false (by simp) h
  all_goals
    intro valid t h
    split at h
    · cases h
    cases h
  · intro u v cs h
    change (if hn : node valid u v then _ else _) = _ at h
    split at h
    · next hn =>
      cases h
      obtain ⟨h1, h2, h3, h4, h5⟩ := hn.choose_spec
      exact ⟨by simpa using ⟨h1, h2, h3⟩, by simp, by simpa using h4.symm, by simpa using h5.symm⟩
    · split at h
      · next hh => cases h; exact hh.choose_spec
      · cases h
  · intro u v h
    change (if hn : node valid u v then _ else _) = _ at h
    split at h
    · cases h
    · split at h
      · cases h
      · next hh => exact hh
  · intro i hi j hj hv cs h c hc hne
    change (if hn : node valid (x i) (y j) then _ else _) = _ at h
    have hnode : node valid (x i) (y j) := ⟨(i, j), hi, hj, hv, rfl, rfl⟩
    rw [dif_pos hnode] at h
    cases h
    obtain ⟨h1, h2, h3, h4, h5⟩ := hnode.choose_spec
    rw [List.mem_singleton] at hc
    subst hc
    exact ⟨(inj hx _ _ hi h1 h4).symm, (inj hy _ _ hj h2 h5).symm⟩

end

/-- Two profiles with two levels, the temperature decreases with height and increases with time: half way between the profiles the
levels at 25 and 75 m are interpolated and the one at 125 m is extrapolated, for every triangulation. -/
example (delaunay : (ℕ → ℕ → Bool) → Option (Triangulation ℚ)) (hd : Spec.Delaunay 2 (fun i => (i : ℚ)) 2 (fun j => 100 * (j : ℚ)) delaunay) :
    ∃ out, interpolate2dMask delaunay 2 (fun i => (i : ℚ)) 2 (fun j => 100 * (j : ℚ)) (fun i j => some (280 + 4 * (i : ℚ) - 1 * j))
      (fun _ => 1 / 2) 3 (fun l => 25 + 50 * (l : ℚ)) true = .ok out ∧ out 0 2 = some (280 + 2 - 125 / 100) := by
  have hx : Spec.Increasing 2 (fun i => (i : ℚ)) := fun i j h _ => by simpa using h
  have hy : Spec.Increasing 2 (fun j => 100 * (j : ℚ)) := fun i j h _ => by
    have : (i : ℚ) < j := by exact_mod_cast h
    simpa using this
  have hn : Spec.Increasing 3 (fun l => 25 + 50 * (l : ℚ)) := fun i j h _ => by
    have : (i : ℚ) < j := by exact_mod_cast h
    simpa using this
  cases h : interpolate2dMask delaunay 2 (fun i => (i : ℚ)) 2 (fun j => 100 * (j : ℚ)) (fun i j => some (280 + 4 * (i : ℚ) - 1 * j))
      (fun _ => 1 / 2) 3 (fun l => 25 + 50 * (l : ℚ)) true with
  | error e =>
    obtain ⟨a, b, c, hab, hc⟩ := (C136_error _ _ _ _ _ _ _ _ _ hd true).1 ⟨e, h⟩
    have h00 := hc 0 (by omega) 0 (by omega) (by simp)
    have h10 := hc 1 (by omega) 0 (by omega) (by simp)
    have h01 := hc 0 (by omega) 1 (by omega) (by simp)
    norm_num at h00 h10 h01
    rcases hab with ha | hb
    · exact absurd (by linarith) ha
    · exact absurd (by linarith) hb
  | ok out =>
    refine ⟨out, rfl, ?_⟩
    obtain ⟨r, hr⟩ := C136_complete _ _ _ _ _ _ _ _ _ hd hx hy (by omega) (by omega) hn out h (by simp) 0 (by norm_num) 0 1 (by omega)
      (by omega) (by norm_num) (by norm_num) 2 (by omega)
    have := C136_affine _ _ _ _ _ _ _ _ _ hd hn true out h 280 4 (-1 / 100)
      (fun i _ j _ r hr => by rw [← Option.some.inj hr]; ring) 0 2 (by omega) r hr
    rw [hr, this]
    norm_num

/-- A triangulation for the example exists. -/
example : ∃ delaunay : (ℕ → ℕ → Bool) → Option (Triangulation ℚ),
    Spec.Delaunay 2 (fun i => (i : ℚ)) 2 (fun j => 100 * (j : ℚ)) delaunay :=
  delaunay_exists 2 _ 2 _ (fun i j h _ => by simpa using h) (fun i j h _ => by
    have : (i : ℚ) < j := by exact_mod_cast h
    simpa using this)

end Cloudnet
