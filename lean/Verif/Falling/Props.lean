import Verif.Falling.Model
import Verif.Atmos.Props

namespace Cloudnet

/-! C46 (falling hydrometeors). -/

namespace Spec

section
variable {α : Type} [Field α] [LinearOrder α]

/-- The radar echo of the gates `base` to `top` increases: there are at least two gates with echo and the
uppermost of them is stronger than the lowermost. -/
def EchoIncreasing (z : ℕ → Option α) (base top : ℕ) : Prop :=
  ∃ i j a b, base ≤ i ∧ i < j ∧ j ≤ top ∧ z i = some a ∧ z j = some b ∧ a < b ∧
    (∀ k, base ≤ k → k < i → z k = none) ∧ ∀ k, j < k → k ≤ top → z k = none

/-- The radar echo of the profile is dominated by the liquid layer from `base` to `top`: there is no echo right above the layer
and the echo increases inside. -/
def LiquidDominated (n : ℕ) (z : ℕ → Option α) (liquid : ℕ → Bool) (base top : ℕ) : Prop :=
  IsLayer n liquid base top ∧ top + 1 < n ∧ z (top + 1) = none ∧ EchoIncreasing z base top

/-- A cold lidar signal outside liquid at least 2 km above the ground; below 4 km at most two of the six gates
up to this one may have a lidar signal. -/
def ColdLidar (o : FallingInput α) (liquid : Grid Bool) (t h : ℕ) : Prop :=
  o.tw t h < 27316 / 100 - 15 ∧ o.beta t h ≠ none ∧ liquid t h = false ∧ 2000 ≤ o.height h - o.altitude ∧
    (o.height h - o.altitude < 4000 →
      ((Finset.range (h + 1)).filter fun i => h < i + 6 ∧ o.beta t i ≠ none).card ≤ 2)

end

end Spec

section
variable {α : Type} [Field α] [LinearOrder α]

theorem filterMap_range_head (z : ℕ → Option α) (n : ℕ) (d : α) :
    ((List.range n).filterMap z = [] ↔ ∀ k < n, z k = none) ∧
    ∀ i a, i < n → z i = some a → (∀ k < i, z k = none) → ((List.range n).filterMap z).headD d = a := by
  constructor
  · rw [List.filterMap_eq_nil_iff]
    simp only [List.mem_range]
  · intro i a hi hz hk
    have e : List.range n = List.range i ++ (i :: (List.range (n - i - 1)).map (· + (i + 1))) := by
      apply List.ext_getElem
      · simp; omega
      · intro m h1 h2
        rcases Nat.lt_trichotomy m i with h | h | h
        · rw [List.getElem_append_left (by simpa using h)]; simp
        · subst h
          rw [List.getElem_append_right (by simp)]; simp
        · rw [List.getElem_append_right (by simp; omega)]
          rw [List.getElem_cons]
          simp only [List.length_range]
          rw [dif_neg (by omega)]
          simp; omega
    rw [e, List.filterMap_append, List.filterMap_cons, hz]
    have : (List.range i).filterMap z = [] := by
      rw [List.filterMap_eq_nil_iff]
      intro k hk'
      exact hk k (List.mem_range.1 hk')
    rw [this]
    rfl

theorem filterMap_range_last (z : ℕ → Option α) (n : ℕ) (d : α) :
    ∀ j b, j < n → z j = some b → (∀ k, j < k → k < n → z k = none) →
      ((List.range n).filterMap z).getLastD d = b := by
  induction n with
  | zero => intro j b h; omega
  | succ n ih =>
    intro j b hj hz hk
    rw [List.range_succ, List.filterMap_append]
    rcases Nat.lt_or_ge j n with h | h
    · have : z n = none := hk n h (by omega)
      have e : [n].filterMap z = [] := by simp [this]
      rw [e, List.append_nil]
      exact ih j b h hz fun k a b => hk k a (by omega)
    · have : j = n := by omega
      subst this
      have e : [j].filterMap z = [b] := by simp [hz]
      rw [e, List.getLastD_eq_getLast?, List.getLast?_append]
      rfl

theorem exists_first_some (z : ℕ → Option α) (n : ℕ) (h : ∃ k < n, z k ≠ none) :
    ∃ i a, i < n ∧ z i = some a ∧ ∀ k < i, z k = none := by
  classical
  have hs := Nat.find_spec h
  obtain ⟨a, ha⟩ := Option.ne_none_iff_exists'.1 hs.2
  refine ⟨Nat.find h, a, hs.1, ha, fun k hk => ?_⟩
  have := Nat.find_min h hk
  have hn := hs.1
  by_contra hc
  exact this ⟨by omega, hc⟩

theorem exists_last_some (z : ℕ → Option α) (n : ℕ) (h : ∃ k < n, z k ≠ none) :
    ∃ j b, j < n ∧ z j = some b ∧ ∀ k, j < k → k < n → z k = none := by
  induction n with
  | zero => obtain ⟨k, hk, _⟩ := h; omega
  | succ n ih =>
    by_cases hz : z n = none
    · obtain ⟨k, hk, hk'⟩ := h
      have hkn : k ≠ n := by rintro rfl; exact hk' hz
      obtain ⟨j, b, h1, h2, h3⟩ := ih ⟨k, by omega, hk'⟩
      refine ⟨j, b, by omega, h2, fun m a c => ?_⟩
      rcases Nat.lt_or_ge m n with h' | h'
      · exact h3 m a h'
      · rw [show m = n by omega]; exact hz
    · obtain ⟨b, hb⟩ := Option.ne_none_iff_exists'.1 hz
      exact ⟨n, b, by omega, hb, fun m a c => by omega⟩

theorem filterMap_range_length (z : ℕ → Option α) (n i j : ℕ) (hij : i < j) (hj : j < n) (hi : z i ≠ none)
    (hj' : z j ≠ none) : 1 < ((List.range n).filterMap z).length := by
  obtain ⟨a, ha⟩ := Option.ne_none_iff_exists'.1 hi
  obtain ⟨b, hb⟩ := Option.ne_none_iff_exists'.1 hj'
  have hsub : List.Sublist [i, j] (List.range n) := by
    have h1 : List.Sublist [i] (List.range j) := by
      rw [List.singleton_sublist, List.mem_range]; exact hij
    have h2 : List.Sublist [j] (List.range' j (n - j)) := by
      rw [List.singleton_sublist, List.mem_range'_1]; omega
    have e : List.range n = List.range j ++ List.range' j (n - j) := by
      apply List.ext_getElem
      · simp; omega
      · intro m h1 h2
        rcases Nat.lt_or_ge m j with h | h
        · rw [List.getElem_append_left (by simpa using h)]; simp
        · rw [List.getElem_append_right (by simpa using h)]; simp; omega
    rw [e]
    exact h1.append h2
  have := (hsub.filterMap z).length_le
  simp [ha, hb] at this
  omega

theorem isZIncreasing_iff (z : ℕ → Option α) (base top : ℕ) (hbt : base ≤ top) :
    isZIncreasing z base top = true ↔ Spec.EchoIncreasing z base top := by
  unfold isZIncreasing Spec.EchoIncreasing
  simp only
  constructor
  · intro h
    split at h
    · next hl =>
      simp only [decide_eq_true_eq] at h
      have hex : ∃ k < top + 1 - base, z (base + k) ≠ none := by
        by_contra hc
        push Not at hc
        rw [(filterMap_range_head (fun i => z (base + i)) _ 0).1.2 hc] at hl
        simp at hl
      obtain ⟨i, a, i1, i2, i3⟩ := exists_first_some (fun k => z (base + k)) _ hex
      obtain ⟨j, b, j1, j2, j3⟩ := exists_last_some (fun k => z (base + k)) _ hex
      rw [(filterMap_range_head (fun i => z (base + i)) _ 0).2 i a i1 i2 i3,
        filterMap_range_last (fun i => z (base + i)) _ 0 j b j1 j2 j3] at h
      have hij : i < j := by
        rcases Nat.lt_trichotomy i j with h' | h' | h'
        · exact h'
        · subst h'
          rw [i2] at j2
          cases j2
          exact absurd h (lt_irrefl _)
        · rw [i3 j h'] at j2; cases j2
      refine ⟨base + i, base + j, a, b, by omega, by omega, by omega, i2, j2, h, ?_, ?_⟩
      · intro k k1 k2
        have := i3 (k - base) (by omega)
        rwa [show base + (k - base) = k by omega] at this
      · intro k k1 k2
        have := j3 (k - base) (by omega) (by omega)
        rwa [show base + (k - base) = k by omega] at this
    · cases h
  · rintro ⟨i, j, a, b, h1, h2, h3, h4, h5, h6, h7, h8⟩
    have e1 : z (base + (i - base)) = some a := by rw [show base + (i - base) = i by omega]; exact h4
    have e2 : z (base + (j - base)) = some b := by rw [show base + (j - base) = j by omega]; exact h5
    rw [if_pos (filterMap_range_length (fun i => z (base + i)) _ (i - base) (j - base) (by omega) (by omega)
      (by rw [e1]; simp) (by rw [e2]; simp))]
    rw [(filterMap_range_head (fun i => z (base + i)) _ 0).2 (i - base) a (by omega) e1
        (fun k hk => h7 _ (by omega) (by omega)),
      filterMap_range_last (fun i => z (base + i)) _ 0 (j - base) b (by omega) e2
        (fun k k1 k2 => h8 _ (by omega) (by omega))]
    simpa using h6

theorem coldAerosol_iff (o : FallingInput α) (liquid : Grid Bool) (t h : ℕ) :
    findColdAerosols o liquid t h = true ↔ Spec.ColdLidar o liquid t h := by
  have hcount : ((List.range (h + 1 - (h + 1 - 6))).filter
      fun i => (o.beta t (h + 1 - 6 + i)).isSome).length =
      ((Finset.range (h + 1)).filter fun i => h < i + 6 ∧ o.beta t i ≠ none).card := by
    have h1 : ((List.range (h + 1 - (h + 1 - 6))).filter
        fun i => (o.beta t (h + 1 - 6 + i)).isSome).length =
        ((Finset.range (h + 1 - (h + 1 - 6))).filter
          fun i => (o.beta t (h + 1 - 6 + i)).isSome = true).card := by
      rw [Finset.card_def, Finset.filter_val, Finset.range_val, Multiset.range, Multiset.filter_coe,
        Multiset.coe_card]
      congr 1
      apply List.filter_congr
      intro x _
      cases (o.beta t (h + 1 - 6 + x)).isSome <;> rfl
    rw [h1]
    apply Finset.card_bij (fun i _ => h + 1 - 6 + i)
    · intro i hi
      simp only [Finset.mem_filter, Finset.mem_range] at hi ⊢
      refine ⟨by omega, by omega, ?_⟩
      rw [← Option.isSome_iff_ne_none]
      exact hi.2
    · intro a _ b _ hab; omega
    · intro b hb
      simp only [Finset.mem_filter, Finset.mem_range] at hb
      refine ⟨b - (h + 1 - 6), ?_, by omega⟩
      simp only [Finset.mem_filter, Finset.mem_range]
      rw [show h + 1 - 6 + (b - (h + 1 - 6)) = b by omega]
      exact ⟨by omega, Option.isSome_iff_ne_none.2 hb.2.2⟩
  unfold findColdAerosols Spec.ColdLidar Grid.assign
  simp only [hcount, cond_eq_ite, Bool.and_eq_true, decide_eq_true_eq, Bool.not_eq_true',
    Option.isSome_iff_ne_none]
  by_cases h1 : o.height h - o.altitude < 2000
  · simp only [if_pos h1, Bool.false_eq_true, false_and, if_false, false_iff]
    rintro ⟨-, -, -, h2, -⟩
    exact absurd h1 (not_lt.2 h2)
  · simp only [if_neg h1]
    by_cases h2 : (o.tw t h < 27316 / 100 - 15 ∧ o.beta t h ≠ none) ∧ liquid t h = false
    · simp only [if_pos h2, true_and]
      by_cases h3 : o.height h - o.altitude < 4000
      · simp only [if_pos h3]
        by_cases h4 : 2 < ((Finset.range (h + 1)).filter fun i => h < i + 6 ∧ o.beta t i ≠ none).card
        · rw [if_pos h4]
          simp only [Bool.false_eq_true, false_iff]
          rintro ⟨-, -, -, -, h5⟩
          have := h5 h3
          omega
        · rw [if_neg h4]
          simp only [true_iff]
          exact ⟨h2.1.1, h2.1.2, h2.2, not_lt.1 h1, fun _ => by omega⟩
      · simp only [if_neg h3, true_iff]
        exact ⟨h2.1.1, h2.1.2, h2.2, not_lt.1 h1, fun h => absurd h h3⟩
    · simp only [if_neg h2, Bool.false_eq_true, false_and, if_false, false_iff]
      rintro ⟨a, b, c, -⟩
      exact h2 ⟨⟨a, b⟩, c⟩

theorem foldl_clear (c : Pixel × Pixel → Bool) (ps : List (Pixel × Pixel)) :
    ∀ (f : Grid Bool) t h, (ps.foldl (fun (falling : Grid Bool) q =>
      if c q then fun t h => if t = q.1.1 ∧ q.1.2 ≤ h ∧ h ≤ q.2.2 then false else falling t h
      else falling) f) t h = true ↔ f t h = true ∧
        ¬ ∃ q ∈ ps, c q = true ∧ t = q.1.1 ∧ q.1.2 ≤ h ∧ h ≤ q.2.2 := by
  induction ps with
  | nil => intro f t h; simp
  | cons q ps ih =>
    intro f t h
    rw [List.foldl_cons, ih]
    cases hc : c q with
    | false => simp [hc]
    | true =>
      simp only [if_true, List.mem_cons]
      by_cases hr : t = q.1.1 ∧ q.1.2 ≤ h ∧ h ≤ q.2.2
      · simp only [if_pos hr, Bool.false_eq_true, false_and, false_iff]
        rintro ⟨-, hn⟩
        exact hn ⟨q, Or.inl rfl, hc, hr⟩
      · simp only [if_neg hr]
        apply and_congr Iff.rfl
        apply not_congr
        constructor
        · rintro ⟨r, hr1, hr2⟩; exact ⟨r, Or.inr hr1, hr2⟩
        · rintro ⟨r, rfl | hr1, hr2⟩
          · exact absurd hr2.2 hr
          · exact ⟨r, hr1, hr2⟩

/-- C46. The search for falling hydrometeors always succeeds. A pixel is falling exactly if the radar sees
something there that is neither clutter nor insects, and the echo is not dominated by a liquid layer that
contains the pixel; or if it is a cold lidar signal. -/
theorem C46_falling (o : FallingInput α) (liquid insects : Grid Bool) :
    ∃ falling, findFallingHydrometeors o liquid insects = .ok falling ∧ ∀ t < o.nT, ∀ h,
      (falling t h = true ↔
        (o.z t h ≠ none ∧ o.clutter t h = false ∧ insects t h = false ∧
          ¬ ∃ base top, Spec.LiquidDominated o.nH (o.z t) (liquid t) base top ∧ base ≤ h ∧ h ≤ top) ∨
        Spec.ColdLidar o liquid t h) := by
  obtain ⟨ps, h1, h2, h3, h4⟩ := pairing_grid o.nT o.nH liquid
  have hpairs : cloudBaseTopPairs o.nT o.nH liquid = .ok ps := by
    unfold cloudBaseTopPairs
    rw [h2, h3]
    simp [zip_map_fst_snd]
  unfold findFallingHydrometeors fixLiquidDominatedRadar
  simp only [hpairs, bind, Except.bind, pure, Except.pure]
  refine ⟨_, rfl, fun t ht h => ?_⟩
  simp only [Bool.or_eq_true]
  rw [coldAerosol_iff]
  apply or_congr _ Iff.rfl
  rw [foldl_clear (fun q => isZMissingAboveLiquid o.nH (o.z q.1.1) q.2.2 && isZIncreasing (o.z q.1.1) q.1.2 q.2.2)]
  unfold findFallingFromRadar
  simp only [Bool.and_eq_true, Bool.not_eq_true', Option.isSome_iff_ne_none, and_assoc]
  apply and_congr Iff.rfl
  apply and_congr Iff.rfl
  apply and_congr Iff.rfl
  apply not_congr
  have hmiss : ∀ (z : ℕ → Option α) top, top < o.nH →
      (isZMissingAboveLiquid o.nH z top = true ↔ top + 1 < o.nH ∧ z (top + 1) = none) := by
    intro z top hlt
    unfold isZMissingAboveLiquid
    split
    · next he => simp; omega
    · next he =>
      rw [Option.isNone_iff_eq_none]
      exact ⟨fun h => ⟨by omega, h⟩, fun h => h.2⟩
  constructor
  · rintro ⟨q, hq, hm, hz, rfl, hr⟩
    obtain ⟨q1, q2, q3⟩ := h1 q hq
    rw [hmiss _ _ q3.top_lt] at hm
    rw [isZIncreasing_iff _ _ _ q3.base_le_top] at hz
    exact ⟨q.1.2, q.2.2, ⟨q3, hm.1, hm.2, hz⟩, hr⟩
  · rintro ⟨base, top, ⟨hl, d1, d2, d3⟩, r1, r2⟩
    obtain ⟨q, hq, q0, q1, q2⟩ := h4 t ht base (by have := hl.base_le_top; have := hl.top_lt; omega)
      (hl.full base le_rfl hl.base_le_top)
    obtain ⟨-, -, hql⟩ := h1 q hq
    rw [q0] at hql
    obtain ⟨e1, e2⟩ := IsLayer.unique hl hql le_rfl hl.base_le_top q1 q2
    subst e1 e2
    refine ⟨q, hq, ?_, ?_, q0.symm, r1, r2⟩
    · rw [hmiss _ _ hql.top_lt, q0]; exact ⟨d1, d2⟩
    · rw [isZIncreasing_iff _ _ _ hql.base_le_top, q0]; exact d3

end

/-- Example: gates of 500 m; a liquid layer at gates 2 and 3 with increasing echo and nothing above; rain at
gate 0; a cold lidar signal at gate 7 (3500 m), and at gate 9. -/
def exampleFalling : FallingInput ℚ where
  nT := 1
  nH := 10
  z := fun _ h => [some 1, none, some 2, some 3, none, none, none, none, none, none].getD h none
  beta := fun _ h => [none, none, none, none, none, none, none, some 1, none, some 1].getD h none
  tw := fun _ h => if h < 5 then 280 else 250
  height := fun h => 500 * h
  altitude := 0
  clutter := fun _ _ => false

example : (match findFallingHydrometeors exampleFalling (fun _ h => h = 2 || h = 3) (fun _ _ => false) with
    | .ok f => decide ((List.range 10).map (f 0) =
        [true, false, false, false, false, false, false, true, false, true])
    | .error _ => false) = true := by decide +kernel

end Cloudnet
