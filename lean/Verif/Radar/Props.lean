import Verif.Radar.Model
import Verif.Rebin.Props
import Verif.Droplet.Props
import Mathlib.Tactic.Linarith
import Mathlib.Tactic.NormNum

namespace Cloudnet

/-! C50 -/

/-- A pixel is complete if echo, velocity and (if in the file) width are measured. -/
def Spec.CompletePixel {α : Type} (z v : Grid (Option α)) (width : Option (Grid (Option α))) (t h : ℕ) : Prop :=
  z t h ≠ none ∧ v t h ≠ none ∧ ∀ w, width = some w → w t h ≠ none

theorem lookup_map {α β : Type} (f : α → β) (l : List (String × α)) (k : String) :
    (l.map fun p => (p.1, f p.2)).lookup k = (l.lookup k).map f := by
  induction l with
  | nil => rfl
  | cons a l ih =>
    obtain ⟨k', x⟩ := a
    cases hk : k == k' <;> simp [List.lookup, hk, ih]

/-- C50. Complete pixels keep their data in every field, other pixels lose them; scalars and vectors do not change
and no variable appears or disappears. -/
theorem C50_incomplete_pixels {α : Type} (data : List (String × RadarArray α)) (z v : Grid (Option α))
    (hz : data.lookup "Z" = some (.field z)) (hv : data.lookup "v" = some (.field v))
    (width : Option (Grid (Option α))) (hw : data.lookup "width" = width.map .field) :
    ∃ r, removeIncompletePixels data = .ok r ∧ r.map Prod.fst = data.map Prod.fst ∧ ∀ name,
      (data.lookup name = none → r.lookup name = none) ∧
      (∀ x, data.lookup name = some (.scalar x) → r.lookup name = some (.scalar x)) ∧
      (∀ x, data.lookup name = some (.vector x) → r.lookup name = some (.vector x)) ∧
      (∀ x, data.lookup name = some (.field x) → ∃ x', r.lookup name = some (.field x') ∧ ∀ t h,
        (Spec.CompletePixel z v width t h → x' t h = x t h) ∧
        (¬ Spec.CompletePixel z v width t h → x' t h = none)) := by
  obtain ⟨good, hgood, hr⟩ : ∃ good : Grid Bool, (∀ t h, good t h = true ↔ Spec.CompletePixel z v width t h) ∧
      removeIncompletePixels data = .ok (data.map fun p => (p.1, p.2.maskField fun t h => !good t h)) := by
    unfold removeIncompletePixels
    rw [hz, hv, hw]
    rcases width with _ | w
    · refine ⟨_, fun t h => ?_, rfl⟩
      simp [RadarArray.missing, Spec.CompletePixel, Option.isSome_iff_ne_none, Option.ne_none_iff_exists']
    · refine ⟨_, fun t h => ?_, rfl⟩
      simp [RadarArray.missing, Spec.CompletePixel, Option.isSome_iff_ne_none, and_assoc]
  refine ⟨_, hr, by simp [List.map_map, Function.comp_def], fun name => ?_⟩
  rw [lookup_map]
  refine ⟨fun h => by rw [h]; rfl, fun x h => by rw [h]; rfl, fun x h => by rw [h]; rfl, fun x h => ?_⟩
  refine ⟨x.assign (fun t h => !good t h) none, by rw [h]; rfl, fun t h => ?_⟩
  have := hgood t h
  simp only [Grid.assign, cond_eq_ite]
  constructor
  · intro hc
    rw [this.2 hc]
    simp
  · intro hc
    rw [← this] at hc
    simp [hc]

/-- C50. Without echo or velocity the pixels cannot be checked. -/
theorem C50_raises {α : Type} (data : List (String × RadarArray α))
    (h : data.lookup "Z" = none ∨ data.lookup "v" = none) : removeIncompletePixels data = .error "KeyError" := by
  unfold removeIncompletePixels
  rcases h with h | h
  · rw [h]
  · rw [h]
    rcases data.lookup "Z" with _ | _ <;> rfl

example : ∃ r, removeIncompletePixels [("Z", .field fun t _ => if t = 0 then some (1 : ℚ) else none),
    ("v", .field fun _ _ => some 2), ("nyquist_velocity", .scalar (some 10))] = .ok r ∧
    (∃ x, r.lookup "v" = some (.field x) ∧ x 0 3 = some 2 ∧ x 1 3 = none) ∧
    r.lookup "nyquist_velocity" = some (.scalar (some 10)) := by
  obtain ⟨r, h1, -, h3⟩ := C50_incomplete_pixels [("Z", .field fun t _ => if t = 0 then some (1 : ℚ) else none),
    ("v", .field fun _ _ => some 2), ("nyquist_velocity", .scalar (some 10))] _ _ rfl rfl none rfl
  refine ⟨r, h1, ?_, (h3 _).2.1 _ rfl⟩
  obtain ⟨x, g1, g2⟩ := (h3 "v").2.2.2 _ rfl
  exact ⟨x, g1, (g2 0 3).1 ⟨by simp, by simp, fun w hw => by cases hw⟩, (g2 1 3).2 fun h => h.1 (by simp)⟩

section
variable {α : Type} [Field α] [LinearOrder α]

/-- C83. The first gate loses velocities above 4 m/s, and nothing else changes. -/
theorem C83_first_gate (v : Grid (Option α)) (t h : ℕ) :
    ((h = 0 ∧ ∃ x, v t 0 = some x ∧ 4 < x) → filterFirstGate v t h = none) ∧
    (¬ (h = 0 ∧ ∃ x, v t 0 = some x ∧ 4 < x) → filterFirstGate v t h = v t h) := by
  have hc : (decide (h = 0) && (v t 0).elim false fun x => decide (4 < x)) = true ↔
      (h = 0 ∧ ∃ x, v t 0 = some x ∧ 4 < x) := by
    cases v t 0 <;> simp
  unfold filterFirstGate
  simp only [Grid.assign, cond_eq_ite]
  rw [← hc]
  constructor
  · intro h1; rw [if_pos h1]
  · intro h1; rw [if_neg h1]

end

example : filterFirstGate (fun _ _ => some (5 : ℚ)) 0 0 = none ∧
    filterFirstGate (fun _ _ => some (5 : ℚ)) 0 1 = some 5 := by decide +kernel

/-! C83, stripes -/

namespace Spec

/-- Row `b` is the next row below `i` that is no spike. -/
def NextBelow (spike : ℕ → Prop) (i b : ℕ) : Prop := b < i ∧ ¬ spike b ∧ ∀ j, b < j → j < i → spike j

/-- Row `a` is the next row above `i` that is no spike. -/
def NextAbove (spike : ℕ → Prop) (n i a : ℕ) : Prop := i < a ∧ a < n ∧ ¬ spike a ∧ ∀ j, i < j → j < a → spike j

/-- Element `k` of spike row `i` is isolated in the field `x` (indexed by row and element): there is a value, and none
in the same element of the next rows below and above that are no spikes. -/
def StripePixel {β : Type} (spike : ℕ → Prop) (n : ℕ) (x : ℕ → ℕ → Option β) (i k : ℕ) : Prop :=
  spike i ∧ x i k ≠ none ∧ (∃ b, NextBelow spike i b ∧ x b k = none) ∧ ∃ a, NextAbove spike n i a ∧ x a k = none

end Spec

theorem nextBelow_spec (spike : ℕ → Bool) (i : ℕ) (hi : 0 < i) (h0 : spike 0 = false) :
    ∃ b, nextBelow spike i = some b ∧ Spec.NextBelow (fun j => spike j = true) i b := by
  induction i with
  | zero => omega
  | succ k ih =>
    unfold nextBelow
    by_cases hk : spike k = true
    · rw [if_pos hk]
      have hpos : 0 < k := by
        rcases Nat.eq_zero_or_pos k with rfl | h
        · rw [h0] at hk; cases hk
        · exact h
      obtain ⟨b, h1, h2, h3, h4⟩ := ih hpos
      refine ⟨b, h1, by omega, h3, fun j hj1 hj2 => ?_⟩
      rcases Nat.lt_or_ge j k with h | h
      · exact h4 j hj1 h
      · obtain rfl : j = k := by omega
        exact hk
    · rw [if_neg hk]
      exact ⟨k, rfl, by omega, hk, fun j hj1 hj2 => by omega⟩

theorem nextAbove_spec (spike : ℕ → Bool) (n i : ℕ) (hi : i + 1 < n) (h0 : spike (n - 1) = false) :
    ∃ a, nextAbove spike n i = some a ∧ Spec.NextAbove (fun j => spike j = true) n i a := by
  unfold nextAbove
  rcases hf : (List.range n).find? fun j => decide (i < j) && !spike j with _ | a
  · exfalso
    rw [List.find?_eq_none] at hf
    have := hf (n - 1) (List.mem_range.2 (by omega))
    rw [h0] at this
    simp at this
    omega
  · obtain ⟨h2, h1, h3⟩ := find_range_some.1 hf
    simp only [Bool.and_eq_true, decide_eq_true_eq, Bool.not_eq_true'] at h2
    refine ⟨a, rfl, h2.1, h1, by show ¬ spike a = true; rw [h2.2]; simp, fun j hj1 hj2 => ?_⟩
    have := h3 j hj2
    simp only [Bool.and_eq_false_iff, decide_eq_false_iff_not, Bool.not_eq_false'] at this
    rcases this with h | h
    · exact absurd hj1 h
    · exact h

theorem maskIsolated_along {β : Type} (mask : Grid Bool) (target : Grid (Option β)) (vertical : Bool) (ind : ℕ)
    (below above : Option ℕ) (i k : ℕ) :
    (maskIsolated mask target vertical ind below above).along vertical i k =
      if i = ind ∧ (!mask.along vertical ind k && (below.elim true fun b => mask.along vertical b k) &&
        (above.elim true fun a => mask.along vertical a k)) = true then none else target.along vertical i k := by
  unfold maskIsolated Grid.along
  cases vertical <;> simp

theorem missingOf_along {β : Type} (x : Grid (Option β)) (vertical : Bool) (i k : ℕ) :
    (missingOf x).along vertical i k = (x.along vertical i k).isNone := by
  unfold missingOf Grid.along
  cases vertical <;> simp

/-- One row: the element is masked exactly if it is isolated. -/
theorem maskRow {β : Type} (spike : ℕ → Bool) (n : ℕ) (h0 : spike 0 = false) (hn : spike (n - 1) = false)
    (src target : Grid (Option β)) (vertical : Bool) (ind : ℕ) (hs : spike ind = true) (hind : ind < n) (i k : ℕ) :
    let r := (maskIsolated (missingOf src) target vertical ind (nextBelow spike ind) (nextAbove spike n ind)).along
      vertical i k
    (i = ind ∧ Spec.StripePixel (fun j => spike j = true) n (src.along vertical) i k → r = none) ∧
    (¬ (i = ind ∧ Spec.StripePixel (fun j => spike j = true) n (src.along vertical) i k) →
      r = target.along vertical i k) := by
  intro r
  have hpos : 0 < ind := by
    rcases Nat.eq_zero_or_pos ind with rfl | h
    · rw [h0] at hs; cases hs
    · exact h
  have hlast : ind + 1 < n := by
    by_contra hc
    obtain rfl : ind = n - 1 := by omega
    rw [hn] at hs; cases hs
  obtain ⟨b, hb1, hb2, hb3, hb4⟩ := nextBelow_spec spike ind hpos h0
  obtain ⟨a, ha1, ha2, ha3, ha4, ha5⟩ := nextAbove_spec spike n ind hlast hn
  have hr : r = _ := maskIsolated_along (missingOf src) target vertical ind (nextBelow spike ind) (nextAbove spike n ind)
    i k
  rw [hb1, ha1] at hr
  simp only [Option.elim, missingOf_along] at hr
  have hiff : (i = ind ∧ (!(src.along vertical ind k).isNone && (src.along vertical b k).isNone &&
      (src.along vertical a k).isNone) = true) ↔
      i = ind ∧ Spec.StripePixel (fun j => spike j = true) n (src.along vertical) i k := by
    refine and_congr_right fun hi => ?_
    subst hi
    simp only [Bool.and_eq_true, Bool.not_eq_true', Option.isNone_iff_eq_none, Option.isNone_eq_false_iff,
      Option.isSome_iff_ne_none]
    constructor
    · rintro ⟨⟨h1, h2⟩, h3⟩
      exact ⟨hs, h1, ⟨b, ⟨hb2, hb3, hb4⟩, h2⟩, a, ⟨ha2, ha3, ha4, ha5⟩, h3⟩
    · rintro ⟨-, h1, ⟨b', ⟨c1, c2, c3⟩, h2⟩, a', ⟨d1, d2, d3, d4⟩, h3⟩
      have hbb : b' = b := by
        rcases Nat.lt_trichotomy b' b with h | h | h
        · exact absurd (c3 b h hb2) hb3
        · exact h
        · exact absurd (hb4 b' h c1) c2
      have haa : a' = a := by
        rcases Nat.lt_trichotomy a' a with h | h | h
        · exact absurd (ha5 a' d1 h) d3
        · exact h
        · exact absurd (d4 a ha2 h) ha4
      subst hbb haa
      exact ⟨⟨h1, h2⟩, h3⟩
  rw [hr]
  constructor
  · intro h; rw [if_pos (hiff.2 h)]
  · intro h; rw [if_neg fun h' => h (hiff.1 h')]

/-- The loop over the spikes. -/
theorem stripes_loop {β : Type} (spike : ℕ → Bool) (n : ℕ) (h0 : spike 0 = false) (hn : spike (n - 1) = false)
    (vertical : Bool) (l : List ℕ) : ∀ (s : StripeState β), l.Nodup → (∀ i ∈ l, spike i = true ∧ i < n) →
    let r := l.foldl (fun s ind =>
      maskStripePixels s vertical ind (nextBelow spike ind) (nextAbove spike n ind)) s
    r.z = s.z ∧
    (∀ i k, (i ∈ l ∧ Spec.StripePixel (fun j => spike j = true) n (s.z.along vertical) i k →
        r.v.along vertical i k = none) ∧
      (¬ (i ∈ l ∧ Spec.StripePixel (fun j => spike j = true) n (s.z.along vertical) i k) →
        r.v.along vertical i k = s.v.along vertical i k)) ∧
    (s.other = none → r.other = none) ∧
    (∀ x, s.other = some x → ∃ x', r.other = some x' ∧ ∀ i k,
      (i ∈ l ∧ Spec.StripePixel (fun j => spike j = true) n (x.along vertical) i k → x'.along vertical i k = none) ∧
      (¬ (i ∈ l ∧ Spec.StripePixel (fun j => spike j = true) n (x.along vertical) i k) →
        x'.along vertical i k = x.along vertical i k)) := by
  induction l with
  | nil =>
    intro s _ _
    refine ⟨rfl, fun i k => ⟨fun h => ?_, fun _ => rfl⟩, fun h => h, fun x hx => ⟨x, hx, fun i k => ⟨fun h => ?_, fun _ => rfl⟩⟩⟩
    · exact absurd h.1 (by simp)
    · exact absurd h.1 (by simp)
  | cons ind l ih =>
    intro s hnd hs r
    obtain ⟨hs1, hs2⟩ := hs ind (by simp)
    have hnd' := List.nodup_cons.1 hnd
    obtain ⟨i1, i2, i3, i4⟩ := ih (maskStripePixels s vertical ind (nextBelow spike ind) (nextAbove spike n ind)) hnd'.2
      (fun i hi => hs i (by simp [hi]))
    refine ⟨i1, fun i k => ?_, fun h => i3 (by simp [maskStripePixels, h]), fun x hx => ?_⟩
    · have hrow := maskRow spike n h0 hn s.z s.v vertical ind hs1 hs2 i k
      obtain ⟨j1, j2⟩ := i2 i k
      have hz : (maskStripePixels s vertical ind (nextBelow spike ind) (nextAbove spike n ind)).z = s.z := rfl
      rw [hz] at j1 j2
      simp only [List.mem_cons]
      constructor
      · rintro ⟨rfl | h, h2⟩
        · rw [show r.v.along vertical i k = _ from j2 fun h' => hnd'.1 h'.1]
          exact hrow.1 ⟨rfl, h2⟩
        · exact j1 ⟨h, h2⟩
      · intro h
        rw [show r.v.along vertical i k = _ from j2 fun h' => h ⟨Or.inr h'.1, h'.2⟩]
        exact hrow.2 fun h' => h ⟨Or.inl h'.1, h'.2⟩
    · have hrow := maskRow spike n h0 hn x x vertical ind hs1 hs2
      obtain ⟨x', j1, j2⟩ := i4 (maskIsolated (missingOf x) x vertical ind (nextBelow spike ind) (nextAbove spike n ind))
        (by simp [maskStripePixels, hx])
      refine ⟨x', j1, fun i k => ?_⟩
      -- other rows do not change
      have hother : ∀ i k, i ≠ ind → (maskIsolated (missingOf x) x vertical ind (nextBelow spike ind)
          (nextAbove spike n ind)).along vertical i k = x.along vertical i k := fun i k hne =>
        (hrow i k).2 fun h => hne h.1
      generalize maskIsolated (missingOf x) x vertical ind (nextBelow spike ind) (nextAbove spike n ind) = y at *
      have hsame : i ≠ ind → (Spec.StripePixel (fun j => spike j = true) n (y.along vertical) i k ↔
          Spec.StripePixel (fun j => spike j = true) n (x.along vertical) i k) := by
        intro hne
        have hb : ∀ b, Spec.NextBelow (fun j => spike j = true) i b → y.along vertical b k = x.along vertical b k :=
          fun b hb => hother b k fun he => hb.2.1 (by rw [he]; exact hs1)
        have ha : ∀ a, Spec.NextAbove (fun j => spike j = true) n i a → y.along vertical a k = x.along vertical a k :=
          fun a ha => hother a k fun he => ha.2.2.1 (by rw [he]; exact hs1)
        unfold Spec.StripePixel
        rw [hother i k hne]
        constructor
        · rintro ⟨h1, h2, ⟨b, h3, h4⟩, a, h5, h6⟩
          exact ⟨h1, h2, ⟨b, h3, by rw [← hb b h3]; exact h4⟩, a, h5, by rw [← ha a h5]; exact h6⟩
        · rintro ⟨h1, h2, ⟨b, h3, h4⟩, a, h5, h6⟩
          exact ⟨h1, h2, ⟨b, h3, by rw [hb b h3]; exact h4⟩, a, h5, by rw [ha a h5]; exact h6⟩
      obtain ⟨k1, k2⟩ := j2 i k
      by_cases hi : i = ind
      · subst hi
        rw [k2 fun h => hnd'.1 h.1]
        constructor
        · rintro ⟨-, h⟩
          exact (hrow i k).1 ⟨rfl, h⟩
        · intro h
          exact (hrow i k).2 fun h' => h ⟨by simp, h'.2⟩
      · rw [hsame hi, hother i k hi] at *
        simp only [List.mem_cons, hi, false_or]
        exact ⟨k1, k2⟩

/-- Row `i` is a spike in the number of values per row: with the quartiles of the ten nearest rows, linearly
interpolated in the ordered counts, it has more than 20 values and more than the upper quartile plus three times the
larger of the quartile range and 1; and not if the quartiles are equal and positive. The five rows at each end are no
spikes. -/
def Spec.SpikeRow (n : ℕ) (counts : ℕ → ℕ) (i : ℕ) : Prop :=
  5 ≤ i ∧ i + 5 < n ∧ ∃ c : ℕ → ℚ, (∀ j, j + 1 < 10 → c j ≤ c (j + 1)) ∧
    ((List.range 10).map c).Perm ([i - 5, i - 4, i - 3, i - 2, i - 1, i + 1, i + 2, i + 3, i + 4, i + 5].map
      fun j => (counts j : ℚ)) ∧
    ∃ q1 q3 : ℚ, q1 = c 2 + (c 3 - c 2) / 4 ∧ q3 = c 6 + (c 7 - c 6) * 3 / 4 ∧ ¬ (q1 = q3 ∧ 0 < q3) ∧
      20 < counts i ∧ q3 + 3 * max (q3 - q1) 1 < counts i

theorem percentile_ten (l : List ℚ) (hl : l.length = 10) :
    percentile l 25 = (l.insertionSort (· ≤ ·)).getD 2 0 +
      ((l.insertionSort (· ≤ ·)).getD 3 0 - (l.insertionSort (· ≤ ·)).getD 2 0) / 4 ∧
    percentile l 75 = (l.insertionSort (· ≤ ·)).getD 6 0 +
      ((l.insertionSort (· ≤ ·)).getD 7 0 - (l.insertionSort (· ≤ ·)).getD 6 0) * 3 / 4 := by
  unfold percentile
  simp only [hl]
  have f1 : ⌊(25 : ℚ) / 100 * ((10 - 1 : ℕ) : ℚ)⌋ = 2 := by
    rw [Int.floor_eq_iff]; norm_num
  have f2 : ⌊(75 : ℚ) / 100 * ((10 - 1 : ℕ) : ℚ)⌋ = 6 := by
    rw [Int.floor_eq_iff]; norm_num
  rw [f1, f2, show Int.toNat 2 = 2 from rfl, show Int.toNat 6 = 6 from rfl]
  constructor
  · show _ + (25 / 100 * ((10 - 1 : ℕ) : ℚ) - ((2 : ℕ) : ℚ)) * ((l.insertionSort (· ≤ ·)).getD 3 0 - _) = _
    norm_num
    ring
  · show _ + (75 / 100 * ((10 - 1 : ℕ) : ℚ) - ((6 : ℕ) : ℚ)) * ((l.insertionSort (· ≤ ·)).getD 7 0 - _) = _
    norm_num
    ring

/-- C83. The spikes found are the rows described by `Spec.SpikeRow`. -/
theorem C83_spike (n : ℕ) (counts : ℕ → ℕ) (i : ℕ) : spikeAt n counts i = true ↔ Spec.SpikeRow n counts i := by
  unfold spikeAt Spec.SpikeRow
  rw [Bool.and_eq_true, decide_eq_true_eq, and_assoc]
  refine and_congr_right fun h5 => and_congr_right fun _ => ?_
  have hwin : stripeWindow counts i =
      [i - 5, i - 4, i - 3, i - 2, i - 1, i + 1, i + 2, i + 3, i + 4, i + 5].map fun j => (counts j : ℚ) := by
    have : ((List.range 11).filter (· ≠ 5)) = [0, 1, 2, 3, 4, 6, 7, 8, 9, 10] := by decide
    unfold stripeWindow
    rw [this]
    simp only [List.map_cons, List.map_nil]
    rw [show i + 0 - 5 = i - 5 by omega, show i + 1 - 5 = i - 4 by omega, show i + 2 - 5 = i - 3 by omega,
      show i + 3 - 5 = i - 2 by omega, show i + 4 - 5 = i - 1 by omega, show i + 6 - 5 = i + 1 by omega,
      show i + 7 - 5 = i + 2 by omega, show i + 8 - 5 = i + 3 by omega, show i + 9 - 5 = i + 4 by omega,
      show i + 10 - 5 = i + 5 by omega]
  have hlen : (stripeWindow counts i).length = 10 := by rw [hwin]; rfl
  obtain ⟨p1, p2⟩ := percentile_ten _ hlen
  have hsorted : ((stripeWindow counts i).insertionSort (· ≤ ·)).Pairwise (· ≤ ·) := List.pairwise_insertionSort _ _
  have hperm : ((stripeWindow counts i).insertionSort (· ≤ ·)).Perm (stripeWindow counts i) := List.perm_insertionSort _ _
  unfold isSpike
  rw [p1, p2, ← hwin]
  have hlen' : ((stripeWindow counts i).insertionSort (· ≤ ·)).length = 10 := by rw [hperm.length_eq, hlen]
  generalize (stripeWindow counts i).insertionSort (· ≤ ·) = s at *
  have hs : s = (List.range 10).map fun j => s.getD j 0 := by
    apply List.ext_getElem
    · simp [hlen']
    · intro j h1 h2
      simp [h1]
  have key : ∀ q1 q3 : ℚ, (if q3 - q1 = 0 ∧ 0 < q3 then false
      else decide (max (q3 + 3 * max (q3 - q1) 1) 20 < (counts i : ℚ))) = true ↔
      ¬ (q1 = q3 ∧ 0 < q3) ∧ 20 < counts i ∧ q3 + 3 * max (q3 - q1) 1 < counts i := by
    intro q1 q3
    have h1 : q3 - q1 = 0 ↔ q1 = q3 := by rw [sub_eq_zero]; exact eq_comm
    have h2 : max (q3 + 3 * max (q3 - q1) 1) 20 < (counts i : ℚ) ↔
        20 < counts i ∧ q3 + 3 * max (q3 - q1) 1 < (counts i : ℚ) := by
      rw [max_lt_iff, and_comm]
      refine and_congr_left fun _ => ?_
      exact_mod_cast Iff.rfl
    by_cases h : q1 = q3 ∧ 0 < q3
    · rw [if_pos (by rw [h1]; exact h)]; simp [h]
    · rw [if_neg (by rw [h1]; exact h), decide_eq_true_eq, h2]
      simp only [h, not_false_eq_true, true_and]
  constructor
  · intro h
    refine ⟨fun j => s.getD j 0, fun j hj => ?_, ?_, _, _, rfl, rfl, (key _ _).1 h⟩
    · have := (List.pairwise_iff_getElem.1 hsorted) j (j + 1) (by omega) (by omega) (by omega)
      show s.getD j 0 ≤ s.getD (j + 1) 0
      rw [List.getD_eq_getElem _ _ (show j < s.length by omega),
        List.getD_eq_getElem _ _ (show j + 1 < s.length by omega)]
      exact this
    · rw [← hs]
      exact hperm
  · rintro ⟨c, h1, h2, q1, q3, rfl, rfl, h3⟩
    have hmono : ∀ j k, j ≤ k → k < 10 → c j ≤ c k := by
      intro j k hjk
      induction k, hjk using Nat.le_induction with
      | base => intro _; exact le_rfl
      | succ k hk ih => intro hk'; exact le_trans (ih (by omega)) (h1 k hk')
    have hcs : (List.range 10).map c = s := by
      apply List.Perm.eq_of_pairwise (le := (· ≤ ·)) _ _ hsorted (h2.trans hperm.symm)
      · intro a b _ _ h3 h4
        exact le_antisymm h3 h4
      · rw [List.pairwise_map]
        apply List.Pairwise.imp_of_mem _ (List.pairwise_lt_range (n := 10))
        intro a b ha hb hab
        exact hmono a b hab.le (List.mem_range.1 hb)
    have hc : ∀ j < 10, s.getD j 0 = c j := by
      intro j hj
      rw [← hcs]
      simp [hj]
    rw [hc 2 (by omega), hc 3 (by omega), hc 6 (by omega), hc 7 (by omega)]
    exact (key _ _).2 h3

/-- The number of values in row `i`. -/
theorem rowCount_eq {β : Type} (data : Grid (Option β)) (vertical : Bool) (n i : ℕ) :
    rowCount data vertical n i = ((Finset.range n).filter fun k => data.along vertical i k ≠ none).card := by
  unfold rowCount
  rw [Finset.card_def, Finset.filter_val, Finset.range_val, Multiset.range, Multiset.filter_coe, Multiset.coe_card]
  congr 1
  apply List.filter_congr
  intro k _
  cases data.along vertical i k <;> simp

namespace Spec

/-- The number of values of profile `t` (`nH` gates) of a field. -/
noncomputable def profileCount {β : Type} (x : Grid (Option β)) (nH t : ℕ) : ℕ :=
  ((Finset.range nH).filter fun h => x t h ≠ none).card

/-- The number of values of gate `h` (`nT` profiles) of a field. -/
noncomputable def gateCount {β : Type} (x : Grid (Option β)) (nT h : ℕ) : ℕ :=
  ((Finset.range nT).filter fun t => x t h ≠ none).card

/-- The pixels of `x` isolated in time within profiles that are spikes of `data`. -/
def IsolatedProfile {β : Type} (nT nH : ℕ) (data x : Grid (Option β)) (t h : ℕ) : Prop :=
  StripePixel (SpikeRow nT (profileCount data nH)) nT x t h

/-- The pixels of `x` isolated in height within gates that are spikes of `data`. -/
def IsolatedGate {β : Type} (nT nH : ℕ) (data x : Grid (Option β)) (t h : ℕ) : Prop :=
  StripePixel (SpikeRow nH (gateCount data nT)) nH (fun h t => x t h) h t

/-- `y` is `x` without the values satisfying `P`. -/
def Without {β : Type} (x y : Grid (Option β)) (P : ℕ → ℕ → Prop) : Prop :=
  ∀ t h, (P t h → y t h = none) ∧ (¬ P t h → y t h = x t h)

end Spec

theorem filterStripesAxis_spec {β : Type} (nT nH : ℕ) (data : Grid (Option β)) (vertical : Bool) (s : StripeState β) :
    let P : Grid (Option β) → ℕ → ℕ → Prop :=
      if vertical then Spec.IsolatedProfile nT nH data else Spec.IsolatedGate nT nH data
    let r := filterStripesAxis nT nH data vertical s
    r.z = s.z ∧ Spec.Without s.v r.v (P s.z) ∧ (s.other = none → r.other = none) ∧
      ∀ x, s.other = some x → ∃ x', r.other = some x' ∧ Spec.Without x x' (P x) := by
  intro P r
  obtain ⟨n, hn⟩ : ∃ n, n = if vertical then nT else nH := ⟨_, rfl⟩
  obtain ⟨m, hm⟩ : ∃ m, m = if vertical then nH else nT := ⟨_, rfl⟩
  have hspike : (fun j => spikeAt n (rowCount data vertical m) j = true) = Spec.SpikeRow n (rowCount data vertical m) :=
    funext fun j => propext (C83_spike n _ j)
  have h0 : spikeAt n (rowCount data vertical m) 0 = false := by
    unfold spikeAt; simp
  have h1 : spikeAt n (rowCount data vertical m) (n - 1) = false := by
    unfold spikeAt
    rw [decide_eq_false (by omega)]; rfl
  obtain ⟨l1, l2, l3, l4⟩ := stripes_loop (spikeAt n (rowCount data vertical m)) n h0 h1 vertical
    ((List.range n).filter (spikeAt n (rowCount data vertical m))) s (List.nodup_range.filter _)
    (fun i hi => by
      rw [List.mem_filter, List.mem_range] at hi
      exact ⟨hi.2, hi.1⟩)
  have hr : r = ((List.range n).filter (spikeAt n (rowCount data vertical m))).foldl (fun s ind =>
    maskStripePixels s vertical ind (nextBelow (spikeAt n (rowCount data vertical m)) ind)
      (nextAbove (spikeAt n (rowCount data vertical m)) n ind)) s := by
    rw [hn, hm]; rfl
  rw [← hr] at l1 l2 l3 l4
  have hmem : ∀ (x : Grid (Option β)) i k, (i ∈ (List.range n).filter (spikeAt n (rowCount data vertical m)) ∧
      Spec.StripePixel (fun j => spikeAt n (rowCount data vertical m) j = true) n (x.along vertical) i k) ↔
      Spec.StripePixel (Spec.SpikeRow n (rowCount data vertical m)) n (x.along vertical) i k := by
    intro x i k
    rw [← hspike]
    refine ⟨fun h => h.2, fun h => ⟨?_, h⟩⟩
    rw [List.mem_filter, List.mem_range]
    refine ⟨?_, h.1⟩
    obtain ⟨-, -, -, a, ⟨ha1, ha2, -⟩, -⟩ := h
    omega
  refine ⟨l1, ?_, l3, fun x hx => ?_⟩
  · simp only [hmem] at l2
    intro t h
    cases vertical with
    | true =>
      simp only [if_true] at hn hm
      have hc : rowCount data true nH = Spec.profileCount data nH := funext fun i => rowCount_eq data true nH i
      have := l2 t h
      rw [hn, hm, hc] at this
      exact this
    | false =>
      simp only [Bool.false_eq_true, if_false] at hn hm
      have hc : rowCount data false nT = Spec.gateCount data nT := funext fun i => rowCount_eq data false nT i
      have := l2 h t
      rw [hn, hm, hc] at this
      exact this
  · obtain ⟨x', g1, g2⟩ := l4 x hx
    refine ⟨x', g1, ?_⟩
    simp only [hmem] at g2
    intro t h
    cases vertical with
    | true =>
      simp only [if_true] at hn hm
      have hc : rowCount data true nH = Spec.profileCount data nH := funext fun i => rowCount_eq data true nH i
      have := g2 t h
      rw [hn, hm, hc] at this
      exact this
    | false =>
      simp only [Bool.false_eq_true, if_false] at hn hm
      have hc : rowCount data false nT = Spec.gateCount data nT := funext fun i => rowCount_eq data false nT i
      have := g2 h t
      rw [hn, hm, hc] at this
      exact this

/-- C83. The stripe filter for a variable. With fewer than 300 profiles with data nothing changes. Else the echo
does not change, the velocity loses exactly the pixels where the echo is isolated in a spike profile or a spike gate of
the variable, and the variable itself (if not the velocity) loses its own pixels isolated in a spike profile, then
those of the remaining ones isolated in a spike gate. -/
theorem C83_stripes {β : Type} (nT nH : ℕ) (s : StripeState β) :
    let data := s.other.getD s.v
    let r := filterStripes nT nH s
    (((Finset.range nT).filter fun t => ∃ h < nH, data t h ≠ none).card < 300 → r = s) ∧
    (300 ≤ ((Finset.range nT).filter fun t => ∃ h < nH, data t h ≠ none).card →
      r.z = s.z ∧
      Spec.Without s.v r.v (fun t h => Spec.IsolatedProfile nT nH data s.z t h ∨ Spec.IsolatedGate nT nH data s.z t h) ∧
      (s.other = none → r.other = none) ∧
      ∀ x, s.other = some x → ∃ x1 x2, r.other = some x2 ∧ Spec.Without x x1 (Spec.IsolatedProfile nT nH data x) ∧
        Spec.Without x1 x2 (Spec.IsolatedGate nT nH data x1)) := by
  intro data r
  have hcount : ((List.range nT).filter fun t => decide (rowCount data true nH t ≠ 0)).length =
      ((Finset.range nT).filter fun t => ∃ h < nH, data t h ≠ none).card := by
    rw [Finset.card_def, Finset.filter_val, Finset.range_val, Multiset.range, Multiset.filter_coe, Multiset.coe_card]
    congr 1
    apply List.filter_congr
    intro t _
    rw [decide_eq_decide, rowCount_eq, Finset.card_ne_zero]
    constructor
    · rintro ⟨k, hk⟩
      rw [Finset.mem_filter, Finset.mem_range] at hk
      exact ⟨k, hk.1, hk.2⟩
    · rintro ⟨k, hk1, hk2⟩
      exact ⟨k, by rw [Finset.mem_filter, Finset.mem_range]; exact ⟨hk1, hk2⟩⟩
  have hr : r = if ((List.range nT).filter fun t => decide (rowCount data true nH t ≠ 0)).length < 300 then s
      else filterStripesAxis nT nH data false (filterStripesAxis nT nH data true s) := rfl
  rw [hcount] at hr
  constructor
  · intro h
    rw [hr, if_pos h]
  · intro h
    rw [if_neg (by omega)] at hr
    obtain ⟨a1, a2, a3, a4⟩ := filterStripesAxis_spec nT nH data true s
    obtain ⟨b1, b2, b3, b4⟩ := filterStripesAxis_spec nT nH data false (filterStripesAxis nT nH data true s)
    rw [← hr] at b1 b2 b3 b4
    simp only [if_true] at a2 a4
    simp only [Bool.false_eq_true, if_false] at b2 b4
    rw [a1] at b1 b2
    refine ⟨b1, fun t h => ⟨?_, ?_⟩, fun h => b3 (a3 h), fun x hx => ?_⟩
    · rintro (h1 | h1)
      · by_cases h2 : Spec.IsolatedGate nT nH data s.z t h
        · exact (b2 t h).1 h2
        · rw [(b2 t h).2 h2]
          exact (a2 t h).1 h1
      · exact (b2 t h).1 h1
    · intro h1
      rw [(b2 t h).2 fun h2 => h1 (Or.inr h2), (a2 t h).2 fun h2 => h1 (Or.inl h2)]
    · obtain ⟨x1, c1, c2⟩ := a4 x hx
      obtain ⟨x2, d1, d2⟩ := b4 x1 c1
      exact ⟨x1, x2, d1, c2, d2⟩

/-- A row with 30 values between empty rows is a spike, one of ten rows with 30 values is not. -/
example : spikeAt 20 (fun i => if i = 10 then 30 else 0) 10 = true ∧ spikeAt 20 (fun _ => 30) 10 = false := by
  decide +kernel

/-- 320 profiles with one value each, except for a full profile among ten empty ones: it is removed, the rest stays. -/
example :
    let x : Grid (Option ℚ) := fun t h => if (t = 100 ∨ h = 0 ∧ (t < 95 ∨ 105 < t)) ∧ h < 25 then some 1 else none
    let r := filterStripes 320 25 { z := x, v := x, other := none }
    r.v 100 3 = none ∧ r.v 50 0 = some 1 ∧ r.z 100 3 = some 1 := by
  decide +kernel

/-! C70 -/

/-- The mean of velocities `v i`, `i ∈ s`, as directions on the circle of circumference `2 V`. -/
noncomputable def Spec.circularMean (s : Finset ℕ) (v : ℕ → ℝ) (V : ℝ) : ℝ :=
  V / Real.pi * Complex.arg (∑ i ∈ s, Complex.exp ((Real.pi * v i / V : ℝ) * Complex.I))

/-- C70. Rebinned velocities of data that are not dealiased: with `V` the largest folding velocity of the profiles of a
bin at a gate, the result is missing exactly if no velocity was measured, and else it is the circular mean of the
velocities, in the Nyquist interval. -/
theorem C70_velocity (nIn : ℕ) (xIn : ℕ → ℝ) (data folding : Grid (Option ℝ)) {n : ℕ} (hn : 2 ≤ n) {xNew : ℕ → ℝ}
    {d : ℝ} (hx : Spec.EvenlySpaced n xNew d) (bits : Dealiased) (hb : bits = .absent ∨ bits = .no) :
    ∃ r, rebinVelocity nIn xIn data folding n xNew bits = .ok r ∧ ∀ k < n, ∀ h,
      let profiles := Spec.profilesInBin nIn xIn (xNew k) d
      let measured := Spec.unmasked data h profiles
      ((∀ i ∈ profiles, folding i h = none) → r k h = none) ∧
      ∀ V, 0 < V → Spec.IsMax (Spec.unmasked folding h profiles) (fun i => (folding i h).getD 0) V →
        (r k h = none ↔ measured = ∅) ∧
        ∀ w, r k h = some w → w = Spec.circularMean measured (fun i => (data i h).getD 0) V ∧ |w| ≤ V := by
  obtain ⟨mb, mf, m1, m2, m3, -⟩ := C30_keepdim maMax nIn xIn folding hn hx 1
  obtain ⟨mb', m1', m4, -⟩ := C30_rebin_2d_max nIn xIn folding hn hx (nMin := 1) le_rfl
  rw [m1] at m1'
  have m1' := Except.ok.inj m1'
  subst m1'
  obtain ⟨scaled, hsc⟩ : ∃ scaled : Grid (Option ℝ), scaled = fun t h =>
    maMap2 (· * ·) (data t h) (maDivide Real.pi (mf t h)) := ⟨_, rfl⟩
  obtain ⟨x, hx1, hx2, -⟩ := C30_rebin_2d_mean nIn xIn (fun t h => (scaled t h).map Real.cos) hn hx (nMin := 1) le_rfl
  obtain ⟨y, hy1, hy2, -⟩ := C30_rebin_2d_mean nIn xIn (fun t h => (scaled t h).map Real.sin) hn hx (nMin := 1) le_rfl
  have hr : rebinVelocity nIn xIn data folding n xNew bits = .ok fun k h =>
      (maMap2 (fun a b => (a, b)) (maMap2 (fun x y => Complex.arg ⟨x, y⟩) (x.result k h) (y.result k h))
        (maDivide Real.pi (mb.result k h))).bind fun p => if p.2 = 0 then none else some (p.1 / p.2) := by
    unfold rebinVelocity
    rw [m1]
    rcases hb with rfl | rfl
    all_goals
      simp only [bind, Except.bind, pure, Except.pure, m2]
      rw [hsc] at hx1 hy1
      rw [hx1, hy1]
  refine ⟨_, hr, fun k hk h => ?_⟩
  obtain ⟨-, a2, a3⟩ := m4 k hk h
  obtain ⟨-, b2, b3⟩ := hx2 k hk h
  obtain ⟨-, c2, c3⟩ := hy2 k hk h
  have hmf := m3 k hk
  generalize Spec.profilesInBin nIn xIn (xNew k) d = P at *
  intro profiles measured
  constructor
  · intro hnone
    simp only [a2.2 (Or.inr hnone), maDivide, Option.bind_none, maMap2, Option.map_none]
    cases x.result k h <;> cases y.result k h <;> rfl
  intro V hV hmax
  have hVk : mb.result k h = some V := by
    rcases hres : mb.result k h with _ | u
    · exfalso
      obtain ⟨⟨i, hi, -⟩, -⟩ := hmax
      obtain ⟨hi1, hi2⟩ := Finset.mem_filter.1 hi
      rcases a2.1 hres with h1 | h1
      · have : 0 < P.card := Finset.card_pos.2 ⟨i, hi1⟩
        omega
      · rw [h1 i hi1] at hi2
        cases hi2
    · obtain ⟨⟨i, hi, hiu⟩, hu⟩ := a3 u hres
      obtain ⟨⟨j, hj, hjV⟩, hV'⟩ := hmax
      have h1 := hu j hj
      have h2 := hV' i hi
      simp only at h1 h2 hiu hjV
      rw [hjV] at h1
      rw [hiu] at h2
      rw [le_antisymm h2 h1]
  have hpi := Real.pi_pos
  have hne : Real.pi / V ≠ 0 := by positivity
  have hscaled : ∀ i ∈ P, scaled i h = (data i h).map fun v => v * (Real.pi / V) := by
    intro i hi
    rw [hsc]
    simp only [hmf i hi h, hVk, maDivide, Option.bind_some, if_neg hV.ne']
    cases data i h <;> rfl
  have hun : ∀ f : ℝ → ℝ, Spec.unmasked (fun t h => (scaled t h).map f) h P = Spec.unmasked data h P := by
    intro f
    unfold Spec.unmasked
    apply Finset.filter_congr
    intro i hi
    show ((scaled i h).map f).isSome = true ↔ _
    rw [hscaled i hi]
    cases data i h <;> simp
  have hsum : ∀ f : ℝ → ℝ, ∑ i ∈ Spec.unmasked data h P, ((scaled i h).map f).getD 0 =
      ∑ i ∈ Spec.unmasked data h P, f (Real.pi * (data i h).getD 0 / V) := by
    intro f
    apply Finset.sum_congr rfl
    intro i hi
    obtain ⟨hi1, hi2⟩ := Finset.mem_filter.1 hi
    rw [hscaled i hi1]
    rcases hd : data i h with _ | v
    · rw [hd] at hi2; cases hi2
    · show f (v * (Real.pi / V)) = f (Real.pi * v / V)
      congr 1
      ring
  have hempty : ∀ (f : ℝ → ℝ), (P.card < 1 ∨ ∀ i ∈ P, (scaled i h).map f = none) ↔ measured = ∅ := by
    intro f
    show _ ↔ Spec.unmasked data h P = ∅
    rw [← hun f]
    unfold Spec.unmasked
    rw [Finset.filter_eq_empty_iff]
    constructor
    · rintro (h1 | h1) i hi
      · have : 0 < P.card := Finset.card_pos.2 ⟨i, hi⟩
        omega
      · simp [h1 i hi]
    · intro h1
      right
      intro i hi
      have := h1 hi
      simpa using this
  simp only [hVk, maDivide, Option.bind_some, if_neg hV.ne', maMap2]
  rcases hxr : x.result k h with _ | xm
  · have hm := (hempty Real.cos).1 (b2.1 hxr)
    refine ⟨⟨fun _ => hm, fun _ => rfl⟩, fun w hw => ?_⟩
    cases hw
  · rcases hyr : y.result k h with _ | ym
    · have hm := (hempty Real.sin).1 (c2.1 hyr)
      refine ⟨⟨fun _ => hm, fun _ => rfl⟩, fun w hw => ?_⟩
      cases hw
    · have hme : measured ≠ ∅ := by
        intro hm
        have := b2.2 ((hempty Real.cos).2 hm)
        rw [hxr] at this
        cases this
      simp only [Option.bind_some, Option.map_some, if_neg hne]
      refine ⟨⟨fun h => (by cases h), fun h => absurd h hme⟩, fun w hw => ?_⟩
      have hw := Option.some.inj hw
      have hxm := b3 xm hxr
      have hym := c3 ym hyr
      unfold Spec.IsMean at hxm hym
      rw [hun] at hxm hym
      rw [hsum] at hxm
      rw [hsum] at hym
      have hcard : 0 < (Spec.unmasked data h P).card := Finset.card_pos.2 (Finset.nonempty_iff_ne_empty.2 hme)
      have hz : (⟨xm, ym⟩ : ℂ) = ((1 / (Spec.unmasked data h P).card : ℝ) : ℂ) *
          ∑ i ∈ Spec.unmasked data h P, Complex.exp ((Real.pi * (data i h).getD 0 / V : ℝ) * Complex.I) := by
        apply Complex.ext
        · rw [Complex.re_ofReal_mul, Complex.re_sum]
          simp only [Complex.exp_ofReal_mul_I_re]
          rw [hxm]
          ring
        · rw [Complex.im_ofReal_mul, Complex.im_sum]
          simp only [Complex.exp_ofReal_mul_I_im]
          rw [hym]
          ring
      rw [hz, Complex.arg_real_mul _ (by positivity)] at hw
      have hw' : w = Spec.circularMean measured (fun i => (data i h).getD 0) V := by
        rw [← hw]
        unfold Spec.circularMean
        show _ = V / Real.pi * Complex.arg (∑ i ∈ Spec.unmasked data h P, _)
        have hdiv : ∀ a : ℝ, a / (Real.pi / V) = V / Real.pi * a := by
          intro a
          field_simp
        exact hdiv _
      refine ⟨hw', ?_⟩
      rw [hw']
      unfold Spec.circularMean
      rw [abs_mul, abs_of_pos (by positivity)]
      calc V / Real.pi * |Complex.arg _| ≤ V / Real.pi * Real.pi :=
            mul_le_mul_of_nonneg_left (Complex.abs_arg_le_pi _) (by positivity)
        _ = V := by field_simp

/-- C70. Equal velocities inside the Nyquist interval average to themselves. -/
theorem C70_equal_velocities (s : Finset ℕ) (hs : s.Nonempty) (v : ℕ → ℝ) (V w : ℝ) (hw1 : -V < w) (hw2 : w ≤ V)
    (hv : ∀ i ∈ s, v i = w) : Spec.circularMean s v V = w := by
  have hV : 0 < V := by linarith
  have hpi := Real.pi_pos
  unfold Spec.circularMean
  have hsum : ∑ i ∈ s, Complex.exp ((Real.pi * v i / V : ℝ) * Complex.I) =
      ((s.card : ℝ) : ℂ) * Complex.exp ((Real.pi * w / V : ℝ) * Complex.I) := by
    rw [Finset.sum_congr rfl fun i hi => by rw [hv i hi], Finset.sum_const, nsmul_eq_mul]
    push_cast
    rfl
  have hcard : (0 : ℝ) < s.card := by exact_mod_cast Finset.card_pos.2 hs
  rw [hsum, Complex.arg_real_mul _ hcard, Complex.exp_mul_I, ← Complex.ofReal_cos, ← Complex.ofReal_sin,
    Complex.ofReal_cos, Complex.ofReal_sin, Complex.arg_cos_add_sin_mul_I]
  · field_simp
  · constructor
    · rw [lt_div_iff₀ hV]
      nlinarith
    · rw [div_le_iff₀ hV]
      nlinarith

/-- C70. The mean does not depend on how the velocities were folded: adding multiples of the Nyquist interval to some
of them changes nothing. -/
theorem C70_folding (s : Finset ℕ) (v : ℕ → ℝ) (V : ℝ) (hV : 0 < V) (m : ℕ → ℤ) :
    Spec.circularMean s (fun i => v i + m i * (2 * V)) V = Spec.circularMean s v V := by
  unfold Spec.circularMean
  congr 2
  apply Finset.sum_congr rfl
  intro i _
  have : ((Real.pi * (v i + m i * (2 * V)) / V : ℝ) : ℂ) * Complex.I =
      ((Real.pi * v i / V : ℝ) : ℂ) * Complex.I + (m i : ℂ) * (2 * Real.pi * Complex.I) := by
    have : Real.pi * (v i + m i * (2 * V)) / V = Real.pi * v i / V + m i * (2 * Real.pi) := by
      field_simp
    rw [this]
    push_cast
    ring
  rw [this, Complex.exp_add, Complex.exp_int_mul_two_pi_mul_I, mul_one]

/-- C70. Dealiased data are averaged, partly dealiased data raise. -/
theorem C70_dealiased (nIn : ℕ) (xIn : ℕ → ℝ) (data folding : Grid (Option ℝ)) {n : ℕ} (hn : 2 ≤ n) {xNew : ℕ → ℝ}
    {d : ℝ} (hx : Spec.EvenlySpaced n xNew d) :
    (∃ e, rebinVelocity nIn xIn data folding n xNew .partly = .error e) ∧
    ∃ r, rebinVelocity nIn xIn data folding n xNew .every = .ok r ∧ ∀ k < n, ∀ h,
      let measured := Spec.unmasked data h (Spec.profilesInBin nIn xIn (xNew k) d)
      (r k h = none ↔ measured = ∅) ∧
      ∀ w, r k h = some w → Spec.IsMean measured (fun i => (data i h).getD 0) w := by
  obtain ⟨mb, m1, -⟩ := C30_rebin_2d_max nIn xIn folding hn hx (nMin := 1) le_rfl
  obtain ⟨x, hx1, hx2, -⟩ := C30_rebin_2d_mean nIn xIn data hn hx (nMin := 1) le_rfl
  unfold rebinVelocity
  simp only [m1, hx1, bind, Except.bind, pure, Except.pure]
  refine ⟨⟨_, rfl⟩, _, rfl, fun k hk h => ?_⟩
  obtain ⟨-, b2, b3⟩ := hx2 k hk h
  generalize Spec.profilesInBin nIn xIn (xNew k) d = P at *
  refine ⟨?_, b3⟩
  rw [b2]
  unfold Spec.unmasked
  rw [Finset.filter_eq_empty_iff]
  constructor
  · rintro (h1 | h1) i hi
    · have : 0 < P.card := Finset.card_pos.2 ⟨i, hi⟩
      omega
    · simp [h1 i hi]
  · intro h1
    right
    intro i hi
    have := h1 hi
    simpa using this

end Cloudnet
