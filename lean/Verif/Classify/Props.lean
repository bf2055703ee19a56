import Verif.Classify.Model
import Verif.Components.Props
import Verif.Arrays.Props
import Verif.Atmos.Lemmas
import Verif.Melting.Props
import Verif.Insects.Props
import Verif.Falling.Props
import Verif.Freezing.Props

namespace Cloudnet

/-! C44 (classification). -/

namespace Spec

/-- `q` is at most `n` steps along time and height away from `p`. -/
def Within (n : ℕ) (p q : ℕ × ℕ) : Prop :=
  max p.1 q.1 - min p.1 q.1 + (max p.2 q.2 - min p.2 q.2) ≤ n

/-- A base of the lidar liquid of a profile. -/
def LiquidBase (liquid : ℕ → Bool) (b : ℕ) : Prop := liquid b = true ∧ ∀ i, i + 1 = b → liquid i = false

/-- A gate with drizzle: falling particles that are not frozen and not in a liquid layer. -/
def DrizzlePixel (bits : CategoryBits) (t h : ℕ) : Prop :=
  bits.falling t h = true ∧ bits.droplet t h = false ∧ bits.freezing t h = false

/-- A gate with ice or supercooled liquid. -/
def Frozen (bits : CategoryBits) (t h : ℕ) : Prop :=
  bits.freezing t h = true ∧ (bits.falling t h = true ∨ bits.droplet t h = true)

/-- At least six of the gates below `y` have falling particles. -/
def SixFallingBelow (falling : ℕ → Bool) (y : ℕ) : Prop :=
  6 ≤ ((Finset.range y).filter fun h => falling h = true).card

/-- Profile `t` is one of the five before or after profile `x` or `x` itself, counted around the ends of the day. -/
def Beside (nT x t : ℕ) : Prop := t < nT ∧ (max t x - min t x ≤ 5 ∨ nT + x ≤ t + 5)

end Spec

/-- C44. Radar liquid is removed exactly below the bases of lidar liquid. -/
theorem C44_false_radar_liquid (nT nH : ℕ) (fromRadar fromLidar : Grid Bool) (t h : ℕ) (ht : t < nT) :
    removeFalseRadarLiquid nT nH fromRadar fromLidar t h = true ↔
      fromRadar t h = true ∧ ¬ ∃ b < nH, h < b ∧ Spec.LiquidBase (fromLidar t) b := by
  have key : ∀ (l : List Pixel) (g : Grid Bool),
      (l.foldl (fun (liquid : Grid Bool) (px : Pixel) =>
        fun t h => if t = px.1 ∧ h < px.2 then false else liquid t h) g) t h = true ↔
      g t h = true ∧ ¬ ∃ px ∈ l, t = px.1 ∧ h < px.2 := by
    intro l
    induction l with
    | nil => intro g; simp
    | cons px l ih =>
      intro g
      rw [List.foldl_cons, ih]
      by_cases hc : t = px.1 ∧ h < px.2
      · rw [if_pos hc]
        simp only [Bool.false_eq_true, false_and, false_iff, not_and, not_not]
        exact fun _ => ⟨px, List.mem_cons_self, hc⟩
      · rw [if_neg hc]
        refine and_congr_right fun _ => not_congr ⟨?_, ?_⟩
        · rintro ⟨q, h1, h2⟩
          exact ⟨q, List.mem_cons_of_mem _ h1, h2⟩
        · rintro ⟨q, h1, h2⟩
          rcases List.mem_cons.1 h1 with rfl | h1
          · exact absurd h2 hc
          · exact ⟨q, h1, h2⟩
  unfold removeFalseRadarLiquid
  rw [key]
  refine and_congr_right fun _ => not_congr ⟨?_, ?_⟩
  · rintro ⟨px, h1, rfl, h3⟩
    obtain ⟨h4, h5, h6⟩ := (mem_whereGrid _ _ _ _).1 h1
    refine ⟨px.2, h5, h3, ?_⟩
    have := (findCloudBasesRow_iff (fromLidar px.1) px.2).1 h6
    exact ⟨this.1, fun i hi => by
      rcases this.2 with h0 | h0
      · omega
      · rw [← hi] at h0
        simpa using h0⟩
  · rintro ⟨b, h1, h2, h3⟩
    refine ⟨(t, b), (mem_whereGrid _ _ _ _).2 ⟨ht, h1, ?_⟩, rfl, h2⟩
    refine (findCloudBasesRow_iff (fromLidar t) b).2 ⟨h3.1, ?_⟩
    rcases Nat.eq_zero_or_pos b with h0 | h0
    · exact .inl h0
    · exact .inr (h3.2 (b - 1) (by omega))

section
variable {α : Type} [Field α] [LinearOrder α]

/-- C44. A melting pixel is added exactly where ice or supercooled liquid lies on a gate with drizzle, in profiles with
a liquid water path above 5 g m-2 or none; nothing else changes. -/
theorem C44_undetected_melting (lwp : ℕ → Option α) (bits : CategoryBits) :
    (∀ t h, (fixUndetectedMelting lwp bits).melting t h = true ↔ bits.melting t h = true ∨
      ((∃ i, i + 1 = h ∧ Spec.DrizzlePixel bits t i) ∧ Spec.Frozen bits t h ∧
        ∀ x, lwp t = some x → 5 / 1000 < x)) ∧
    (fixUndetectedMelting lwp bits).droplet = bits.droplet ∧ (fixUndetectedMelting lwp bits).falling = bits.falling ∧
    (fixUndetectedMelting lwp bits).freezing = bits.freezing ∧
    (fixUndetectedMelting lwp bits).insect = bits.insect ∧ (fixUndetectedMelting lwp bits).aerosol = bits.aerosol := by
  refine ⟨?_, rfl, rfl, rfl, rfl, rfl⟩
  intro t h
  have hallow : ((lwp t).elim true fun x => decide (5 / 1000 < x)) = true ↔ ∀ x, lwp t = some x → 5 / 1000 < x := by
    cases lwp t <;> simp
  have htrans : ∀ i, isTransition (drizzleAndFalling bits t i) (drizzleAndFalling bits t (i + 1)) = true ↔
      Spec.DrizzlePixel bits t i ∧ Spec.Frozen bits t (i + 1) := by
    intro i
    unfold Spec.DrizzlePixel Spec.Frozen drizzleAndFalling
    simp only [Grid.assign]
    generalize bits.falling t i = f1
    generalize bits.droplet t i = d1
    generalize bits.freezing t i = z1
    generalize bits.falling t (i + 1) = f2
    generalize bits.droplet t (i + 1) = d2
    generalize bits.freezing t (i + 1) = z2
    revert f1 d1 z1 f2 d2 z2
    decide
  unfold fixUndetectedMelting
  simp only [Grid.assign, cond_eq_ite]
  cases h with
  | zero =>
    simp
  | succ i =>
    rw [← hallow]
    have := htrans i
    simp only [Nat.add_sub_cancel, Nat.add_right_cancel_iff, exists_eq_left]
    rw [← and_assoc, ← this]
    generalize isTransition (drizzleAndFalling bits t i) (drizzleAndFalling bits t (i + 1)) = x
    generalize ((lwp t).elim true fun x => decide (5 / 1000 < x)) = y
    generalize bits.melting t (i + 1) = z
    have h1 : decide (1 ≤ i + 1) = true := by simp
    rw [h1]
    revert x y z
    decide

end

/-! The insects around the melting layer. -/

theorem wrapIndex_iff (nT x t : ℕ) (hx : x + 5 < nT) :
    ((List.range 11).any fun k => decide (t = wrapIndex nT x k)) = true ↔ Spec.Beside nT x t := by
  simp only [List.any_eq_true, List.mem_range, decide_eq_true_eq]
  unfold wrapIndex Spec.Beside
  constructor
  · rintro ⟨k, hk, h⟩
    split at h <;> omega
  · rintro ⟨h1, h2⟩
    rcases Nat.lt_or_ge t (nT + x - 5) with h | h
    · refine ⟨t + 5 - x, by omega, ?_⟩
      rw [if_pos (by omega)]
      omega
    · rcases h2 with h2 | h2
      · refine ⟨t + 5 - x, by omega, ?_⟩
        rw [if_pos (by omega)]
        omega
      · refine ⟨t + 5 - nT - x, by omega, ?_⟩
        rw [if_neg (by omega)]
        omega

/-- Pixel (t, h) is changed by the melting pixel `px`, if enough falling pixels are below that. -/
def Spec.Converts (nT nH : ℕ) (insect : Grid Bool) (px : Pixel) (t h : ℕ) : Prop :=
  (t = px.1 ∧ h < px.2 ∧ px.2 ≤ h + 5 ∧ insect t h = true) ∨
  (px.1 + 5 < nT ∧ Spec.Beside nT px.1 t ∧ insect t px.2 = true ∧ px.2 ≤ h + 1 ∧ h ≤ px.2 + 1 ∧ h < nH)

theorem nDrizzle_iff (f : ℕ → Bool) (y : ℕ) :
    ¬ ((List.range y).filter fun h => f h).length ≤ 5 ↔ Spec.SixFallingBelow f y := by
  unfold Spec.SixFallingBelow
  have : ((List.range y).filter fun h => f h).length = ((Finset.range y).filter fun h => f h = true).card := by
    rw [← List.toFinset_card_of_nodup (List.Nodup.filter _ List.nodup_range)]
    congr 1
    ext i
    simp
  rw [this]
  omega

theorem six_le {f : ℕ → Bool} {y : ℕ} (h : Spec.SixFallingBelow f y) : 6 ≤ y := by
  unfold Spec.SixFallingBelow at h
  have := Finset.card_filter_le (Finset.range y) fun h => f h = true
  rw [Finset.card_range] at this
  omega

/-- One melting pixel. -/
theorem filterInsectsAt_iff (nT nH : ℕ) (original : Grid Bool) (st : Grid Bool × Grid Bool) (px : Pixel) (t h : ℕ) :
    (Spec.SixFallingBelow (st.1 px.1) px.2 ∧ Spec.Converts nT nH original px t h →
      (filterInsectsAt nT nH original st px).1 t h = true ∧ (filterInsectsAt nT nH original st px).2 t h = false) ∧
    (¬ (Spec.SixFallingBelow (st.1 px.1) px.2 ∧ Spec.Converts nT nH original px t h) →
      (filterInsectsAt nT nH original st px).1 t h = st.1 t h ∧
      (filterInsectsAt nT nH original st px).2 t h = st.2 t h) := by
  have hsix := nDrizzle_iff (st.1 px.1) px.2
  unfold filterInsectsAt
  by_cases hn : ((List.range px.2).filter fun h => st.1 px.1 h).length ≤ 5
  · have : ¬ Spec.SixFallingBelow (st.1 px.1) px.2 := fun h => hsix.2 h hn
    refine ⟨fun h => absurd h.1 this, fun _ => ?_⟩
    simp only [hn, if_true]
    exact ⟨trivial, trivial⟩
  · have h6 := hsix.1 hn
    have hy := six_le h6
    simp only [hn, if_false, h6, true_and]
    have hbelow : (decide (t = px.1 ∧ px.2 - 5 ≤ h ∧ h < px.2) && original t h) = true ↔
        t = px.1 ∧ h < px.2 ∧ px.2 ≤ h + 5 ∧ original t h = true := by
      rw [Bool.and_eq_true, decide_eq_true_eq]
      constructor
      · rintro ⟨⟨h1, h2, h3⟩, h4⟩
        exact ⟨h1, h3, by omega, h4⟩
      · rintro ⟨h1, h2, h3, h4⟩
        exact ⟨⟨h1, by omega, h2⟩, h4⟩
    unfold Spec.Converts
    by_cases hT : nT ≤ px.1 + 5
    · have hx : ¬ px.1 + 5 < nT := by omega
      simp only [hT, if_true, Grid.assign, hx, false_and, or_false]
      rw [← hbelow]
      generalize (decide (t = px.1 ∧ px.2 - 5 ≤ h ∧ h < px.2) && original t h) = b
      cases b <;> simp
    · have hx : px.1 + 5 < nT := by omega
      have hw := wrapIndex_iff nT px.1 t hx
      have hbeside : ((List.range 11).any (fun k => decide (t = wrapIndex nT px.1 k)) && original t px.2 &&
          decide (px.2 - 1 ≤ h ∧ h < px.2 + 2 ∧ h < nH)) = true ↔
          Spec.Beside nT px.1 t ∧ original t px.2 = true ∧ px.2 ≤ h + 1 ∧ h ≤ px.2 + 1 ∧ h < nH := by
        rw [Bool.and_eq_true, Bool.and_eq_true, hw, decide_eq_true_eq, and_assoc]
        refine and_congr_right fun _ => and_congr_right fun _ => ?_
        omega
      simp only [hT, if_false, Grid.assign, hx, true_and]
      rw [← hbelow, ← hbeside]
      generalize (decide (t = px.1 ∧ px.2 - 5 ≤ h ∧ h < px.2) && original t h) = b
      generalize ((List.range 11).any (fun k => decide (t = wrapIndex nT px.1 k)) && original t px.2 &&
          decide (px.2 - 1 ≤ h ∧ h < px.2 + 2 ∧ h < nH)) = c
      cases b <;> cases c <;> simp

theorem six_mono {f g : ℕ → Bool} {y : ℕ} (hfg : ∀ h, f h = true → g h = true) (h : Spec.SixFallingBelow f y) :
    Spec.SixFallingBelow g y := by
  unfold Spec.SixFallingBelow at h ⊢
  refine le_trans h (Finset.card_le_card ?_)
  intro i hi
  rw [Finset.mem_filter] at hi ⊢
  exact ⟨hi.1, hfg i hi.2⟩

/-- The whole loop: sound and, with the falling pixels at the start, complete. -/
theorem filterInsects_loop (nT nH : ℕ) (original : Grid Bool) (l : List Pixel) :
    ∀ st : Grid Bool × Grid Bool,
      let r := l.foldl (filterInsectsAt nT nH original) st
      (∀ t h, (r.1 t h = st.1 t h ∧ r.2 t h = st.2 t h) ∨ (r.1 t h = true ∧ r.2 t h = false ∧
        ∃ px ∈ l, 6 ≤ px.2 ∧ Spec.Converts nT nH original px t h)) ∧
      (∀ px ∈ l, Spec.SixFallingBelow (st.1 px.1) px.2 → ∀ t h, Spec.Converts nT nH original px t h →
        r.1 t h = true ∧ r.2 t h = false) := by
  induction l with
  | nil => intro st; exact ⟨fun t h => Or.inl ⟨rfl, rfl⟩, fun px h => absurd h (by simp)⟩
  | cons p l ih =>
    intro st
    rw [List.foldl_cons]
    obtain ⟨ih1, ih2⟩ := ih (filterInsectsAt nT nH original st p)
    have hone := filterInsectsAt_iff nT nH original st p
    have hstep : ∀ t h, ((filterInsectsAt nT nH original st p).1 t h = st.1 t h ∧
        (filterInsectsAt nT nH original st p).2 t h = st.2 t h) ∨
        ((filterInsectsAt nT nH original st p).1 t h = true ∧ (filterInsectsAt nT nH original st p).2 t h = false ∧
          6 ≤ p.2 ∧ Spec.Converts nT nH original p t h) := by
      intro t h
      by_cases hc : Spec.SixFallingBelow (st.1 p.1) p.2 ∧ Spec.Converts nT nH original p t h
      · exact Or.inr ⟨((hone t h).1 hc).1, ((hone t h).1 hc).2, six_le hc.1, hc.2⟩
      · exact Or.inl ((hone t h).2 hc)
    constructor
    · intro t h
      rcases ih1 t h with ⟨a, b⟩ | ⟨a, b, q, hq, c⟩
      · rcases hstep t h with ⟨a', b'⟩ | ⟨a', b', c'⟩
        · exact Or.inl ⟨a.trans a', b.trans b'⟩
        · exact Or.inr ⟨a.trans a', b.trans b', p, List.mem_cons_self, c'⟩
      · exact Or.inr ⟨a, b, q, List.mem_cons_of_mem _ hq, c⟩
    · intro px hpx h6 t h hc
      rcases List.mem_cons.1 hpx with rfl | hpx
      · obtain ⟨a, b⟩ := (hone t h).1 ⟨h6, hc⟩
        rcases ih1 t h with ⟨a', b'⟩ | ⟨a', b', -⟩
        · exact ⟨a'.trans a, b'.trans b⟩
        · exact ⟨a', b'⟩
      · refine ih2 px hpx (six_mono (fun i hi => ?_) h6) t h hc
        rcases hstep px.1 i with ⟨a, -⟩ | ⟨a, -⟩
        · rw [a]; exact hi
        · exact a

/-- The insects at or above a melting pixel. -/
def Spec.InsectAbove (bits : CategoryBits) (t h : ℕ) : Prop :=
  bits.insect t h = true ∧ ∃ i ≤ h, bits.melting t i = true

/-- An insect below all melting pixels. -/
def Spec.InsectBelow (bits : CategoryBits) (t h : ℕ) : Prop :=
  bits.insect t h = true ∧ ∀ i ≤ h, bits.melting t i = false

/-- C44. Insects around the melting layer. A pixel is unchanged, or turned into falling and not insect. It is changed
only if it is an insect at or above a melting pixel, an insect in the five gates below one, or at most one gate from
an insect in the height of a melting pixel in the five profiles before or after (around the ends of the day, and not
in the last five profiles). It is changed if it is an insect at or above a melting pixel, or in one of
the other two cases if there are six falling pixels below the melting pixel. The other bits do not change. -/
theorem C44_filter_insects (nT nH : ℕ) (bits : CategoryBits) :
    (∀ t h, ((filterInsects nT nH bits).falling t h = bits.falling t h ∧
        (filterInsects nT nH bits).insect t h = bits.insect t h) ∨
      ((filterInsects nT nH bits).falling t h = true ∧ (filterInsects nT nH bits).insect t h = false ∧
        (Spec.InsectAbove bits t h ∨ ∃ x y, x < nT ∧ 6 ≤ y ∧ y < nH ∧ bits.melting x y = true ∧
          ((t = x ∧ h < y ∧ y ≤ h + 5 ∧ Spec.InsectBelow bits t h) ∨
            (x + 5 < nT ∧ Spec.Beside nT x t ∧ Spec.InsectBelow bits t y ∧ y ≤ h + 1 ∧ h ≤ y + 1 ∧ h < nH))))) ∧
    (∀ t h, Spec.InsectAbove bits t h →
      (filterInsects nT nH bits).falling t h = true ∧ (filterInsects nT nH bits).insect t h = false) ∧
    (∀ x y, x < nT → y < nH → bits.melting x y = true → Spec.SixFallingBelow (bits.falling x) y → ∀ t h,
      ((t = x ∧ h < y ∧ y ≤ h + 5 ∧ Spec.InsectBelow bits t h) ∨
        (x + 5 < nT ∧ Spec.Beside nT x t ∧ Spec.InsectBelow bits t y ∧ y ≤ h + 1 ∧ h ≤ y + 1 ∧ h < nH)) →
      (filterInsects nT nH bits).falling t h = true ∧ (filterInsects nT nH bits).insect t h = false) ∧
    (filterInsects nT nH bits).droplet = bits.droplet ∧ (filterInsects nT nH bits).freezing = bits.freezing ∧
    (filterInsects nT nH bits).melting = bits.melting ∧ (filterInsects nT nH bits).aerosol = bits.aerosol := by
  have hff := C25_ffill_mask bits.melting
  obtain ⟨ind, hind⟩ : ∃ ind : Grid Bool, ind = fun t h => bits.insect t h && ffillGrid bits.melting false t h :=
    ⟨_, rfl⟩
  have habove : ∀ t h, ind t h = true ↔ Spec.InsectAbove bits t h := by
    intro t h
    rw [hind]
    simp only [Bool.and_eq_true, hff]
    exact Iff.rfl
  have hbelow : ∀ t h, bits.insect.assign ind false t h = true ↔ Spec.InsectBelow bits t h := by
    intro t h
    have := habove t h
    unfold Spec.InsectAbove at this
    unfold Spec.InsectBelow
    simp only [Grid.assign, cond_eq_ite]
    by_cases hi : ind t h = true
    · rw [if_pos hi]
      obtain ⟨i, h1, h2⟩ := (this.1 hi).2
      simp only [Bool.false_eq_true, false_iff, not_and, not_forall]
      exact fun _ => ⟨i, h1, by rw [h2]; simp⟩
    · rw [if_neg hi]
      refine ⟨fun hh => ⟨hh, fun i h1 => ?_⟩, fun hh => hh.1⟩
      by_contra hm
      exact hi (this.2 ⟨hh, i, h1, by simpa using hm⟩)
  have hconv : ∀ (px : Pixel) t h, Spec.Converts nT nH (bits.insect.assign ind false) px t h ↔
      ((t = px.1 ∧ h < px.2 ∧ px.2 ≤ h + 5 ∧ Spec.InsectBelow bits t h) ∨
        (px.1 + 5 < nT ∧ Spec.Beside nT px.1 t ∧ Spec.InsectBelow bits t px.2 ∧ px.2 ≤ h + 1 ∧ h ≤ px.2 + 1 ∧
          h < nH)) := by
    intro px t h
    unfold Spec.Converts
    rw [hbelow, hbelow]
  obtain ⟨l1, l2⟩ := filterInsects_loop nT nH (bits.insect.assign ind false) (whereGrid nT nH bits.melting)
    (bits.falling.assign ind true, bits.insect.assign ind false)
  have hres : filterInsects nT nH bits = { bits with
      falling := ((whereGrid nT nH bits.melting).foldl (filterInsectsAt nT nH (bits.insect.assign ind false))
        (bits.falling.assign ind true, bits.insect.assign ind false)).1
      insect := ((whereGrid nT nH bits.melting).foldl (filterInsectsAt nT nH (bits.insect.assign ind false))
        (bits.falling.assign ind true, bits.insect.assign ind false)).2 } := by
    rw [hind]
    rfl
  rw [hres]
  simp only
  have hab2 : ∀ t h, Spec.InsectAbove bits t h →
      ((whereGrid nT nH bits.melting).foldl (filterInsectsAt nT nH (bits.insect.assign ind false))
        (bits.falling.assign ind true, bits.insect.assign ind false)).1 t h = true ∧
      ((whereGrid nT nH bits.melting).foldl (filterInsectsAt nT nH (bits.insect.assign ind false))
        (bits.falling.assign ind true, bits.insect.assign ind false)).2 t h = false := by
    intro t h hab
    rcases l1 t h with ⟨a, b⟩ | ⟨a, b, -⟩
    · have hi := (habove t h).2 hab
      rw [a, b]
      simp only [Grid.assign, cond_eq_ite]
      rw [if_pos hi, if_pos hi]
      exact ⟨rfl, rfl⟩
    · exact ⟨a, b⟩
  refine ⟨?_, hab2, ?_, trivial, trivial, trivial, trivial⟩
  · intro t h
    by_cases hab : Spec.InsectAbove bits t h
    · exact Or.inr ⟨(hab2 t h hab).1, (hab2 t h hab).2, Or.inl hab⟩
    · rcases l1 t h with ⟨a, b⟩ | ⟨a, b, px, hpx, h6, hc⟩
      · have hi : ¬ ind t h = true := fun hi => hab ((habove t h).1 hi)
        left
        rw [a, b]
        simp only [Grid.assign, cond_eq_ite]
        rw [if_neg hi, if_neg hi]
        exact ⟨rfl, rfl⟩
      · obtain ⟨q1, q2, q3⟩ := (mem_whereGrid _ _ _ _).1 hpx
        exact Or.inr ⟨a, b, Or.inr ⟨px.1, px.2, q1, h6, q2, q3, (hconv px t h).1 hc⟩⟩
  · intro x y hx hy hm h6 t h hc
    refine l2 (x, y) ((mem_whereGrid _ _ _ _).2 ⟨hx, hy, hm⟩) (six_mono (fun i hi => ?_) h6) t h
      ((hconv (x, y) t h).2 hc)
    simp only [Grid.assign, cond_eq_ite]
    split
    · rfl
    · exact hi

/-! The single passes. -/

section
variable {α : Type} [Field α] [LinearOrder α]

/-- C44. Droplets below -38 C become falling particles; nothing else changes. -/
theorem C44_super_cold (tw : Grid α) (bits : CategoryBits) :
    (∀ t h, ((fixSuperColdLiquid tw bits).droplet t h = true ↔
        bits.droplet t h = true ∧ ¬ tw t h < 27316 / 100 - 38) ∧
      ((fixSuperColdLiquid tw bits).falling t h = true ↔
        bits.falling t h = true ∨ (bits.droplet t h = true ∧ tw t h < 27316 / 100 - 38))) ∧
    (fixSuperColdLiquid tw bits).freezing = bits.freezing ∧ (fixSuperColdLiquid tw bits).melting = bits.melting ∧
    (fixSuperColdLiquid tw bits).aerosol = bits.aerosol ∧ (fixSuperColdLiquid tw bits).insect = bits.insect := by
  refine ⟨fun t h => ?_, rfl, rfl, rfl, rfl⟩
  unfold fixSuperColdLiquid zeroCelsius
  simp only [Grid.assign]
  by_cases hc : tw t h < 27316 / 100 - 38
  · simp only [hc, decide_true, Bool.true_and]
    cases bits.droplet t h <;> simp
  · simp only [hc, decide_false, Bool.false_and]
    simp

/-- The pixels with ice that look like insects: high depolarisation, warmer than -10 C and below all melting. -/
def Spec.HighLdrIce (ldr : Grid (Option α)) (tw : Grid α) (bits : CategoryBits) (t h : ℕ) : Prop :=
  bits.falling t h = true ∧ bits.freezing t h = true ∧ bits.droplet t h = false ∧
    (∃ x, ldr t h = some x ∧ -13 < x) ∧ 27316 / 100 - 10 < tw t h ∧ ∀ i ≤ h, bits.melting t i = false

theorem highLdr_iff (ldr : Grid (Option α)) (tw : Grid α) (bits : CategoryBits) (t h : ℕ) :
    (bits.falling t h && bits.freezing t h && !bits.droplet t h && !bits.melting t h &&
      ((ldr t h).elim false fun x => decide (-13 < x)) && decide (zeroCelsius - 10 < tw t h) &&
      !ffillGrid bits.melting false t h) = true ↔ Spec.HighLdrIce ldr tw bits t h := by
  have hff := C25_ffill_mask bits.melting t h
  have hff' : (!ffillGrid bits.melting false t h) = true ↔ ∀ i ≤ h, bits.melting t i = false := by
    rw [Bool.not_eq_true', ← Bool.not_eq_true, hff]
    push Not
    simp only [Bool.not_eq_true]
  have hl : ((ldr t h).elim false fun x => decide (-13 < x)) = true ↔ ∃ x, ldr t h = some x ∧ -13 < x := by
    cases ldr t h <;> simp
  unfold Spec.HighLdrIce zeroCelsius
  simp only [Bool.and_eq_true, hff', hl, decide_eq_true_eq, Bool.not_eq_true']
  constructor
  · rintro ⟨⟨⟨⟨⟨⟨h1, h2⟩, h3⟩, h4⟩, h5⟩, h6⟩, h7⟩
    exact ⟨h1, h2, h3, h5, h6, h7⟩
  · rintro ⟨h1, h2, h3, h5, h6, h7⟩
    exact ⟨⟨⟨⟨⟨⟨h1, h2⟩, h3⟩, h7 h le_rfl⟩, h5⟩, h6⟩, h7⟩

/-- C44. Such ice is turned into insects, and aerosol where the lidar has a signal; without depolarisation nothing
changes. -/
theorem C44_high_ldr (ldr : Option (Grid (Option α))) (tw : Grid α) (beta : Grid (Option α)) (bits : CategoryBits) :
    (ldr = none → reclassifyHighLdr ldr tw beta bits = bits) ∧
    (∀ l, ldr = some l → ∀ t h,
      ((reclassifyHighLdr ldr tw beta bits).insect t h = true ↔
        bits.insect t h = true ∨ Spec.HighLdrIce l tw bits t h) ∧
      ((reclassifyHighLdr ldr tw beta bits).falling t h = true ↔
        bits.falling t h = true ∧ ¬ Spec.HighLdrIce l tw bits t h) ∧
      ((reclassifyHighLdr ldr tw beta bits).aerosol t h = true ↔
        bits.aerosol t h = true ∨ (Spec.HighLdrIce l tw bits t h ∧ beta t h ≠ none))) ∧
    (reclassifyHighLdr ldr tw beta bits).droplet = bits.droplet ∧
    (reclassifyHighLdr ldr tw beta bits).freezing = bits.freezing ∧
    (reclassifyHighLdr ldr tw beta bits).melting = bits.melting := by
  refine ⟨?_, ?_, ?_, ?_, ?_⟩
  · rintro rfl; rfl
  · rintro l rfl t h
    have hb : (beta t h).isSome = true ↔ beta t h ≠ none := Option.isSome_iff_ne_none
    have hi := highLdr_iff l tw bits t h
    rw [← hi, ← hb]
    unfold reclassifyHighLdr
    simp only [Grid.assign]
    generalize (bits.falling t h && bits.freezing t h && !bits.droplet t h && !bits.melting t h &&
      ((l t h).elim false fun x => decide (-13 < x)) && decide (zeroCelsius - 10 < tw t h) &&
      !ffillGrid bits.melting false t h) = x
    generalize bits.falling t h = a
    generalize bits.insect t h = b
    generalize bits.aerosol t h = c
    generalize (beta t h).isSome = d
    revert x a b c d
    decide
  all_goals cases ldr <;> rfl

end

theorem dilate_iff (nT nH : ℕ) (m : Grid Bool) (t h : ℕ) (ht : t < nT) (hh : h < nH) :
    dilate nT nH m t h = true ↔ ∃ q, Spec.IsSet nT nH m q ∧ Spec.Within 1 (t, h) q := by
  unfold dilate Spec.IsSet Spec.Within
  simp only [Bool.or_eq_true, Bool.and_eq_true, decide_eq_true_eq]
  constructor
  · rintro ((((h1 | ⟨h1, h2⟩) | ⟨h1, h2⟩) | ⟨h1, h2⟩) | ⟨h1, h2⟩)
    · exact ⟨(t, h), ⟨ht, hh, h1⟩, by simp⟩
    · exact ⟨(t - 1, h), ⟨by simp only; omega, hh, h2⟩, by simp only; omega⟩
    · exact ⟨(t + 1, h), ⟨h1, hh, h2⟩, by simp only; omega⟩
    · exact ⟨(t, h - 1), ⟨ht, by simp only; omega, h2⟩, by simp only; omega⟩
    · exact ⟨(t, h + 1), ⟨ht, h1, h2⟩, by simp only; omega⟩
  · rintro ⟨⟨a, b⟩, ⟨h1, h2, h3⟩, h4⟩
    simp only at h1 h2 h3 h4
    have : (a = t ∧ b = h) ∨ (a = t - 1 ∧ b = h ∧ 0 < t) ∨ (a = t + 1 ∧ b = h) ∨ (a = t ∧ b = h - 1 ∧ 0 < h) ∨
        (a = t ∧ b = h + 1) := by omega
    rcases this with ⟨rfl, rfl⟩ | ⟨rfl, rfl, h5⟩ | ⟨rfl, rfl⟩ | ⟨rfl, rfl, h5⟩ | ⟨rfl, rfl⟩
    · exact Or.inl (Or.inl (Or.inl (Or.inl h3)))
    · exact Or.inl (Or.inl (Or.inl (Or.inr ⟨h5, h3⟩)))
    · exact Or.inl (Or.inl (Or.inr ⟨h1, h3⟩))
    · exact Or.inl (Or.inr ⟨h5, h3⟩)
    · exact Or.inr ⟨h2, h3⟩

/-- C44. `n` iterations of the dilation set the pixels at most `n` steps from a set pixel. -/
theorem C44_dilation (nT nH : ℕ) (m : Grid Bool) (n : ℕ) : ∀ t h, t < nT → h < nH →
    ((dilate nT nH)^[n] m t h = true ↔ ∃ q, Spec.IsSet nT nH m q ∧ Spec.Within n (t, h) q) := by
  induction n with
  | zero =>
    intro t h ht hh
    rw [Function.iterate_zero, id]
    constructor
    · intro hm
      exact ⟨(t, h), ⟨ht, hh, hm⟩, by unfold Spec.Within; simp⟩
    · rintro ⟨⟨a, b⟩, ⟨h1, h2, h3⟩, h4⟩
      unfold Spec.Within at h4
      simp only at h1 h2 h3 h4
      have ha : a = t := by omega
      have hb : b = h := by omega
      rw [← ha, ← hb]; exact h3
  | succ n ih =>
    intro t h ht hh
    rw [Function.iterate_succ_apply', dilate_iff nT nH _ t h ht hh]
    constructor
    · rintro ⟨⟨a, b⟩, ⟨h1, h2, h3⟩, h4⟩
      obtain ⟨q, h5, h6⟩ := (ih a b h1 h2).1 h3
      refine ⟨q, h5, ?_⟩
      unfold Spec.Within at *
      simp only at *
      omega
    · rintro ⟨⟨a, b⟩, ⟨h1, h2, h3⟩, h4⟩
      unfold Spec.Within at h4
      simp only at h1 h2 h3 h4
      obtain ⟨r, r1, r2, r3, r4⟩ : ∃ r : ℕ × ℕ, r.1 < nT ∧ r.2 < nH ∧ Spec.Within 1 (t, h) r ∧
          Spec.Within n r (a, b) := by
        unfold Spec.Within
        rcases Nat.lt_trichotomy t a with h5 | h5 | h5
        · exact ⟨(t + 1, h), by simp only; omega, hh, by simp only; omega, by simp only; omega⟩
        · rcases Nat.lt_trichotomy h b with h6 | h6 | h6
          · exact ⟨(t, h + 1), ht, by simp only; omega, by simp only; omega, by simp only; omega⟩
          · exact ⟨(t, h), ht, hh, by simp only; omega, by simp only; omega⟩
          · exact ⟨(t, h - 1), ht, by simp only; omega, by simp only; omega, by simp only; omega⟩
        · exact ⟨(t - 1, h), by simp only; omega, hh, by simp only; omega, by simp only; omega⟩
      exact ⟨r, ⟨r1, r2, (ih r.1 r.2 r1 r2).2 ⟨(a, b), ⟨h1, h2, h3⟩, r4⟩⟩, r3⟩

/-- An insect in the freezing region at most two steps from a falling object of at least 100 pixels. -/
def Spec.FrozenInsect (nT nH : ℕ) (bits : CategoryBits) (t h : ℕ) : Prop :=
  bits.insect t h = true ∧ bits.freezing t h = true ∧
    ∃ q, Spec.IsSet nT nH bits.falling q ∧ Spec.Within 2 (t, h) q ∧
      Spec.ObjectLargerThan Spec.FaceNeighbours nT nH bits.falling 99 q

/-- C44. Those insects become falling particles and lose the aerosol flag; nothing else changes. -/
theorem C44_insects_in_falling (nT nH : ℕ) (bits : CategoryBits) :
    (∀ t h, t < nT → h < nH →
      ((filterInsectsInFalling nT nH bits).falling t h = true ↔
        bits.falling t h = true ∨ Spec.FrozenInsect nT nH bits t h) ∧
      ((filterInsectsInFalling nT nH bits).insect t h = true ↔
        bits.insect t h = true ∧ ¬ Spec.FrozenInsect nT nH bits t h) ∧
      ((filterInsectsInFalling nT nH bits).aerosol t h = true ↔
        bits.aerosol t h = true ∧ ¬ Spec.FrozenInsect nT nH bits t h)) ∧
    (filterInsectsInFalling nT nH bits).droplet = bits.droplet ∧
    (filterInsectsInFalling nT nH bits).freezing = bits.freezing ∧
    (filterInsectsInFalling nT nH bits).melting = bits.melting := by
  refine ⟨fun t h ht hh => ?_, rfl, rfl, rfl⟩
  have hi : (bits.insect t h && bits.freezing t h &&
      (dilate nT nH)^[2] (removeSmallObjects nT nH bits.falling 99 1) t h) = true ↔
      Spec.FrozenInsect nT nH bits t h := by
    rw [Bool.and_eq_true, Bool.and_eq_true, C44_dilation nT nH _ 2 t h ht hh, and_assoc]
    refine and_congr_right fun _ => and_congr_right fun _ => ⟨?_, ?_⟩
    · rintro ⟨q, ⟨h1, h2, h3⟩, h4⟩
      have := (C28_remove_small_objects_faces nT nH bits.falling 99 q.1 q.2 h1 h2).1 h3
      exact ⟨q, ⟨h1, h2, this.1⟩, h4, this.2⟩
    · rintro ⟨q, ⟨h1, h2, h3⟩, h4, h5⟩
      exact ⟨q, ⟨h1, h2, (C28_remove_small_objects_faces nT nH bits.falling 99 q.1 q.2 h1 h2).2 ⟨h3, h5⟩⟩, h4⟩
  rw [← hi]
  unfold filterInsectsInFalling
  simp only [Grid.assign]
  generalize (bits.insect t h && bits.freezing t h &&
      (dilate nT nH)^[2] (removeSmallObjects nT nH bits.falling 99 1) t h) = x
  generalize bits.falling t h = a
  generalize bits.insect t h = b
  generalize bits.aerosol t h = c
  revert x a b c
  decide

/-- A falling pixel of an object of at most ten pixels. -/
def Spec.Speckle (nT nH : ℕ) (falling : Grid Bool) (t h : ℕ) : Prop :=
  falling t h = true ∧ ¬ Spec.ObjectLargerThan Spec.FaceNeighbours nT nH falling 10 (t, h)

section
variable {α : Type}

/-- C44. Falling objects of at most ten pixels are removed: outside the freezing region they become insects, and
where the lidar has a signal aerosols; nothing else changes. -/
theorem C44_filter_falling (nT nH : ℕ) (beta : Grid (Option α)) (bits : CategoryBits) :
    (∀ t h, t < nT → h < nH →
      ((filterFalling nT nH beta bits).falling t h = true ↔
        bits.falling t h = true ∧ ¬ Spec.Speckle nT nH bits.falling t h) ∧
      ((filterFalling nT nH beta bits).insect t h = true ↔
        bits.insect t h = true ∨ (Spec.Speckle nT nH bits.falling t h ∧ bits.freezing t h = false)) ∧
      ((filterFalling nT nH beta bits).aerosol t h = true ↔
        bits.aerosol t h = true ∨ (Spec.Speckle nT nH bits.falling t h ∧ beta t h ≠ none))) ∧
    (filterFalling nT nH beta bits).droplet = bits.droplet ∧
    (filterFalling nT nH beta bits).freezing = bits.freezing ∧
    (filterFalling nT nH beta bits).melting = bits.melting := by
  refine ⟨fun t h ht hh => ?_, rfl, rfl, rfl⟩
  have hi : (bits.falling t h && !removeSmallObjects nT nH bits.falling 10 1 t h) = true ↔
      Spec.Speckle nT nH bits.falling t h := by
    unfold Spec.Speckle
    rw [Bool.and_eq_true, Bool.not_eq_true', ← Bool.not_eq_true,
      C28_remove_small_objects_faces nT nH bits.falling 10 t h ht hh]
    exact and_congr_right fun h1 => ⟨fun h2 h3 => h2 ⟨h1, h3⟩, fun h2 h3 => h2 h3.2⟩
  have hb : (beta t h).isSome = true ↔ beta t h ≠ none := Option.isSome_iff_ne_none
  rw [← hi, ← hb]
  unfold filterFalling
  simp only [Grid.assign]
  generalize (bits.falling t h && !removeSmallObjects nT nH bits.falling 10 1 t h) = x
  generalize bits.falling t h = a
  generalize bits.insect t h = b
  generalize bits.aerosol t h = c
  generalize bits.freezing t h = d
  generalize (beta t h).isSome = e
  clear * -
  cases x <;> cases d <;> cases e <;> simp

end

/-- C44. Clutter in or next to droplets or falling particles becomes falling particles; nothing else changes. -/
theorem C44_clutter (nT nH : ℕ) (clutter : Grid Bool) (bits : CategoryBits) :
    (∀ t h, t < nT → h < nH →
      ((removeClutterInLiquid nT nH clutter bits).1 t h = true ↔ clutter t h = true ∧
        ∀ q, q.1 < nT → q.2 < nH → Spec.Within 1 (t, h) q →
          bits.droplet q.1 q.2 = false ∧ bits.falling q.1 q.2 = false) ∧
      ((removeClutterInLiquid nT nH clutter bits).2.falling t h = true ↔ bits.falling t h = true ∨
        (clutter t h = true ∧ (removeClutterInLiquid nT nH clutter bits).1 t h = false))) ∧
    (removeClutterInLiquid nT nH clutter bits).2.droplet = bits.droplet ∧
    (removeClutterInLiquid nT nH clutter bits).2.freezing = bits.freezing ∧
    (removeClutterInLiquid nT nH clutter bits).2.melting = bits.melting ∧
    (removeClutterInLiquid nT nH clutter bits).2.aerosol = bits.aerosol ∧
    (removeClutterInLiquid nT nH clutter bits).2.insect = bits.insect := by
  refine ⟨fun t h ht hh => ?_, rfl, rfl, rfl, rfl, rfl⟩
  have hn : dilate nT nH (fun t h => bits.droplet t h || bits.falling t h) t h = true ↔
      ¬ ∀ q : ℕ × ℕ, q.1 < nT → q.2 < nH → Spec.Within 1 (t, h) q →
          bits.droplet q.1 q.2 = false ∧ bits.falling q.1 q.2 = false := by
    rw [dilate_iff nT nH _ t h ht hh]
    constructor
    · rintro ⟨q, ⟨h1, h2, h3⟩, h4⟩ hall
      obtain ⟨a, b⟩ := hall q h1 h2 h4
      have h3 : (bits.droplet q.1 q.2 || bits.falling q.1 q.2) = true := h3
      rw [a, b] at h3
      cases h3
    · intro hc
      push Not at hc
      obtain ⟨q, h1, h2, h3, h4⟩ := hc
      refine ⟨q, ⟨h1, h2, ?_⟩, h3⟩
      show (bits.droplet q.1 q.2 || bits.falling q.1 q.2) = true
      rw [Bool.or_eq_true]
      cases hd : bits.droplet q.1 q.2 with
      | true => exact Or.inl rfl
      | false =>
        right
        have := h4 hd
        simpa using this
  unfold removeClutterInLiquid
  simp only [Grid.assign]
  constructor
  · rw [← not_not (a := ∀ q : ℕ × ℕ, _), ← hn]
    generalize dilate nT nH (fun t h => bits.droplet t h || bits.falling t h) t h = x
    generalize clutter t h = y
    clear * -
    revert x y
    decide
  · generalize dilate nT nH (fun t h => bits.droplet t h || bits.falling t h) t h = x
    generalize clutter t h = y
    generalize bits.falling t h = z
    clear * -
    revert x y z
    decide

/-! The refinement as a whole. -/

section
variable {α : Type} [Field α] [LinearOrder α]

/-- One round of the loop. -/
theorem loop_step (nT nH : ℕ) (lwp : ℕ → Option α) (bits : CategoryBits) :
    let r := filterInsects nT nH (fixUndetectedMelting lwp bits)
    r.droplet = bits.droplet ∧ r.freezing = bits.freezing ∧
    (∀ t h, (r.falling t h = bits.falling t h ∧ r.insect t h = bits.insect t h) ∨
      (r.falling t h = true ∧ r.insect t h = false)) ∧
    (∀ t h, bits.melting t h = true → r.melting t h = true) ∧
    (∀ t h, r.melting t h = true → bits.melting t h = true ∨
      ((∃ i, i + 1 = h ∧ bits.freezing t i = false ∧ bits.droplet t i = false) ∧ bits.freezing t h = true ∧
        ∀ x, lwp t = some x → 5 / 1000 < x)) := by
  intro r
  obtain ⟨m1, m2, m3, m4, m5, m6⟩ := C44_undetected_melting lwp bits
  obtain ⟨f1, f2, f3, f4, f5, f6, f7⟩ := C44_filter_insects nT nH (fixUndetectedMelting lwp bits)
  refine ⟨f4.trans m2, f5.trans m4, fun t h => ?_, fun t h hm => ?_, fun t h hm => ?_⟩
  · rcases f1 t h with ⟨a, b⟩ | ⟨a, b, -⟩
    · rw [m3] at a
      rw [m5] at b
      exact Or.inl ⟨a, b⟩
    · exact Or.inr ⟨a, b⟩
  · show (filterInsects nT nH (fixUndetectedMelting lwp bits)).melting t h = true
    rw [f6]
    exact (m1 t h).2 (Or.inl hm)
  · have hm : (filterInsects nT nH (fixUndetectedMelting lwp bits)).melting t h = true := hm
    rw [f6] at hm
    rcases (m1 t h).1 hm with h1 | ⟨⟨i, hi, hd⟩, hf, hl⟩
    · exact Or.inl h1
    · exact Or.inr ⟨⟨i, hi, hd.2.2, hd.2.1⟩, hf.1, hl⟩

theorem loop_all (nT nH : ℕ) (lwp : ℕ → Option α) (bits : CategoryBits) (n : ℕ) :
    let r := (fun b => filterInsects nT nH (fixUndetectedMelting lwp b))^[n] bits
    r.droplet = bits.droplet ∧ r.freezing = bits.freezing ∧
    (∀ t h, (r.falling t h = bits.falling t h ∧ r.insect t h = bits.insect t h) ∨
      (r.falling t h = true ∧ r.insect t h = false)) ∧
    (∀ t h, bits.melting t h = true → r.melting t h = true) ∧
    (∀ t h, r.melting t h = true → bits.melting t h = true ∨
      ((∃ i, i + 1 = h ∧ bits.freezing t i = false ∧ bits.droplet t i = false) ∧ bits.freezing t h = true ∧
        ∀ x, lwp t = some x → 5 / 1000 < x)) := by
  induction n with
  | zero =>
    exact ⟨rfl, rfl, fun t h => Or.inl ⟨rfl, rfl⟩, fun t h hm => hm, fun t h hm => Or.inl hm⟩
  | succ n ih =>
    rw [Function.iterate_succ_apply']
    generalize (fun b => filterInsects nT nH (fixUndetectedMelting lwp b))^[n] bits = b at ih
    obtain ⟨i1, i2, i3, i4, i5⟩ := ih
    obtain ⟨s1, s2, s3, s4, s5⟩ := loop_step nT nH lwp b
    refine ⟨s1.trans i1, s2.trans i2, fun t h => ?_, fun t h hm => s4 t h (i4 t h hm), fun t h hm => ?_⟩
    · rcases s3 t h with ⟨a, c⟩ | ⟨a, c⟩
      · rcases i3 t h with ⟨a', c'⟩ | ⟨a', c'⟩
        · exact Or.inl ⟨a.trans a', c.trans c'⟩
        · exact Or.inr ⟨a.trans a', c.trans c'⟩
      · exact Or.inr ⟨a, c⟩
    · rcases s5 t h hm with h1 | h1
      · exact i5 t h h1
      · rw [i2, i1] at h1
        exact Or.inr h1

/-- The bits of one pixel through the passes after the loop: `r` is reclassified for its depolarisation, `q` for
large objects near by, `w` is speckle and `x` is removed clutter. -/
theorem pixel_passes (f0 i0 d0 f1 i1 a2 d3 f3 i4 f4 a4 f5 i5 a5 f6 i6 a6 f7 c0 c7 z b s : Bool) {R Q W : Prop}
    (hR : R → f3 = true ∧ d3 = false) (hQ : Q → i4 = true) (hW : W → f5 = true)
    (h0 : ¬ (i0 = true ∧ f0 = true)) (h0' : ¬ (i0 = true ∧ d0 = true))
    (h1 : (f1 = f0 ∧ i1 = i0) ∨ (f1 = true ∧ i1 = false))
    (h2 : a2 = (b && !f1 && !d0))
    (h3 : (d3 = true ↔ d0 = true ∧ ¬ s = true) ∧ (f3 = true ↔ f1 = true ∨ (d0 = true ∧ s = true)))
    (h4 : (i4 = true ↔ i1 = true ∨ R) ∧ (f4 = true ↔ f3 = true ∧ ¬ R) ∧ (a4 = true ↔ a2 = true ∨ (R ∧ b = true)))
    (h5 : (f5 = true ↔ f4 = true ∨ Q) ∧ (i5 = true ↔ i4 = true ∧ ¬ Q) ∧ (a5 = true ↔ a4 = true ∧ ¬ Q))
    (h6 : (f6 = true ↔ f5 = true ∧ ¬ W) ∧ (i6 = true ↔ i5 = true ∨ (W ∧ z = false)) ∧
      (a6 = true ↔ a5 = true ∨ (W ∧ b = true)))
    (h7 : (f7 = true ↔ f6 = true ∨ (c0 = true ∧ c7 = false)) ∧ (c7 = true → c0 = true)) :
    (a6 = true → b = true) ∧ (b = true → d3 = true ∨ f7 = true ∨ a6 = true) ∧
    (f7 = true → i6 = true ∨ a6 = true → c0 = true ∧ c7 = false) ∧
    (c0 = true ∨ i0 = true ∨ f0 = true ∨ d0 = true →
      d3 = true ∨ f7 = true ∨ a6 = true ∨ i6 = true ∨ c7 = true ∨ (z = true ∧ b = false)) ∧
    (i6 = true → d3 = true → W) := by
  subst h2
  refine ⟨?_, ?_, ?_, ?_, ?_⟩
  all_goals grind

/-- The clutter that the refinement gave up: it became falling. -/
def Spec.Removed (before after : Grid Bool) (t h : ℕ) : Prop := before t h = true ∧ after t h = false

/-- C44. The refinement of first estimates where insects are neither falling nor droplets (as the searches for them
guarantee, see `C44_classify`). -/
theorem C44_refine (o : RefineInput α) (bits : CategoryBits)
    (hif : ∀ t < o.nT, ∀ h < o.nH, ¬ (bits.insect t h = true ∧ bits.falling t h = true))
    (hid : ∀ t < o.nT, ∀ h < o.nH, ¬ (bits.insect t h = true ∧ bits.droplet t h = true))
    (t h : ℕ) (ht : t < o.nT) (hh : h < o.nH) :
    let r := (refineBits o bits).2
    let clutter := (refineBits o bits).1
    (r.droplet t h = true ↔ bits.droplet t h = true ∧ ¬ o.tw t h < 27316 / 100 - 38) ∧
    r.freezing t h = bits.freezing t h ∧
    (bits.melting t h = true → r.melting t h = true) ∧
    (r.melting t h = true → bits.melting t h = true ∨
      ((∃ i, i + 1 = h ∧ bits.freezing t i = false ∧ bits.droplet t i = false) ∧ bits.freezing t h = true ∧
        ∀ x, o.lwp t = some x → 5 / 1000 < x)) ∧
    (r.aerosol t h = true → o.beta t h ≠ none) ∧
    (o.beta t h ≠ none → r.droplet t h = true ∨ r.falling t h = true ∨ r.aerosol t h = true) ∧
    (r.falling t h = true → r.insect t h = true ∨ r.aerosol t h = true → Spec.Removed o.clutter clutter t h) ∧
    (o.clutter t h = true ∨ bits.insect t h = true ∨ bits.falling t h = true ∨ bits.droplet t h = true →
      r.droplet t h = true ∨ r.falling t h = true ∨ r.aerosol t h = true ∨ r.insect t h = true ∨
        clutter t h = true ∨ (r.freezing t h = true ∧ o.beta t h = none)) ∧
    (clutter t h = true → o.clutter t h = true ∧ r.falling t h = false ∧
      ∀ q, q.1 < o.nT → q.2 < o.nH → Spec.Within 1 (t, h) q → r.droplet q.1 q.2 = false ∧
        (r.falling q.1 q.2 = true → Spec.Removed o.clutter clutter q.1 q.2)) ∧
    (r.falling t h = true → Spec.Removed o.clutter clutter t h ∨ ∃ large : Grid Bool,
      (∀ t < o.nT, ∀ h < o.nH, large t h = true → r.falling t h = true) ∧
        Spec.ObjectLargerThan Spec.FaceNeighbours o.nT o.nH large 10 (t, h)) := by
  intro r clutter
  have hr : r = (refineBits o bits).2 := rfl
  have hcl : clutter = (refineBits o bits).1 := rfl
  unfold refineBits at hr hcl
  simp only at hr hcl
  obtain ⟨l1, l2, l3, l4, l5⟩ := loop_all o.nT o.nH o.lwp bits 5
  generalize (fun b => filterInsects o.nT o.nH (fixUndetectedMelting o.lwp b))^[5] bits = b1 at *
  obtain ⟨b2, hb2⟩ : ∃ b2, b2 = ({ b1 with aerosol := findAerosols o.beta b1 } : CategoryBits) := ⟨_, rfl⟩
  rw [← hb2] at hr hcl
  have ha2 : b2.aerosol t h = ((o.beta t h).isSome && !b1.falling t h && !b1.droplet t h) := by rw [hb2]; rfl
  have e2d : b2.droplet = b1.droplet := by rw [hb2]
  have e2f : b2.falling = b1.falling := by rw [hb2]
  have e2i : b2.insect = b1.insect := by rw [hb2]
  have e2z : b2.freezing = b1.freezing := by rw [hb2]
  have e2m : b2.melting = b1.melting := by rw [hb2]
  clear hb2
  obtain ⟨s1, s2, s3, s4, s5⟩ := C44_super_cold o.tw b2
  generalize fixSuperColdLiquid o.tw b2 = b3 at *
  obtain ⟨k1, k2, k3, k4, k5⟩ := C44_high_ldr o.ldr o.tw o.beta b3
  generalize hb4 : reclassifyHighLdr o.ldr o.tw o.beta b3 = b4 at *
  obtain ⟨g1, g2, g3, g4⟩ := C44_insects_in_falling o.nT o.nH b4
  generalize filterInsectsInFalling o.nT o.nH b4 = b5 at *
  obtain ⟨w1, w2, w3, w4⟩ := C44_filter_falling o.nT o.nH o.beta b5
  have hf6 : (filterFalling o.nT o.nH o.beta b5).falling =
      fun t h => bif b5.falling t h && !removeSmallObjects o.nT o.nH b5.falling 10 1 t h then false
        else b5.falling t h := rfl
  generalize filterFalling o.nT o.nH o.beta b5 = b6 at *
  obtain ⟨c1, c2, c3, c4, c5, c6⟩ := C44_clutter o.nT o.nH o.clutter b6
  rw [← hr] at c1 c2 c3 c4 c5 c6
  rw [← hcl] at c1
  have hb : (o.beta t h).isSome = true ↔ o.beta t h ≠ none := Option.isSome_iff_ne_none
  have hb' : (o.beta t h).isSome = false ↔ o.beta t h = none := by simp
  have hdrop : ∀ t h, r.droplet t h = true ↔ bits.droplet t h = true ∧ ¬ o.tw t h < 27316 / 100 - 38 := by
    intro t h
    rw [c2, w2, g2, k3, (s1 t h).1, e2d, l1]
  have hfreeze : r.freezing = bits.freezing := by rw [c3, w3, g3, k4, s2, e2z, l2]
  have hmelt : r.melting = b1.melting := by rw [c4, w4, g4, k5, s3, e2m]
  -- the pixel
  obtain ⟨R, hR, hk⟩ : ∃ R : Prop, (R → b3.falling t h = true ∧ b3.droplet t h = false) ∧
      ((b4.insect t h = true ↔ b3.insect t h = true ∨ R) ∧ (b4.falling t h = true ↔ b3.falling t h = true ∧ ¬ R) ∧
        (b4.aerosol t h = true ↔ b3.aerosol t h = true ∨ (R ∧ (o.beta t h).isSome = true))) := by
    rcases hl : o.ldr with _ | l
    · have := k1 hl
      exact ⟨False, fun h => h.elim, by rw [this]; simp⟩
    · obtain ⟨q1, q2, q3⟩ := k2 l hl t h
      rw [← hb] at q3
      exact ⟨Spec.HighLdrIce l o.tw b3 t h, fun h => ⟨h.1, h.2.2.1⟩, q1, q2, q3⟩
  have hpix := pixel_passes (bits.falling t h) (bits.insect t h) (bits.droplet t h) (b1.falling t h) (b1.insect t h)
    (b2.aerosol t h) (b3.droplet t h) (b3.falling t h) (b4.insect t h) (b4.falling t h) (b4.aerosol t h)
    (b5.falling t h) (b5.insect t h) (b5.aerosol t h) (b6.falling t h) (b6.insect t h) (b6.aerosol t h)
    (r.falling t h) (o.clutter t h) (clutter t h) (bits.freezing t h) (o.beta t h).isSome
    (decide (o.tw t h < 27316 / 100 - 38)) (R := R) (Q := Spec.FrozenInsect o.nT o.nH b4 t h)
    (W := Spec.Speckle o.nT o.nH b5.falling t h) hR (fun h => h.1) (fun h => h.1) (hif t ht h hh) (hid t ht h hh)
    (l3 t h) (by rw [ha2, l1])
    (by rw [decide_eq_true_eq]; have := s1 t h; rw [e2d, e2f, l1] at this; exact this)
    (by rw [s5, e2i, s4] at hk; exact hk) (g1 t h ht hh)
    (by have := w1 t h ht hh; rw [← hb, g3, k4, s2, e2z, l2] at this; exact this)
    ⟨(c1 t h ht hh).2, fun hc => ((c1 t h ht hh).1.1 hc).1⟩
  obtain ⟨p1, p2, p3, p4, -⟩ := hpix
  rw [hb] at p1 p2
  rw [hb'] at p4
  have hd3 : r.droplet = b3.droplet := by rw [c2, w2, g2, k3]
  refine ⟨hdrop t h, by rw [hfreeze], fun hm => ?_, fun hm => ?_, ?_, ?_, ?_, ?_, ?_, ?_⟩
  · rw [hmelt]; exact l4 t h hm
  · rw [hmelt] at hm; exact l5 t h hm
  · rw [c5]; exact p1
  · rw [c5, hd3]; exact p2
  · rw [c5, c6]; exact p3
  · rw [c5, c6, hd3, hfreeze]; exact p4
  · intro hc
    obtain ⟨q1, q2⟩ := (c1 t h ht hh).1.1 hc
    refine ⟨q1, ?_, fun q h1 h2 h3 => ?_⟩
    · have := q2 (t, h) ht hh (by unfold Spec.Within; simp)
      by_contra hf
      rcases (c1 t h ht hh).2.1 (by simpa using hf) with h1 | h1
      · rw [this.2] at h1; cases h1
      · rw [hc] at h1; cases h1.2
    · have h4 := q2 q h1 h2 h3
      refine ⟨by rw [c2]; exact h4.1, fun hf => ?_⟩
      rcases (c1 q.1 q.2 h1 h2).2.1 hf with h5 | h5
      · rw [h4.2] at h5; cases h5
      · exact h5
  · intro hf
    rcases (c1 t h ht hh).2.1 hf with h1 | h1
    · right
      refine ⟨b6.falling, fun t ht h hh h1 => (c1 t h ht hh).2.2 (Or.inl h1), ?_⟩
      have h6 : ∀ t < o.nT, ∀ h < o.nH, b6.falling t h = removeSmallObjects o.nT o.nH b5.falling 10 1 t h := by
        intro t ht h hh
        rw [hf6]
        simp only
        have : removeSmallObjects o.nT o.nH b5.falling 10 1 t h = true → b5.falling t h = true := fun h1 =>
          ((C28_remove_small_objects_faces o.nT o.nH b5.falling 10 t h ht hh).1 h1).1
        revert this
        generalize removeSmallObjects o.nT o.nH b5.falling 10 1 t h = x
        generalize b5.falling t h = y
        clear * -
        revert x y
        decide
      obtain ⟨-, hlarge⟩ := (C28_remove_small_objects_faces o.nT o.nH
        (removeSmallObjects o.nT o.nH b5.falling 10 1) 10 t h ht hh).1 (by
          rw [C28_idempotent o.nT o.nH b5.falling 10 t h ht hh, ← h6 t ht h hh]; exact h1)
      obtain ⟨S, hS, hc⟩ := hlarge
      refine ⟨S, fun q hq => ?_, hc⟩
      refine Relation.ReflTransGen.lift id ?_ _ _ (hS q hq)
      rintro a b ⟨n1, n2, n3, n4⟩
      exact ⟨n1, n2, n3, by show b6.falling b.1 b.2 = true; rw [h6 b.1 n2 b.2 n3]; exact n4⟩
    · exact Or.inl h1

end

/-! The refinement as a sequence of passes. -/

section
variable {α : Type} [Field α] [LinearOrder α]

/-- The melting layer pass: what `r` is after `bits`. -/
def Spec.MeltingPass (lwp : ℕ → Option α) (bits r : CategoryBits) : Prop :=
    (∀ t h, r.melting t h = true ↔ bits.melting t h = true ∨
      ((∃ i, i + 1 = h ∧ Spec.DrizzlePixel bits t i) ∧ Spec.Frozen bits t h ∧
        ∀ x, lwp t = some x → 5 / 1000 < x)) ∧
    r.droplet = bits.droplet ∧ r.falling = bits.falling ∧
    r.freezing = bits.freezing ∧
    r.insect = bits.insect ∧ r.aerosol = bits.aerosol

/-- The pass that removes insects near melting. -/
def Spec.InsectPass (nT nH : ℕ) (bits r : CategoryBits) : Prop :=
    (∀ t h, (r.falling t h = bits.falling t h ∧
        r.insect t h = bits.insect t h) ∨
      (r.falling t h = true ∧ r.insect t h = false ∧
        (Spec.InsectAbove bits t h ∨ ∃ x y, x < nT ∧ 6 ≤ y ∧ y < nH ∧ bits.melting x y = true ∧
          ((t = x ∧ h < y ∧ y ≤ h + 5 ∧ Spec.InsectBelow bits t h) ∨
            (x + 5 < nT ∧ Spec.Beside nT x t ∧ Spec.InsectBelow bits t y ∧ y ≤ h + 1 ∧ h ≤ y + 1 ∧ h < nH))))) ∧
    (∀ t h, Spec.InsectAbove bits t h →
      r.falling t h = true ∧ r.insect t h = false) ∧
    (∀ x y, x < nT → y < nH → bits.melting x y = true → Spec.SixFallingBelow (bits.falling x) y → ∀ t h,
      ((t = x ∧ h < y ∧ y ≤ h + 5 ∧ Spec.InsectBelow bits t h) ∨
        (x + 5 < nT ∧ Spec.Beside nT x t ∧ Spec.InsectBelow bits t y ∧ y ≤ h + 1 ∧ h ≤ y + 1 ∧ h < nH)) →
      r.falling t h = true ∧ r.insect t h = false) ∧
    r.droplet = bits.droplet ∧ r.freezing = bits.freezing ∧
    r.melting = bits.melting ∧ r.aerosol = bits.aerosol

/-- The pass that removes super-cold liquid. -/
def Spec.ColdLiquidPass (tw : Grid α) (bits r : CategoryBits) : Prop :=
    (∀ t h, (r.droplet t h = true ↔
        bits.droplet t h = true ∧ ¬ tw t h < 27316 / 100 - 38) ∧
      (r.falling t h = true ↔
        bits.falling t h = true ∨ (bits.droplet t h = true ∧ tw t h < 27316 / 100 - 38))) ∧
    r.freezing = bits.freezing ∧ r.melting = bits.melting ∧
    r.aerosol = bits.aerosol ∧ r.insect = bits.insect

/-- The pass that turns depolarising ice into insects. -/
def Spec.DepolarisationPass (ldr : Option (Grid (Option α))) (tw : Grid α) (beta : Grid (Option α)) (bits r : CategoryBits) : Prop :=
    (ldr = none → r = bits) ∧
    (∀ l, ldr = some l → ∀ t h,
      (r.insect t h = true ↔
        bits.insect t h = true ∨ Spec.HighLdrIce l tw bits t h) ∧
      (r.falling t h = true ↔
        bits.falling t h = true ∧ ¬ Spec.HighLdrIce l tw bits t h) ∧
      (r.aerosol t h = true ↔
        bits.aerosol t h = true ∨ (Spec.HighLdrIce l tw bits t h ∧ beta t h ≠ none))) ∧
    r.droplet = bits.droplet ∧
    r.freezing = bits.freezing ∧
    r.melting = bits.melting

/-- The pass that removes insects near large objects. -/
def Spec.FrozenInsectPass (nT nH : ℕ) (bits r : CategoryBits) : Prop :=
    (∀ t h, t < nT → h < nH →
      (r.falling t h = true ↔
        bits.falling t h = true ∨ Spec.FrozenInsect nT nH bits t h) ∧
      (r.insect t h = true ↔
        bits.insect t h = true ∧ ¬ Spec.FrozenInsect nT nH bits t h) ∧
      (r.aerosol t h = true ↔
        bits.aerosol t h = true ∧ ¬ Spec.FrozenInsect nT nH bits t h)) ∧
    r.droplet = bits.droplet ∧
    r.freezing = bits.freezing ∧
    r.melting = bits.melting

/-- The pass that removes small objects. -/
def Spec.SpecklePass (nT nH : ℕ) (beta : Grid (Option α)) (bits r : CategoryBits) : Prop :=
    (∀ t h, t < nT → h < nH →
      (r.falling t h = true ↔
        bits.falling t h = true ∧ ¬ Spec.Speckle nT nH bits.falling t h) ∧
      (r.insect t h = true ↔
        bits.insect t h = true ∨ (Spec.Speckle nT nH bits.falling t h ∧ bits.freezing t h = false)) ∧
      (r.aerosol t h = true ↔
        bits.aerosol t h = true ∨ (Spec.Speckle nT nH bits.falling t h ∧ beta t h ≠ none))) ∧
    r.droplet = bits.droplet ∧
    r.freezing = bits.freezing ∧
    r.melting = bits.melting

/-- The pass that gives up clutter next to other targets. -/
def Spec.ClutterPass (nT nH : ℕ) (clutter : Grid Bool) (bits : CategoryBits) (r : Grid Bool × CategoryBits) : Prop :=
    (∀ t h, t < nT → h < nH →
      (r.1 t h = true ↔ clutter t h = true ∧
        ∀ q, q.1 < nT → q.2 < nH → Spec.Within 1 (t, h) q →
          bits.droplet q.1 q.2 = false ∧ bits.falling q.1 q.2 = false) ∧
      (r.2.falling t h = true ↔ bits.falling t h = true ∨
        (clutter t h = true ∧ r.1 t h = false))) ∧
    r.2.droplet = bits.droplet ∧
    r.2.freezing = bits.freezing ∧
    r.2.melting = bits.melting ∧
    r.2.aerosol = bits.aerosol ∧
    r.2.insect = bits.insect

/-- C44. The refinement: five rounds of the melting layer and insect passes; aerosols at the lidar signals without
falling or droplets; then the passes for super-cold liquid, depolarising ice, insects near large objects, small
objects and clutter. -/
theorem C44_passes (o : RefineInput α) (bits : CategoryBits) :
    ∃ b : ℕ → CategoryBits, b 0 = bits ∧
      (∀ i < 5, ∃ m, Spec.MeltingPass o.lwp (b i) m ∧ Spec.InsectPass o.nT o.nH m (b (i + 1))) ∧
      ∃ aer cold ldr frozen speckle : CategoryBits,
        ((∀ t h, aer.aerosol t h = true ↔ o.beta t h ≠ none ∧ (b 5).falling t h = false ∧ (b 5).droplet t h = false) ∧
          aer.droplet = (b 5).droplet ∧ aer.falling = (b 5).falling ∧ aer.freezing = (b 5).freezing ∧
          aer.melting = (b 5).melting ∧ aer.insect = (b 5).insect) ∧
        Spec.ColdLiquidPass o.tw aer cold ∧ Spec.DepolarisationPass o.ldr o.tw o.beta cold ldr ∧
        Spec.FrozenInsectPass o.nT o.nH ldr frozen ∧ Spec.SpecklePass o.nT o.nH o.beta frozen speckle ∧
        Spec.ClutterPass o.nT o.nH o.clutter speckle (refineBits o bits) := by
  obtain ⟨b, hb⟩ : ∃ b : ℕ → CategoryBits,
      b = fun i => (fun b => filterInsects o.nT o.nH (fixUndetectedMelting o.lwp b))^[i] bits := ⟨_, rfl⟩
  have h5 : refineBits o bits = removeClutterInLiquid o.nT o.nH o.clutter (filterFalling o.nT o.nH o.beta
      (filterInsectsInFalling o.nT o.nH (reclassifyHighLdr o.ldr o.tw o.beta
        (fixSuperColdLiquid o.tw { b 5 with aerosol := findAerosols o.beta (b 5) })))) := by rw [hb]; rfl
  refine ⟨b, by rw [hb]; rfl, fun i _ => ?_, { b 5 with aerosol := findAerosols o.beta (b 5) },
    fixSuperColdLiquid o.tw _, reclassifyHighLdr o.ldr o.tw o.beta _, filterInsectsInFalling o.nT o.nH _,
    filterFalling o.nT o.nH o.beta _, ⟨fun t h => ?_, rfl, rfl, rfl, rfl, rfl⟩, C44_super_cold _ _,
    C44_high_ldr _ _ _ _, C44_insects_in_falling _ _ _, C44_filter_falling _ _ _ _, ?_⟩
  · refine ⟨fixUndetectedMelting o.lwp (b i), C44_undetected_melting o.lwp _, ?_⟩
    have : b (i + 1) = filterInsects o.nT o.nH (fixUndetectedMelting o.lwp (b i)) := by
      rw [hb]
      exact Function.iterate_succ_apply' _ _ _
    rw [this]
    exact C44_filter_insects _ _ _
  · show findAerosols o.beta _ t h = true ↔ _
    unfold findAerosols
    rw [Bool.and_eq_true, Bool.and_eq_true, Bool.not_eq_true', Bool.not_eq_true', Option.isSome_iff_ne_none, and_assoc]
  · rw [h5]
    exact C44_clutter _ _ _ _

end

theorem refine_freezing {α : Type} [Field α] [LinearOrder α] (o : RefineInput α) (bits : CategoryBits) :
    (refineBits o bits).2.freezing = bits.freezing := by
  unfold refineBits
  simp only
  rw [(C44_clutter _ _ _ _).2.2.1, (C44_filter_falling _ _ _ _).2.2.1, (C44_insects_in_falling _ _ _).2.2.1,
    (C44_high_ldr _ _ _ _).2.2.2.1, (C44_super_cold _ _).2.1]
  exact (loop_all o.nT o.nH o.lwp bits 5).2.1

/-! The whole classification. -/

/-- The first estimates: insects are neither falling nor droplets, and every radar echo is clutter, an insect,
falling or in liquid. -/
theorem firstEstimates_spec (o : Observation) (isRain : ℕ → Option ℤ) (clutter : Grid Bool) (bits : CategoryBits)
    (prob : Grid (Option ℝ)) (hb : firstEstimates o isRain clutter = .ok (bits, prob)) :
    (∀ t < o.nT, ∀ h < o.nH, ¬ (bits.insect t h = true ∧ bits.falling t h = true)) ∧
    (∀ t < o.nT, ∀ h < o.nH, ¬ (bits.insect t h = true ∧ bits.droplet t h = true)) ∧
    (∀ t < o.nT, ∀ h < o.nH, o.z.mask t h = false →
      clutter t h = true ∨ bits.insect t h = true ∨ bits.falling t h = true ∨ bits.droplet t h = true) ∧
    findMeltingLayer o.meltingInput true = .ok bits.melting ∧
    findFreezingRegion o.nT o.nH o.time o.height o.tw bits.melting = .ok bits.freezing := by
  unfold firstEstimates at hb
  simp only [bind, Except.bind, pure, Except.pure] at hb
  rcases h1 : findMeltingLayer o.meltingInput true with e | melting
  · simp only [h1, reduceCtorEq] at hb
  rcases h2 : findFreezingRegion o.nT o.nH o.time o.height o.tw melting with e | freezing
  · simp only [h1, h2, reduceCtorEq] at hb
  rcases h3 : findLiquid defaultLiquidParameters o.nT o.nH o.time o.height o.beta o.lwp with e | fromLidar
  · simp only [h1, h2, h3, reduceCtorEq] at hb
  rcases h4 : combineLiquid o freezing fromLidar with e | liquid
  · simp only [h1, h2, h3, h4, reduceCtorEq] at hb
  rcases h5 : correctLiquidTop o.nT o.nH o.z.get (nElements o.nH o.height 500).toNat liquid freezing with e | droplet
  · simp only [h1, h2, h3, h4, h5, reduceCtorEq] at hb
  rcases h6 : findInsects (o.insectInput isRain) melting droplet with e | ⟨insect, p⟩
  · simp only [h1, h2, h3, h4, h5, h6, reduceCtorEq] at hb
  rcases h7 : findFallingHydrometeors (o.fallingInput clutter) droplet insect with e | falling
  · simp only [h1, h2, h3, h4, h5, h6, h7, reduceCtorEq] at hb
  simp only [h1, h2, h3, h4, h5, h6, h7, Except.ok.injEq, Prod.mk.injEq] at hb
  obtain ⟨hb, -⟩ := hb
  rw [← hb]
  simp only
  obtain ⟨f', hf1, hf2⟩ := C46_falling (o.fallingInput clutter) droplet insect
  rw [h7] at hf1
  have hf1 := Except.ok.inj hf1
  subst hf1
  have hT : 2 ≤ o.nT := by
    by_contra hc
    unfold findInsects at h6
    rw [if_pos (show (o.insectInput isRain).nT ≤ 1 by show o.nT ≤ 1; omega)] at h6
    cases h6
  obtain ⟨i', p', hi1, hi2⟩ := C45_find_insects (o.insectInput isRain) hT melting droplet
  rw [h6] at hi1
  have hi1 := Except.ok.inj hi1
  simp only [Prod.mk.injEq] at hi1
  obtain ⟨rfl, rfl⟩ := hi1
  refine ⟨?_, ?_, ?_, trivial, h2⟩
  · rintro t ht h hh ⟨a, b⟩
    rcases (hf2 t ht h).1 b with ⟨-, -, c, -⟩ | c
    · rw [a] at c; cases c
    · obtain ⟨tw, w1, w2⟩ := C45_insects_are_warm _ melting droplet _ _ h6 t h a
      have w1 : some (o.tw t h) = some tw := w1
      have w1 := Option.some.inj w1
      have : o.tw t h < 27316 / 100 - 15 := by
        have := c
        unfold Spec.ColdLidar at this
        exact this.1
      rw [w1] at this
      norm_num at this
      linarith
  · rintro t ht h hh ⟨a, b⟩
    have := ((hi2 t h).1 (Or.inl b)).1
    rw [a] at this; cases this
  · intro t ht h hh hz
    by_contra hc
    push Not at hc
    obtain ⟨n1, n2, n3, n4⟩ := hc
    apply n3
    refine (hf2 t ht h).2 (Or.inl ⟨?_, by simpa [Observation.fallingInput] using n1, by simpa using n2, ?_⟩)
    · show o.z.get t h ≠ none
      unfold Masked.get
      rw [hz]
      simp
    · rintro ⟨base, top, hl, hbt⟩
      exact n4 (hl.1.full h hbt.1 hbt.2)

/-- C44. The whole classification: what every pixel of a result satisfies.
 1. No droplets below -38 C.
 2. Aerosol only where the lidar has a signal, and every lidar signal is droplet, falling or aerosol.
 3. Falling coincides with insect or aerosol only where clutter was given up.
 4. Every radar echo is droplet, falling, aerosol, insect or clutter, or lies in the freezing region without a lidar
    signal (removed speckle).
 5. Clutter is near-zero velocity in the first ten gates; neither it nor its neighbours are droplets, nor
    falling except for clutter given up.
 6. Falling pixels belong to an object of more than ten falling pixels or are clutter given up.
 7. The freezing region is that of the model temperature and first melting layer, which is kept; a melting pixel is
    added only at the bottom of the freezing region. -/
theorem C44_classify (o : Observation) (r : ClassificationResult) (hr : classifyMeasurements o = .ok r) :
    ∃ melting, findMeltingLayer o.meltingInput true = .ok melting ∧
    findFreezingRegion o.nT o.nH o.time o.height o.tw melting = .ok r.bits.freezing ∧ ∀ t < o.nT, ∀ h < o.nH,
    let GivenUp : ℕ → ℕ → Prop := fun t h =>
      h < 10 ∧ (∃ v, o.v.get t h = some v ∧ |v| < 5 / 100) ∧ r.isClutter t h = false
    (r.bits.droplet t h = true → 27316 / 100 - 38 ≤ o.tw t h) ∧
    (r.bits.aerosol t h = true → o.beta t h ≠ none) ∧
    (o.beta t h ≠ none → r.bits.droplet t h = true ∨ r.bits.falling t h = true ∨ r.bits.aerosol t h = true) ∧
    (r.bits.falling t h = true → r.bits.insect t h = true ∨ r.bits.aerosol t h = true → GivenUp t h) ∧
    (o.z.mask t h = false → r.bits.droplet t h = true ∨ r.bits.falling t h = true ∨ r.bits.aerosol t h = true ∨
      r.bits.insect t h = true ∨ r.isClutter t h = true ∨ (r.bits.freezing t h = true ∧ o.beta t h = none)) ∧
    (r.isClutter t h = true → (h < 10 ∧ ∃ v, o.v.get t h = some v ∧ |v| < 5 / 100) ∧ r.bits.falling t h = false ∧
      ∀ q, q.1 < o.nT → q.2 < o.nH → Spec.Within 1 (t, h) q → r.bits.droplet q.1 q.2 = false ∧
        (r.bits.falling q.1 q.2 = true → GivenUp q.1 q.2)) ∧
    (r.bits.falling t h = true → GivenUp t h ∨ ∃ large : Grid Bool,
      (∀ t < o.nT, ∀ h < o.nH, large t h = true → r.bits.falling t h = true) ∧
        Spec.ObjectLargerThan Spec.FaceNeighbours o.nT o.nH large 10 (t, h)) ∧
    (melting t h = true → r.bits.melting t h = true) ∧
    (r.bits.melting t h = true → melting t h = true ∨
      ((∃ i, i + 1 = h ∧ r.bits.freezing t i = false) ∧ r.bits.freezing t h = true)) := by
  unfold classifyMeasurements at hr
  simp only [bind, Except.bind, pure, Except.pure] at hr
  rcases h1 : o.rainInput.rainAndClutter with e | ⟨isRain, clutter⟩
  · simp only [h1, reduceCtorEq] at hr
  rcases h2 : firstEstimates o isRain clutter with e | ⟨bits, prob⟩
  · simp only [h1, h2, reduceCtorEq] at hr
  simp only [h1, h2, Except.ok.injEq] at hr
  obtain ⟨f1, f2, f3, f4, f5⟩ := firstEstimates_spec o isRain clutter bits prob h2
  have hclut := C67_clutter o.rainInput isRain clutter h1
  have href := C44_refine (o.refineInput clutter) bits f1 f2
  simp only at href
  have hfz : ∀ t < o.nT, ∀ h < o.nH, r.bits.freezing t h = bits.freezing t h := by
    intro t ht h hh
    rw [← hr]
    exact (href t h ht hh).2.1
  have hfreeze : r.bits.freezing = bits.freezing := by
    rw [← hr]
    show (refineBits (o.refineInput clutter) bits).2.freezing = bits.freezing
    exact refine_freezing _ _
  refine ⟨bits.melting, f4, by rw [hfreeze]; exact f5, fun t ht h hh => ?_⟩
  obtain ⟨g1, g2, g3, g4, g5, g6, g7, g8, g9, g10⟩ := href t h ht hh
  have hgiven : ∀ t h, Spec.Removed clutter r.isClutter t h → h < 10 ∧
      (∃ v, o.v.get t h = some v ∧ |v| < 5 / 100) ∧ r.isClutter t h = false := by
    rintro t h ⟨a, b⟩
    obtain ⟨c, d⟩ := (hclut t h).1 a
    exact ⟨c, d, b⟩
  intro GivenUp
  rw [← hr] at hgiven
  have hG : ∀ t h, Spec.Removed clutter (refineBits (o.refineInput clutter) bits).1 t h → GivenUp t h := by
    intro t h hh
    show h < 10 ∧ (∃ v, o.v.get t h = some v ∧ |v| < 5 / 100) ∧ r.isClutter t h = false
    rw [← hr]
    exact hgiven t h hh
  clear_value GivenUp
  rw [← hr]
  simp only
  refine ⟨fun hd => not_lt.1 (g1.1 hd).2, g5, g6, fun a b => hG t h (g7 a b), fun hz => g8 (f3 t ht h hh hz), ?_, ?_, g3,
    fun hm => ?_⟩
  · intro hc
    obtain ⟨a, b, c⟩ := g9 hc
    exact ⟨(hclut t h).1 a, b, fun q q1 q2 q3 => ⟨(c q q1 q2 q3).1, fun hf => hG _ _ ((c q q1 q2 q3).2 hf)⟩⟩
  · intro hf
    rcases g10 hf with a | a
    · exact Or.inl (hG t h a)
    · exact Or.inr a
  · rcases g4 hm with a | ⟨⟨i, a, b, -⟩, c, -⟩
    · exact Or.inl a
    · refine Or.inr ⟨⟨i, a, ?_⟩, by rw [g2]; exact c⟩
      have := (href t i ht (show i < o.nH by omega)).2.1
      rw [this]
      exact b

/-- The pixels with liquid before the correction of the tops: liquid from the lidar or, in the freezing region and
not below a base of the lidar liquid, a VoodooNet probability above 0.55. -/
def Spec.LiquidPixel (o : Observation) (freezing lidar : Grid Bool) (t h : ℕ) : Prop :=
  lidar t h = true ∨ ∃ p, o.liquidProb = some p ∧ 55 / 100 < p t h ∧ freezing t h = true ∧
    ¬ ∃ b < o.nH, h < b ∧ Spec.LiquidBase (lidar t) b

/-- C44. Liquid from lidar and radar; probabilities from another radar than RPG raise. -/
theorem C44_liquid (o : Observation) (freezing lidar : Grid Bool) :
    ((∃ e, combineLiquid o freezing lidar = .error e) ↔ o.liquidProb ≠ none ∧ o.rpg = false) ∧
    ∀ liquid, combineLiquid o freezing lidar = .ok liquid → ∀ t < o.nT, ∀ h,
      (liquid t h = true ↔ Spec.LiquidPixel o freezing lidar t h) := by
  unfold combineLiquid Spec.LiquidPixel
  rcases hp : o.liquidProb with _ | p
  · refine ⟨by simp, fun liquid hl t _ h => ?_⟩
    have hl := Except.ok.inj hl
    subst hl
    simp
  · cases hrpg : o.rpg
    · refine ⟨by simp, fun liquid hl => ?_⟩
      simp at hl
    · refine ⟨by simp, fun liquid hl t ht h => ?_⟩
      simp only [Bool.not_true, Bool.false_eq_true, if_false] at hl
      have hl := Except.ok.inj hl
      subst hl
      have h1 := C44_false_radar_liquid o.nT o.nH (fun t h => decide (55 / 100 < p t h)) lidar t h ht
      simp only [Grid.assign]
      generalize removeFalseRadarLiquid o.nT o.nH (fun t h => decide (55 / 100 < p t h)) lidar t h = x at *
      rw [decide_eq_true_eq] at h1
      constructor
      · intro h2
        rw [Bool.or_eq_true] at h2
        rcases h2 with h2 | h2
        · right
          have : x = true ∧ freezing t h = true := by
            revert h2
            generalize freezing t h = f
            clear * -
            revert x f
            decide
          exact ⟨p, rfl, (h1.1 this.1).1, this.2, (h1.1 this.1).2⟩
        · exact Or.inl h2
      · rintro (h2 | ⟨p', h2, h3, h4, h5⟩)
        · rw [h2]; simp
        · have h2 := Option.some.inj h2
          subst h2
          rw [h1.2 ⟨h3, h5⟩, h4]
          rfl

/-- C44. The droplets of a classification: liquid pixels and, above the top of a liquid layer, the gates with an
unbroken echo that ends at most 500 m above the first freezing gate; nothing colder than -38 C. -/
theorem C44_droplets (o : Observation) (r : ClassificationResult) (hr : classifyMeasurements o = .ok r) :
    ∃ lidar liquid : Grid Bool, findLiquid defaultLiquidParameters o.nT o.nH o.time o.height o.beta o.lwp = .ok lidar ∧
      (∀ t < o.nT, ∀ h, liquid t h = true ↔ Spec.LiquidPixel o r.bits.freezing lidar t h) ∧
      ∀ t < o.nT, ∀ h < o.nH, r.bits.droplet t h = true ↔ ¬ o.tw t h < 27316 / 100 - 38 ∧
        (liquid t h = true ∨ ∃ top f, Spec.LiquidTop o.nH (liquid t) top ∧
          Spec.FirstFreezing o.nH (r.bits.freezing t) top f ∧
          Spec.EchoUpTo (o.z.get t) top (min (o.nH - 1) (f + (nElements o.nH o.height 500).toNat)) h) := by
  unfold classifyMeasurements at hr
  simp only [bind, Except.bind, pure, Except.pure] at hr
  rcases h1 : o.rainInput.rainAndClutter with e | ⟨isRain, clutter⟩
  · simp only [h1, reduceCtorEq] at hr
  rcases h2 : firstEstimates o isRain clutter with e | ⟨bits, prob⟩
  · simp only [h1, h2, reduceCtorEq] at hr
  simp only [h1, h2, Except.ok.injEq] at hr
  obtain ⟨f1, f2, f3, f4, f5⟩ := firstEstimates_spec o isRain clutter bits prob h2
  have href := C44_refine (o.refineInput clutter) bits f1 f2
  have hfreeze : r.bits.freezing = bits.freezing := by
    rw [← hr]
    exact refine_freezing _ _
  have hd : ∀ t < o.nT, ∀ h < o.nH, r.bits.droplet t h = true ↔
      bits.droplet t h = true ∧ ¬ o.tw t h < 27316 / 100 - 38 := by
    intro t ht h hh
    rw [← hr]
    exact (href t h ht hh).1
  rw [hfreeze]
  clear href f1 f2 f3
  unfold firstEstimates at h2
  simp only [bind, Except.bind, pure, Except.pure, f4, f5] at h2
  rcases h3 : findLiquid defaultLiquidParameters o.nT o.nH o.time o.height o.beta o.lwp with e | fromLidar
  · simp only [h3, reduceCtorEq] at h2
  rcases h4 : combineLiquid o bits.freezing fromLidar with e | liquid
  · simp only [h3, h4, reduceCtorEq] at h2
  rcases h5 : correctLiquidTop o.nT o.nH o.z.get (nElements o.nH o.height 500).toNat liquid bits.freezing with e | droplet
  · simp only [h3, h4, h5, reduceCtorEq] at h2
  rcases h6 : findInsects (o.insectInput isRain) bits.melting droplet with e | ⟨insect, p⟩
  · simp only [h3, h4, h5, h6, reduceCtorEq] at h2
  rcases h7 : findFallingHydrometeors (o.fallingInput clutter) droplet insect with e | falling
  · simp only [h3, h4, h5, h6, h7, reduceCtorEq] at h2
  simp only [h3, h4, h5, h6, h7, Except.ok.injEq, Prod.mk.injEq] at h2
  have hdrop : bits.droplet = droplet := by rw [← h2.1]
  refine ⟨fromLidar, liquid, rfl, (C44_liquid o bits.freezing fromLidar).2 liquid h4, fun t ht h hh => ?_⟩
  obtain ⟨out, g1, g2⟩ := C24_correct_liquid_top o.nT o.nH o.z.get (nElements o.nH o.height 500).toNat liquid
    bits.freezing (by
      intro t ht top htop
      by_contra hcon
      obtain ⟨e, he⟩ := C24_raises o.nT o.nH o.z.get (nElements o.nH o.height 500).toNat liquid bits.freezing t top ht
        htop (by
          intro f hf1 hf2
          rcases hbf : bits.freezing t f with _ | _
          · rfl
          · exact absurd ⟨f, hf1, hf2, hbf⟩ hcon)
      rw [h5] at he
      cases he)
  rw [h5] at g1
  have g1 := Except.ok.inj g1
  subst g1
  rw [hd t ht h hh, hdrop, g2 t h]
  constructor
  · rintro ⟨a | ⟨-, a⟩, b⟩
    · exact ⟨b, Or.inl a⟩
    · exact ⟨b, Or.inr a⟩
  · rintro ⟨b, a | a⟩
    · exact ⟨Or.inl a, b⟩
    · exact ⟨Or.inr ⟨ht, a⟩, b⟩

theorem refine_insect {α : Type} [Field α] [LinearOrder α] (o : RefineInput α) (bits : CategoryBits) (t h : ℕ)
    (ht : t < o.nT) (hh : h < o.nH) (hi : (refineBits o bits).2.insect t h = true) :
    bits.insect t h = true ∨ bits.freezing t h = false ∨ (∃ l x, o.ldr = some l ∧ l t h = some x ∧ -13 < x ∧
      27316 / 100 - 10 < o.tw t h) := by
  unfold refineBits at hi
  simp only at hi
  obtain ⟨l1, l2, l3, l4, l5⟩ := loop_all o.nT o.nH o.lwp bits 5
  generalize (fun b => filterInsects o.nT o.nH (fixUndetectedMelting o.lwp b))^[5] bits = b1 at *
  obtain ⟨b2, hb2⟩ : ∃ b2, b2 = ({ b1 with aerosol := findAerosols o.beta b1 } : CategoryBits) := ⟨_, rfl⟩
  rw [← hb2] at hi
  have e2i : b2.insect = b1.insect := by rw [hb2]
  have e2z : b2.freezing = b1.freezing := by rw [hb2]
  clear hb2
  obtain ⟨s1, s2, s3, s4, s5⟩ := C44_super_cold o.tw b2
  generalize fixSuperColdLiquid o.tw b2 = b3 at *
  obtain ⟨k1, k2, k3, k4, k5⟩ := C44_high_ldr o.ldr o.tw o.beta b3
  generalize hb4 : reclassifyHighLdr o.ldr o.tw o.beta b3 = b4 at *
  obtain ⟨g1, g2, g3, g4⟩ := C44_insects_in_falling o.nT o.nH b4
  generalize filterInsectsInFalling o.nT o.nH b4 = b5 at *
  obtain ⟨w1, w2, w3, w4⟩ := C44_filter_falling o.nT o.nH o.beta b5
  generalize filterFalling o.nT o.nH o.beta b5 = b6 at *
  obtain ⟨c1, c2, c3, c4, c5, c6⟩ := C44_clutter o.nT o.nH o.clutter b6
  rw [c6, (w1 t h ht hh).2.1] at hi
  rcases hi with hi | ⟨-, hi⟩
  · obtain ⟨hi, -⟩ := ((g1 t h ht hh).2.1).1 hi
    have key : ∀ b : Bool, b = b3.insect t h → b = true → bits.insect t h = true := by
      rintro b rfl hb
      rw [s5, e2i] at hb
      rcases l3 t h with ⟨-, a⟩ | ⟨-, a⟩
      · rw [← a]; exact hb
      · rw [a] at hb; cases hb
    rcases hl : o.ldr with _ | l
    · rw [k1 hl] at hi
      exact Or.inl (key _ rfl hi)
    · rcases (k2 l hl t h).1.1 hi with hi | ⟨-, -, -, ⟨x, hx1, hx2⟩, hx3, -⟩
      · exact Or.inl (key _ rfl hi)
      · exact Or.inr (Or.inr ⟨l, x, rfl, hx1, hx2, hx3⟩)
  · rw [g3, k4, s2, e2z, l2] at hi
    exact Or.inr (Or.inl hi)

/-- C44. An insect of a classification is not in the freezing region, or has a depolarisation above -13 dB at more than
-10 C, or was estimated as one: the profile is not rainy, there is no melting layer at or below it, and the insect
probability is above 0.8. -/
theorem C44_insects (o : Observation) (r : ClassificationResult) (hr : classifyMeasurements o = .ok r)
    (melting : Grid Bool) (hm : findMeltingLayer o.meltingInput true = .ok melting) (t h : ℕ) (ht : t < o.nT)
    (hh : h < o.nH) (hi : r.bits.insect t h = true) :
    r.bits.freezing t h = false ∨
    (∃ l x, o.ldr = some l ∧ l.get t h = some x ∧ -13 < x ∧ 27316 / 100 - 10 < o.tw t h) ∨
    (r.isRain t ≠ some 1 ∧ (∀ i ≤ h, melting t i = false) ∧
      0.8 < max ((o.insectInput r.isRain).probFromLdr t h) ((o.insectInput r.isRain).probFromOthers t h)) := by
  unfold classifyMeasurements at hr
  simp only [bind, Except.bind, pure, Except.pure] at hr
  rcases h1 : o.rainInput.rainAndClutter with e | ⟨isRain, clutter⟩
  · simp only [h1, reduceCtorEq] at hr
  rcases h2 : firstEstimates o isRain clutter with e | ⟨bits, prob⟩
  · simp only [h1, h2, reduceCtorEq] at hr
  simp only [h1, h2, Except.ok.injEq] at hr
  obtain ⟨f1, f2, f3, f4, f5⟩ := firstEstimates_spec o isRain clutter bits prob h2
  rw [f4] at hm
  have hm := Except.ok.inj hm
  subst hm
  have hfreeze : r.bits.freezing = bits.freezing := by
    rw [← hr]
    exact refine_freezing _ _
  have hrain : r.isRain = isRain := by rw [← hr]
  have hi' : (refineBits (o.refineInput clutter) bits).2.insect t h = true := by
    rw [← hr] at hi
    exact hi
  rw [hfreeze, hrain]
  rcases refine_insect (o.refineInput clutter) bits t h ht hh hi' with hi | hi | ⟨l, x, a, b, c, d⟩
  · right; right
    unfold firstEstimates at h2
    simp only [bind, Except.bind, pure, Except.pure, f4, f5] at h2
    rcases h3 : findLiquid defaultLiquidParameters o.nT o.nH o.time o.height o.beta o.lwp with e | fromLidar
    · simp only [h3, reduceCtorEq] at h2
    rcases h4 : combineLiquid o bits.freezing fromLidar with e | liquid
    · simp only [h3, h4, reduceCtorEq] at h2
    rcases h5 : correctLiquidTop o.nT o.nH o.z.get (nElements o.nH o.height 500).toNat liquid bits.freezing with
      e | droplet
    · simp only [h3, h4, h5, reduceCtorEq] at h2
    rcases h6 : findInsects (o.insectInput isRain) bits.melting droplet with e | ⟨insect, p⟩
    · simp only [h3, h4, h5, h6, reduceCtorEq] at h2
    rcases h7 : findFallingHydrometeors (o.fallingInput clutter) droplet insect with e | falling
    · simp only [h3, h4, h5, h6, h7, reduceCtorEq] at h2
    simp only [h3, h4, h5, h6, h7, Except.ok.injEq, Prod.mk.injEq] at h2
    have hins : bits.insect = insect := by rw [← h2.1]
    rw [hins] at hi
    have hT : 2 ≤ o.nT := by
      by_contra hc
      unfold findInsects at h6
      rw [if_pos (show (o.insectInput isRain).nT ≤ 1 by show o.nT ≤ 1; omega)] at h6
      cases h6
    obtain ⟨i', p', hi1, hi2⟩ := C45_find_insects (o.insectInput isRain) hT bits.melting droplet
    rw [h6] at hi1
    have hi1 := Except.ok.inj hi1
    simp only [Prod.mk.injEq] at hi1
    obtain ⟨rfl, rfl⟩ := hi1
    obtain ⟨g1, g2⟩ := hi2 t h
    have hns : ¬ Spec.InsectScreened bits.melting droplet (o.insectInput isRain).isRain
        (o.insectInput isRain).probFromOthers t h := by
      intro hs
      have := (g1 hs).1
      rw [hi] at this
      cases this
    refine ⟨?_, ?_, (g2 hns).1.1 hi⟩
    · intro hrn
      apply hns
      right; right; left
      show decide (isRain t = some 1) = true
      rw [hrn]; rfl
    · intro i hle
      by_contra hcon
      apply hns
      right; left
      exact ⟨i, hle, by simpa using hcon⟩
  · exact Or.inl hi
  · right; left
    have a' : o.ldr.map (·.get) = some l := a
    rcases ho : o.ldr with _ | m
    · rw [ho] at a'; cases a'
    · rw [ho] at a'
      have a' := Option.some.inj a'
      subst a'
      exact ⟨m, x, rfl, b, c, d⟩

/-- The observations `classify_measurements` needs: at least two profiles, increasing times less than eight hours
apart, increasing heights less than 300 m apart, a radar echo with more than three gates above the lowest one, a gate
below 0 C in every profile, with depolarisation never two gates in the melting temperature range of which one is
the highest gate, and VoodooNet probabilities only from an RPG radar. -/
structure Spec.Classifiable (o : Observation) : Prop where
  profiles : 2 ≤ o.nT
  times : ∀ t, t + 1 < o.nT → o.time t < o.time (t + 1) ∧ o.time (t + 1) - o.time t < 8
  heights : ∀ h, h + 1 < o.nH → o.height h < o.height (h + 1) ∧ o.height (h + 1) - o.height h < 300
  echo : ∃ g, g + 3 < o.nH ∧ (∃ t < o.nT, o.z.mask t g = false) ∧ ∀ h < g, ∀ t < o.nT, o.z.mask t h = true
  cold : ∀ t < o.nT, ∃ h < o.nH, o.tw t h < 27316 / 100
  window : o.ldr ≠ none → ∀ t < o.nT, ∀ h, h + 1 < o.nH → Spec.MeltingTemperature o.gdas (o.tw t h) →
    ¬ Spec.MeltingTemperature o.gdas (o.tw t (o.nH - 1))
  voodoo : o.liquidProb ≠ none → o.rpg = true

theorem npRound_pos {α : Type} [Field α] [LinearOrder α] [IsStrictOrderedRing α] [FloorRing α] (x : α)
    (hx : 1 / 2 < x) : 0 < npRound x := by
  have h := (abs_le.1 (C79_round x).1).2
  have : (0 : α) < npRound x := by linarith
  exact_mod_cast this

theorem increasing_of_steps {α : Type} [LinearOrder α] (n : ℕ) (x : ℕ → α) (h : ∀ i, i + 1 < n → x i < x (i + 1)) :
    Spec.Increasing n x := by
  intro i j hij hj
  obtain ⟨k, rfl⟩ : ∃ k, j = i + 1 + k := ⟨j - (i + 1), by omega⟩
  clear hij
  induction k with
  | zero => exact h i hj
  | succ k ih => exact lt_trans (ih (by omega)) (h (i + 1 + k) hj)

theorem mdiff_lt {α : Type} [Field α] [LinearOrder α] [IsStrictOrderedRing α] (n : ℕ) (hn : 2 ≤ n) (x : ℕ → α) (c : α)
    (h : ∀ i, i + 1 < n → x i < x (i + 1) ∧ x (i + 1) - x i < c) : 0 < mdiff n x ∧ mdiff n x < c := by
  -- the largest and smallest of finitely many steps
  obtain ⟨lo, hi, h1, h2, h3⟩ : ∃ lo hi, 0 < lo ∧ hi < c ∧ ∀ i, i + 1 < n → lo ≤ x (i + 1) - x i ∧ x (i + 1) - x i ≤ hi := by
    have key : ∀ m, 1 ≤ m → m < n → ∃ lo hi, 0 < lo ∧ hi < c ∧ ∀ i < m, lo ≤ x (i + 1) - x i ∧ x (i + 1) - x i ≤ hi := by
      intro m hm
      induction m with
      | zero => omega
      | succ m ih =>
        intro hmn
        have hs := h m hmn
        rcases Nat.eq_zero_or_pos m with rfl | hpos
        · refine ⟨_, _, sub_pos.2 hs.1, hs.2, fun i hi => ?_⟩
          obtain rfl : i = 0 := by omega
          exact ⟨le_rfl, le_rfl⟩
        · obtain ⟨lo, hi, a, b, d⟩ := ih hpos (by omega)
          refine ⟨min lo (x (m + 1) - x m), max hi (x (m + 1) - x m), lt_min a (sub_pos.2 hs.1), max_lt b hs.2,
            fun i hi => ?_⟩
          rcases Nat.lt_or_ge i m with hlt | hge
          · exact ⟨le_trans (min_le_left _ _) (d i hlt).1, le_trans (d i hlt).2 (le_max_left _ _)⟩
          · obtain rfl : i = m := by omega
            exact ⟨min_le_right _ _, le_max_right _ _⟩
    obtain ⟨lo, hi, a, b, d⟩ := key (n - 1) (by omega) (by omega)
    exact ⟨lo, hi, a, b, fun i hi => d i (by omega)⟩
  obtain ⟨a, b⟩ := C79_median_step n hn x lo hi h3
  exact ⟨lt_of_lt_of_le h1 a, lt_of_le_of_lt b h2⟩

/-- C44. The classification of such observations returns a result. -/
theorem C44_succeeds (o : Observation) (hc : Spec.Classifiable o) : ∃ r, classifyMeasurements o = .ok r := by
  obtain ⟨hT, htime, hheight, ⟨g, hg1, ⟨tg, htg, hg2⟩, hg3⟩, hcold, hwin, hvoodoo⟩ := hc
  -- rain and clutter
  obtain ⟨rain, hrain, -⟩ := C67_rain o.rainInput g
    ⟨by show g < o.nH; omega, ⟨tg, htg, by
      show (if o.z.mask tg g then none else some (o.z.data tg g)) ≠ none
      rw [hg2]; simp⟩, fun h hh t ht => by
      show (if o.z.mask t h then none else some (o.z.data t h)) = none
      rw [hg3 h hh t ht]; simp⟩ hg1 ⟨0, by show 0 < o.nH; omega, fun t _ => by
      show (some (o.tw t 0)) ≠ none
      simp⟩
  obtain ⟨clutter, hclut⟩ : ∃ c, findClutter o.nT 10 (5 / 100) o.v rain = .ok c := by
    unfold findClutter
    rw [if_neg (by omega)]
    exact ⟨_, rfl⟩
  have h1 : o.rainInput.rainAndClutter = .ok (rain, clutter) := by
    unfold RainInput.rainAndClutter
    simp only [hrain, bind, Except.bind]
    have hclut' : findClutter o.rainInput.nT 10 (5 / 100) o.rainInput.v rain = .ok clutter := hclut
    rw [hclut']
    rfl
  -- the melting layer
  obtain ⟨melting, hmelt⟩ : ∃ m, findMeltingLayer o.meltingInput true = .ok m := by
    rcases hm : findMeltingLayer o.meltingInput true with e | m
    · exfalso
      obtain ⟨h2, t, ht, lo, h3, h4, h5⟩ := (C82_raises o.meltingInput).1 (((C82_find o.meltingInput true).1).1 ⟨e, hm⟩)
      exact hwin (by
        intro h6
        have h2 : o.ldr.isSome = true := h2
        rw [h6] at h2
        cases h2) t ht lo h3 h4 h5
    · exact ⟨m, rfl⟩
  -- the freezing region
  have hinc := increasing_of_steps o.nT o.time fun t ht => (htime t ht).1
  have hinch := increasing_of_steps o.nH o.height fun t ht => (hheight t ht).1
  have hwindow : 0 < npRound (240 / mdiff o.nT o.time / 60) := by
    obtain ⟨a, b⟩ := mdiff_lt o.nT hT o.time 8 htime
    apply npRound_pos
    rw [lt_div_iff₀ (by norm_num), lt_div_iff₀ a]
    linarith
  obtain ⟨freezing, -, hfreeze, -⟩ := C68_freezing_region o.nT o.nH hT o.time o.height hinc o.tw melting hcold hwindow
  have htop := C68_highest_gate o.nT o.nH hT o.time o.height hinc hinch o.tw melting hcold hwindow freezing hfreeze
  -- liquid
  obtain ⟨a, b⟩ := mdiff_lt o.nH (by omega) o.height 300 hheight
  obtain ⟨fromLidar, hlidar, -⟩ := C80_find_liquid (defaultLiquidParameters (α := ℝ)) (by
      show (1 : ℝ) < 4; norm_num) o.nT o.nH o.time o.height o.beta o.lwp (by
      unfold nElements
      apply npRound_pos
      show 1 / 2 < (200 : ℝ) / mdiff o.nH o.height
      rw [lt_div_iff₀ a]; linarith) (by
      unfold nElements
      apply npRound_pos
      show 1 / 2 < (150 : ℝ) / mdiff o.nH o.height
      rw [lt_div_iff₀ a]; linarith)
  obtain ⟨liquid, hliq⟩ : ∃ l, combineLiquid o freezing fromLidar = .ok l := by
    unfold combineLiquid
    rcases hp : o.liquidProb with _ | p
    · exact ⟨_, rfl⟩
    · simp only [hvoodoo (by rw [hp]; simp)]
      exact ⟨_, rfl⟩
  obtain ⟨droplet, hdrop, -⟩ := C24_correct_liquid_top o.nT o.nH o.z.get (nElements o.nH o.height 500).toNat liquid
    freezing (fun t ht top htp => ⟨o.nH - 1, by have := htp.1; omega, by omega, htop t ht⟩)
  obtain ⟨insect, prob, hins, -⟩ := C45_find_insects (o.insectInput rain) hT melting droplet
  obtain ⟨falling, hfall, -⟩ := C46_falling (o.fallingInput clutter) droplet insect
  unfold classifyMeasurements firstEstimates
  simp only [bind, Except.bind, pure, Except.pure, h1, hmelt, hfreeze, hlidar, hliq, hdrop, hins, hfall]
  exact ⟨_, rfl⟩

/-- Three profiles half a minute apart, six gates from 100 m every 100 m, 275 K decreasing by 1 K per gate; the radar
sees everything, still air at the lowest gate of the second profile, and the lidar sees the second gate. -/
noncomputable def Spec.observedDay : Observation :=
  { nT := 3, nH := 6, time := fun t => t / 120, height := fun h => 100 + h * 100, altitude := 20
    z := ⟨fun _ _ => -20, fun _ _ => false⟩
    v := ⟨fun t h => if t = 1 ∧ h = 0 then 0 else -1, fun _ _ => false⟩
    vSigma := fun _ _ => some 1, width := none, ldr := none, sldr := none
    beta := fun _ h => if h = 1 then some (1 / 1000000) else none
    tw := fun _ h => 275 - h, lwp := fun _ => some 0, disdrometer := none, gdas := false, mira := false, rpg := true
    smoothV := fun _ _ => 0, liquidProb := some fun _ _ => 0 }

example : ∃ r, classifyMeasurements Spec.observedDay = .ok r := by
  apply C44_succeeds
  refine ⟨?_, ?_, ?_, ⟨0, ?_, ⟨0, ?_, rfl⟩, fun h hh => by omega⟩, ?_, ?_, fun _ => rfl⟩
  · decide
  · intro t _
    simp only [Spec.observedDay]
    push_cast
    constructor <;> linarith
  · intro t _
    simp only [Spec.observedDay]
    push_cast
    constructor <;> linarith
  · decide
  · decide
  · intro t _
    refine ⟨5, by decide, ?_⟩
    simp only [Spec.observedDay]
    norm_num
  · intro h
    exact absurd rfl h

/-! C44, code disagreements. -/

/-- Bits for the examples: six falling gates below melting at gate 7 of profile `x`, and an insect at gate 7 of
profile `y`. -/
def Spec.meltingBits (x y : ℕ) : CategoryBits :=
  { droplet := fun _ _ => false, falling := fun t h => decide (t = x ∧ h < 6), freezing := fun _ _ => false,
    melting := fun t h => decide (t = x ∧ h = 7), aerosol := fun _ _ => false,
    insect := fun t h => decide (t = y ∧ h = 7) }

/-- C44, code disagreement. The step that turns insects beside a melting pixel into falling also marks the gates
above and below the insect, where nothing was detected, as falling. -/
theorem C44_clear_pixels_become_falling :
    (Spec.meltingBits 6 5).falling 5 8 = false ∧ (Spec.meltingBits 6 5).insect 5 8 = false ∧
      (filterInsects 20 10 (Spec.meltingBits 6 5)).falling 5 8 = true ∧
      (filterInsects 20 10 (Spec.meltingBits 6 5)).falling 5 6 = true := by
  decide +kernel

/-- C44, code disagreement. Melting in the first profile of the day changes insects at the end of the day. -/
theorem C44_wraps_around_midnight :
    (Spec.meltingBits 0 18).insect 18 7 = true ∧ (filterInsects 20 10 (Spec.meltingBits 0 18)).insect 18 7 = false := by
  decide +kernel

/-- C44, code disagreement. Melting in one of the last five profiles does not change the insects beside it. -/
theorem C44_last_profiles_kept :
    (filterInsects 20 10 (Spec.meltingBits 14 13)).insect 13 7 = false ∧
      (filterInsects 20 10 (Spec.meltingBits 15 14)).insect 14 7 = true := by
  decide +kernel

/-- The refinement of a single falling gate above 0 C with a lidar signal: it is speckle and becomes insect and
aerosol. -/
example :
    let bits : CategoryBits := ⟨fun _ _ => false, fun t h => decide (t = 1 ∧ h = 1), fun _ _ => false, fun _ _ => false,
      fun _ _ => false, fun _ _ => false⟩
    let o : RefineInput ℚ :=
      { nT := 3, nH := 3, beta := fun t h => (if t = 1 ∧ h = 1 then some 1 else none)
        tw := fun _ _ => 280, ldr := none, lwp := fun _ => none, clutter := fun t h => decide (t = 0 ∧ h = 0) }
    let r := refineBits o bits
    r.2.falling 1 1 = false ∧ r.2.insect 1 1 = true ∧ r.2.aerosol 1 1 = true ∧ r.1 0 0 = true := by
  decide +kernel

end Cloudnet
