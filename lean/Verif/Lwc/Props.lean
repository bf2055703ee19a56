import Verif.Lwc.Model
import Verif.Atmos.Props
import Verif.Attenuation.Props
import Verif.Times.Props

namespace Cloudnet

/-! C22 (retrieval status of the liquid water content), C78 (its error). -/

namespace Spec

/-- `b` is the base of the topmost liquid layer that starts above the first of `n` gates. -/
def TopmostBase (n : ℕ) (liq : ℕ → Bool) (b : ℕ) : Prop :=
  0 < b ∧ b < n ∧ liq b = true ∧ liq (b - 1) = false ∧
    ∀ j, b < j → j < n → liq j = true → liq (j - 1) = true

/-- All liquid from the gate `b` on is seen by the lidar only (with at least one gate seen). -/
def LidarOnly (n : ℕ) (liq radar lidar : ℕ → Bool) (b : ℕ) : Prop :=
  (∀ h, b ≤ h → h < n → liq h = true → radar h = false) ∧
  ∃ h, b ≤ h ∧ h < n ∧ liq h = true ∧ lidar h = true

section
variable {α : Type} [Field α] [LinearOrder α]

/-- The cloud with base `b` is to be extended upwards: it is the topmost one (or the whole column is
liquid and `b` its last gate), seen by the lidar only, there is no rain, and the measured liquid water path
`l` exceeds the adiabatic one. -/
def Adjusted (n : ℕ) (liq radar lidar : ℕ → Bool) (isRain : Bool) (lwcAdiabatic path : ℕ → α)
    (lwp : Option α) (b : ℕ) : Prop :=
  (TopmostBase n liq b ∨ b = n - 1 ∧ ∀ j < n, liq j = true) ∧
  LidarOnly n liq radar lidar b ∧ isRain = false ∧
  ∃ l, lwp = some l ∧ ∑ h ∈ Finset.range n, lwcAdiabatic h * path h < l

/-- The adiabatic liquid water path when the cloud with base `b` is extended to the gate `top`: `d` gates above
the base the content is `d + 1` times that of the base. -/
def extendedLwp (n : ℕ) (lwcAdiabatic path : ℕ → α) (b top : ℕ) : α :=
  ∑ h ∈ Finset.range n,
    (if b < h ∧ h ≤ top then lwcAdiabatic b * ((h - b : ℕ) + 1) else lwcAdiabatic h) * path h

/-- The gate to which the cloud with base `b` is extended: the first one for which the adiabatic path exceeds
the measured path `l`, at most the last gate. -/
def ExtendedTop (n : ℕ) (lwcAdiabatic path : ℕ → α) (l : α) (b top : ℕ) : Prop :=
  b < top ∧ top < n ∧ (l < extendedLwp n lwcAdiabatic path b top ∨ top = n - 1) ∧
  ∀ i, b < i → i < top → extendedLwp n lwcAdiabatic path b i ≤ l

end

end Spec

section
variable {α : Type} [Field α] [LinearOrder α]

theorem adjustLoop_spec (nH : ℕ) (path : ℕ → α) (l : α) (a0 : ℕ → α) (st0 : ℕ → ℕ) (b : ℕ) (k : ℕ) :
    ∀ (d : ℕ) (a : ℕ → α) (st : ℕ → ℕ), 0 < d → b + d + k = nH - 1 → b + d < nH →
      a = (fun j => if b < j ∧ j < b + d then a0 b * ((j - b : ℕ) + 1) else a0 j) →
      st = (fun j => if (b < j ∧ j < b + d) ∧ st0 j = 0 then 3 else st0 j) →
      (∀ i, b < i → i < b + d → Spec.extendedLwp nH a0 path b i ≤ l) →
      ∃ top, Spec.ExtendedTop nH a0 path l b top ∧
        (adjustLoop nH path l (a0 b) b k d (a, st)).2 =
          fun j => if (b < j ∧ j ≤ top) ∧ st0 j = 0 then 3 else st0 j := by
  induction k with
  | zero =>
    intro d a st hd hk hlt ha hst hprev
    refine ⟨b + d, ⟨by omega, hlt, Or.inr (by omega), hprev⟩, ?_⟩
    unfold adjustLoop
    simp only
    have : (if st (b + d) = 0 then (fun j => if j = b + d then 3 else st j) else st) =
        fun j => if (b < j ∧ j ≤ b + d) ∧ st0 j = 0 then 3 else st0 j := by
      funext j
      have e : st (b + d) = st0 (b + d) := by rw [hst]; simp
      rw [e]
      by_cases h0 : st0 (b + d) = 0
      · rw [if_pos h0]
        by_cases hj : j = b + d
        · subst hj; rw [if_pos rfl, if_pos ⟨⟨by omega, le_refl _⟩, h0⟩]
        · rw [if_neg hj, hst]
          simp only
          apply if_congr _ rfl rfl
          constructor
          · rintro ⟨h1, h2⟩; exact ⟨⟨h1.1, by omega⟩, h2⟩
          · rintro ⟨h1, h2⟩; exact ⟨⟨h1.1, by omega⟩, h2⟩
      · rw [if_neg h0, hst]
        simp only
        by_cases hj : j = b + d
        · subst hj; rw [if_neg (fun h => h0 h.2), if_neg (fun h => h0 h.2)]
        · apply if_congr _ rfl rfl
          constructor
          · rintro ⟨h1, h2⟩; exact ⟨⟨h1.1, by omega⟩, h2⟩
          · rintro ⟨h1, h2⟩; exact ⟨⟨h1.1, by omega⟩, h2⟩
    rw [this]
    split <;> rfl
  | succ k ih =>
    intro d a st hd hk hlt ha hst hprev
    have hstep : (fun j => if j = b + d then a0 b * ((d : α) + 1) else a j) =
        fun j => if b < j ∧ j < b + (d + 1) then a0 b * ((j - b : ℕ) + 1) else a0 j := by
      funext j
      by_cases hj : j = b + d
      · subst hj; rw [if_pos rfl, if_pos ⟨by omega, by omega⟩, show b + d - b = d by omega]
      · rw [if_neg hj, ha]
        simp only
        apply if_congr _ rfl rfl
        constructor
        · rintro ⟨h1, h2⟩; exact ⟨h1, by omega⟩
        · rintro ⟨h1, h2⟩; exact ⟨h1, by omega⟩
    have hst' : (if st (b + d) = 0 then (fun j => if j = b + d then 3 else st j) else st) =
        fun j => if (b < j ∧ j < b + (d + 1)) ∧ st0 j = 0 then 3 else st0 j := by
      funext j
      have e : st (b + d) = st0 (b + d) := by rw [hst]; simp
      rw [e]
      by_cases h0 : st0 (b + d) = 0
      · rw [if_pos h0]
        by_cases hj : j = b + d
        · subst hj; rw [if_pos rfl, if_pos ⟨⟨by omega, by omega⟩, h0⟩]
        · rw [if_neg hj, hst]
          simp only
          apply if_congr _ rfl rfl
          constructor
          · rintro ⟨h1, h2⟩; exact ⟨⟨h1.1, by omega⟩, h2⟩
          · rintro ⟨h1, h2⟩; exact ⟨⟨h1.1, by omega⟩, h2⟩
      · rw [if_neg h0, hst]
        simp only
        by_cases hj : j = b + d
        · subst hj; rw [if_neg (fun h => h0 h.2), if_neg (fun h => h0 h.2)]
        · apply if_congr _ rfl rfl
          constructor
          · rintro ⟨h1, h2⟩; exact ⟨⟨h1.1, by omega⟩, h2⟩
          · rintro ⟨h1, h2⟩; exact ⟨⟨h1.1, by omega⟩, h2⟩
    have hsum : (∑ h ∈ Finset.range nH, (if h = b + d then a0 b * ((d : α) + 1) else a h) * path h) =
        Spec.extendedLwp nH a0 path b (b + d) := by
      unfold Spec.extendedLwp
      apply Finset.sum_congr rfl
      intro h _
      have := congrFun hstep h
      rw [this]
      congr 1
      apply if_congr _ rfl rfl
      constructor
      · rintro ⟨h1, h2⟩; exact ⟨h1, by omega⟩
      · rintro ⟨h1, h2⟩; exact ⟨h1, by omega⟩
    unfold adjustLoop
    simp only
    rw [hsum]
    by_cases hc : l < Spec.extendedLwp nH a0 path b (b + d)
    · rw [if_pos hc]
      refine ⟨b + d, ⟨by omega, hlt, Or.inl hc, hprev⟩, ?_⟩
      simp only
      rw [hst']
      funext j
      apply if_congr _ rfl rfl
      constructor
      · rintro ⟨h1, h2⟩; exact ⟨⟨h1.1, by omega⟩, h2⟩
      · rintro ⟨h1, h2⟩; exact ⟨⟨h1.1, by omega⟩, h2⟩
    · rw [if_neg hc]
      rw [hstep, hst']
      refine ih (d + 1) _ _ (by omega) (by omega) (by omega) rfl rfl ?_
      intro i h1 h2
      by_cases hi : i = b + d
      · subst hi; exact not_lt.1 hc
      · exact hprev i h1 (by omega)

/-- The topmost cloud: either it has a base above the first gate, or the whole column is liquid and only
its last gate counts, or there is none. -/
theorem topmost_cases (n : ℕ) (hn : 2 ≤ n) (liq : ℕ → Bool) :
    (∃ b, Spec.TopmostBase n liq b ∧ ∀ h, topmostCloudRow n liq h = (if h < b then false else liq h)) ∨
    ((∀ j < n, liq j = true → 0 < j → liq (j - 1) = true) ∧
      ∀ h, topmostCloudRow n liq h = (if h < n - 1 then false else liq h)) := by
  by_cases hex : ∃ j, j < n - 1 ∧ (!liq (n - 2 - j) && liq (n - 1 - j)) = true
  · left
    classical
    obtain ⟨k, hk, hmin⟩ : ∃ k, (k < n - 1 ∧ (!liq (n - 2 - k) && liq (n - 1 - k)) = true) ∧
        ∀ i < k, ¬ (i < n - 1 ∧ (!liq (n - 2 - i) && liq (n - 1 - i)) = true) :=
      ⟨Nat.find hex, Nat.find_spec hex, fun i hi => Nat.find_min hex hi⟩
    have hk2 := hk.2
    rw [Bool.and_eq_true, Bool.not_eq_true'] at hk2
    have harg : argmaxBool (n - 1) (fun j => !liq (n - 2 - j) && liq (n - 1 - j)) = k := by
      apply argmaxBool_eq hk.1 hk.2
      intro i hi
      by_contra hc
      exact hmin i hi ⟨by omega, by simpa using hc⟩
    refine ⟨n - 1 - k, ⟨by omega, by omega, hk2.2, ?_, ?_⟩, ?_⟩
    · rw [show n - 1 - k - 1 = n - 2 - k by omega]; exact hk2.1
    · intro j h1 h2 h3
      by_contra hc
      apply hmin (n - 1 - j) (by omega)
      refine ⟨by omega, ?_⟩
      rw [show n - 2 - (n - 1 - j) = j - 1 by omega, show n - 1 - (n - 1 - j) = j by omega, h3]
      simpa using hc
    · intro h
      unfold topmostCloudRow
      simp only [harg]
  · right
    push Not at hex
    refine ⟨?_, ?_⟩
    · intro j hj h1 h0
      by_contra hc
      apply hex (n - 1 - j) (by omega)
      rw [show n - 2 - (n - 1 - j) = j - 1 by omega, show n - 1 - (n - 1 - j) = j by omega, h1]
      simpa using hc
    · intro h
      unfold topmostCloudRow
      rw [argmaxBool_none (fun i hi => by simpa using hex i hi)]
      rfl

/-- Sums of detection types agree iff no type exceeds one. -/
theorem lidarOnly_iff (n : ℕ) (det : ℕ → ℕ) :
    lidarOnlyRow n det = true ↔ (∀ h < n, det h ≤ 1) ∧ ∃ h < n, det h = 1 := by
  have hle : ∀ h ∈ Finset.range n, (if 0 < det h then 1 else 0) ≤ det h := by
    intro h _; split <;> omega
  unfold lidarOnlyRow
  simp only [Bool.and_eq_true, decide_eq_true_eq]
  rw [Finset.sum_eq_sum_iff_of_le hle]
  constructor
  · rintro ⟨h1, h2⟩
    have hall : ∀ h < n, det h ≤ 1 := by
      intro h hh
      have := h2 h (Finset.mem_range.2 hh)
      split at this <;> omega
    refine ⟨hall, ?_⟩
    by_contra hc
    push Not at hc
    apply h1
    apply Finset.sum_eq_zero
    intro h hh
    have a1 := hall h (Finset.mem_range.1 hh)
    have a2 := hc h (Finset.mem_range.1 hh)
    omega
  · rintro ⟨h1, k, hk, hk1⟩
    constructor
    · intro hz
      rw [Finset.sum_eq_zero_iff] at hz
      have := hz k (Finset.mem_range.2 hk)
      omega
    · intro h hh
      have := h1 h (Finset.mem_range.1 hh)
      split <;> omega

theorem detection_iff (n b : ℕ) (liq radar lidar top : ℕ → Bool)
    (ht : ∀ h, top h = (if h < b then false else liq h)) :
    lidarOnlyRow n (detectionRow top liq radar lidar) = true ↔ Spec.LidarOnly n liq radar lidar b := by
  rw [lidarOnly_iff]
  unfold Spec.LidarOnly detectionRow
  simp only [ht]
  constructor
  · rintro ⟨h1, k, hk, hk1⟩
    have hrad : ∀ h, b ≤ h → h < n → liq h = true → radar h = false := by
      intro h hb hh hl
      have := h1 h hh
      rw [if_neg (show ¬ h < b by omega), hl] at this
      cases hr : radar h with
      | false => rfl
      | true => rw [hr] at this; simp at this
    refine ⟨hrad, k, ?_⟩
    by_cases hb : k < b
    · rw [if_pos hb] at hk1; simp at hk1
    · rw [if_neg hb] at hk1
      cases hl : liq k with
      | false => rw [hl] at hk1; simp at hk1
      | true =>
        refine ⟨by omega, hk, rfl, ?_⟩
        rw [hl, hrad k (by omega) hk hl] at hk1
        cases hli : lidar k with
        | true => rfl
        | false => rw [hli] at hk1; simp at hk1
  · rintro ⟨h1, k, hb, hk, hl, hli⟩
    constructor
    · intro h hh
      by_cases hb' : h < b
      · rw [if_pos hb']; simp
      · rw [if_neg hb']
        cases hl' : liq h with
        | false => simp
        | true => rw [h1 h (by omega) hh hl']; simp; split <;> omega
    · refine ⟨k, hk, ?_⟩
      rw [if_neg (show ¬ k < b by omega), hl, h1 k hb hk hl, hli]
      simp

/-- The first adjustable gate is the base of an adjusted cloud. -/
theorem adjustable_find (n : ℕ) (hn : 2 ≤ n) (liq radar lidar : ℕ → Bool) (isRain : Bool)
    (lwcAdiabatic path : ℕ → α) [IsStrictOrderedRing α] (lwp : Option α) (b : ℕ) :
    (List.range n).find? (adjustableRow n liq radar lidar isRain lwcAdiabatic path lwp) = some b ↔
      Spec.Adjusted n liq radar lidar isRain lwcAdiabatic path lwp b := by
  have hdub : ∀ h, adjustableRow n liq radar lidar isRain lwcAdiabatic path lwp h = true ↔
      topmostCloudRow n liq h = true ∧
      lidarOnlyRow n (detectionRow (topmostCloudRow n liq) liq radar lidar) = true ∧
      isRain = false ∧ ∃ l, lwp = some l ∧ ∑ h ∈ Finset.range n, lwcAdiabatic h * path h < l := by
    intro h
    unfold adjustableRow
    simp only [Bool.and_eq_true]
    rw [and_assoc]
    apply and_congr_right; intro _
    apply and_congr_right; intro _
    cases lwp with
    | none => simp
    | some l => simp [and_comm]
  have hnot : ∀ h, (!adjustableRow n liq radar lidar isRain lwcAdiabatic path lwp h) = true ↔
      ¬ adjustableRow n liq radar lidar isRain lwcAdiabatic path lwp h = true := by
    intro h; simp
  rw [List.find?_range_eq_some]
  simp only [hnot, hdub, List.mem_range]
  unfold Spec.Adjusted
  rcases topmost_cases n hn liq with ⟨b0, hb0, htop⟩ | ⟨hno, htop⟩
  · rw [detection_iff n b0 liq radar lidar _ htop]
    obtain ⟨p0, p1, p2, p3, p4⟩ := id hb0
    constructor
    · rintro ⟨⟨h1, h2⟩, h3, h4⟩
      rw [htop] at h1
      have hge : b0 ≤ b := by
        by_contra hc
        rw [if_pos (by omega)] at h1; cases h1
      have : b = b0 := by
        rcases Nat.lt_or_ge b0 b with h | h
        · exfalso
          apply h4 b0 h
          refine ⟨?_, h2⟩
          rw [htop, if_neg (by omega)]; exact p2
        · omega
      subst this
      exact ⟨Or.inl hb0, h2⟩
    · rintro ⟨h1, h2⟩
      have : b = b0 := by
        rcases h1 with h1 | ⟨h1, h1'⟩
        · obtain ⟨q0, q1, q2, q3, q4⟩ := h1
          rcases Nat.lt_trichotomy b b0 with h | h | h
          · have := q4 b0 h p1 p2
            rw [p3] at this; cases this
          · exact h
          · have := p4 b h q1 q2
            rw [q3] at this; cases this
        · have := h1' (b0 - 1) (by omega)
          rw [p3] at this; cases this
      subst this
      refine ⟨⟨?_, h2⟩, p1, ?_⟩
      · rw [htop, if_neg (by omega)]; exact p2
      · rintro j hj ⟨hc, -⟩
        rw [htop, if_pos hj] at hc; cases hc
  · rw [detection_iff n (n - 1) liq radar lidar _ htop]
    constructor
    · rintro ⟨⟨h1, h2⟩, h3, h4⟩
      rw [htop] at h1
      have hge : b = n - 1 := by
        by_contra hc
        rw [if_pos (by omega)] at h1; cases h1
      rw [if_neg (by omega)] at h1
      subst hge
      refine ⟨Or.inr ⟨rfl, ?_⟩, h2⟩
      have : ∀ k < n, liq (n - 1 - k) = true := by
        intro k
        induction k with
        | zero => intro _; exact h1
        | succ k ih =>
          intro hk
          have := hno (n - 1 - k) (by omega) (ih (by omega)) (by omega)
          rw [show n - 1 - k - 1 = n - 1 - (k + 1) by omega] at this
          exact this
      intro j hj
      have := this (n - 1 - j) (by omega)
      rw [show n - 1 - (n - 1 - j) = j by omega] at this
      exact this
    · rintro ⟨h1, h2⟩
      have hb : b = n - 1 ∧ liq b = true := by
        rcases h1 with ⟨q0, q1, q2, q3, q4⟩ | ⟨h1, h1'⟩
        · have := hno b q1 q2 q0
          rw [q3] at this; cases this
        · exact ⟨h1, h1' b (by omega)⟩
      obtain ⟨rfl, hl⟩ := hb
      refine ⟨⟨?_, h2⟩, by omega, ?_⟩
      · rw [htop, if_neg (by omega)]; exact hl
      · rintro j hj ⟨hc, -⟩
        rw [htop, if_pos hj] at hc; cases hc

theorem Spec.Adjusted.unique {n : ℕ} (hn : 2 ≤ n) {liq radar lidar : ℕ → Bool} {isRain : Bool}
    {lwcAdiabatic path : ℕ → α} [IsStrictOrderedRing α] {lwp : Option α} {b b' : ℕ}
    (h : Spec.Adjusted n liq radar lidar isRain lwcAdiabatic path lwp b)
    (h' : Spec.Adjusted n liq radar lidar isRain lwcAdiabatic path lwp b') : b = b' := by
  rw [← adjustable_find n hn] at h h'
  rw [h] at h'
  exact Option.some.inj h'

/-- C22, one profile. -/
theorem C22_profile (n : ℕ) (hn : 2 ≤ n) (liq radar lidar : ℕ → Bool) (isRain : Bool)
    (lwcAdiabatic path : ℕ → α) [IsStrictOrderedRing α] (lwp : Option α) :
    (Spec.Adjusted n liq radar lidar isRain lwcAdiabatic path lwp (n - 1) →
      cloudAdjustorRow n liq radar lidar isRain lwcAdiabatic path lwp = .error "IndexError") ∧
    (¬ Spec.Adjusted n liq radar lidar isRain lwcAdiabatic path lwp (n - 1) →
      ∃ status, cloudAdjustorRow n liq radar lidar isRain lwcAdiabatic path lwp = .ok status ∧
      (isRain = true ∨ lwp = none → ∀ h, status h = 4) ∧
      (isRain = false → lwp ≠ none → ∀ h,
        (liq h = true → (∃ b, Spec.Adjusted n liq radar lidar isRain lwcAdiabatic path lwp b) →
          status h = 2) ∧
        (liq h = true → (¬ ∃ b, Spec.Adjusted n liq radar lidar isRain lwcAdiabatic path lwp b) →
          status h = 1) ∧
        (liq h = false → (∃ b l top, Spec.Adjusted n liq radar lidar isRain lwcAdiabatic path lwp b ∧
          lwp = some l ∧ Spec.ExtendedTop n lwcAdiabatic path l b top ∧ b < h ∧ h ≤ top) → status h = 3) ∧
        (liq h = false → (¬ ∃ b l top, Spec.Adjusted n liq radar lidar isRain lwcAdiabatic path lwp b ∧
          lwp = some l ∧ Spec.ExtendedTop n lwcAdiabatic path l b top ∧ b < h ∧ h ≤ top) →
          status h = 0))) := by
  unfold cloudAdjustorRow
  simp only [if_neg (show ¬ n ≤ 1 by omega)]
  constructor
  · intro h
    obtain ⟨-, -, -, l, hl, -⟩ := id h
    rw [(adjustable_find n hn _ _ _ _ _ _ _ _).2 h, hl]
    simp only
    rw [if_pos (show n ≤ n - 1 + 1 by omega)]
    rfl
  · intro hlast
    rcases hf : (List.range n).find? (adjustableRow n liq radar lidar isRain lwcAdiabatic path lwp)
      with _ | b
    · have hno : ¬ ∃ b, Spec.Adjusted n liq radar lidar isRain lwcAdiabatic path lwp b := by
        rintro ⟨b, hb⟩
        rw [← adjustable_find n hn, hf] at hb; cases hb
      refine ⟨_, rfl, ?_, ?_⟩
      · rintro (h | h) k <;> simp [h]
      · intro hr hw k
        have hsome : lwp.isNone = false := by
          rw [Option.isNone_eq_false_iff, ← Option.ne_none_iff_isSome]; exact hw
        refine ⟨fun _ h => absurd h hno, fun h _ => by simp [hr, hsome, h], ?_,
          fun h _ => by simp [hr, hsome, h]⟩
        rintro _ ⟨b, _, _, hb, _⟩
        exact absurd ⟨b, hb⟩ hno
    · have hb := (adjustable_find n hn _ _ _ _ _ _ _ _).1 hf
      obtain ⟨-, -, hr, l, hl, -⟩ := id hb
      have hbn : b + 1 < n := by
        have h1 : b < n := List.mem_range.1 (List.mem_of_find?_eq_some hf)
        rcases Nat.lt_or_ge (b + 1) n with h | h
        · exact h
        · have : b = n - 1 := by omega
          rw [this] at hb
          exact absurd hb hlast
      subst hr
      subst hl
      simp only
      rw [if_neg (show ¬ n ≤ b + 1 by omega)]
      obtain ⟨top, htop, hres⟩ := adjustLoop_spec n path l lwcAdiabatic
        (fun h => if liq h = true then 2 else if liq h = true then 1 else 0) b (n - 1 - (b + 1)) 1
        lwcAdiabatic _ (by omega) (by omega) (by omega)
        (by funext j; rw [if_neg (by omega)])
        rfl (by omega)
      have hst1 : (fun j => if (b < j ∧ j < b + 1) ∧
          (if liq j = true then 2 else if liq j = true then 1 else 0) = 0 then 3
          else if liq j = true then 2 else if liq j = true then 1 else 0) =
          fun j => if liq j = true then 2 else if liq j = true then 1 else 0 := by
        funext j; rw [if_neg (by omega)]
      rw [hst1] at hres
      refine ⟨_, rfl, ?_, ?_⟩
      · rintro (h | h) k
        · simp [h]
        · cases h
      · intro _ _ k
        simp only [Option.isNone_some, Bool.or_false, Bool.false_eq_true, if_false]
        simp only [hres]
        refine ⟨fun h _ => by simp [h], fun h hno => absurd ⟨b, hb⟩ hno, ?_, ?_⟩
        · rintro h ⟨b', l', top', hb', hl', htop', h1, h2⟩
          have : b = b' := Spec.Adjusted.unique hn hb hb'
          subst this
          cases hl'
          have ht : top = top' := by
            obtain ⟨t1, t2, t3, t4⟩ := htop
            obtain ⟨u1, u2, u3, u4⟩ := htop'
            rcases Nat.lt_trichotomy top top' with h | h | h
            · have := u4 top t1 h
              rcases t3 with t3 | t3
              · exact absurd t3 (not_lt.2 this)
              · omega
            · exact h
            · have := t4 top' u1 h
              rcases u3 with u3 | u3
              · exact absurd u3 (not_lt.2 this)
              · omega
          subst ht
          rw [if_pos ⟨⟨h1, h2⟩, by simp [h]⟩]
        · intro h hno
          rw [if_neg]
          · simp [h]
          · rintro ⟨⟨h1, h2⟩, -⟩
            exact hno ⟨b, l, top, hb, rfl, htop, h1, h2⟩

theorem mapM_error {β γ : Type} (f : β → Except String γ) (l : List β) (x : β) (hx : x ∈ l)
    (h : ∃ e, f x = .error e) : ∃ e, l.mapM f = .error e := by
  induction l with
  | nil => simp at hx
  | cons y ys ih =>
    rw [List.mapM_cons]
    rcases hf : f y with e | v
    · exact ⟨e, rfl⟩
    · rw [List.mem_cons] at hx
      rcases hx with rfl | hx
      · obtain ⟨e, he⟩ := h
        rw [he] at hf; cases hf
      · obtain ⟨e, he⟩ := ih hx
        exact ⟨e, by rw [he]; rfl⟩

/-- C22. The retrieval status of all profiles. Rainy profiles and profiles without liquid water path are 4
everywhere. Elsewhere a liquid pixel is 2 if its profile has a cloud that is adjusted and 1 if not; any
other pixel is 3 if the adjusted cloud is extended over it, and 0 if not. -/
theorem C22_status (nT nH : ℕ) (hn : 2 ≤ nH) (liq radar lidar : Grid Bool) (isRain : ℕ → Bool)
    (lwcAdiabatic : Grid α) (path : ℕ → α) [IsStrictOrderedRing α] (lwp : ℕ → Option α)
    (hlast : ∀ t < nT, ¬ Spec.Adjusted nH (liq t) (radar t) (lidar t) (isRain t) (lwcAdiabatic t) path
      (lwp t) (nH - 1)) :
    ∃ status, cloudAdjustor nT nH liq radar lidar isRain lwcAdiabatic path lwp = .ok status ∧
      ∀ t < nT,
        (isRain t = true ∨ lwp t = none → ∀ h, status t h = 4) ∧
        (isRain t = false → lwp t ≠ none → ∀ h,
          (liq t h = true → (∃ b, Spec.Adjusted nH (liq t) (radar t) (lidar t) (isRain t)
            (lwcAdiabatic t) path (lwp t) b) → status t h = 2) ∧
          (liq t h = true → (¬ ∃ b, Spec.Adjusted nH (liq t) (radar t) (lidar t) (isRain t)
            (lwcAdiabatic t) path (lwp t) b) → status t h = 1) ∧
          (liq t h = false → (∃ b l top, Spec.Adjusted nH (liq t) (radar t) (lidar t) (isRain t)
            (lwcAdiabatic t) path (lwp t) b ∧ lwp t = some l ∧
            Spec.ExtendedTop nH (lwcAdiabatic t) path l b top ∧ b < h ∧ h ≤ top) → status t h = 3) ∧
          (liq t h = false → (¬ ∃ b l top, Spec.Adjusted nH (liq t) (radar t) (lidar t) (isRain t)
            (lwcAdiabatic t) path (lwp t) b ∧ lwp t = some l ∧
            Spec.ExtendedTop nH (lwcAdiabatic t) path l b top ∧ b < h ∧ h ≤ top) → status t h = 0)) := by
  classical
  have hrow := fun t (ht : t < nT) => (C22_profile nH hn (liq t) (radar t) (lidar t) (isRain t)
    (lwcAdiabatic t) path (lwp t)).2 (hlast t ht)
  let g : ℕ → ℕ → ℕ := fun t => if h : t < nT then (hrow t h).choose else fun _ => 0
  have hm := mapM_ok (fun t => cloudAdjustorRow nH (liq t) (radar t) (lidar t) (isRain t)
    (lwcAdiabatic t) path (lwp t)) g (List.range nT) (by
      intro t ht
      have ht := List.mem_range.1 ht
      simp only [g, dif_pos ht]
      exact (hrow t ht).choose_spec.1)
  refine ⟨fun t => ((List.range nT).map g).getD t (fun _ => 0), ?_, ?_⟩
  · unfold cloudAdjustor
    rw [hm]; rfl
  · intro t ht
    have e : ((List.range nT).map g).getD t (fun _ => 0) = (hrow t ht).choose := by
      rw [List.getD_eq_getElem _ _ (by simpa using ht)]
      simp only [List.getElem_map, List.getElem_range, g, dif_pos ht]
    simp only [e]
    exact (hrow t ht).choose_spec.2

/-- C22. If an adjusted cloud starts at the last gate, the retrieval fails with an error. -/
theorem C22_raises (nT nH : ℕ) (hn : 2 ≤ nH) (liq radar lidar : Grid Bool) (isRain : ℕ → Bool)
    (lwcAdiabatic : Grid α) (path : ℕ → α) [IsStrictOrderedRing α] (lwp : ℕ → Option α) (t : ℕ) (ht : t < nT)
    (h : Spec.Adjusted nH (liq t) (radar t) (lidar t) (isRain t) (lwcAdiabatic t) path (lwp t) (nH - 1)) :
    ∃ e, cloudAdjustor nT nH liq radar lidar isRain lwcAdiabatic path lwp = .error e := by
  obtain ⟨e, he⟩ := mapM_error (fun t => cloudAdjustorRow nH (liq t) (radar t) (lidar t) (isRain t)
    (lwcAdiabatic t) path (lwp t)) (List.range nT) t (List.mem_range.2 ht)
    ⟨_, (C22_profile nH hn (liq t) (radar t) (lidar t) (isRain t) (lwcAdiabatic t) path (lwp t)).1 h⟩
  exact ⟨e, by unfold cloudAdjustor; rw [he]; rfl⟩

end

/-- Example: liquid at gates 1 and 2 of 6, lidar only, gates of 10 m and content 1 at the base. -/
def exampleLiq : ℕ → Bool := fun h => h = 1 || h = 2

example : Spec.Adjusted 6 exampleLiq (fun _ => false) exampleLiq false
      (fun h => if h = 1 then (1 : ℚ) else if h = 2 then 2 else 0) (fun _ => 10) (some 90) 1 ∧
    Spec.ExtendedTop 6 (fun h => if h = 1 then (1 : ℚ) else if h = 2 then 2 else 0) (fun _ => 10) 90 1 4 ∧
    (match cloudAdjustor 1 6 (fun _ => exampleLiq) (fun _ _ => false) (fun _ => exampleLiq)
        (fun _ => false) (fun _ h => if h = 1 then (1 : ℚ) else if h = 2 then 2 else 0) (fun _ => 10)
        (fun _ => some 90) with
      | .ok s => decide ((List.range 6).map (s 0) = [0, 2, 2, 3, 3, 0])
      | .error _ => false) = true := by
  refine ⟨⟨Or.inl ⟨by decide, by decide, by decide, by decide, ?_⟩, ⟨fun _ _ _ _ => rfl, 1, by decide,
    by decide, by decide, by decide⟩, rfl, 90, rfl, by decide +kernel⟩, ⟨by decide, by decide,
    Or.inl (by decide +kernel), ?_⟩, by decide +kernel⟩
  · intro j h1 h2 h3
    have : j = 2 := by
      simp [exampleLiq] at h3; omega
    subst this; decide
  · intro i h1 h2
    have : i = 2 ∨ i = 3 := by omega
    rcases this with rfl | rfl <;> decide +kernel

/-! ### C78 -/

/-- C78. The error of the liquid water content is given exactly where the profile is not rainy, the
content is known and not zero, and the liquid water path and its error are known. It combines the relative
gradient of the content (at most 5) and the relative error of the path (at most 10). -/
theorem C78_lwc_error (nT nH : ℕ) (hT : 2 ≤ nT) (hH : 2 ≤ nH) (lwc : Grid (Option ℝ))
    (lwp lwpError : ℕ → Option ℝ) (isRain : ℕ → Bool) :
    ∃ error, lwcError nT nH lwc lwp lwpError isRain = .ok error ∧ ∀ t h,
      ((∃ e, error t h = some e) ↔ isRain t = false ∧ (∃ w, lwc t h = some w ∧ w ≠ 0) ∧
        lwp t ≠ none ∧ lwpError t ≠ none) ∧
      ∀ w p dp, isRain t = false → lwc t h = some w → w ≠ 0 → lwp t = some p → lwpError t = some dp →
        error t h = some (Real.sqrt
          ((min (Real.sqrt ((gradient1 nT (fun t' => (lwc t' h).getD 0) t) ^ 2 +
              (gradient1 nH (fun h' => (lwc t h').getD 0) h) ^ 2) / w / 2) 5) ^ 2 +
           (min (if p = 0 then 0 else dp / p) 10) ^ 2)) := by
  have hmin : ∀ a b : ℝ, (if b < a then b else a) = min a b := by
    intro a b
    split
    · rename_i h; exact (min_eq_right h.le).symm
    · rename_i h; exact (min_eq_left (not_lt.1 h)).symm
  have hval : ∀ (lw le : ℕ → Option ℝ) t h w p dp, isRain t = false → lwc t h = some w → w ≠ 0 →
      lw t = some p → le t = some dp →
      l2norm [limitError (((l2norm [some (gradient1 nT (fun t' => (lwc t' h).getD 0) t),
          some (gradient1 nH (fun h' => (lwc t h').getD 0) h)])).bind fun g => (lwc t h).bind fun w =>
            if w = 0 then none else some (g / w / 2)) 5,
          limitError ((le t).bind fun e => (lw t).map fun v => if v ≠ 0 then e / v else 0) 10] =
      some (Real.sqrt
          ((min (Real.sqrt ((gradient1 nT (fun t' => (lwc t' h).getD 0) t) ^ 2 +
              (gradient1 nH (fun h' => (lwc t h').getD 0) h) ^ 2) / w / 2) 5) ^ 2 +
           (min (if p = 0 then 0 else dp / p) 10) ^ 2)) := by
    intro lw le t h w p dp _ hw hw0 hp hdp
    rw [(C69_l2norm [some _, some _]).2 (by simp), hw, hp, hdp]
    simp only [Option.bind_some, Option.map_some, if_neg hw0, limitError, hmin]
    rw [(C69_l2norm _).2 (by simp)]
    simp only [List.map_cons, List.map_nil, List.sum_cons, List.sum_nil, Option.getD_some, add_zero]
    congr 4
    by_cases hp0 : p = 0 <;> simp [hp0]
  unfold lwcError
  rw [if_neg (by omega)]
  refine ⟨_, rfl, fun t h => ⟨?_, ?_⟩⟩
  · constructor
    · rintro ⟨e, he⟩
      simp only at he
      cases hr : isRain t with
      | true => rw [hr] at he; simp at he
      | false =>
        rw [hr] at he
        simp only [Bool.false_eq_true, if_false] at he
        cases hw : lwc t h with
        | none => rw [hw] at he; cases he
        | some w =>
          rw [hw] at he
          simp only at he
          by_cases hw0 : w = 0
          · rw [if_pos hw0] at he; cases he
          · rw [if_neg hw0] at he
            refine ⟨rfl, ⟨w, rfl, hw0⟩, ?_, ?_⟩
            · intro hp
              rw [hp, (C69_l2norm _).1 (by
                cases lwpError t <;> simp [limitError])] at he
              cases he
            · intro hp
              rw [hp, (C69_l2norm _).1 (by simp [limitError])] at he
              cases he
    · rintro ⟨hr, ⟨w, hw, hw0⟩, hp, hdp⟩
      obtain ⟨p, hp⟩ := Option.ne_none_iff_exists'.1 hp
      obtain ⟨dp, hdp⟩ := Option.ne_none_iff_exists'.1 hdp
      have := hval lwp lwpError t h w p dp hr hw hw0 hp hdp
      rw [hw] at this
      simp only [hr, hw, if_neg hw0, Bool.false_eq_true, if_false]
      exact ⟨_, this⟩
  · intro w p dp hr hw hw0 hp hdp
    simp only [hr, hw, if_neg hw0, Bool.false_eq_true, if_false]
    have := hval lwp lwpError t h w p dp hr hw hw0 hp hdp
    rw [hw] at this
    exact this

/-- C78. With a non-negative content and path error the error lies between 0 and √125. -/
theorem C78_bounds (nT nH : ℕ) (lwc : Grid (Option ℝ)) (lwp lwpError : ℕ → Option ℝ) (isRain : ℕ → Bool)
    (error : Grid (Option ℝ)) (h : lwcError nT nH lwc lwp lwpError isRain = .ok error) (t i : ℕ)
    (hw : ∀ w, lwc t i = some w → 0 ≤ w) (hp : ∀ p, lwp t = some p → 0 ≤ p)
    (hdp : ∀ p, lwpError t = some p → 0 ≤ p) (e : ℝ) (he : error t i = some e) :
    0 ≤ e ∧ e ≤ Real.sqrt 125 := by
  have hTH : ¬ (nT ≤ 1 ∨ nH ≤ 1) := by
    intro hc; unfold lwcError at h; rw [if_pos hc] at h; cases h
  obtain ⟨error', h', hall⟩ := C78_lwc_error nT nH (by omega) (by omega) lwc lwp lwpError isRain
  rw [h] at h'
  cases h'
  obtain ⟨a1, ⟨w, a2, a3⟩, a4, a5⟩ := (hall t i).1.1 ⟨e, he⟩
  obtain ⟨p, a4⟩ := Option.ne_none_iff_exists'.1 a4
  obtain ⟨dp, a5⟩ := Option.ne_none_iff_exists'.1 a5
  rw [(hall t i).2 w p dp a1 a2 a3 a4 a5] at he
  have he := Option.some.inj he
  subst he
  refine ⟨Real.sqrt_nonneg _, Real.sqrt_le_sqrt ?_⟩
  have k1 : 0 ≤ min (Real.sqrt ((gradient1 nT (fun t' => (lwc t' i).getD 0) t) ^ 2 +
              (gradient1 nH (fun h' => (lwc t h').getD 0) i) ^ 2) / w / 2) 5 :=
    le_min (div_nonneg (div_nonneg (Real.sqrt_nonneg _) (hw w a2)) (by norm_num)) (by norm_num)
  have k2 : 0 ≤ min (if p = 0 then 0 else dp / p) 10 := by
    apply le_min _ (by norm_num)
    split
    · exact le_refl _
    · exact div_nonneg (hdp dp a5) (hp p a4)
  have k3 := pow_le_pow_left₀ k1 (min_le_right _ _) 2
  have k4 := pow_le_pow_left₀ k2 (min_le_right _ _) 2
  nlinarith

example : ∃ error, lwcError 2 2 (fun _ _ => some 1) (fun _ => some 4) (fun _ => some 1) (fun _ => false)
    = .ok error ∧ error 0 0 = some (1 / 4) := by
  obtain ⟨error, h, hall⟩ := C78_lwc_error 2 2 (by omega) (by omega) (fun _ _ => some 1) (fun _ => some 4)
    (fun _ => some 1) (fun _ => false)
  refine ⟨error, h, ?_⟩
  rw [(hall 0 0).2 1 4 1 rfl rfl one_ne_zero rfl rfl]
  simp only [gradient1]
  norm_num
  rw [show (16 : ℝ) = 4 ^ 2 by norm_num, Real.sqrt_sq (by norm_num)]
  norm_num

/-- C78. The gradient of the error: differences of neighbours at both ends, half the difference of the two neighbours between them. -/
theorem C78_gradient (n : ℕ) (hn : 2 ≤ n) (f : ℕ → ℝ) :
    gradient1 n f 0 = f 1 - f 0 ∧ gradient1 n f (n - 1) = f (n - 1) - f (n - 2) ∧ (∀ i, 0 < i → i + 1 < n → gradient1 n f i = (f (i + 1) - f (i - 1)) / 2) ∧
    (∀ a b : ℝ, (∀ i, i < n → f i = a + b * i) → ∀ i < n, gradient1 n f i = b) := by
  have h1 : gradient1 n f 0 = f 1 - f 0 := by simp [gradient1]
  have h2 : gradient1 n f (n - 1) = f (n - 1) - f (n - 2) := by
    unfold gradient1
    rw [if_neg (by omega), if_pos rfl]
    congr 2
  have h3 : ∀ i, 0 < i → i + 1 < n → gradient1 n f i = (f (i + 1) - f (i - 1)) / 2 := by
    intro i hi hi'
    unfold gradient1
    rw [if_neg (by omega), if_neg (by omega)]
  refine ⟨h1, h2, h3, fun a b hf i hi => ?_⟩
  by_cases hi0 : i = 0
  · rw [hi0, h1, hf 1 (by omega), hf 0 (by omega)]
    push_cast
    ring
  · by_cases hi1 : i = n - 1
    · rw [hi1, h2, hf _ (by omega), hf _ (by omega)]
      have : ((n - 1 : ℕ) : ℝ) = ((n - 2 : ℕ) : ℝ) + 1 := by
        rw [show n - 1 = n - 2 + 1 by omega]
        push_cast
        rfl
      rw [this]
      ring
    · rw [h3 i (by omega) (by omega), hf _ (by omega), hf _ (by omega)]
      have : (i : ℝ) = ((i - 1 : ℕ) : ℝ) + 1 := by
        conv_lhs => rw [show i = i - 1 + 1 by omega]
        push_cast
        rfl
      push_cast
      rw [this]
      ring


end Cloudnet
