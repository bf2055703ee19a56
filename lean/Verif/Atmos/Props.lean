import Verif.Atmos.Lemmas
import Mathlib.Algebra.BigOperators.Ring.Finset

/-!
Properties C08 (cloud base and top heights), C19 (LWC conserves LWP), C20 (adiabatic LWC), C21 (bases
and tops pair up).
-/

set_option linter.unusedSectionVars false
set_option linter.unusedSimpArgs false

namespace Cloudnet

open Spec

/-- C21. The strict zip of bases and tops never raises; the paired positions lie in the same profile
and delimit a maximal run of cloud gates; every cloud pixel is in exactly one of the pairs. -/
theorem C21_bases_tops_pair (nT nH : ℕ) (a : Grid Bool) :
    ∃ ps, cloudBaseTopPairs nT nH a = .ok ps ∧
      (∀ q ∈ ps, q.1.1 < nT ∧ q.2.1 = q.1.1 ∧ IsLayer nH (a q.1.1) q.1.2 q.2.2) ∧
      ∀ t < nT, ∀ h < nH, a t h = true →
        ∃! q, q ∈ ps ∧ q.1.1 = t ∧ q.1.2 ≤ h ∧ h ≤ q.2.2 := by
  obtain ⟨ps, h1, h2, h3, h4⟩ := pairing_grid nT nH a
  refine ⟨ps, ?_, h1, ?_⟩
  · unfold cloudBaseTopPairs
    simp only [h2, h3, List.length_map, if_true, zip_map_fst_snd]
  · intro t ht h hh hth
    obtain ⟨q, hq, hqt, hq1, hq2⟩ := h4 t ht h hh hth
    refine ⟨q, ⟨hq, hqt, hq1, hq2⟩, ?_⟩
    rintro r ⟨hr, hrt, hr1, hr2⟩
    obtain ⟨_, a2, a3⟩ := h1 q hq
    obtain ⟨_, b2, b3⟩ := h1 r hr
    rw [hqt] at a2 a3
    rw [hrt] at b2 b3
    obtain ⟨e1, e2⟩ := IsLayer.unique b3 a3 hr1 hr2 hq1 hq2
    obtain ⟨⟨r1, r2⟩, r3, r4⟩ := r
    obtain ⟨⟨q1, q2⟩, q3, q4⟩ := q
    simp_all

/-- C21. Conversely every maximal run is one of the pairs, exactly once. -/
theorem C21_every_layer_is_paired (nT nH : ℕ) (a : Grid Bool) (ps : List (Pixel × Pixel))
    (hps : cloudBaseTopPairs nT nH a = .ok ps) (t b p : ℕ) (ht : t < nT)
    (hl : IsLayer nH (a t) b p) : ((t, b), (t, p)) ∈ ps ∧ ps.Nodup := by
  obtain ⟨ps', h1, h2, h3⟩ := C21_bases_tops_pair nT nH a
  rw [hps] at h1
  obtain rfl : ps = ps' := by simpa using h1
  constructor
  · obtain ⟨q, ⟨hq, hqt, hq1, hq2⟩, _⟩ := h3 t ht b (lt_of_le_of_lt hl.base_le_top hl.top_lt)
      (hl.full b (le_refl _) hl.base_le_top)
    obtain ⟨_, a2, a3⟩ := h2 q hq
    rw [hqt] at a2 a3
    obtain ⟨e1, e2⟩ := IsLayer.unique a3 hl hq1 hq2 (le_refl _) hl.base_le_top
    obtain ⟨⟨q1, q2⟩, q3, q4⟩ := q
    simp only at e1 e2 hqt a2
    rw [hqt, e1, a2, e2] at hq
    exact hq
  · obtain ⟨ps'', g1, g2, g3, g4⟩ := pairing_grid nT nH a
    have : ps = ps'' := by
      unfold cloudBaseTopPairs at hps
      simp only [g2, g3, List.length_map, if_true, zip_map_fst_snd] at hps
      simpa using hps.symm
    subst this
    have hs := whereGrid_sorted nT nH (findCloudBases a)
    rw [g2] at hs
    have hnd : (ps.map Prod.fst).Nodup := hs.imp (by
      rintro p q hpq rfl
      rcases hpq with h | h <;> omega)
    exact List.Nodup.of_map _ hnd

/-- Two layers in the first profile (the second one touching the top), one full-height layer in the
second. -/
example : cloudBaseTopPairs 2 4 (fun t h => t == 1 || h != 1) =
    .ok [((0, 0), (0, 0)), ((0, 2), (0, 3)), ((1, 0), (1, 3))] := by decide

section
variable {α : Type*} [Field α] [LinearOrder α] [IsStrictOrderedRing α]

/-- C08, one profile. If no gate of the height grid lies at altitude exactly zero, the base is masked
iff there is no cloudy gate, otherwise it is the height of the lowest cloudy gate; likewise the top. -/
theorem C08_profile (n : ℕ) (hn : 0 < n) (mask : ℕ → Bool) (height : ℕ → α)
    (h0 : ∀ h < n, height h ≠ 0) :
    ((∀ h < n, mask h = false) ∧ findLowestCloudBase n mask height = none ∧
        findHighestCloudTop n mask height = none) ∨
      ∃ b p, b ≤ p ∧ p < n ∧ mask b = true ∧ mask p = true ∧
        (∀ h < n, mask h = true → b ≤ h ∧ h ≤ p) ∧
        findLowestCloudBase n mask height = some (height b) ∧
        findHighestCloudTop n mask height = some (height p) := by
  by_cases h : ∃ i < n, mask i = true
  · right
    obtain ⟨b, hb, hbm, hbl⟩ := exists_lowest h
    obtain ⟨p, hp, hpm, hph⟩ := exists_highest h
    have hall : ∀ h < n, mask h = true → b ≤ h ∧ h ≤ p := by
      intro i hi hm
      constructor
      · by_contra hc; rw [hbl i (by omega)] at hm; simp at hm
      · by_contra hc; rw [hph i hi (by omega)] at hm; simp at hm
    exact ⟨b, p, (hall b hb hbm).2, hp, hbm, hpm, hall,
      findLowestCloudBase_some h0 hb hbm hbl, findHighestCloudTop_some h0 hp hpm hph⟩
  · left
    have h' : ∀ i < n, mask i = false := by
      intro i hi; by_contra hc; exact h ⟨i, hi, by simpa using hc⟩
    exact ⟨h', findLowestCloudBase_none hn h', findHighestCloudTop_none hn h'⟩

/-- C08. On a strictly increasing height grid that avoids altitude zero, computing the cloud base and
top heights never raises; for every profile both are masked iff the profile has no cloudy pixel, and
otherwise they are the heights of the lowest and of the highest cloudy pixel. -/
theorem C08_base_and_top_heights (nT nH : ℕ) (hH : 0 < nH) (mask : Grid Bool) (height : ℕ → α)
    (h0 : ∀ h < nH, height h ≠ 0) (hmono : ∀ i j, i < j → j < nH → height i < height j) :
    ∃ bases tops, getCloudBaseAndTopHeights nT nH mask height = .ok (bases, tops) ∧
      ∀ t < nT,
        ((∀ h < nH, mask t h = false) ∧ bases t = none ∧ tops t = none) ∨
        ∃ b p, b ≤ p ∧ p < nH ∧ mask t b = true ∧ mask t p = true ∧
          (∀ h < nH, mask t h = true → b ≤ h ∧ h ≤ p) ∧
          bases t = some (height b) ∧ tops t = some (height p) ∧ height b ≤ height p := by
  have hmono' : ∀ b p, b ≤ p → p < nH → height b ≤ height p := by
    intro b p hbp hp
    rcases Nat.lt_or_ge b p with h | h
    · exact le_of_lt (hmono b p h hp)
    · rw [show b = p by omega]
  have hrow : ∀ t, ((∀ h < nH, mask t h = false) ∧
        findLowestCloudBase nH (mask t) height = none ∧
        findHighestCloudTop nH (mask t) height = none) ∨
        ∃ b p, b ≤ p ∧ p < nH ∧ mask t b = true ∧ mask t p = true ∧
          (∀ h < nH, mask t h = true → b ≤ h ∧ h ≤ p) ∧
          findLowestCloudBase nH (mask t) height = some (height b) ∧
          findHighestCloudTop nH (mask t) height = some (height p) ∧ height b ≤ height p := by
    intro t
    rcases C08_profile nH hH (mask t) height h0 with h | ⟨b, p, h1, h2, h3, h4, h5, h6, h7⟩
    · exact Or.inl h
    · exact Or.inr ⟨b, p, h1, h2, h3, h4, h5, h6, h7, hmono' b p h1 h2⟩
  unfold getCloudBaseAndTopHeights
  by_cases hempty : (whereGrid nT nH mask).isEmpty = true
  · rw [if_pos hempty]
    refine ⟨_, _, rfl, ?_⟩
    intro t ht
    left
    refine ⟨?_, rfl, rfl⟩
    intro h hh
    by_contra hc
    have : (t, h) ∈ whereGrid nT nH mask := (mem_whereGrid _ _ _ _).2 ⟨ht, hh, by simpa using hc⟩
    rw [List.isEmpty_iff.1 hempty] at this
    simp at this
  · rw [if_neg hempty]
    have hdiffs : ∀ d ∈ (List.range nT).filterMap (fun t =>
        msub (findHighestCloudTop nH (mask t) height) (findLowestCloudBase nH (mask t) height)),
        0 ≤ d := by
      intro d hd
      obtain ⟨t, _, ht⟩ := List.mem_filterMap.1 hd
      rcases hrow t with ⟨_, h1, h2⟩ | ⟨b, p, _, _, _, _, _, h1, h2, h3⟩
      · rw [h1, h2] at ht; simp [msub] at ht
      · rw [h1, h2] at ht
        simp only [msub, Option.some.injEq] at ht
        rw [← ht]; linarith
    have hne : ((List.range nT).filterMap (fun t =>
        msub (findHighestCloudTop nH (mask t) height)
          (findLowestCloudBase nH (mask t) height))).isEmpty = false := by
      rw [Bool.eq_false_iff, Ne, List.isEmpty_iff] at *
      intro hcon
      apply hempty
      rw [List.eq_nil_iff_forall_not_mem]
      intro q hq
      obtain ⟨hq1, hq2, hq3⟩ := (mem_whereGrid _ _ _ _).1 hq
      rcases hrow q.1 with ⟨h1, _⟩ | ⟨b, p, _, _, _, _, _, h1, h2, _⟩
      · rw [h1 q.2 hq2] at hq3; simp at hq3
      · have : height p - height b ∈ ([] : List α) := by
          rw [← hcon]
          exact List.mem_filterMap.2 ⟨q.1, List.mem_range.2 hq1, by rw [h1, h2]; rfl⟩
        simp at this
    have hcond : ¬ ((((List.range nT).filterMap (fun t =>
        msub (findHighestCloudTop nH (mask t) height)
          (findLowestCloudBase nH (mask t) height))).isEmpty ||
        !(((List.range nT).filterMap (fun t =>
        msub (findHighestCloudTop nH (mask t) height)
          (findLowestCloudBase nH (mask t) height))).all fun d => decide (0 ≤ d))) = true) := by
      rw [hne]
      have : (((List.range nT).filterMap (fun t =>
        msub (findHighestCloudTop nH (mask t) height)
          (findLowestCloudBase nH (mask t) height))).all fun d => decide (0 ≤ d)) = true := by
        rw [List.all_eq_true]; intro d hd; simpa using hdiffs d hd
      rw [this]; simp
    rw [if_neg hcond]
    exact ⟨_, _, rfl, fun t _ => hrow t⟩

/-- C08. Without the hypothesis the claim is false: a single cloudy gate at altitude 0 is not seen
(0.0 is the code's sentinel for "no cloud"); with that gate the only cloudy one, the code raises. -/
theorem C08_gate_at_sea_level_fails :
    findLowestCloudBase 2 (fun h => h == 0) (fun h => (h : ℚ)) = none ∧
    findLowestCloudBase 2 (fun _ => true) (fun h => (h : ℚ)) = some 1 ∧
    (match getCloudBaseAndTopHeights 1 2 (fun _ h => h == 0) (fun h => (h : ℚ)) with
      | .error e => decide (e = "ValueError: Cloud base higher than cloud top!")
      | .ok _ => false) = true := by
  refine ⟨?_, ?_, ?_⟩
  · decide +kernel
  · decide +kernel
  · decide +kernel

/-- Heights 10, 20, 30 with the two upper gates cloudy in profile 1 only. -/
example : (match getCloudBaseAndTopHeights 2 3 (fun t h => t == 1 && h != 0)
      (fun h => (10 * (h + 1) : ℚ)) with
    | .ok (b, p) => decide (b 0 = none ∧ p 0 = none ∧ b 1 = some 20 ∧ p 1 = some 30)
    | .error _ => false) = true := by decide +kernel

/-- C20. Adiabatic LWC before scaling, for a positive base gradient and a height grid that increases
from above ground level: zero in every gate without liquid; in every gate `h` of a liquid layer with
base `b` it is the gradient at the base times the height gained since the lower edge of the base gate
(the gate below it, or the ground). -/
theorem C20_adiabatic_lwc (g : α → α → α) (nT nH : ℕ) (T P : Grid α) (liq : Grid Bool)
    (height : ℕ → α) (hg : ∀ t h, 0 < g (T t h) (P t h)) (h0 : 0 < height 0)
    (hmono : ∀ h, h + 1 < nH → height h < height (h + 1)) (t : ℕ) (ht : t < nT) :
    (∀ h < nH, liq t h = false →
      calcAdiabaticLwc (fillCloudsWithLwcDz g nT nH T P liq) height t h = 0) ∧
    ∀ b p h, IsLayer nH (liq t) b p → b ≤ h → h ≤ p →
      calcAdiabaticLwc (fillCloudsWithLwcDz g nT nH T P liq) height t h =
        g (T t b) (P t b) * (height h - if b = 0 then 0 else height (b - 1)) := by
  constructor
  · intro h _ hl
    simp [calcAdiabaticLwc, fillCloudsWithLwcDz_clear g nT nH T P liq hl]
  · intro b p h hlay hbh hhp
    have htop := hlay.top_lt
    have hpath : ∀ i < nH, 0 < pathLengthsFromGround height i := by
      intro i hi
      cases i with
      | zero => simpa [pathLengthsFromGround] using h0
      | succ i => have := hmono i hi; simp only [pathLengthsFromGround]; linarith
    have hcloud : ∀ i < nH,
        (fillCloudsWithLwcDz g nT nH T P liq t i ≠ 0 ↔ liq t i = true) := by
      intro i hi
      constructor
      · intro hne; by_contra hc
        exact hne (fillCloudsWithLwcDz_clear g nT nH T P liq (by simpa using hc))
      · intro hl
        obtain ⟨ps, h1, h2, h3⟩ := pairing_row nH (liq t)
        obtain ⟨q, hq, hq1, hq2⟩ := pairing_row_cover h1 h3 hi hl
        rw [fillCloudsWithLwcDz_layer g nT nH T P liq ht (h1 q hq) hq1 hq2
          (ne_of_gt (hg t q.1))]
        exact ne_of_gt (hg t q.1)
    unfold calcAdiabaticLwc
    simp only [cumsumr_indicator_lt_one]
    rw [fillCloudsWithLwcDz_layer g nT nH T P liq ht hlay hbh hhp (ne_of_gt (hg t b))]
    rw [mul_comm]
    congr 1
    set dz : ℕ → α := fun j => if ¬ (fillCloudsWithLwcDz g nT nH T P liq t j ≠ 0) then 0
      else pathLengthsFromGround height j with hdz
    have hdz1 : ∀ i < nH, liq t i = true → dz i = pathLengthsFromGround height i := by
      intro i hi hl
      simp only [hdz]; rw [if_neg]; rw [not_not]; exact (hcloud i hi).2 hl
    have hdz0 : ∀ i < nH, liq t i = false → dz i = 0 := by
      intro i hi hl
      simp only [hdz]; rw [if_pos]; intro hc
      rw [(hcloud i hi).1 hc] at hl; simp at hl
    have hnn : ∀ i ≤ h, 0 ≤ dz i := by
      intro i hi
      cases hl : liq t i
      · rw [hdz0 i (by omega) hl]
      · rw [hdz1 i (by omega) hl]; exact le_of_lt (hpath i (by omega))
    have hne : ∀ i, b ≤ i → i ≤ h → dz i ≠ 0 := by
      intro i h1 h2
      rw [hdz1 i (by omega) (hlay.full i h1 (by omega))]
      exact ne_of_gt (hpath i (by omega))
    have hsum : ∑ i ∈ Finset.Ico b (h + 1), dz i =
        ∑ i ∈ Finset.Ico b (h + 1), pathLengthsFromGround height i := by
      apply Finset.sum_congr rfl
      intro i hi
      rw [Finset.mem_Ico] at hi
      exact hdz1 i (by omega) (hlay.full i (by omega) (by omega))
    rw [← sum_pathLengths height b h hbh, ← hsum]
    rcases Nat.eq_zero_or_pos b with hb | hb
    · subst hb
      rw [cumsumr_of_no_zero dz (fun i hi => hne i (by omega) hi), Finset.range_eq_Ico]
    · have hbelow : liq t (b - 1) = false := by
        rcases hlay.below with h' | h'
        · omega
        · exact h'
      rw [cumsumr_of_last_zero dz (k := b - 1) (by omega) hnn (hdz0 _ (by omega) hbelow)
        (fun i h1 h2 => hne i (by omega) h2)]
      congr 1
      ext i; simp only [Finset.mem_Ioc, Finset.mem_Ico]; omega

/-- Every liquid gate lies in a layer. -/
theorem exists_layer {n : ℕ} {a : ℕ → Bool} {h : ℕ} (hh : h < n) (ha : a h = true) :
    ∃ b p, IsLayer n a b p ∧ b ≤ h ∧ h ≤ p := by
  obtain ⟨ps, h1, h2, h3⟩ := pairing_row n a
  obtain ⟨q, hq, hq1, hq2⟩ := pairing_row_cover h1 h3 hh ha
  exact ⟨q.1, q.2, h1 q hq, hq1, hq2⟩

/-- C20. Adiabatic LWC is positive exactly in the liquid gates. -/
theorem C20_positive_iff_liquid (g : α → α → α) (nT nH : ℕ) (T P : Grid α) (liq : Grid Bool)
    (height : ℕ → α) (hg : ∀ t h, 0 < g (T t h) (P t h)) (h0 : 0 < height 0)
    (hmono : ∀ h, h + 1 < nH → height h < height (h + 1)) (t h : ℕ) (ht : t < nT) (hh : h < nH) :
    0 ≤ calcAdiabaticLwc (fillCloudsWithLwcDz g nT nH T P liq) height t h ∧
    (0 < calcAdiabaticLwc (fillCloudsWithLwcDz g nT nH T P liq) height t h ↔ liq t h = true) := by
  obtain ⟨hz, hl⟩ := C20_adiabatic_lwc g nT nH T P liq height hg h0 hmono t ht
  have hm : ∀ i j, i ≤ j → j < nH → height i ≤ height j := by
    intro i j hij
    induction j with
    | zero => intro _; rw [show i = 0 by omega]
    | succ j ih =>
      intro hj
      rcases Nat.lt_or_ge i (j + 1) with h1 | h1
      · exact le_trans (ih (by omega) (by omega)) (le_of_lt (hmono j hj))
      · rw [show i = j + 1 by omega]
  cases hlh : liq t h
  · rw [hz h hh hlh]; simp
  · obtain ⟨b, p, hlay, hb, hp⟩ := exists_layer hh hlh
    rw [hl b p h hlay hb hp]
    have hpos : 0 < height h - if b = 0 then 0 else height (b - 1) := by
      split
      · have := hm 0 h (by omega) hh; linarith
      · have h1 := hmono (b - 1) (by omega)
        rw [show b - 1 + 1 = b by omega] at h1
        have := hm b h hb hh; linarith
    have := mul_pos (hg t b) hpos
    exact ⟨le_of_lt this, by simp [this]⟩

/-- C20. Within a liquid layer adiabatic LWC increases strictly with height. -/
theorem C20_increasing_in_layer (g : α → α → α) (nT nH : ℕ) (T P : Grid α) (liq : Grid Bool)
    (height : ℕ → α) (hg : ∀ t h, 0 < g (T t h) (P t h)) (h0 : 0 < height 0)
    (hmono : ∀ h, h + 1 < nH → height h < height (h + 1)) (t : ℕ) (ht : t < nT)
    (b p h : ℕ) (hlay : IsLayer nH (liq t) b p) (hb : b ≤ h) (hp : h < p) :
    calcAdiabaticLwc (fillCloudsWithLwcDz g nT nH T P liq) height t h <
      calcAdiabaticLwc (fillCloudsWithLwcDz g nT nH T P liq) height t (h + 1) := by
  obtain ⟨_, hl⟩ := C20_adiabatic_lwc g nT nH T P liq height hg h0 hmono t ht
  rw [hl b p h hlay hb (by omega), hl b p (h + 1) hlay (by omega) (by omega)]
  apply mul_lt_mul_of_pos_left _ (hg t b)
  have := hmono h (by have := hlay.top_lt; omega)
  linarith

/-- C20. A zero base gradient breaks the claim: the forward fill then takes the gradient of the
previous liquid cloud, possibly of another profile. Here the only liquid pixel of profile 1 has
gradient 0 and receives the value 5 of profile 0. -/
theorem C20_zero_gradient_leaks :
    fillCloudsWithLwcDz (fun T _ => T) 2 1 (fun t _ => if t = 0 then (5 : ℚ) else 0) (fun _ _ => 0)
      (fun _ _ => true) 1 0 = 5 := by decide +kernel

/-- Two layers: gates 0 and 2-3 of a four-gate profile at 100 m, gradient 2. -/
example : (List.range 4).map (calcAdiabaticLwc (fillCloudsWithLwcDz (fun _ _ => (2 : ℚ)) 1 4
    (fun _ _ => 0) (fun _ _ => 0) (fun _ h => h != 1)) (fun h => 100 * (h + 1)) 0) =
    [200, 0, 200, 400] := by decide +kernel

/-- C19. The written LWC of a profile: for two or more profiles the computation succeeds; a profile
that is rainy, or has no LWP measurement, or has no liquid gate is completely masked; in every other
profile all gates are present, gates without liquid are exactly 0, liquid gates are not negative, and
the gates summed over the path lengths give the measured LWP (0 if that is negative). -/
theorem C19_lwc_conserves_lwp (g : α → α → α) (nT nH : ℕ) (T P : Grid α) (liq : Grid Bool)
    (lwp : ℕ → Option α) (isRain : ℕ → Bool) (height : ℕ → α)
    (hg : ∀ t h, 0 < g (T t h) (P t h)) (h0 : 0 < height 0)
    (hmono : ∀ h, h + 1 < nH → height h < height (h + 1)) (hT : 2 ≤ nT) :
    ∃ lwc, lwcProduct g nT nH T P liq lwp isRain height = .ok lwc ∧ ∀ t < nT,
      ((isRain t = true ∨ lwp t = none ∨ ∀ h < nH, liq t h = false) →
        ∀ h, lwc t h = none) ∧
      (isRain t = false → (∃ h < nH, liq t h = true) → ∀ x, lwp t = some x →
        ∃ v : ℕ → α, (∀ h, lwc t h = some (v h)) ∧
          (∀ h < nH, 0 ≤ v h) ∧ (∀ h < nH, liq t h = false → v h = 0) ∧
          (0 < x → ∀ h < nH, liq t h = true → 0 < v h) ∧
          ∑ h ∈ Finset.range nH, v h * (height h - if h = 0 then 0 else height (h - 1)) =
            max x 0) := by
  set ad := calcAdiabaticLwc (fillCloudsWithLwcDz g nT nH T P liq) height with had
  have hpos := C20_positive_iff_liquid g nT nH T P liq height hg h0 hmono
  have hz := fun t ht => (C20_adiabatic_lwc g nT nH T P liq height hg h0 hmono t ht).1
  have hpath : ∀ i < nH, 0 < pathLengthsFromGround height i := by
    intro i hi
    cases i with
    | zero => simpa [pathLengthsFromGround] using h0
    | succ i => have := hmono i hi; simp only [pathLengthsFromGround]; linarith
  have hpl : ∀ h, pathLengthsFromGround height h =
      height h - if h = 0 then 0 else height (h - 1) := by
    intro h; cases h <;> simp [pathLengthsFromGround]
  refine ⟨fun t h => if isRain t then none else
    (mdiv (clipLwp lwp t) (∑ h ∈ Finset.range nH, ad t h * pathLengthsFromGround height h)).map
      fun s => ad t h * s, ?_, ?_⟩
  · unfold lwcProduct normalizeLwcByLwp
    simp only [← had, show ¬ nT ≤ 1 by omega, if_false, bind, Except.bind, pure, Except.pure]
  · intro t ht
    constructor
    · rintro (h | h | h) k
      · simp [h]
      · by_cases hr : isRain t = true <;> simp [hr, clipLwp, h, mdiv]
      · have hs : ∑ h ∈ Finset.range nH, ad t h * pathLengthsFromGround height h = 0 := by
          apply Finset.sum_eq_zero
          intro i hi
          rw [Finset.mem_range] at hi
          rw [had, hz t ht i hi (h i hi)]; simp
        simp only [hs]
        cases hr : isRain t <;> cases hl : lwp t <;> simp [clipLwp, mdiv, hl]
    · rintro hr ⟨k, hk, hkl⟩ x hx
      set S := ∑ h ∈ Finset.range nH, ad t h * pathLengthsFromGround height h with hS
      have hSpos : 0 < S := by
        rw [hS]
        apply Finset.sum_pos'
        · intro i hi
          rw [Finset.mem_range] at hi
          exact mul_nonneg (hpos t i ht hi).1 (le_of_lt (hpath i hi))
        · exact ⟨k, Finset.mem_range.2 hk, mul_pos ((hpos t k ht hk).2.2 hkl) (hpath k hk)⟩
      have hmax : (if x < 0 then 0 else x) = max x 0 := by
        split
        · rw [max_eq_right (by linarith)]
        · rw [max_eq_left (by linarith)]
      have hsc : mdiv (clipLwp lwp t) S = some (max x 0 / S) := by
        simp [clipLwp, hx, mdiv, ne_of_gt hSpos, hmax]
      have hscnn : 0 ≤ max x 0 / S := div_nonneg (le_max_right _ _) (le_of_lt hSpos)
      refine ⟨fun h => ad t h * (max x 0 / S), ?_, ?_, ?_, ?_, ?_⟩
      · intro h; simp only [hr, ← hS, hsc]; rfl
      · intro h hh; exact mul_nonneg (hpos t h ht hh).1 hscnn
      · intro h hh hl
        show ad t h * _ = 0
        rw [had, hz t ht h hh hl, zero_mul]
      · intro hx0 h hh hl
        exact mul_pos ((hpos t h ht hh).2.2 hl)
          (div_pos (lt_of_lt_of_le hx0 (le_max_left _ _)) hSpos)
      · have : ∑ h ∈ Finset.range nH,
            ad t h * (max x 0 / S) * (height h - if h = 0 then 0 else height (h - 1)) =
            (∑ h ∈ Finset.range nH, ad t h * pathLengthsFromGround height h) * (max x 0 / S) := by
          rw [Finset.sum_mul]
          apply Finset.sum_congr rfl
          intro i _
          rw [hpl]; ring
        simp only
        rw [this, ← hS, mul_div_cancel₀ _ (ne_of_gt hSpos)]

/-- C19. A file with a single profile is rejected. -/
theorem C19_single_profile_raises (g : α → α → α) (nH : ℕ) (T P : Grid α) (liq : Grid Bool)
    (lwp : ℕ → Option α) (isRain : ℕ → Bool) (height : ℕ → α) :
    lwcProduct g 1 nH T P liq lwp isRain height =
      .error "ValueError: Invalid input array shape" := rfl

/-- Profile 0: LWP 3 over gates at 100, 200 m, both liquid with equal gradient. Profile 1: rain. -/
example : (match lwcProduct (fun _ _ => (2 : ℚ)) 2 2 (fun _ _ => 0) (fun _ _ => 0) (fun _ _ => true)
      (fun _ => some 3) (fun t => t == 1) (fun h => 100 * (h + 1)) with
    | .ok lwc => decide (lwc 0 0 = some (1 / 100) ∧ lwc 0 1 = some (2 / 100) ∧ lwc 1 0 = none)
    | .error _ => false) = true := by decide +kernel

end

end Cloudnet
