import Mathlib.Tactic.Linarith
import Mathlib.Tactic.Ring
import Mathlib.Tactic.NormNum
import Mathlib.Tactic.FieldSimp
import Verif.Ceilo.Model
import Verif.Arrays.Lemmas
import Verif.Melting.Props
import Verif.NcRadar.Props

namespace Cloudnet

/-! ## C52: noise screening of ceilometers -/

section
variable {α : Type} [Field α] [LinearOrder α] [IsStrictOrderedRing α]

namespace Spec

/-- More than `n` consecutive negative values end at gate `k`, all of them within the gates 5 to 99. -/
def NegativeRunEnds (nH n : ℕ) (x : ℕ → α) (k : ℕ) : Prop :=
  k < nH ∧ k < 100 ∧ 5 + n ≤ k ∧ ∀ j, k - n ≤ j → j ≤ k → x j < 0

/-- The number of gates at the top of a profile that are used to estimate noise: a tenth, rounded to the nearest integer,
or all if that is zero. -/
def IsTopCount (nH m : ℕ) : Prop :=
  (m ≤ nH ∧ 0 < m ∧ nH ≤ 10 * m + 5 ∧ 10 * m ≤ nH + 5) ∨ (nH ≤ 5 ∧ m = nH)

/-- The variance of a list. -/
def IsVariance (l : List α) (v : α) : Prop :=
  ∃ mean : α, l ≠ [] ∧ mean * (l.length : α) = l.sum ∧ v * (l.length : α) = (l.map fun x => (x - mean) ^ 2).sum

/-- The first gate with the largest value among the gates of a set. -/
def IsPeak (nH : ℕ) (valid : ℕ → Prop) (x : ℕ → α) (p : ℕ) : Prop :=
  p < nH ∧ valid p ∧ (∀ i < nH, valid i → x i ≤ x p) ∧ ∀ i < p, valid i → x i < x p

end Spec

/-- The rounding of `tenth`. -/
theorem tenth_spec (nH : ℕ) (hn : 0 < nH) :
    Spec.IsTopCount nH (if tenth nH = 0 then nH else tenth nH) := by
  unfold Spec.IsTopCount
  have h : (tenth nH = nH / 10 ∧ nH % 10 ≤ 5) ∨ (tenth nH = nH / 10 + 1 ∧ 5 ≤ nH % 10) := by
    unfold tenth
    split
    · omega
    · split <;> omega
  split <;> omega

/-- **C52.** The noise is estimated from the top tenth of the gates. -/
theorem C52_top_gates {β : Type} (nH : ℕ) (hn : 0 < nH) (x : ℕ → β) :
    ∃ m, Spec.IsTopCount nH m ∧ topGates nH x = (List.range m).map fun k => x (nH - m + k) :=
  ⟨_, tenth_spec nH hn, rfl⟩

/-- The variance of the valid values. -/
theorem maskedVar_spec (l : List (Option α)) (v : α) (h : Spec.IsVariance (l.filterMap id) v) : maskedVar l = some v := by
  obtain ⟨m, hne, hm, hv⟩ := h
  have hpos : ((l.filterMap id).length : α) ≠ 0 := by
    exact_mod_cast (List.length_pos_of_ne_nil hne).ne'
  have hmean : maskedMean l = some m := by
    unfold maskedMean
    dsimp only
    rw [if_neg hne, ← hm, mul_div_assoc, div_self hpos, mul_one]
  unfold maskedVar
  rw [hmean, Option.map_some]
  dsimp only
  rw [← hv, mul_div_assoc, div_self hpos, mul_one]

/-- Masking low values from several gates on. -/
theorem foldl_maskLow (threshold : α) (ks : List ℕ) (x : ℕ → Option α) (h : ℕ) :
    ks.foldl (fun x k => maskLowFrom threshold k x) x h =
      (x h).bind fun v => if (∃ k ∈ ks, k ≤ h) ∧ v < threshold then none else some v := by
  induction ks generalizing x with
  | nil => cases hx : x h <;> simp [hx]
  | cons k ks ih =>
    rw [List.foldl_cons, ih]
    unfold maskLowFrom
    cases x h with
    | none => simp
    | some v =>
      by_cases hk : k ≤ h
      · simp only [hk, if_true, Option.bind_some, List.mem_cons, exists_eq_or_imp, true_or, true_and]
        by_cases hv : v < threshold
        · simp [hv]
        · simp [hv]
      · simp [hk]

/-- The gates where a run of negative values is counted. -/
theorem mem_negativeRuns (nH n : ℕ) (x : ℕ → α) (d : ℕ → Option α)
    (hd : ∀ h, 5 ≤ h → ((d h).elim false (fun v => decide (v < 0)) = true ↔ x h < 0)) (k : ℕ) :
    k ∈ negativeRuns nH n d ↔ Spec.NegativeRunEnds nH n x k := by
  unfold negativeRuns Spec.NegativeRunEnds
  rw [List.mem_filter, List.mem_range, decide_eq_true_eq]
  set a : ℕ → α := fun i => if (d (i + 5)).elim false (fun v => decide (v < 0)) then (1 : α) else 0 with ha
  have ha1 : ∀ i, a i = 1 ↔ x (i + 5) < 0 := by
    intro i
    rw [ha]
    dsimp only
    by_cases hc : (d (i + 5)).elim false (fun v => decide (v < 0)) = true
    · rw [if_pos hc]
      exact ⟨fun _ => (hd (i + 5) (by omega)).mp hc, fun _ => rfl⟩
    · rw [if_neg hc]
      constructor
      · intro h; exact absurd h zero_ne_one
      · intro h; exact absurd ((hd (i + 5) (by omega)).mpr h) hc
  have h01 : ∀ i, a i = 0 ∨ a i = 1 := by
    intro i
    rw [ha]
    dsimp only
    split
    · exact Or.inr rfl
    · exact Or.inl rfl
  obtain ⟨r, hr, hr1, hr2, hr3⟩ := cumsumr_run a h01 (k - 5)
  rw [hr]
  constructor
  · rintro ⟨h1, h2, h3, h4⟩
    have hnr : n < r := by exact_mod_cast h4
    refine ⟨h1, by omega, by omega, ?_⟩
    intro j hj1 hj2
    have := hr2 (j - 5) (by omega) (by omega)
    rw [ha1] at this
    rwa [show j - 5 + 5 = j by omega] at this
  · rintro ⟨h1, h2, h3, h4⟩
    refine ⟨h1, by omega, by omega, ?_⟩
    by_contra hc
    have hrn : r ≤ n := by
      refine not_lt.mp fun hlt => hc ?_
      exact_mod_cast hlt
    have h0 := hr3 (by omega)
    have := (ha1 (k - 5 - r)).mpr (by
      have := h4 (k - 5 - r + 5) (by omega) (by omega)
      exact this)
    rw [this] at h0
    exact one_ne_zero h0

/-- **C52.** The noise screening of a profile. The signal is the input divided by the squared range (in km) below the
limit. A value is masked exactly if

* its range is zero and the range correction applies, or
* a run of more than `n` negative values ends at or below it, and the signal is below `8e-6`, or
* the profile is fog (strong signal in the lowest 20 gates or no variance at the top), the value is at or above the
  peak of what is left, and the signal is below `2e-6`, or
* the signal-to-noise ratio is below the limit.

Noise is the deviation of the top gates, at least `noiseMin`, but `1e-12` in profiles with a negative run or fog. Values
that are not masked are exactly those of the input. -/
theorem C52_screen (sqrt : α → α) (o : ScreenOptions) (rangeCorrected : Bool) (limit noiseMin snrLimit : α)
    (nH n : ℕ) (range betaRaw x : ℕ → α) (hrange : ∀ h, 5 ≤ h → range h ≠ 0) (signal : ℕ → α) (zero : ℕ → Prop)
    (hsignal : ∀ h, signal h = if range h < limit then x h / (range h / 1000) ^ 2 else x h)
    (hzero : ∀ h, zero h ↔ range h = 0 ∧ range h < limit) (h : ℕ) (hh : h < nH) :
    ∃ m, Spec.IsTopCount nH m ∧ ∀ var varRaw : α, (∀ k < nH, nH ≤ k + m → ¬zero k) →
    Spec.IsVariance ((List.range m).map fun k => signal (nH - m + k)) var →
    Spec.IsVariance ((List.range m).map fun k => betaRaw (nH - m + k)) varRaw →
    let run := Spec.NegativeRunEnds nH n x
    let fog := 1 / 1000 < (∑ k ∈ Finset.range (min 20 nH), |betaRaw k|) ∨ varRaw < 1 / 1000000000000000
    let low := fun h => o.filterNegatives = true ∧ (∃ k, run k ∧ k ≤ h) ∧ signal h < 8 / 1000000
    let left := fun h => ¬zero h ∧ ¬low h
    let foggy := o.filterFog = true ∧ fog ∧ (∃ p, Spec.IsPeak nH left signal p ∧ p ≤ h) ∧ signal h < 2 / 1000000
    ∃ noise : α, ((o.filterNegatives = true ∧ ∃ k, run k) ∨ (o.filterFog = true ∧ fog) → noise = 1 / 1000000000000) ∧
      (¬((o.filterNegatives = true ∧ ∃ k, run k) ∨ (o.filterFog = true ∧ fog)) → noise = max (sqrt var) noiseMin) ∧
      let snr := signal h / noise * (if rangeCorrected = false ∧ range h < limit then 6 else 1)
      let noisy := o.filterSnr = true ∧ (if o.keepNegative then |snr| else snr) < snrLimit
      (zero h ∨ low h ∨ foggy ∨ noisy →
        screenProfile sqrt o rangeCorrected limit noiseMin snrLimit nH n range betaRaw x h = none) ∧
      (¬(zero h ∨ low h ∨ foggy ∨ noisy) →
        screenProfile sqrt o rangeCorrected limit noiseMin snrLimit nH n range betaRaw x h = some (x h)) := by
  classical
  obtain ⟨m, hmm, hm'⟩ : ∃ m, Spec.IsTopCount nH m ∧ ∀ {β : Type} (y : ℕ → β),
      topGates nH y = (List.range m).map fun k => y (nH - m + k) := ⟨_, tenth_spec nH (by omega), fun _ => rfl⟩
  refine ⟨m, hmm, ?_⟩
  intro var varRaw hnz hvar hvarRaw run fog low left foggy
  have hmn : m ≤ nH := by
    unfold Spec.IsTopCount at hmm
    omega
  have hsq : ∀ r : α, rangeSquared r = (r / 1000) ^ 2 := fun r => by unfold rangeSquared; ring
  have hsq0 : ∀ r : α, rangeSquared r = 0 ↔ r = 0 := by
    intro r
    rw [hsq, pow_eq_zero_iff (by norm_num), div_eq_zero_iff]
    constructor
    · rintro (h | h)
      · exact h
      · norm_num at h
    · exact Or.inl
  have hd : ∀ h, (zero h → rangeUncorrect limit (range h) (x h) = none) ∧
      (¬zero h → rangeUncorrect limit (range h) (x h) = some (signal h)) := by
    intro h
    unfold rangeUncorrect
    rw [hsignal, hzero]
    by_cases hl : range h < limit
    · rw [if_pos hl, if_pos hl, ← hsq]
      constructor
      · rintro ⟨h0, _⟩
        rw [if_pos ((hsq0 _).mpr h0)]
      · intro h0
        rw [if_neg fun hc => h0 ⟨(hsq0 _).mp hc, hl⟩]
    · rw [if_neg hl, if_neg hl]
      exact ⟨fun hc => absurd hc.2 hl, fun _ => rfl⟩
  -- signs
  have hsign : ∀ h, 5 ≤ h → ((rangeUncorrect limit (range h) (x h)).elim false (fun v => decide (v < 0)) = true ↔ x h < 0) := by
    intro h h5
    have hz : ¬zero h := fun hc => hrange h h5 ((hzero h).mp hc).1
    rw [(hd h).2 hz, Option.elim_some, decide_eq_true_eq, hsignal]
    by_cases hl : range h < limit
    · rw [if_pos hl]
      have hp : 0 < (range h / 1000) ^ 2 := by
        have : range h / 1000 ≠ 0 := div_ne_zero (hrange h h5) (by norm_num)
        positivity
      constructor
      · intro hlt
        by_contra hc
        exact absurd hlt (not_lt.mpr (div_nonneg (not_lt.mp hc) hp.le))
      · intro hlt; exact div_neg_of_neg_of_pos hlt hp
    · rw [if_neg hl]
  set d : ℕ → Option α := fun h => rangeUncorrect limit (range h) (x h) with hdef
  have hruns : ∀ k, k ∈ negativeRuns nH n d ↔ run k := mem_negativeRuns nH n x d hsign
  have hrunE : (negativeRuns nH n d).isEmpty = false ↔ ∃ k, run k := by
    rw [← Bool.not_eq_true, List.isEmpty_iff]
    constructor
    · intro hne
      obtain ⟨k, hk⟩ := List.exists_mem_of_ne_nil _ hne
      exact ⟨k, (hruns k).mp hk⟩
    · rintro ⟨k, hk⟩ he
      have := (hruns k).mpr hk
      rw [he] at this
      simp at this
  -- variances
  have hv1 : maskedVar (topGates nH d) = some var := by
    rw [hm']
    apply maskedVar_spec
    rw [List.filterMap_map]
    have : (List.range m).filterMap (id ∘ fun k => d (nH - m + k)) = (List.range m).map fun k => signal (nH - m + k) := by
      rw [← List.filterMap_eq_map]
      apply List.filterMap_congr
      intro k hk
      have := List.mem_range.mp hk
      exact (hd _).2 (hnz _ (by omega) (by omega))
    rw [this]
    exact hvar
  have hv2 : maskedVar (topGates nH fun h => some (betaRaw h)) = some varRaw := by
    rw [hm']
    apply maskedVar_spec
    rw [List.filterMap_map]
    have : (List.range m).filterMap (id ∘ fun k => some (betaRaw (nH - m + k))) =
        (List.range m).map fun k => betaRaw (nH - m + k) := by
      rw [← List.filterMap_eq_map]
      rfl
    rw [this]
    exact hvarRaw
  have hfog : isFog nH betaRaw = true ↔ fog := by
    unfold isFog
    dsimp only
    rw [hv2, Bool.or_eq_true, decide_eq_true_eq, decide_eq_true_eq, Option.getD_some]
    have : ((List.range (min 20 nH)).map fun k => |betaRaw k|).sum = ∑ k ∈ Finset.range (min 20 nH), |betaRaw k| := rfl
    rw [this]
  refine ⟨profileNoise sqrt o noiseMin nH n betaRaw d, ?_, ?_, ?_⟩
  · intro hc
    unfold profileNoise
    dsimp only
    by_cases hf : (o.filterFog && isFog nH betaRaw) = true
    · rw [if_pos hf]
    · rw [if_neg hf, if_pos]
      rcases hc with ⟨h1, h2⟩ | ⟨h1, h2⟩
      · rw [h1, hrunE.mpr h2]; rfl
      · rw [h1, hfog.mpr h2] at hf; exact absurd rfl hf
  · intro hc
    push Not at hc
    unfold profileNoise
    dsimp only
    rw [if_neg, if_neg, hv1, Option.getD_some]
    · by_cases hl : sqrt var < noiseMin
      · rw [if_pos hl, max_eq_right hl.le]
      · rw [if_neg hl, max_eq_left (not_lt.mp hl)]
    · intro hcc
      rw [Bool.and_eq_true, Bool.not_eq_true'] at hcc
      obtain ⟨k, hk⟩ := hrunE.mp hcc.2
      exact hc.1 hcc.1 k hk
    · intro hcc
      rw [Bool.and_eq_true] at hcc
      exact hc.2 hcc.1 (hfog.mp hcc.2)
  · -- after the negative filter
    set d1 : ℕ → Option α := if o.filterNegatives then filterNegatives nH n d else d with hd1
    have hd1v : ∀ h, (zero h ∨ low h → d1 h = none) ∧ (¬(zero h ∨ low h) → d1 h = some (signal h)) := by
      intro h
      have hfn : ∀ v, d h = some v → filterNegatives nH n d h =
          if (∃ k, run k ∧ k ≤ h) ∧ v < 8 / 1000000 then none else some v := by
        intro v hv
        unfold filterNegatives
        rw [foldl_maskLow, hv, Option.bind_some]
        by_cases hc : (∃ k, run k ∧ k ≤ h) ∧ v < 8 / 1000000
        · rw [if_pos hc, if_pos ⟨hc.1.imp fun k hk => ⟨(hruns k).mpr hk.1, hk.2⟩, hc.2⟩]
        · rw [if_neg hc, if_neg fun hcc => hc ⟨hcc.1.imp fun k hk => ⟨(hruns k).mp hk.1, hk.2⟩, hcc.2⟩]
      have hfnone : d h = none → filterNegatives nH n d h = none := by
        intro hv
        unfold filterNegatives
        rw [foldl_maskLow, hv, Option.bind_none]
      rw [hd1]
      by_cases hz : zero h
      · refine ⟨fun _ => ?_, fun hc => absurd (Or.inl hz) hc⟩
        have := (hd h).1 hz
        split
        · exact hfnone this
        · exact this
      · have hs := (hd h).2 hz
        cases hf : o.filterNegatives with
        | false =>
          simp only [Bool.false_eq_true, if_false]
          refine ⟨?_, fun _ => hs⟩
          rintro (hc | hc)
          · exact absurd hc hz
          · have := hc.1; rw [hf] at this; simp at this
        | true =>
          simp only [if_true]
          rw [hfn _ hs]
          constructor
          · rintro (hc | hc)
            · exact absurd hc hz
            · rw [if_pos ⟨hc.2.1, hc.2.2⟩]
          · intro hc
            rw [if_neg]
            intro hcc
            exact hc (Or.inr ⟨hf, hcc.1, hcc.2⟩)
    set d2 : ℕ → Option α := if o.filterFog && isFog nH betaRaw then cleanFog nH d1 else d1 with hd2
    have hd2v : (zero h ∨ low h ∨ foggy → d2 h = none) ∧ (¬(zero h ∨ low h ∨ foggy) → d2 h = some (signal h)) := by
      have hbase : zero h ∨ low h → d2 h = none := by
        intro hc
        have hn := (hd1v h).1 hc
        rw [hd2]
        split
        · unfold cleanFog maskLowFrom
          rw [hn]
          split <;> rfl
        · exact hn
      by_cases hleft : zero h ∨ low h
      · exact ⟨fun _ => hbase hleft, fun hc => absurd (hleft.elim Or.inl fun h => Or.inr (Or.inl h)) hc⟩
      have hs := (hd1v h).2 hleft
      have hlefth : left h := ⟨fun hc => hleft (Or.inl hc), fun hc => hleft (Or.inr hc)⟩
      have hiff : (zero h ∨ low h ∨ foggy) ↔ foggy := by
        constructor
        · rintro (hc | hc | hc)
          · exact absurd (Or.inl hc) hleft
          · exact absurd (Or.inr hc) hleft
          · exact hc
        · exact fun hc => Or.inr (Or.inr hc)
      rw [hiff]
      by_cases hff : (o.filterFog && isFog nH betaRaw) = true
      swap
      · rw [hd2, if_neg hff]
        refine ⟨fun hc => ?_, fun _ => hs⟩
        exfalso
        apply hff
        rw [hc.1, hfog.mpr hc.2.1]
        rfl
      rw [hd2, if_pos hff]
      rw [Bool.and_eq_true] at hff
      -- the peak
      obtain ⟨p1, p2, p3⟩ := argmax_spec (fun h => ((d1 h).elim (⊥ : WithBot α) fun v => (v : WithBot α))) (nH - 1)
      unfold cleanFog
      set p := argmax (fun h => ((d1 h).elim (⊥ : WithBot α) fun v => (v : WithBot α))) (nH - 1) with hp
      have hval : ∀ i, left i → ((d1 i).elim (⊥ : WithBot α) fun v => (v : WithBot α)) = (signal i : WithBot α) := by
        intro i hi
        rw [(hd1v i).2 (fun hc => hc.elim hi.1 hi.2)]
        rfl
      have hbot : ∀ i, ¬left i → ((d1 i).elim (⊥ : WithBot α) fun v => (v : WithBot α)) = ⊥ := by
        intro i hi
        rw [(hd1v i).1 (by
          by_contra hc
          exact hi ⟨fun h => hc (Or.inl h), fun h => hc (Or.inr h)⟩)]
        rfl
      have hleftp : left p := by
        by_contra hc
        have := p2 h (by omega)
        rw [hbot p hc, hval h hlefth] at this
        simp at this
      have hpeak : Spec.IsPeak nH left signal p := by
        refine ⟨by omega, hleftp, ?_, ?_⟩
        · intro i hi hli
          have := p2 i (by omega)
          rw [hval i hli, hval p hleftp] at this
          exact WithBot.coe_le_coe.mp this
        · intro i hi hli
          have := p3 i hi
          rw [hval i hli, hval p hleftp] at this
          exact WithBot.coe_lt_coe.mp this
      have huniq : ∀ q, Spec.IsPeak nH left signal q → q = p := by
        rintro q ⟨q1, q2, q3, q4⟩
        rcases lt_trichotomy q p with hlt | heq | hgt
        · exact absurd (q3 p (by omega) hleftp) (not_le.mpr (hpeak.2.2.2 q hlt q2))
        · exact heq
        · exact absurd (hpeak.2.2.1 q q1 q2) (not_le.mpr (q4 p hgt hleftp))
      have hfoggy : foggy ↔ p ≤ h ∧ signal h < 2 / 1000000 := by
        constructor
        · rintro ⟨_, _, ⟨q, hq, hqh⟩, hlt⟩
          rw [huniq q hq] at hqh
          exact ⟨hqh, hlt⟩
        · rintro ⟨h1, h2⟩
          exact ⟨hff.1, hfog.mp hff.2, ⟨p, hpeak, h1⟩, h2⟩
      rw [hfoggy]
      unfold maskLowFrom
      rw [hs, Option.bind_some]
      constructor
      · rintro ⟨h1, h2⟩
        rw [if_pos h1, if_pos h2]
      · intro hc
        by_cases h1 : p ≤ h
        · rw [if_pos h1, if_neg fun h2 => hc ⟨h1, h2⟩]
        · rw [if_neg h1]
    -- the signal-to-noise ratio and the range correction
    set noise := profileNoise sqrt o noiseMin nH n betaRaw d with hnoise
    have hscreen : screenProfile sqrt o rangeCorrected limit noiseMin snrLimit nH n range betaRaw x h =
        rangeCorrect limit (range h) (if o.filterSnr then
          removeNoise rangeCorrected o.keepNegative limit (range h) noise snrLimit (d2 h) else d2 h) := by
      unfold screenProfile
      rw [← hdef, ← hnoise, ← hd1, ← hd2]
      cases o.filterSnr <;> rfl
    rw [hscreen]
    intro snr noisy
    have hback : ¬zero h → rangeCorrect limit (range h) (some (signal h)) = some (x h) := by
      intro hz
      unfold rangeCorrect
      rw [hsignal]
      by_cases hl : range h < limit
      · have hne : (range h / 1000) ^ 2 ≠ 0 := by
          rw [← hsq, ne_eq, hsq0]
          exact fun hc => hz ((hzero h).mpr ⟨hc, hl⟩)
        rw [if_pos hl, if_pos hl, Option.map_some, hsq, div_mul_cancel₀ _ hne]
      · rw [if_neg hl, if_neg hl]
    have hnone : rangeCorrect limit (range h) (none : Option α) = none := by
      unfold rangeCorrect
      split <;> rfl
    have hrn : removeNoise rangeCorrected o.keepNegative limit (range h) noise snrLimit (some (signal h)) =
        if (if o.keepNegative then |snr| else snr) < snrLimit then none else some (signal h) := by
      unfold removeNoise
      rw [Option.bind_some]
      have : (if rangeCorrected = false ∧ range h < limit then signal h / noise * 6 else signal h / noise) = snr := by
        show _ = signal h / noise * (if rangeCorrected = false ∧ range h < limit then 6 else 1)
        split
        · rfl
        · rw [mul_one]
      dsimp only
      rw [this]
    by_cases hc : zero h ∨ low h ∨ foggy
    · have h2 := hd2v.1 hc
      rw [h2]
      have : (if o.filterSnr then removeNoise rangeCorrected o.keepNegative limit (range h) noise snrLimit none else none) =
          (none : Option α) := by
        unfold removeNoise
        split <;> rfl
      rw [this, hnone]
      refine ⟨fun _ => rfl, fun hcc => ?_⟩
      exfalso
      apply hcc
      rcases hc with h | h | h
      · exact Or.inl h
      · exact Or.inr (Or.inl h)
      · exact Or.inr (Or.inr (Or.inl h))
    · have h2 := hd2v.2 hc
      have hz : ¬zero h := fun hz => hc (Or.inl hz)
      rw [h2]
      have hiff : (zero h ∨ low h ∨ foggy ∨ noisy) ↔ noisy := by
        constructor
        · rintro (h | h | h | h)
          · exact absurd (Or.inl h) hc
          · exact absurd (Or.inr (Or.inl h)) hc
          · exact absurd (Or.inr (Or.inr h)) hc
          · exact h
        · exact fun h => Or.inr (Or.inr (Or.inr h))
      rw [hiff]
      show (o.filterSnr = true ∧ (if o.keepNegative then |snr| else snr) < snrLimit → _) ∧
        (¬(o.filterSnr = true ∧ (if o.keepNegative then |snr| else snr) < snrLimit) → _)
      cases hsn : o.filterSnr with
      | false =>
        simp only [Bool.false_eq_true, if_false, false_and, not_false_iff, true_implies, false_implies, true_and]
        exact hback hz
      | true =>
        simp only [if_true, true_and]
        rw [hrn]
        constructor
        · intro hlt
          rw [if_pos hlt, hnone]
        · intro hlt
          rw [if_neg hlt]
          exact hback hz

/-- **C52.** Whatever the profile looks like, screening only removes values, it never changes them. -/
theorem C52_unchanged (sqrt : α → α) (o : ScreenOptions) (rangeCorrected : Bool) (limit noiseMin snrLimit : α)
    (nH n : ℕ) (range betaRaw x : ℕ → α) (h : ℕ) (y : α)
    (hy : screenProfile sqrt o rangeCorrected limit noiseMin snrLimit nH n range betaRaw x h = some y) : y = x h := by
  classical
  have hlow : ∀ (threshold : α) k (d : ℕ → Option α) v, maskLowFrom threshold k d h = some v → d h = some v := by
    intro threshold k d v
    unfold maskLowFrom
    split
    · cases d h with
      | none => simp
      | some w =>
        rw [Option.bind_some]
        split
        · simp
        · exact id
    · exact id
  have hfold : ∀ (threshold : α) (ks : List ℕ) (d : ℕ → Option α) v,
      ks.foldl (fun x k => maskLowFrom threshold k x) d h = some v → d h = some v := by
    intro threshold ks
    induction ks with
    | nil => exact fun _ _ => id
    | cons k ks ih => exact fun d v hv => hlow _ _ _ _ (ih _ _ hv)
  unfold screenProfile at hy
  set d : ℕ → Option α := fun h => rangeUncorrect limit (range h) (x h) with hd
  set noise := profileNoise sqrt o noiseMin nH n betaRaw d
  set d1 : ℕ → Option α := if o.filterNegatives then filterNegatives nH n d else d with hd1
  set d2 : ℕ → Option α := if o.filterFog && isFog nH betaRaw then cleanFog nH d1 else d1 with hd2
  have h1 : ∀ v, d1 h = some v → d h = some v := by
    intro v
    rw [hd1]
    split
    · exact hfold _ _ _ _
    · exact id
  have h2 : ∀ v, d2 h = some v → d1 h = some v := by
    intro v
    rw [hd2]
    split
    · exact hlow _ _ _ _
    · exact id
  have h3 : ∀ v, (if o.filterSnr then fun h => removeNoise rangeCorrected o.keepNegative limit (range h) noise snrLimit (d2 h)
      else d2) h = some v → d2 h = some v := by
    intro v
    split
    · unfold removeNoise
      beta_reduce
      cases d2 h with
      | none => simp
      | some w =>
        rw [Option.bind_some]
        dsimp only
        generalize (if o.keepNegative = true then _ else _ : α) = q
        split
        · simp
        · exact id
    · exact id
  have hsome : ∀ v, (if o.filterSnr then fun h => removeNoise rangeCorrected o.keepNegative limit (range h) noise snrLimit (d2 h)
      else d2) h = some v → rangeUncorrect limit (range h) (x h) = some v :=
    fun v hv => h1 v (h2 v (h3 v hv))
  unfold rangeCorrect at hy
  unfold rangeUncorrect at hsome
  by_cases hl : range h < limit
  · rw [if_pos hl] at hy
    rw [if_pos hl] at hsome
    obtain ⟨v, hv, hvy⟩ := Option.map_eq_some_iff.mp hy
    have := hsome v hv
    by_cases h0 : rangeSquared (range h) = 0
    · rw [if_pos h0] at this; simp at this
    · rw [if_neg h0, Option.some.injEq] at this
      rw [← hvy, ← this, div_mul_cancel₀ _ h0]
  · rw [if_neg hl] at hy
    rw [if_neg hl] at hsome
    exact (Option.some.inj (hsome y hy)).symm

/-- **C52.** In the smoothed backscatter, values of clouds (above `1e-6`) that are left are those of the screened
backscatter, whatever the filter does. -/
theorem C52_smooth (sqrt : α → α) (filter : Grid α → Grid α) (rangeCorrected : Bool) (limit noiseSmoothMin snrLimit : α)
    (nH n : ℕ) (range : ℕ → α) (betaRaw under : Grid α) (beta : Grid (Option α)) (t h : ℕ) (b y : α)
    (hb : beta t h = some b) (hcloud : 1 / 1000000 < b)
    (hy : betaSmooth sqrt filter rangeCorrected limit noiseSmoothMin snrLimit nH n range betaRaw under beta t h = some y) :
    y = b := by
  have := C52_unchanged _ _ _ _ _ _ _ _ _ _ _ _ _ hy
  rw [this]
  beta_reduce
  rw [if_pos (by rw [hb]; simpa using hcloud), hb, Option.getD_some]

/-- **C52.** The filter sees clouds (also among the data under the mask of the screened
backscatter) as `1e-6` and everything else as in the raw backscatter; outside clouds, a value
that is left is that of the filter. -/
theorem C52_smooth_clear (sqrt : α → α) (filter : Grid α → Grid α) (rangeCorrected : Bool)
    (limit noiseSmoothMin snrLimit : α) (nH n : ℕ) (range : ℕ → α) (betaRaw under raw : Grid α) (beta : Grid (Option α))
    (t h : ℕ) (b y : α)
    (hraw : ∀ t h v, beta t h = some v ∨ beta t h = none ∧ under t h = v →
      raw t h = if 1 / 1000000 < v then 1 / 1000000 else betaRaw t h)
    (hb : beta t h = some b) (hclear : b ≤ 1 / 1000000)
    (hy : betaSmooth sqrt filter rangeCorrected limit noiseSmoothMin snrLimit nH n range betaRaw under beta t h = some y) :
    y = filter raw t h := by
  have := C52_unchanged _ _ _ _ _ _ _ _ _ _ _ _ _ hy
  rw [this]
  beta_reduce
  rw [if_neg (by rw [hb]; simpa using hclear)]
  have : (fun t h => if decide (1 / 1000000 < (beta t h).getD (under t h)) = true then 1 / 1000000 else betaRaw t h) =
      raw := by
    funext t h
    cases hv : beta t h with
    | none => rw [hraw t h _ (Or.inr ⟨hv, rfl⟩), Option.getD_none]; simp only [decide_eq_true_eq]
    | some v => rw [hraw t h _ (Or.inl hv), Option.getD_some]; simp only [decide_eq_true_eq]
  rw [this]

/-! ## C95: depolarisation, sunbeams and the amount of smoothing -/

/-- **C95.** Depolarisation is kept exactly if it is above zero and at most one. -/
theorem C95_depol (x : Option α) (y : α) : screenDepol x = some y ↔ x = some y ∧ 0 < y ∧ y ≤ 1 := by
  unfold screenDepol
  cases x with
  | none => simp
  | some v =>
    rw [Option.bind_some]
    dsimp only
    by_cases h0 : v ≤ 0
    · rw [if_pos h0, Option.bind_none, Option.some.injEq]
      constructor
      · intro h; simp at h
      · rintro ⟨rfl, h, _⟩; exact absurd h0 (not_le.mpr h)
    · rw [if_neg h0, Option.bind_some]
      by_cases h1 : 1 < v
      · rw [if_pos h1, Option.some.injEq]
        constructor
        · intro h; simp at h
        · rintro ⟨rfl, _, h⟩; exact absurd h1 (not_lt.mpr h)
      · rw [if_neg h1, Option.some.injEq]
        constructor
        · rintro rfl; exact ⟨rfl, not_le.mp h0, not_lt.mp h1⟩
        · exact fun h => h.1

/-- Gates from an index on. -/
theorem filter_from (nH f : ℕ) (hf : f ≤ nH) (p : ℕ → Bool) (h0 : ∀ h < f, p h = false)
    (h1 : ∀ h < nH, f ≤ h → p h = true) : (List.range nH).filter p = (List.range (nH - f)).map (f + ·) := by
  have hsplit : List.range nH = List.range f ++ (List.range (nH - f)).map (f + ·) := by
    rw [← List.range_add, Nat.add_sub_cancel' hf]
  rw [hsplit, List.filter_append]
  have ha : (List.range f).filter p = [] := by
    rw [List.filter_eq_nil_iff]
    intro a ha
    rw [h0 a (List.mem_range.mp ha)]
    simp
  have hb : ((List.range (nH - f)).map (f + ·)).filter p = (List.range (nH - f)).map (f + ·) := by
    rw [List.filter_eq_self]
    intro a ha
    obtain ⟨b, hb, rfl⟩ := List.mem_map.mp ha
    have := List.mem_range.mp hb
    exact h1 _ (by omega) (by omega)
  rw [ha, hb, List.nil_append]

open Classical in
/-- **C95.** If `f` is the first gate above 10 km, those above are divided into 20 bins of equal size (a remainder at the
top is ignored), and a profile is removed as a sunbeam exactly if at least 15 bins have some data. -/
theorem C95_sunbeam (nH f : ℕ) (hf : f ≤ nH) (range : ℕ → α) (beta : ℕ → Option α)
    (h0 : ∀ h < f, range h ≤ 10000) (h1 : ∀ h < nH, f ≤ h → 10000 < range h) :
    let size := (nH - f) / 20
    keepSunbeam nH range beta = false ↔
      15 ≤ ((Finset.range 20).filter fun b => ∃ h, f + b * size ≤ h ∧ h < f + (b + 1) * size ∧ (beta h).isSome).card := by
  intro size
  unfold keepSunbeam
  dsimp only
  rw [filter_from nH f hf (fun h => decide (10000 < range h))
    (fun h hh => decide_eq_false (not_lt.mpr (h0 h hh))) (fun h hh hf => decide_eq_true (h1 h hh hf))]
  have hbin : ∀ b < 20, ((((((List.range (nH - f)).map (f + ·)).map fun h => (beta h).isSome).drop
      (b * size)).take size).any id = true ↔ ∃ h, f + b * size ≤ h ∧ h < f + (b + 1) * size ∧ (beta h).isSome) := by
    intro b hb
    have hle : (b + 1) * size ≤ nH - f := by
      calc (b + 1) * size ≤ 20 * size := Nat.mul_le_mul_right _ (by omega)
        _ ≤ nH - f := by show 20 * ((nH - f) / 20) ≤ _; omega
    rw [Nat.add_mul, one_mul] at hle
    rw [List.any_eq_true]
    constructor
    · rintro ⟨x, hx, hxt⟩
      obtain ⟨i, hi⟩ := List.mem_iff_getElem?.mp hx
      rw [List.getElem?_take] at hi
      split at hi
      · rename_i his
        rw [List.getElem?_drop, List.getElem?_map, List.getElem?_map, List.getElem?_range (by omega), Option.map_some,
          Option.map_some, Option.some.injEq] at hi
        refine ⟨f + (b * size + i), by omega, ?_, by rw [hi]; exact hxt⟩
        rw [Nat.add_mul, one_mul]
        omega
      · simp at hi
    · rintro ⟨h, ha, hb, hs⟩
      rw [Nat.add_mul, one_mul] at hb
      refine ⟨true, List.mem_iff_getElem?.mpr ⟨h - f - b * size, ?_⟩, rfl⟩
      rw [List.getElem?_take, if_pos (by omega), List.getElem?_drop, List.getElem?_map, List.getElem?_map,
        List.getElem?_range (by omega), Option.map_some, Option.map_some,
        show f + (b * size + (h - f - b * size)) = h by omega, hs]
  have hcount : (((List.range 20).map fun b => ((((((List.range (nH - f)).map (f + ·)).map fun h => (beta h).isSome).drop
      (b * size)).take size).any id)).filter id).length =
      ((Finset.range 20).filter fun b => ∃ h, f + b * size ≤ h ∧ h < f + (b + 1) * size ∧ (beta h).isSome).card := by
    rw [List.filter_map, List.length_map]
    have : ∀ l : List ℕ, (∀ b ∈ l, b < 20) → l.filter (id ∘ fun b =>
        ((((((List.range (nH - f)).map (f + ·)).map fun h => (beta h).isSome).drop (b * size)).take size).any id)) =
        l.filter fun b => decide (∃ h, f + b * size ≤ h ∧ h < f + (b + 1) * size ∧ (beta h).isSome) := by
      intro l hl
      apply List.filter_congr
      intro b hb
      rw [Function.comp_apply, id, Bool.eq_iff_iff, decide_eq_true_eq]
      exact hbin b (hl b hb)
    rw [this _ fun b hb => List.mem_range.mp hb]
    rfl
  by_cases he : (List.range (nH - f)).map (f + ·) = []
  · rw [if_pos he]
    have h0 : nH - f = 0 := by simpa using congrArg List.length he
    have hsz : size = 0 := by show (nH - f) / 20 = 0; rw [h0]
    rw [Finset.filter_false_of_mem (by rintro b - ⟨h, ha, hb, _⟩; rw [hsz] at ha hb; omega)]
    simp
  · rw [if_neg he, List.length_map, List.length_map, List.length_range]
    show decide ((((List.range 20).map fun b => ((((((List.range (nH - f)).map (f + ·)).map fun h =>
      (beta h).isSome).drop (b * size)).take size).any id)).filter id).length < 15) = false ↔ _
    rw [hcount, decide_eq_false_iff_not, not_lt]

/-- **C95.** With fewer than 20 gates above 10 km no profile is ever removed as a sunbeam, even if all of them have data. -/
theorem C95_sunbeam_few_gates (nH f : ℕ) (hf : f ≤ nH) (range : ℕ → α) (beta : ℕ → Option α)
    (h0 : ∀ h < f, range h ≤ 10000) (h1 : ∀ h < nH, f ≤ h → 10000 < range h) (hfew : nH - f < 20) :
    keepSunbeam nH range beta = true := by
  classical
  by_contra hc
  have := (C95_sunbeam nH f hf range beta h0 h1).mp (by simpa using hc)
  rw [Finset.filter_false_of_mem (by rintro b - ⟨h, ha, hb, _⟩; rw [Nat.div_eq_of_lt hfew] at ha hb; omega)] at this
  simp at this

/-- **C95.** The smoothing in steps times the median step is the smoothing in minutes and in metres; it is an error if
and only if there are no profiles or some time is after the end of the day. -/
theorem C95_sigma (sigmaMinutes sigmaMetres : α) (nT : ℕ) (time : ℕ → α) (nH : ℕ) (range : ℕ → α) :
    ((nT = 0 ∨ ∃ i < nT, 24 < time i) →
      calcSigmaUnits sigmaMinutes sigmaMetres nT time nH range = .error "ValueError: Invalid time vector") ∧
    (¬(nT = 0 ∨ ∃ i < nT, 24 < time i) → mdiff nT time ≠ 0 → mdiff nH range ≠ 0 →
      ∃ a b, calcSigmaUnits sigmaMinutes sigmaMetres nT time nH range = .ok (a, b) ∧
        a * (60 * mdiff nT time) = sigmaMinutes ∧ b * mdiff nH range = sigmaMetres) := by
  have hiff : ((List.range nT).any fun i => decide (24 < time i)) = true ↔ ∃ i < nT, 24 < time i := by
    rw [List.any_eq_true]
    constructor
    · rintro ⟨i, h1, h2⟩; exact ⟨i, List.mem_range.mp h1, of_decide_eq_true h2⟩
    · rintro ⟨i, h1, h2⟩; exact ⟨i, List.mem_range.mpr h1, decide_eq_true h2⟩
  unfold calcSigmaUnits
  constructor
  · intro h
    rw [if_pos (h.imp id hiff.mpr)]
  · intro h h1 h2
    rw [if_neg fun hc => h (hc.imp id hiff.mp)]
    refine ⟨_, _, rfl, ?_, ?_⟩
    · field_simp
    · field_simp

/-- **C95.** Where the range correction is undone before the noise is estimated: everywhere if the data is range
corrected, otherwise nowhere for a CT25k, below 2400 m for a CL31 or CL51, and everywhere for another or unknown model. -/
theorem C95_limit (model : String) :
    altLimit (α := α) true (some model) = 10 ^ 12 ∧ altLimit (α := α) false none = 10 ^ 12 ∧
    (pyLower model = ['c', 't', '2', '5', 'k'] → altLimit (α := α) false (some model) = 0) ∧
    (pyLower model = ['c', 'l', '3', '1'] ∨ pyLower model = ['c', 'l', '5', '1'] →
      altLimit (α := α) false (some model) = 2400) ∧
    (pyLower model ∉ [['c', 't', '2', '5', 'k'], ['c', 'l', '3', '1'], ['c', 'l', '5', '1']] →
      altLimit (α := α) false (some model) = 10 ^ 12) := by
  have h1 : "ct25k".toList = ['c', 't', '2', '5', 'k'] := by decide
  have h2 : "cl31".toList = ['c', 'l', '3', '1'] := by decide
  have h3 : "cl51".toList = ['c', 'l', '5', '1'] := by decide
  unfold altLimit
  simp only [h1, h2, h3, if_true, Bool.false_eq_true, if_false]
  refine ⟨by norm_num, by norm_num, fun h => if_pos h, ?_, ?_⟩
  · intro h
    rw [if_neg, if_pos h]
    rcases h with h | h <;> rw [h] <;> decide
  · intro h
    simp only [List.mem_cons, List.not_mem_nil, or_false, not_or] at h
    rw [if_neg h.1, if_neg (not_or.mpr h.2)]
    norm_num

end

/-- A profile of 20 gates: the last two have values 1 and 3, so a deviation of 1 with `sqrt` of one being one. Gate 3
is at the limit and kept, gate 4 is removed. -/
example : Spec.IsTopCount 20 2 ∧
    Spec.IsVariance ((List.range 2).map fun k => (fun h : ℕ => if h = 19 then (3 : ℚ) else 1) (20 - 2 + k)) 1 ∧
    (let x : ℕ → ℚ := fun h => if h = 3 then 5 else if h = 4 then 4 else if h = 19 then 3 else 1
     let out := screenProfile id ({ filterFog := false } : ScreenOptions) false 0 1 5 20 5 (fun h => (h : ℚ) * 1000) x x
     out 3 = some 5 ∧ out 4 = none) := by
  refine ⟨by unfold Spec.IsTopCount; omega, ⟨2, by decide, by decide +kernel, by decide +kernel⟩, ?_⟩
  decide +kernel

/-- Six negative values at gates 5 to 10: gate 10 is masked, and a weak positive value above, but not a strong one. -/
example : Spec.NegativeRunEnds 20 5 (fun h => if 5 ≤ h ∧ h ≤ 10 then (-1 : ℚ) else 1) 10 ∧
    (let x : ℕ → ℚ := fun h => if 5 ≤ h ∧ h ≤ 10 then -1 else if h = 11 then 1 / 1000000 else 1
     let out := screenProfile id ({ filterFog := false, filterSnr := false } : ScreenOptions) false 0 1 5 20 5 (fun h => (h : ℚ) * 1000) x x
     out 9 = some (-1) ∧ out 10 = none ∧ out 11 = none ∧ out 12 = some 1) := by
  refine ⟨⟨by omega, by omega, by omega, fun j h1 h2 => ?_⟩, by decide +kernel⟩
  show (if 5 ≤ j ∧ j ≤ 10 then (-1 : ℚ) else 1) < 0
  rw [if_pos (by omega)]
  norm_num

/-- A sunbeam is removed, and a cloud in a single bin is not. -/
example : keepSunbeam 40 (fun h => (h : ℚ) * 1000) (fun _ => some (1 : ℚ)) = false ∧
    keepSunbeam 40 (fun h => (h : ℚ) * 1000) (fun h => if h < 35 then none else some (1 : ℚ)) = true := by decide +kernel

/-- Thirty seconds between profiles and 5 m between gates. -/
example : calcSigmaUnits (1 : ℚ) 10 3 (fun i => (i : ℚ) / 120) 3 (fun i => (i : ℚ) * 5) = .ok (2, 2) := by decide +kernel

end Cloudnet
