import Mathlib.Tactic.Linarith
import Mathlib.Tactic.Ring
import Mathlib.Tactic.NormNum
import Verif.NcRadar.Model
import Verif.Categorize.Props
import Verif.RadarError.Props

namespace Cloudnet

/-! ## C51: stable pointing -/

section
variable {α : Type} [Field α] [LinearOrder α] [IsStrictOrderedRing α]

namespace Spec

/-- Two directions are less than `t` degrees apart on the circle. -/
def AngleNear (t a b : α) : Prop := ∃ k : ℤ, |a - b + 360 * (k : α)| < t

/-- The profile that profile `i` is compared with: the one before, for the first profile the one after. -/
def neighbour (i : ℕ) : ℕ := if i = 0 then 1 else i - 1

/-- Profile `i` points steadily to zenith, as far as known: if the elevation and azimuth of the profile and its neighbour
are known (the azimuth is not needed if it is missing in the whole file), the elevation is close to 90 degrees and close
to that of the neighbour, and so is the azimuth. -/
def SteadyZenith (n : ℕ) (elThr elDiffThr azDiffThr : α) (el az : ℕ → Option α) (i : ℕ) : Prop :=
  ∀ e e', el i = some e → el (neighbour i) = some e' →
    ((∀ k < n, az k = none) → |e - 90| < elThr ∧ |e - e'| < elDiffThr) ∧
    ∀ a a', az i = some a → az (neighbour i) = some a' →
      |e - 90| < elThr ∧ |e - e'| < elDiffThr ∧ AngleNear azDiffThr a a'

end Spec

/-- Wrapped differences measure the distance on the circle. -/
theorem wrapDiff_near (t a b : α) (ht : t ≤ 180) (hab : |a - b| ≤ 540) : |wrapDiff (a - b)| < t ↔ Spec.AngleNear t a b := by
  unfold Spec.AngleNear
  generalize a - b = d at hab
  rw [abs_le] at hab
  have hw : ∃ k : ℤ, wrapDiff d = d + 360 * (k : α) ∧ |wrapDiff d| ≤ 180 := by
    unfold wrapDiff
    dsimp only
    by_cases h1 : 180 < d
    · rw [if_pos h1, if_neg (by linarith)]
      exact ⟨-1, by push_cast; ring, by rw [abs_le]; constructor <;> linarith [hab.2]⟩
    · rw [if_neg h1]
      by_cases h2 : d < -180
      · rw [if_pos h2]
        exact ⟨1, by push_cast; ring, by rw [abs_le]; constructor <;> linarith [hab.1]⟩
      · rw [if_neg h2]
        exact ⟨0, by push_cast; ring, by rw [abs_le]; constructor <;> linarith⟩
  obtain ⟨k, hk, hle⟩ := hw
  constructor
  · intro h
    exact ⟨k, by rw [← hk]; exact h⟩
  · rintro ⟨j, hj⟩
    -- the wrapped difference is the smallest one
    by_cases hjk : j = k
    · rw [hk, ← hjk]; exact hj
    · exfalso
      have hd : d + 360 * (j : α) = wrapDiff d + 360 * ((j - k : ℤ) : α) := by rw [hk]; push_cast; ring
      rw [hd, abs_lt] at hj
      rw [abs_le] at hle
      rcases lt_or_gt_of_ne (sub_ne_zero.mpr hjk) with h | h
      · have : ((j - k : ℤ) : α) ≤ -1 := by exact_mod_cast Int.le_sub_one_of_lt h
        linarith [hj.1, hle.2]
      · have : (1 : α) ≤ ((j - k : ℤ) : α) := by exact_mod_cast h
        linarith [hj.2, hle.1]

/-- Which profiles are kept, after the offsets. -/
theorem stable_iff (n : ℕ) (elThr elDiffThr azDiffThr junk : α) (el az : ℕ → Option α) (haz : azDiffThr ≤ 180)
    (h1 : el 1 ≠ none) (h2 : (∃ k < n, az k ≠ none) → az 1 ≠ none)
    (hrange : ∀ i j a b, az i = some a → az j = some b → |a - b| ≤ 540) (i : ℕ) (hi : i < n) :
    stableProfile n elThr elDiffThr azDiffThr junk el az i = true ↔
      Spec.SteadyZenith n elThr elDiffThr azDiffThr el az i := by
  have hdiff : ∀ x : ℕ → Option α, x 1 ≠ none →
      prependedDiff junk x i = (x i).bind fun v => (x (Spec.neighbour i)).map fun w => v - w := by
    intro x hx
    cases i with
    | zero =>
      obtain ⟨w, hw⟩ := Option.ne_none_iff_exists'.mp hx
      show (x 0).map (fun v => v - (x 1).getD junk) = (x 0).bind fun v => (x 1).map fun w => v - w
      rw [hw]
      cases x 0 <;> rfl
    | succ i => rfl
  have hall : ((List.range n).all fun k => (az k).isNone) = true ↔ ∀ k < n, az k = none := by
    rw [List.all_eq_true]
    simp only [List.mem_range, Option.isNone_iff_eq_none]
  unfold stableProfile Spec.SteadyZenith
  dsimp only
  rw [hdiff el h1]
  by_cases hz : ∀ k < n, az k = none
  · rw [if_pos (hall.mpr hz)]
    have hzi := hz i hi
    rw [hzi]
    cases el i with
    | none => simp [maskedAnd]
    | some e =>
      cases el (Spec.neighbour i) with
      | none => simp [maskedAnd]
      | some e' => simp [maskedAnd, eq_true hz]
  · rw [if_neg (fun h => hz (hall.mp h))]
    have h2' := h2 (by push Not at hz; exact hz)
    rw [hdiff az h2']
    have hw := fun a a' h h' => wrapDiff_near azDiffThr a a' haz (hrange i (Spec.neighbour i) a a' h h')
    cases el i with
    | none => simp [maskedAnd]
    | some e =>
      cases el (Spec.neighbour i) with
      | none => simp [maskedAnd]
      | some e' =>
        cases ha : az i with
        | none => simp [maskedAnd, hz]
        | some a =>
          cases ha' : az (Spec.neighbour i) with
          | none => simp [maskedAnd, hz]
          | some a' => simp [maskedAnd, hz, ← hw a a' ha ha', and_assoc]

/-- **C51.** If the profiles of a radar are accepted, the zenith angle is 90 degrees minus the corrected elevation, the
azimuth is the corrected azimuth, and the profiles kept are exactly those that point steadily to zenith as far as known.
An error is raised exactly if fewer than two profiles remain. (The second profile must have angles.) -/
theorem C51_pointing (n : ℕ) (elThr elDiffThr azDiffThr junk : α) (zo ao : Option α) (el az : ℕ → Option α)
    (haz : azDiffThr ≤ 180) (h1 : el 1 ≠ none) (h2 : (∃ k < n, az k ≠ none) → az 1 ≠ none)
    (hrange : ∀ i j a b, az i = some a → az j = some b → |a - b| ≤ 540) :
    let el' : ℕ → Option α := fun i => (el i).map fun e => e - zo.getD 0
    let az' : ℕ → Option α := fun i => (az i).map fun a => a + ao.getD 0
    let kept := Spec.SteadyZenith n elThr elDiffThr azDiffThr el' az'
    (∀ p, addAngles n elThr elDiffThr azDiffThr junk zo ao el az = .ok p →
      (∀ i, p.zenith i = (el i).map fun e => 90 - (e - zo.getD 0)) ∧ p.azimuth = az' ∧
      ∀ i < n, (p.stable i = true ↔ kept i)) ∧
    ((∃ e, addAngles n elThr elDiffThr azDiffThr junk zo ao el az = .error e) ↔
      n < 2 ∨ ∀ i < n, ∀ j < n, kept i → kept j → i = j) := by
  intro el' az' kept
  have hel : (fun i => (el i).map fun e => zo.elim e fun o => e - o) = el' := by
    funext i
    show (el i).map _ = (el i).map _
    cases zo <;> simp
  have hazz : (fun i => (az i).map fun a => ao.elim a fun o => a + o) = az' := by
    funext i
    show (az i).map _ = (az i).map _
    cases ao <;> simp
  have hst : ∀ i < n, stableProfile n elThr elDiffThr azDiffThr junk el' az' i = true ↔ kept i := by
    intro i hi
    apply stable_iff _ _ _ _ _ _ _ haz _ _ _ i hi
    · show (el 1).map _ ≠ none
      simpa using h1
    · rintro ⟨k, hk, hne⟩
      show (az 1).map _ ≠ none
      have : az k ≠ none := fun h => hne (by show (az k).map _ = none; rw [h]; rfl)
      simpa using h2 ⟨k, hk, this⟩
    · intro i j a b ha hb
      obtain ⟨a0, ha0, rfl⟩ := Option.map_eq_some_iff.mp ha
      obtain ⟨b0, hb0, rfl⟩ := Option.map_eq_some_iff.mp hb
      rw [add_sub_add_right_eq_sub]
      exact hrange i j a0 b0 ha0 hb0
  unfold addAngles
  dsimp only
  rw [hel, hazz]
  by_cases hn : n < 2
  · rw [if_pos hn]
    exact ⟨fun p h => by simp at h, ⟨fun _ => Or.inl hn, fun _ => ⟨_, rfl⟩⟩⟩
  rw [if_neg hn]
  generalize stableProfile n elThr elDiffThr azDiffThr junk el' az' = st at hst
  constructor
  · intro p hp
    split at hp
    · simp at hp
    obtain rfl := Except.ok.inj hp
    refine ⟨fun i => ?_, rfl, hst⟩
    show ((el i).map _).map _ = _
    rw [Option.map_map]
    cases zo <;> simp [Function.comp_def]
  · -- at most one profile is kept
    have hlen : ((List.range n).filter fun i => !st i).length + ((List.range n).filter st).length = n := by
      have := List.length_eq_length_filter_add (l := List.range n) st
      rw [List.length_range] at this
      omega
    have hone : n - 1 ≤ ((List.range n).filter fun i => !st i).length ↔ ∀ i < n, ∀ j < n, kept i → kept j → i = j := by
      have : n - 1 ≤ ((List.range n).filter fun i => !st i).length ↔ ((List.range n).filter st).length ≤ 1 := by omega
      rw [this]
      constructor
      · intro hle i hi j hj hki hkj
        have mi : i ∈ (List.range n).filter st := List.mem_filter.mpr ⟨List.mem_range.mpr hi, (hst i hi).mpr hki⟩
        have mj : j ∈ (List.range n).filter st := List.mem_filter.mpr ⟨List.mem_range.mpr hj, (hst j hj).mpr hkj⟩
        match hl : (List.range n).filter st, hle with
        | [], _ => rw [hl] at mi; simp at mi
        | [x], _ =>
          rw [hl] at mi mj
          rw [List.mem_singleton.mp mi, List.mem_singleton.mp mj]
      · intro h
        by_contra hc
        push Not at hc
        match hl : (List.range n).filter st, hc with
        | x :: y :: rest, _ =>
          have hnd : ((List.range n).filter st).Nodup := List.nodup_range.filter _
          have mx : x ∈ (List.range n).filter st := by rw [hl]; simp
          have my : y ∈ (List.range n).filter st := by rw [hl]; simp
          obtain ⟨x1, x2⟩ := List.mem_filter.mp mx
          obtain ⟨y1, y2⟩ := List.mem_filter.mp my
          rw [List.mem_range] at x1 y1
          have := h x x1 y y1 ((hst x x1).mp x2) ((hst y y1).mp y2)
          rw [hl, this] at hnd
          simp at hnd
    rw [← hone]
    constructor
    · rintro ⟨e, he⟩
      split at he
      · rename_i h; exact Or.inr h
      · simp at he
    · rintro (h | h)
      · exact absurd h hn
      · rw [if_pos h]; exact ⟨_, rfl⟩

/-- Azimuth turns through north; the third profile jumps. -/
example : (addAngles 4 (11 / 10) (1 / 2) (2 : ℚ) 0 none none (fun i => if i = 2 then some 89 else some 90)
    (fun i => if i = 0 then some 359 else some 0)).map (fun p => (List.range 4).map p.stable) =
    .ok [true, true, false, false] := by decide +kernel

/-- **C51, a limit.** A profile that certainly points to the horizon is kept if its azimuth is unknown. -/
theorem C51_unknown_azimuth_kept :
    (addAngles 3 (11 / 10) (1 / 2) (1 / 10 : ℚ) 0 none none (fun i => if i = 2 then some 0 else some 90)
      (fun i => if i = 2 then none else some 0)).map (fun p => (List.range 3).map p.stable) =
      .ok [true, true, true] := by decide +kernel

/-- **C51, a limit.** If the second profile has no elevation, the first one is compared with a number that is not
measured. Zero, the number under the constant `ma.masked`, rejects it. -/
theorem C51_second_profile_missing :
    (addAngles 4 (11 / 10) (1 / 2) (1 / 10 : ℚ) 0 none none (fun i => if i = 1 then none else some 90)
      (fun _ => some 0)).map (fun p => (List.range 4).map p.stable) = .ok [false, true, true, true] := by decide +kernel

/-- **C51.** With a MIRA the angles that are more than 5% of the range out of it are masked, others are kept. -/
theorem C51_bad_angles (lower upper v : α) (x : Option α) (h : lower ≤ upper) :
    maskBadAngle lower upper x = some v ↔
      x = some v ∧ lower - (upper - lower) / 20 ≤ v ∧ v ≤ upper + (upper - lower) / 20 := by
  unfold maskBadAngle
  dsimp only
  rw [show (upper - lower) * (5 / 100) = (upper - lower) / 20 by ring]
  cases x with
  | none => simp
  | some w =>
    rw [Option.bind_some]
    by_cases h1 : w < lower - (upper - lower) / 20
    · rw [if_pos h1]
      simp only [Option.bind_none, Option.some.injEq, reduceCtorEq, false_iff]
      rintro ⟨rfl, h2, _⟩
      exact absurd h1 (not_lt.mpr h2)
    · rw [if_neg h1, Option.bind_some]
      by_cases h2 : w > upper + (upper - lower) / 20
      · rw [if_pos h2]
        simp only [Option.some.injEq, reduceCtorEq, false_iff]
        rintro ⟨rfl, _, h3⟩
        exact absurd h2 (not_lt.mpr h3)
      · rw [if_neg h2]
        simp only [Option.some.injEq]
        constructor
        · rintro rfl; exact ⟨rfl, not_lt.mp h1, not_lt.mp h2⟩
        · rintro ⟨rfl, _⟩; rfl

example : maskBadAngle 0 180 (some (190 : ℚ)) = none ∧ maskBadAngle 0 180 (some (185 : ℚ)) = some 185 := by decide +kernel

end

/-! ## C93: masks of radar variables -/

section
variable {α : Type} [Field α] [LinearOrder α] [IsStrictOrderedRing α]

/-- **C93.** After the masks are made consistent, every time-height variable has data only where the reflectivity and the
velocity have data; there nothing changes. Other variables are not changed. -/
theorem C93_consistent (data out : List (String × NcField α)) (z v : Grid (Option α))
    (hz : data.lookup "Zh" = some (.grid z)) (hv : data.lookup "v" = some (.grid v)) (h : maskInvalidData data = .ok out) :
    ∀ name, (∀ x, data.lookup name = some (.grid x) → ∃ y, out.lookup name = some (.grid y) ∧ ∀ t h,
        ((z t h).isSome ∧ (v t h).isSome → y t h = x t h) ∧ (z t h = none ∨ v t h = none → y t h = none)) ∧
      (∀ x, data.lookup name = some (.other x) → out.lookup name = some (.other x)) ∧
      (data.lookup name = none → out.lookup name = none) := by
  unfold maskInvalidData at h
  rw [hz, hv] at h
  obtain rfl := Except.ok.inj h
  intro name
  rw [lookup_map (f := fun p : NcField α =>
    (p.maskWhere fun t h => (z t h).isNone).maskWhere fun t h => (v t h).isNone)]
  refine ⟨?_, ?_, ?_⟩
  · intro x hx
    rw [hx]
    refine ⟨_, rfl, ?_⟩
    intro t k
    constructor
    · rintro ⟨h1, h2⟩
      obtain ⟨a, ha⟩ := Option.isSome_iff_exists.mp h1
      obtain ⟨b, hb⟩ := Option.isSome_iff_exists.mp h2
      simp [ha, hb]
    · rintro (h1 | h1) <;> simp [h1]
  · intro x hx
    rw [hx]
    rfl
  · intro hx
    rw [hx]
    rfl

/-- **C93.** Screening by signal-to-noise ratio masks exactly the pixels of every time-height variable where the ratio is
below the limit (for pixels without ratio it depends on the data under the mask), and the limit is stored. -/
theorem C93_snr (limit : α) (under : Grid α) (data out : List (String × NcField α)) (snr : Grid (Option α))
    (hs : data.lookup "SNR" = some (.grid snr)) (h : screenBySnr limit under data = .ok out) :
    out.lookup "snr_limit" = some (.other [some limit]) ∧
    ∀ name, name ≠ "snr_limit" → (∀ x, data.lookup name = some (.grid x) → ∃ y, out.lookup name = some (.grid y) ∧ ∀ t h s,
        snr t h = some s → y t h = if s < limit then none else x t h) ∧
      ∀ x, data.lookup name = some (.other x) → out.lookup name = some (.other x) := by
  unfold screenBySnr at h
  rw [hs] at h
  obtain rfl := Except.ok.inj h
  constructor
  · rw [lookup_dictSet, if_pos rfl]
  · intro name hn
    rw [lookup_dictSet, if_neg hn, lookup_map]
    constructor
    · intro x hx
      rw [hx]
      refine ⟨_, rfl, ?_⟩
      intro t k s hk
      simp [hk]
    · intro x hx
      rw [hx]
      rfl

namespace Spec

/-- The mean of the known values of some gates of a profile. -/
def IsMeanOf (x : ℕ → Option α) (gates : List ℕ) (m : α) : Prop :=
  let known := gates.filterMap x
  known ≠ [] ∧ m * (known.length : α) = known.sum

end Spec

/-- **C93.** Screening by the noise of the top 50 gates (or all, if there are fewer) masks the reflectivity exactly where
the ratio is below the mean ratio of the top gates plus the limit. -/
theorem C93_top_gates (nH : ℕ) (limit : α) (junk : ℕ → ℕ → Bool) (snr zh : Grid (Option α)) (t h : ℕ) (s m : α)
    (hs : snr t h = some s) (hm : Spec.IsMeanOf (snr t) ((List.range nH).filter fun k => decide (nH ≤ k + 50)) m) :
    screenTopGates nH limit junk snr zh t h = if s < m + limit then none else zh t h := by
  have hperm : List.Perm (((List.range (min 50 nH)).map fun k => snr t (nH - 1 - k)).filterMap id)
      (((List.range nH).filter fun k => decide (nH ≤ k + 50)).filterMap (snr t)) := by
    rw [List.filterMap_map]
    show List.Perm ((List.range (min 50 nH)).filterMap (snr t ∘ fun k => nH - 1 - k)) _
    rw [← List.filterMap_map (f := fun k => nH - 1 - k) (g := snr t)]
    apply List.Perm.filterMap
    rw [List.perm_ext_iff_of_nodup]
    · intro k
      simp only [List.mem_map, List.mem_range, List.mem_filter, decide_eq_true_eq]
      constructor
      · rintro ⟨j, hj, rfl⟩; omega
      · rintro ⟨h1, h2⟩; exact ⟨nH - 1 - k, by omega, by omega⟩
    · rw [List.nodup_map_iff_inj_on List.nodup_range]
      intro a ha b hb hab
      rw [List.mem_range] at ha hb
      omega
    · exact List.nodup_range.filter _
  obtain ⟨hne, hsum⟩ := hm
  have hmean : maskedMean ((List.range (min 50 nH)).map fun k => snr t (nH - 1 - k)) = some m := by
    unfold maskedMean
    dsimp only
    rw [if_neg (fun h => hne (by rw [h] at hperm; exact hperm.symm.eq_nil)), hperm.sum_eq, hperm.length_eq, ← hsum,
      mul_div_assoc, div_self, mul_one]
    have := List.length_pos_of_ne_nil hne
    exact_mod_cast this.ne'
  unfold screenTopGates
  dsimp only
  rw [hs, hmean]
  dsimp only
  by_cases hc : s < m + limit <;> simp [hc]

example : Spec.IsMeanOf (fun h => some (h : ℚ)) ((List.range 3).filter fun k => decide (3 ≤ k + 50)) 1 ∧
    screenTopGates 3 (2 / 10) (fun _ _ => false) (fun _ h => some (h : ℚ)) (fun _ _ => some 5) 0 2 = some 5 ∧
    screenTopGates 3 (2 / 10) (fun _ _ => false) (fun _ h => some (h : ℚ)) (fun _ _ => some 5) 0 1 = none := by
  unfold Spec.IsMeanOf
  decide +kernel

/-- **C93.** The velocity is masked in gates closer than the limit and not changed elsewhere. -/
theorem C93_first_gates (limit : α) (range : ℕ → α) (v : Grid (Option α)) (t h : ℕ) :
    (range h < limit → maskFirstGates limit range v t h = none) ∧
    (limit ≤ range h → maskFirstGates limit range v t h = v t h) := by
  unfold maskFirstGates
  exact ⟨fun h => if_pos h, fun h => if_neg (not_lt.mpr h)⟩

/-- **C93.** A profile of a MIRA is kept exactly if its transmitted power, in the corrected unit, reaches 5 W (0.5 W for a
MIRA-35C). -/
theorem C93_power (isMira35c fzk : Bool) (tpow : List α) :
    (keptPower isMira35c fzk tpow).length = tpow.length ∧
    ∀ (k : ℕ) (p : α) (b : Bool), tpow[k]? = some p → (keptPower isMira35c fzk tpow)[k]? = some b →
      (b = true ↔ (if isMira35c then 1 / 2 else 5) ≤ (if fzk then 100 * p else p)) := by
  unfold keptPower
  dsimp only
  constructor
  · cases fzk <;> simp
  · intro k p b hp hb
    have hhalf : (if isMira35c = true then (5 / 10 : α) else 5) = if isMira35c then 1 / 2 else 5 := by
      split <;> norm_num
    rw [hhalf] at hb
    cases fzk
    · simp only [Bool.false_eq_true, if_false] at hb ⊢
      rw [List.getElem?_map, hp, Option.map_some, Option.some.injEq] at hb
      rw [← hb]
      simp
    · simp only [if_true] at hb ⊢
      rw [List.getElem?_map, List.getElem?_map, hp, Option.map_some, Option.map_some, Option.some.injEq] at hb
      rw [← hb, mul_comm p]
      simp

example : keptPower true true [(1 / 1000 : ℚ), 1 / 100] = [false, true] := by decide +kernel

/-- **C93.** The depolarisation of a MIRA is deleted if the polarisation is off, completely masked if its mean is
positive, and not changed otherwise. -/
theorem C93_ldr (nT nH : ℕ) (pol : String) (ldr : Grid (Option α)) :
    let known := (List.range nT).flatMap fun t => (List.range nH).filterMap fun h => ldr t h
    (pol = "0" → screenLdr nT nH pol ldr = none) ∧
    (pol ≠ "0" → 0 < known.sum → ∃ out, screenLdr nT nH pol ldr = some out ∧ ∀ t h, out t h = none) ∧
    (pol ≠ "0" → known.sum ≤ 0 → screenLdr nT nH pol ldr = some ldr) := by
  intro known
  have hk : ((List.range nT).flatMap fun t => (List.range nH).map fun h => ldr t h).filterMap id = known := by
    rw [List.filterMap_flatMap]
    show _ = (List.range nT).flatMap fun t => (List.range nH).filterMap fun h => ldr t h
    congr 1
    funext t
    rw [List.filterMap_map]
    rfl
  unfold screenLdr maskedMean
  dsimp only
  rw [hk]
  refine ⟨fun h => if_pos h, fun h hs => ?_, fun h hs => ?_⟩
  · have hne : known ≠ [] := by rintro he; rw [he] at hs; simp at hs
    have hpos : (0 : α) < (known.length : α) := by exact_mod_cast List.length_pos_of_ne_nil hne
    rw [if_neg h, if_neg hne]
    dsimp only
    rw [if_pos (div_pos hs hpos)]
    exact ⟨_, rfl, fun _ _ => rfl⟩
  · rw [if_neg h]
    by_cases hne : known = []
    · rw [if_pos hne]
    · have hpos : (0 : α) < (known.length : α) := by exact_mod_cast List.length_pos_of_ne_nil hne
      rw [if_neg hne]
      dsimp only
      rw [if_neg (not_lt.mpr (div_nonpos_of_nonpos_of_nonneg hs hpos.le))]

end

/-! ## C94: height -/

/-- **C94.** Heights are the altitude plus the range times the cosine of the median of the known zenith angles (0 if there
are none). They increase with range if the instrument points above the horizon, never exceed altitude plus range, and
equal it at zenith. -/
theorem C94_height (zenith : List (Option ℝ)) (altitude : ℝ) :
    let known := zenith.filterMap id
    ∃ tilt, (known = [] → tilt = 0) ∧ (known ≠ [] → Spec.IsMedian known tilt) ∧
      (∀ r, addHeight zenith altitude r = altitude + r * Real.cos (tilt / 180 * Real.pi)) ∧
      (|tilt| < 90 → StrictMono (addHeight zenith altitude)) ∧
      (∀ r, 0 ≤ r → addHeight zenith altitude r ≤ altitude + r) ∧
      (tilt = 0 → ∀ r, addHeight zenith altitude r = altitude + r) := by
  intro known
  have hform : ∀ r, addHeight zenith altitude r =
      altitude + r * Real.cos ((getZenithAngle zenith).getD 0 / 180 * Real.pi) := by
    intro r
    unfold addHeight rangeToHeight
    rw [add_comm, show (getZenithAngle zenith).getD 0 * (Real.pi / 180) = (getZenithAngle zenith).getD 0 / 180 * Real.pi by ring]
  refine ⟨(getZenithAngle zenith).getD 0, ?_, ?_, hform, ?_, ?_, ?_⟩
  · intro h
    unfold getZenithAngle
    dsimp only
    rw [if_pos h]
    rfl
  · intro h
    unfold getZenithAngle
    dsimp only
    rw [if_neg h]
    exact median_isMedian _ h
  · intro ht r r' hr
    rw [hform, hform]
    have hcos : 0 < Real.cos ((getZenithAngle zenith).getD 0 / 180 * Real.pi) := by
      rw [abs_lt] at ht
      apply Real.cos_pos_of_mem_Ioo
      constructor <;> nlinarith [Real.pi_pos, ht.1, ht.2]
    nlinarith
  · intro r hr
    rw [hform]
    have := Real.cos_le_one ((getZenithAngle zenith).getD 0 / 180 * Real.pi)
    nlinarith
  · intro h r
    rw [hform, h]
    simp

end Cloudnet
