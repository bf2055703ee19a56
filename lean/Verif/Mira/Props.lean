import Mathlib.Tactic
import Verif.Mira.Files

namespace Cloudnet

/-! ## C108: profiles of a MIRA radar -/

section
variable {α : Type} [Field α] [LinearOrder α] [IsStrictOrderedRing α] [FloorRing α]

namespace Spec

/-- The power of a profile, with the correction for the old firmware of one instrument. -/
def power (o : MiraOptions α) (p : MiraProfile α) : α :=
  if o.sn = "fzk" ∧ o.fzk100 = false then 100 * p.tpow else p.tpow

/-- The lowest power that is accepted. -/
def minPower (o : MiraOptions α) : α := if o.model = "mira-35c" then 1 / 2 else 5

/-- The signal-to-noise ratio of a gate, in decibels; if it is masked, the number under the mask counts. -/
def snrAt (o : MiraOptions α) (p : MiraProfile α) (h : ℕ) : α := (o.toDb (p.snr h)).getD (p.snrUnder h)

/-- The lowest signal-to-noise ratio that is accepted. -/
def minSnr (o : MiraOptions α) : α := o.snrLimit.getD (if o.model = "mira-10" then -30 else -17)

/-- The pixel has a reflectivity, a velocity and enough signal. -/
def GoodPixel (o : MiraOptions α) (p : MiraProfile α) (h : ℕ) : Prop :=
  o.toDb (p.zh h) ≠ none ∧ p.v h ≠ none ∧ minSnr o ≤ snrAt o p h

instance (o : MiraOptions α) (p : MiraProfile α) (h : ℕ) : Decidable (GoodPixel o p h) := by
  unfold GoodPixel; infer_instance

/-- The depolarisation ratios with enough signal of some profiles. -/
def knownLdr (o : MiraOptions α) (ps : List (MiraProfile α)) : List α :=
  ps.flatMap fun p => (List.range o.nGates).filterMap fun h => if minSnr o ≤ snrAt o p h then o.toDb (p.ldr h) else none

/-- Are the depolarisation ratios too high to be true? -/
def LdrTooHigh (o : MiraOptions α) (ps : List (MiraProfile α)) : Prop :=
  o.pol ≠ "0" ∧ 0 < (knownLdr o ps).sum

/-- What is written for the profile `r` of the raw data. -/
structure IsOutput (o : MiraOptions α) (ldrTooHigh : Prop) (r p : MiraProfile α) : Prop where
  stamp : p.stamp = r.stamp
  hour : p.hour = r.hour
  tpow : p.tpow = if o.hasPower then power o r else r.tpow
  zenith : p.elevation = r.elevation.map fun e => 90 - (e - o.zenithOffset.getD 0)
  azimuth : p.azimuth = r.azimuth.map fun a => a + o.azimuthOffset.getD 0
  zh : ∀ h, p.zh h = if GoodPixel o r h then o.toDb (r.zh h) else none
  v : ∀ h, p.v h = if GoodPixel o r h then r.v h else none
  width : ∀ h, p.width h = if GoodPixel o r h then r.width h else none
  snr : ∀ h, p.snr h = if GoodPixel o r h then o.toDb (r.snr h) else none
  ldr : ∀ h, (ldrTooHigh → p.ldr h = none) ∧
    (¬ ldrTooHigh → p.ldr h = if GoodPixel o r h then o.toDb (r.ldr h) else none)

/-- The time stamp of the profile belongs to day `d` (and is not the fill value 0). -/
def OnDate (d : ℤ) (p : MiraProfile α) : Prop := p.stamp ≠ 0 ∧ 86400 * (d : α) ≤ p.stamp ∧ p.stamp < 86400 * (d + 1)

/-- Is the power of the profile sufficient, if powers are known? -/
def StrongEnough (o : MiraOptions α) (p : MiraProfile α) : Prop := o.hasPower = true → minPower o ≤ power o p

instance (o : MiraOptions α) (p : MiraProfile α) : Decidable (StrongEnough o p) := by
  unfold StrongEnough; infer_instance

/-- Profile `k` of `ps` points steadily to zenith (property C51): its elevation is close to 90 degrees, and close to that of
its neighbour, and so is its azimuth. -/
def Steady (o : MiraOptions α) (ps : List (MiraProfile α)) (k : ℕ) : Prop :=
  SteadyZenith ps.length (11 / 10) (1 / 1000000) (1 / 1000)
    (fun i => ((ps[i]?).bind MiraProfile.elevation).map fun e => e - o.zenithOffset.getD 0)
    (fun i => ((ps[i]?).bind MiraProfile.azimuth).map fun a => a + o.azimuthOffset.getD 0) k

end Spec

theorem keepProfiles_ok {β : Type} (l l' : List β) : keepProfiles l = .ok l' ↔ l ≠ [] ∧ l' = l := by
  unfold keepProfiles
  cases l with
  | nil => simp
  | cons a l => simp [eq_comm]

theorem getElem?_vec {β : Type} (f : β → α) (ps : List β) (i : ℕ) (p : β) (h : ps[i]? = some p) :
    vec (ps.map f) i = f p := by
  unfold vec
  rw [List.getD_eq_getElem?_getD, List.getElem?_map, h]
  rfl

/-- Removing duplicates: strictly increasing times, and every time is still there. -/
theorem uniqueProfiles_spec (ps : List (MiraProfile α)) :
    (uniqueProfiles ps).Pairwise (fun p q => p.hour < q.hour) ∧ (∀ p ∈ uniqueProfiles ps, p ∈ ps) ∧
    ∀ p ∈ ps, ∃ q ∈ uniqueProfiles ps, q.hour = p.hour := by
  obtain ⟨hmem, hpw⟩ := uniqueIndex_spec ps.length (vec (ps.map MiraProfile.hour))
  unfold uniqueProfiles
  refine ⟨?_, ?_, ?_⟩
  · rw [List.pairwise_filterMap]
    refine hpw.imp_of_mem ?_
    intro i j hi hj hlt p hp q hq
    rwa [getElem?_vec _ _ _ _ hp, getElem?_vec _ _ _ _ hq] at hlt
  · intro p hp
    obtain ⟨i, -, hi⟩ := List.mem_filterMap.1 hp
    exact List.mem_of_getElem? hi
  · intro p hp
    obtain ⟨i, hi, hpi⟩ := List.mem_iff_getElem.1 hp
    have hsome : ps[i]? = some p := by rw [List.getElem?_eq_getElem hi, hpi]
    -- the first index with the same time
    classical
    have hex : ∃ j, j < ps.length ∧ vec (ps.map MiraProfile.hour) j = p.hour :=
      ⟨i, hi, getElem?_vec _ _ _ _ hsome⟩
    obtain ⟨hj, hjv⟩ := Nat.find_spec hex
    set j := Nat.find hex with hjdef
    have hq : ps[j]? = some ps[j] := List.getElem?_eq_getElem hj
    refine ⟨ps[j], List.mem_filterMap.2 ⟨j, (hmem j).2 ⟨hj, ?_⟩, hq⟩, ?_⟩
    · intro k hk heq
      exact Nat.find_min hex hk ⟨by omega, by rw [heq, hjv]⟩
    · rw [← getElem?_vec MiraProfile.hour _ _ _ hq, hjv]

theorem miraOnDate_iff (d : ℤ) (p : MiraProfile α) : miraOnDate d p = true ↔ Spec.OnDate d p := by
  unfold miraOnDate Spec.OnDate dateOf
  simp only [Bool.and_eq_true, decide_eq_true_eq, ne_eq, zero_add, Int.floor_eq_iff]
  rw [le_div_iff₀ (by norm_num), div_lt_iff₀ (by norm_num), mul_comm, mul_comm (86400 : α) (d + 1)]

/-- A profile after the conversion to decibels and the correction of the power. -/
def MiraProfile.converted (o : MiraOptions α) (p : MiraProfile α) : MiraProfile α :=
  if o.hasPower then (p.db o.toDb).fixPower o else p.db o.toDb

theorem converted_tpow (o : MiraOptions α) (p : MiraProfile α) :
    (p.converted o).tpow = if o.hasPower then Spec.power o p else p.tpow := by
  unfold MiraProfile.converted Spec.power MiraProfile.fixPower
  cases h1 : o.hasPower
  · rfl
  · by_cases h2 : o.sn = "fzk"
    · cases h3 : o.fzk100
      · simp [h2, MiraProfile.db, mul_comm]
      · simp [MiraProfile.db]
    · simp [h2, MiraProfile.db]

theorem powerOk_iff (o : MiraOptions α) (p : MiraProfile α) (h : o.hasPower = true) :
    miraPowerOk o (p.converted o) = true ↔ Spec.StrongEnough o p := by
  unfold miraPowerOk Spec.StrongEnough Spec.minPower
  rw [converted_tpow]
  simp only [h, if_true, forall_const, Bool.not_eq_true', decide_eq_false_iff_not, not_lt]
  have hhalf : (5 / 10 : α) = 1 / 2 := by norm_num
  rw [hhalf]

/-- The selection by date, time and power. -/
theorem miraSelect_ok (o : MiraOptions α) (raw ps : List (MiraProfile α))
    (hsort : ∀ l, (o.sort l).Perm l) (h : miraSelect o raw = .ok ps) :
    ∃ (hours : ℕ → α) (cand : List (MiraProfile α)), initTime (some (raw.length, vec (raw.map MiraProfile.stamp))) = .ok hours ∧
      cand.Pairwise (fun p q => p.hour < q.hour) ∧
      (∀ p ∈ cand, p ∈ timedProfiles hours raw ∧ ∀ d, o.date = some d → Spec.OnDate d p) ∧
      (∀ p ∈ timedProfiles hours raw, (∀ d, o.date = some d → Spec.OnDate d p) →
        ∃ q ∈ cand, q.hour = p.hour) ∧
      ps = (cand.filter fun p => decide (Spec.StrongEnough o p)).map (MiraProfile.converted o) := by
  unfold miraSelect at h
  simp only [bind, Except.bind, pure, Except.pure] at h
  cases ht : initTime (some (raw.length, vec (raw.map MiraProfile.stamp))) with
  | error e => rw [ht] at h; cases h
  | ok hours =>
    rw [ht] at h
    dsimp only at h
    generalize htimed : timedProfiles hours raw = timed at h
    split at h
    · cases h
    cases hdate : miraDate o timed with
    | error e => rw [hdate] at h; cases h
    | ok onDate =>
    rw [hdate] at h
    have hon : ∀ p, p ∈ onDate ↔ p ∈ timed ∧ ∀ d, o.date = some d → Spec.OnDate d p := by
      intro p
      unfold miraDate at hdate
      cases hd : o.date with
      | none =>
        rw [hd] at hdate
        rw [← Except.ok.inj hdate]
        simp
      | some d =>
        rw [hd] at hdate
        rw [((keepProfiles_ok _ _).1 hdate).2, List.mem_filter, miraOnDate_iff]
        simp
    replace h : miraTimes o onDate = .ok ps := h
    unfold miraTimes at h
    simp only [bind, Except.bind, pure, Except.pure] at h
    cases hk1 : keepProfiles (o.sort onDate) with
    | error e => rw [hk1] at h; cases h
    | ok s =>
      rw [hk1] at h
      dsimp only at h
      obtain ⟨-, rfl⟩ := (keepProfiles_ok _ _).1 hk1
      cases hk2 : keepProfiles (uniqueProfiles (o.sort onDate)) with
      | error e => rw [hk2] at h; cases h
      | ok u =>
        rw [hk2] at h
        dsimp only at h
        obtain ⟨-, rfl⟩ := (keepProfiles_ok _ _).1 hk2
        obtain ⟨hinc, hsub, hcov⟩ := uniqueProfiles_spec (o.sort onDate)
        have hperm := hsort onDate
        rw [← htimed] at hon
        refine ⟨hours, uniqueProfiles (o.sort onDate), rfl, hinc,
          fun p hp => (hon p).1 (hperm.mem_iff.1 (hsub p hp)),
          fun p hp hd => hcov p (hperm.mem_iff.2 ((hon p).2 ⟨hp, hd⟩)), ?_⟩
        cases hpow : o.hasPower with
        | false =>
          rw [hpow] at h
          have hall : ∀ p, Spec.StrongEnough o p := fun p hc => by rw [hpow] at hc; cases hc
          have hconv : (MiraProfile.converted o) = MiraProfile.db o.toDb := by
            funext p; unfold MiraProfile.converted; rw [hpow]; rfl
          rw [List.filter_eq_self.2 fun p _ => by simp [hall p], hconv]
          exact (Except.ok.inj h).symm
        | true =>
          rw [hpow, if_pos rfl] at h
          have hconv : (MiraProfile.converted o) = fun p => (p.db o.toDb).fixPower o := by
            funext p; unfold MiraProfile.converted; rw [hpow]; rfl
          rw [((keepProfiles_ok _ _).1 h).2, List.map_map, List.filter_map]
          rw [hconv]
          congr 1
          apply List.filter_congr
          intro p _
          rw [Bool.eq_iff_iff, decide_eq_true_eq, ← powerOk_iff o p hpow, hconv]
          rfl

/-- A profile after the masks. -/
def MiraProfile.masked (o : MiraOptions α) (tooHigh : Prop) [Decidable tooHigh] (r : MiraProfile α) : MiraProfile α :=
  { stamp := r.stamp, hour := r.hour, tpow := if o.hasPower then Spec.power o r else r.tpow,
    elevation := maskBadAngle 0 180 r.elevation, azimuth := maskBadAngle (-360) 360 r.azimuth,
    zh := fun h => if Spec.GoodPixel o r h then o.toDb (r.zh h) else none,
    v := fun h => if Spec.GoodPixel o r h then r.v h else none,
    width := fun h => if Spec.GoodPixel o r h then r.width h else none,
    ldr := fun h => if tooHigh then none else if Spec.GoodPixel o r h then o.toDb (r.ldr h) else none,
    snr := fun h => if Spec.GoodPixel o r h then o.toDb (r.snr h) else none,
    snrUnder := r.snrUnder }

theorem miraSnrLimit_eq (o : MiraOptions α) : miraSnrLimit o = Spec.minSnr o := by
  unfold miraSnrLimit Spec.minSnr
  cases o.snrLimit <;> rfl

theorem converted_fields (o : MiraOptions α) (r : MiraProfile α) :
    (r.converted o).stamp = r.stamp ∧ (r.converted o).hour = r.hour ∧ (r.converted o).elevation = r.elevation ∧
    (r.converted o).azimuth = r.azimuth ∧ (r.converted o).zh = (fun h => o.toDb (r.zh h)) ∧ (r.converted o).v = r.v ∧
    (r.converted o).width = r.width ∧ (r.converted o).ldr = (fun h => o.toDb (r.ldr h)) ∧
    (r.converted o).snr = (fun h => o.toDb (r.snr h)) ∧ (r.converted o).snrUnder = r.snrUnder := by
  unfold MiraProfile.converted MiraProfile.fixPower MiraProfile.db
  split
  · split <;> simp
  · simp

instance (o : MiraOptions α) (ps : List (MiraProfile α)) : Decidable (Spec.LdrTooHigh o ps) := by
  unfold Spec.LdrTooHigh; infer_instance

theorem maskedMean_pos (l : List (Option α)) (m : α) (h : maskedMean l = some m) : 0 < m ↔ 0 < (l.filterMap id).sum := by
  unfold maskedMean at h
  dsimp only at h
  split at h
  · cases h
  · rename_i hne
    cases h
    have : (0 : α) < (l.filterMap id).length := by exact_mod_cast List.length_pos_iff.2 hne
    constructor
    · intro hp
      by_contra hc
      have := div_nonpos_of_nonpos_of_nonneg (not_lt.1 hc) this.le
      exact absurd hp (not_lt.2 this)
    · intro hp; exact div_pos hp this

theorem masked_step (o : MiraOptions α) (tooHigh : Prop) [Decidable tooHigh] (r : MiraProfile α) :
    MiraProfile.clean (if tooHigh then { ((r.converted o).mask fun h =>
        decide (((r.converted o).snr h).getD ((r.converted o).snrUnder h) < miraSnrLimit o)) with ldr := fun _ => none }
      else (r.converted o).mask fun h =>
        decide (((r.converted o).snr h).getD ((r.converted o).snrUnder h) < miraSnrLimit o)) = r.masked o tooHigh := by
  obtain ⟨h1, h2, h3, h4, h5, h6, h7, h8, h9, h10⟩ := converted_fields o r
  have h11 := converted_tpow o r
  have good : ∀ h, Spec.GoodPixel o r h ↔ o.toDb (r.zh h) ≠ none ∧ r.v h ≠ none ∧
      ¬ (o.toDb (r.snr h)).getD (r.snrUnder h) < Spec.minSnr o := by
    intro h; unfold Spec.GoodPixel Spec.snrAt; rw [not_lt]
  have cell : ∀ (h : ℕ) (x : Option α),
      (if ((if decide ((o.toDb (r.snr h)).getD (r.snrUnder h) < Spec.minSnr o) = true then none else o.toDb (r.zh h)).isNone ||
          (if decide ((o.toDb (r.snr h)).getD (r.snrUnder h) < Spec.minSnr o) = true then none else r.v h).isNone) = true then none
        else if decide ((o.toDb (r.snr h)).getD (r.snrUnder h) < Spec.minSnr o) = true then none else x) =
      if Spec.GoodPixel o r h then x else none := by
    intro h x
    by_cases hs : (o.toDb (r.snr h)).getD (r.snrUnder h) < Spec.minSnr o
    · rw [if_neg (c := Spec.GoodPixel o r h) (fun hg => ((good h).1 hg).2.2 hs)]
      simp [hs]
    · cases hz : o.toDb (r.zh h) with
      | none => rw [if_neg (c := Spec.GoodPixel o r h) (fun hg => ((good h).1 hg).1 hz)]; simp
      | some z =>
        cases hv : r.v h with
        | none => rw [if_neg (c := Spec.GoodPixel o r h) (fun hg => ((good h).1 hg).2.1 hv)]; simp
        | some v =>
          rw [if_pos (c := Spec.GoodPixel o r h) ((good h).2 ⟨by simp [hz], by simp [hv], hs⟩)]
          simp [hs]
  by_cases ht : tooHigh
  · rw [if_pos ht]
    unfold MiraProfile.clean MiraProfile.masked MiraProfile.mask
    simp only [h1, h2, h3, h4, h5, h6, h7, h8, h9, h10, h11, miraSnrLimit_eq, cell, if_pos ht]
    simp
  · rw [if_neg ht]
    unfold MiraProfile.clean MiraProfile.masked MiraProfile.mask
    simp only [h1, h2, h3, h4, h5, h6, h7, h8, h9, h10, h11, miraSnrLimit_eq, cell, if_neg ht]

/-- The masks. -/
theorem miraMask_eq (o : MiraOptions α) (strong : List (MiraProfile α)) :
    miraMask o (strong.map (MiraProfile.converted o)) =
      (strong.map (MiraProfile.masked o (Spec.LdrTooHigh o strong)), decide (o.pol ≠ "0")) := by
  have hknown : ((strong.map fun r => ((r.converted o).mask fun h =>
      decide (((r.converted o).snr h).getD ((r.converted o).snrUnder h) < miraSnrLimit o))).flatMap
        fun p => (List.range o.nGates).map p.ldr).filterMap id = Spec.knownLdr o strong := by
    unfold Spec.knownLdr
    rw [List.flatMap_map, List.filterMap_flatMap]
    congr 1
    funext r
    rw [List.filterMap_map]
    congr 1
    funext h
    obtain ⟨-, -, -, -, -, -, -, h8, h9, h10⟩ := converted_fields o r
    simp only [MiraProfile.mask, Function.comp, id, h8, h9, h10, miraSnrLimit_eq, decide_eq_true_eq]
    by_cases hs : Spec.snrAt o r h < Spec.minSnr o
    · rw [if_neg (not_le.2 hs), if_pos (show (o.toDb (r.snr h)).getD (r.snrUnder h) < Spec.minSnr o from hs)]
    · rw [if_pos (not_lt.1 hs), if_neg (show ¬ (o.toDb (r.snr h)).getD (r.snrUnder h) < Spec.minSnr o from hs)]
  have hldr : miraLdr o (strong.map fun r => ((r.converted o).mask fun h =>
      decide (((r.converted o).snr h).getD ((r.converted o).snrUnder h) < miraSnrLimit o))) =
      (strong.map fun r => if Spec.LdrTooHigh o strong then { ((r.converted o).mask fun h =>
        decide (((r.converted o).snr h).getD ((r.converted o).snrUnder h) < miraSnrLimit o)) with ldr := fun _ => none }
      else (r.converted o).mask fun h =>
        decide (((r.converted o).snr h).getD ((r.converted o).snrUnder h) < miraSnrLimit o), decide (o.pol ≠ "0")) := by
    unfold miraLdr
    by_cases hp : o.pol = "0"
    · have hno : ¬ Spec.LdrTooHigh o strong := fun h => h.1 hp
      rw [if_pos hp]
      simp only [if_neg hno]
      simp [hp]
    · rw [if_neg hp]
      cases hm : maskedMean ((strong.map fun r => ((r.converted o).mask fun h =>
          decide (((r.converted o).snr h).getD ((r.converted o).snrUnder h) < miraSnrLimit o))).flatMap
            fun p => (List.range o.nGates).map p.ldr) with
      | none =>
        have hnil : Spec.knownLdr o strong = [] := by
          unfold maskedMean at hm
          dsimp only at hm
          rw [hknown] at hm
          split at hm
          · assumption
          · cases hm
        have hno : ¬ Spec.LdrTooHigh o strong := by
          rintro ⟨-, h⟩
          rw [hnil] at h
          simp at h
        simp only [if_neg hno]
        simp [hp]
      | some m =>
        have hpos := maskedMean_pos _ _ hm
        rw [hknown] at hpos
        by_cases h0 : 0 < m
        · have hyes : Spec.LdrTooHigh o strong := ⟨hp, hpos.1 h0⟩
          simp only [if_pos hyes, if_pos h0, List.map_map]
          simp [hp]
        · have hno : ¬ Spec.LdrTooHigh o strong := fun h => h0 (hpos.2 h.2)
          simp only [if_neg hno, if_neg h0]
          simp [hp]
  unfold miraMask
  dsimp only
  rw [List.map_map]
  have hcomp : ((fun p : MiraProfile α => p.mask fun h => decide ((p.snr h).getD (p.snrUnder h) < miraSnrLimit o)) ∘
      MiraProfile.converted o) = fun r => ((r.converted o).mask fun h =>
      decide (((r.converted o).snr h).getD ((r.converted o).snrUnder h) < miraSnrLimit o)) := rfl
  rw [hcomp, hldr, List.map_map]
  congr 1
  apply List.map_congr_left
  intro r _
  exact masked_step o _ r

theorem forall₂_zipIdx_filter {β : Type} (l : List β) (f : ℕ → Bool) :
    List.Forall₂ (fun k p => l[k]? = some p) ((List.range l.length).filter f)
      (((l.zipIdx).filter fun pi => f pi.2).map Prod.fst) := by
  have hsnd : (List.range l.length).filter f = ((l.zipIdx).filter fun pi => f pi.2).map Prod.snd := by
    have : List.range l.length = (l.zipIdx).map Prod.snd := by
      rw [List.zipIdx_map_snd, List.range_eq_range']
    rw [this, List.filter_map]
    rfl
  rw [hsnd, List.forall₂_map_left_iff, List.forall₂_map_right_iff, List.forall₂_same]
  intro pi hpi
  obtain ⟨p, i⟩ := pi
  exact List.mem_zipIdx_iff_getElem?.1 (List.mem_filter.1 hpi).1

theorem maskBadAngle_valid (lower upper : α) (x : Option α) (hx : ∀ v, x = some v → lower ≤ v ∧ v ≤ upper)
    (h : lower ≤ upper) : maskBadAngle lower upper x = x := by
  cases x with
  | none => rfl
  | some v =>
    obtain ⟨h1, h2⟩ := hx v rfl
    unfold maskBadAngle
    have hm : 0 ≤ (upper - lower) * (5 / 100 : α) := mul_nonneg (by linarith) (by norm_num)
    simp only [Option.bind_some]
    rw [if_neg (by linarith), Option.bind_some, if_neg (by linarith)]

/-- The angles are known and plausible in all profiles, or missing in all profiles. -/
def Spec.PlausibleAngles (ps : List (MiraProfile α)) : Prop :=
  (∀ p ∈ ps, ∃ e a, p.elevation = some e ∧ 0 ≤ e ∧ e ≤ 180 ∧ p.azimuth = some a ∧ 0 ≤ a ∧ a ≤ 360) ∨
  ∀ p ∈ ps, p.elevation = none ∧ p.azimuth = none

theorem pointing_stable (o : MiraOptions α) (ps : List (MiraProfile α)) (hang : Spec.PlausibleAngles ps) (angles : Pointing α)
    (h : addAngles ps.length (11 / 10) (1 / 1000000) (1 / 1000) o.junk o.zenithOffset o.azimuthOffset
      (fun i => (ps[i]?).bind MiraProfile.elevation) (fun i => (ps[i]?).bind MiraProfile.azimuth) = .ok angles) :
    2 ≤ ps.length ∧
    (∀ i, angles.zenith i = ((ps[i]?).bind MiraProfile.elevation).map fun e => 90 - (e - o.zenithOffset.getD 0)) ∧
    (∀ i, angles.azimuth i = ((ps[i]?).bind MiraProfile.azimuth).map fun a => a + o.azimuthOffset.getD 0) ∧
    ∀ i < ps.length, (angles.stable i = true ↔ Spec.Steady o ps i) := by
  have hn : 2 ≤ ps.length := by
    by_contra hc
    unfold addAngles at h
    dsimp only at h
    rw [if_pos (by omega)] at h
    cases h
  refine ⟨hn, ?_⟩
  rcases hang with hang | hang
  · have hel : ∀ i < ps.length, ∃ e a, ((ps[i]?).bind MiraProfile.elevation) = some e ∧
        ((ps[i]?).bind MiraProfile.azimuth) = some a ∧ 0 ≤ a ∧ a ≤ 360 := by
      intro i hi
      obtain ⟨e, a, h1, -, -, h2, h3, h4⟩ := hang ps[i] (List.getElem_mem hi)
      exact ⟨e, a, by rw [List.getElem?_eq_getElem hi]; exact h1, by rw [List.getElem?_eq_getElem hi]; exact h2, h3, h4⟩
    have key := (C51_pointing ps.length (11 / 10) (1 / 1000000) (1 / 1000) o.junk o.zenithOffset o.azimuthOffset
      (fun i => (ps[i]?).bind MiraProfile.elevation) (fun i => (ps[i]?).bind MiraProfile.azimuth) (by norm_num)
      (by obtain ⟨e, a, h1, -⟩ := hel 1 (by omega); simp only [h1]; simp)
      (fun _ => by obtain ⟨e, a, -, h1, -⟩ := hel 1 (by omega); simp only [h1]; simp)
      (by
        intro i j a b ha hb
        have hi : i < ps.length := by
          by_contra hc
          simp only [List.getElem?_eq_none (not_lt.1 hc)] at ha
          cases ha
        have hj : j < ps.length := by
          by_contra hc
          simp only [List.getElem?_eq_none (not_lt.1 hc)] at hb
          cases hb
        obtain ⟨_, a', -, h1, h2, h3⟩ := hel i hi
        obtain ⟨_, b', -, h4, h5, h6⟩ := hel j hj
        have e1 : a = a' := Option.some.inj (ha.symm.trans h1)
        have e2 : b = b' := Option.some.inj (hb.symm.trans h4)
        subst e1; subst e2
        rw [abs_le]; constructor <;> linarith)).1 angles h
    exact ⟨key.1, fun i => congrFun key.2.1 i, key.2.2⟩
  · have hno : ∀ i : ℕ, ((ps[i]?).bind MiraProfile.elevation) = none ∧ ((ps[i]?).bind MiraProfile.azimuth) = none := by
      intro i
      cases hp : ps[i]? with
      | none => exact ⟨rfl, rfl⟩
      | some p => exact hang p (List.mem_of_getElem? hp)
    unfold addAngles at h
    dsimp only at h
    rw [if_neg (by omega)] at h
    split at h
    · cases h
    · cases h
      dsimp only
      refine ⟨fun i => by rw [(hno i).1]; rfl, fun i => by rw [(hno i).2]; rfl, fun i hi => ?_⟩
      constructor
      · intro _ e e' he
        simp only [(hno i).1] at he
        cases he
      · intro _
        unfold stableProfile
        simp [(hno i).1, maskedAnd]

/-- **C108.** The profiles that are written: of the profiles of the expected date, one for each time of day, in
chronological order, with sufficient power and pointing steadily to zenith, and only those. Their pixels are exactly the
ones with reflectivity, velocity and enough signal; all variables have the same pixels, except for the depolarisation
ratio, which is masked if its mean is positive, and left out if the radar does not measure it. -/
theorem C108_profiles (o : MiraOptions α) (raw : List (MiraProfile α)) (out : MiraResult α)
    (hsort : ∀ l, (o.sort l).Perm l) (hang : Spec.PlausibleAngles raw) (h : mira2nc o raw = .ok out) :
    ∃ (hours : ℕ → α) (cand : List (MiraProfile α)),
      initTime (some (raw.length, vec (raw.map MiraProfile.stamp))) = .ok hours ∧
      cand.Pairwise (fun p q => p.hour < q.hour) ∧
      (∀ p ∈ cand, p ∈ timedProfiles hours raw ∧ ∀ d, o.date = some d → Spec.OnDate d p) ∧
      (∀ p ∈ timedProfiles hours raw, (∀ d, o.date = some d → Spec.OnDate d p) → ∃ q ∈ cand, q.hour = p.hour) ∧
      ∃ (strong : List (MiraProfile α)) (kept : List ℕ),
        strong = cand.filter (fun p => decide (Spec.StrongEnough o p)) ∧
        kept.Pairwise (· < ·) ∧ (∀ k, k ∈ kept ↔ k < strong.length ∧ Spec.Steady o strong k) ∧
        List.Forall₂ (fun k p => ∃ r, strong[k]? = some r ∧ Spec.IsOutput o (Spec.LdrTooHigh o strong) r p)
          kept out.profiles ∧
        (out.hasLdr = true ↔ o.pol ≠ "0") ∧ out.snrLimit = Spec.minSnr o ∧
        ∃ p ∈ out.profiles, ∃ g < o.nGates, p.v g ≠ none := by
  unfold mira2nc at h
  simp only [bind, Except.bind, pure, Except.pure] at h
  cases hsel : miraSelect o raw with
  | error e => rw [hsel] at h; cases h
  | ok ps =>
    rw [hsel] at h
    dsimp only at h
    obtain ⟨hours, cand, ht, hinc, hcand, hcov, hps⟩ := miraSelect_ok o raw ps hsort hsel
    refine ⟨hours, cand, ht, hinc, hcand, hcov, cand.filter (fun p => decide (Spec.StrongEnough o p)), ?_⟩
    generalize hst : (cand.filter fun p => decide (Spec.StrongEnough o p)) = strong at hps ⊢
    have hsub : ∀ p ∈ strong, ∃ q ∈ raw, p.elevation = q.elevation ∧ p.azimuth = q.azimuth := by
      intro p hp
      rw [← hst] at hp
      obtain ⟨hmem, -⟩ := hcand p (List.mem_filter.1 hp).1
      unfold timedProfiles at hmem
      obtain ⟨i, hi, rfl⟩ := List.mem_mapIdx.1 hmem
      exact ⟨raw[i], List.getElem_mem hi, rfl, rfl⟩
    have hangS : Spec.PlausibleAngles strong := by
      rcases hang with hang | hang
      · left
        intro p hp
        obtain ⟨q, hq, e1, e2⟩ := hsub p hp
        rw [e1, e2]; exact hang q hq
      · right
        intro p hp
        obtain ⟨q, hq, e1, e2⟩ := hsub p hp
        rw [e1, e2]; exact hang q hq
    subst hps
    rw [miraMask_eq] at h
    dsimp only at h
    have hkeep : ∀ p ∈ strong, (p.masked o (Spec.LdrTooHigh o strong)).elevation = p.elevation ∧
        (p.masked o (Spec.LdrTooHigh o strong)).azimuth = p.azimuth := by
      intro p hp
      rcases hangS with hangS | hangS
      · obtain ⟨e, a, h1, h2, h3, h4, h5, h6⟩ := hangS p hp
        constructor
        · exact maskBadAngle_valid 0 180 p.elevation (fun v hv => by rw [h1] at hv; cases hv; exact ⟨h2, h3⟩) (by norm_num)
        · exact maskBadAngle_valid (-360) 360 p.azimuth (fun v hv => by
            rw [h4] at hv; cases hv; exact ⟨by linarith, h6⟩) (by norm_num)
      · obtain ⟨h1, h2⟩ := hangS p hp
        unfold MiraProfile.masked
        dsimp only
        rw [h1, h2]; exact ⟨rfl, rfl⟩
    have hel : ∀ i : ℕ, ((strong.map (MiraProfile.masked o (Spec.LdrTooHigh o strong)))[i]?).bind MiraProfile.elevation =
        (strong[i]?).bind MiraProfile.elevation := by
      intro i
      rw [List.getElem?_map]
      cases hp : strong[i]? with
      | none => rfl
      | some p => exact (hkeep p (List.mem_of_getElem? hp)).1
    have haz : ∀ i : ℕ, ((strong.map (MiraProfile.masked o (Spec.LdrTooHigh o strong)))[i]?).bind MiraProfile.azimuth =
        (strong[i]?).bind MiraProfile.azimuth := by
      intro i
      rw [List.getElem?_map]
      cases hp : strong[i]? with
      | none => rfl
      | some p => exact (hkeep p (List.mem_of_getElem? hp)).2
    cases hpt : miraPointing o (strong.map (MiraProfile.masked o (Spec.LdrTooHigh o strong))) with
    | error e => rw [hpt] at h; cases h
    | ok final =>
      rw [hpt] at h
      dsimp only at h
      unfold miraPointing at hpt
      simp only [bind, Except.bind, List.length_map, hel, haz] at hpt
      cases hadd : addAngles strong.length (11 / 10) (1 / 1000000) (1 / 1000) o.junk o.zenithOffset o.azimuthOffset
          (fun i => (strong[i]?).bind MiraProfile.elevation) (fun i => (strong[i]?).bind MiraProfile.azimuth) with
      | error e => rw [hadd] at hpt; cases hpt
      | ok angles =>
        rw [hadd] at hpt
        dsimp only at hpt
        obtain ⟨hn, hz, ha, hstable⟩ := pointing_stable o strong hangS angles hadd
        have hfinal := ((keepProfiles_ok _ _).1 hpt).2
        have hf2 := forall₂_zipIdx_filter ((strong.map (MiraProfile.masked o (Spec.LdrTooHigh o strong))).mapIdx
          fun i p => ({ p with elevation := angles.zenith i, azimuth := angles.azimuth i } : MiraProfile α)) angles.stable
        rw [← hfinal, List.length_mapIdx, List.length_map] at hf2
        split at h
        · cases h
        · rename_i hall
          cases h
          refine ⟨(List.range strong.length).filter angles.stable, rfl, ?_, ?_, ?_, by simp, miraSnrLimit_eq o, ?_⟩
          · exact List.pairwise_lt_range.filter _
          · intro k
            rw [List.mem_filter, List.mem_range]
            constructor
            · rintro ⟨hk, hs⟩; exact ⟨hk, (hstable k hk).1 hs⟩
            · rintro ⟨hk, hs⟩; exact ⟨hk, (hstable k hk).2 hs⟩
          · refine hf2.imp ?_
            intro k p hp
            rw [List.getElem?_mapIdx, List.getElem?_map] at hp
            cases hr : strong[k]? with
            | none => rw [hr] at hp; cases hp
            | some r =>
              rw [hr] at hp
              simp only [Option.map_some, Option.some.injEq] at hp
              refine ⟨r, rfl, ?_⟩
              subst hp
              refine ⟨rfl, rfl, rfl, ?_, ?_, fun h => rfl, fun h => rfl, fun h => rfl, fun h => rfl, fun h => ⟨?_, ?_⟩⟩
              · show angles.zenith k = _
                rw [hz k, hr]; rfl
              · show angles.azimuth k = _
                rw [ha k, hr]; rfl
              · intro ht; exact if_pos ht
              · intro ht; exact if_neg ht
          · simp only [List.all_eq_true, List.mem_range, not_forall, Option.isNone_iff_eq_none] at hall
            obtain ⟨p, hp, g, hg, hne⟩ := hall
            exact ⟨p, hp, g, hg, hne⟩

/-- **C108.** If a date is expected, all times of the output are on that date and strictly increasing, and the time in hours
is the time since midnight; only the last record of a file is at 24 instead of 0 if it is at midnight. -/
theorem C108_times (o : MiraOptions α) (raw : List (MiraProfile α)) (out : MiraResult α) (d : ℤ) (hdate : o.date = some d)
    (hsort : ∀ l, (o.sort l).Perm l) (hang : Spec.PlausibleAngles raw) (hsec : ∃ p ∈ raw, 25 < p.stamp)
    (h : mira2nc o raw = .ok out) :
    2 ≤ out.profiles.length ∧ out.profiles.Pairwise (fun p q => p.hour < q.hour) ∧
    ∀ p ∈ out.profiles, Spec.OnDate d p ∧ (∃ r ∈ raw, r.stamp = p.stamp) ∧
      (p.stamp = 86400 * d + 3600 * p.hour ∧ p.hour < 24 ∨
        p.stamp = 86400 * d ∧ p.hour = 24 ∧ (raw.map MiraProfile.stamp).getLast? = some p.stamp) := by
  have htwo : 2 ≤ out.profiles.length := by
    unfold mira2nc at h
    simp only [bind, Except.bind, pure, Except.pure] at h
    cases hsel : miraSelect o raw with
    | error e => rw [hsel] at h; cases h
    | ok ps =>
      rw [hsel] at h
      dsimp only at h
      generalize miraMask o ps = m at h
      cases hpt : miraPointing o m.1 with
      | error e => rw [hpt] at h; cases h
      | ok final =>
        rw [hpt] at h
        dsimp only at h
        split at h
        · cases h
        · cases h
          dsimp only
          unfold miraPointing at hpt
          simp only [bind, Except.bind] at hpt
          cases hadd : addAngles m.1.length (11 / 10) (1 / 1000000) (1 / 1000) o.junk o.zenithOffset o.azimuthOffset
              (fun i => (m.1[i]?).bind MiraProfile.elevation) (fun i => (m.1[i]?).bind MiraProfile.azimuth) with
          | error e => rw [hadd] at hpt; cases hpt
          | ok angles =>
            rw [hadd] at hpt
            dsimp only at hpt
            have hf2 := forall₂_zipIdx_filter (m.1.mapIdx
              fun i p => ({ p with elevation := angles.zenith i, azimuth := angles.azimuth i } : MiraProfile α)) angles.stable
            rw [← ((keepProfiles_ok _ _).1 hpt).2, List.length_mapIdx] at hf2
            rw [← hf2.length_eq]
            unfold addAngles at hadd
            dsimp only at hadd
            split at hadd
            · cases hadd
            · split at hadd
              · cases hadd
              · rename_i hn hrem
                cases hadd
                dsimp only
                have hsum := List.length_eq_length_filter_add (l := List.range m.1.length)
                  (stableProfile m.1.length (11 / 10) (1 / 1000000) (1 / 1000) o.junk
                    (fun i => (Option.map (fun e => o.zenithOffset.elim e fun o => e - o) ((m.1[i]?).bind MiraProfile.elevation)))
                    (fun i => (Option.map (fun a => o.azimuthOffset.elim a fun o => a + o) ((m.1[i]?).bind MiraProfile.azimuth))))
                rw [List.length_range] at hsum
                omega
  obtain ⟨hours, cand, ht, hinc, hcand, -, strong, kept, hst, hkinc, hkept, hf2, -⟩ := C108_profiles o raw out hsort hang h
  refine ⟨htwo, ?_, ?_⟩
  · have hstrong : strong.Pairwise (fun p q => p.hour < q.hour) := by rw [hst]; exact hinc.filter _
    have hget : ∀ i j : ℕ, i < j → ∀ p q, strong[i]? = some p → strong[j]? = some q → p.hour < q.hour := by
      intro i j hij p q hp hq
      obtain ⟨hi, rfl⟩ := List.getElem?_eq_some_iff.1 hp
      obtain ⟨hj, rfl⟩ := List.getElem?_eq_some_iff.1 hq
      exact List.pairwise_iff_getElem.1 hstrong i j hi hj hij
    clear hst hkept htwo h
    generalize out.profiles = ps at hf2
    induction hf2 with
    | nil => exact List.Pairwise.nil
    | cons hkp hrest ih =>
      rename_i k p ks qs
      rw [List.pairwise_cons] at hkinc ⊢
      refine ⟨?_, ih hkinc.2⟩
      intro q hq
      obtain ⟨j, hj, hjq⟩ : ∃ j ∈ ks, ∃ r, strong[j]? = some r ∧ Spec.IsOutput o (Spec.LdrTooHigh o strong) r q := by
        obtain ⟨n, hn, rfl⟩ := List.mem_iff_getElem.1 hq
        have hn' : n < ks.length := by rw [hrest.length_eq]; exact hn
        exact ⟨ks[n], List.getElem_mem hn', List.forall₂_iff_get.1 hrest |>.2 n hn' hn⟩
      obtain ⟨r, hr, hor⟩ := hkp
      obtain ⟨r', hr', hor'⟩ := hjq
      rw [hor.hour, hor'.hour]
      exact hget k j (hkinc.1 j hj) r r' hr hr'
  · intro p hp
    obtain ⟨k, r, hr, hor⟩ : ∃ k r, strong[k]? = some r ∧ Spec.IsOutput o (Spec.LdrTooHigh o strong) r p := by
      obtain ⟨n, hn, rfl⟩ := List.mem_iff_getElem.1 hp
      have hn' : n < kept.length := by rw [hf2.length_eq]; exact hn
      exact ⟨kept[n], List.forall₂_iff_get.1 hf2 |>.2 n hn' hn⟩
    have hmem : r ∈ cand := by
      have := List.mem_of_getElem? hr
      rw [hst] at this
      exact (List.mem_filter.1 this).1
    obtain ⟨htimed, hon⟩ := hcand r hmem
    have hon := hon d hdate
    unfold timedProfiles at htimed
    obtain ⟨i, hi, hri⟩ := List.mem_mapIdx.1 htimed
    have hstamp : r.stamp = raw[i].stamp := by rw [← hri]
    have hhour : r.hour = hours i := by rw [← hri]
    have hvec : vec (raw.map MiraProfile.stamp) i = raw[i].stamp :=
      getElem?_vec _ _ _ _ (List.getElem?_eq_getElem hi)
    have hon' : Spec.OnDate d p := by
      unfold Spec.OnDate; rw [hor.stamp]; exact hon
    refine ⟨hon', ⟨raw[i], List.getElem_mem hi, by rw [hor.stamp, hstamp]⟩, ?_⟩
    have hlen : 0 < raw.length := by omega
    obtain ⟨f, hf, hall⟩ := (C98_time.2.2 raw.length (vec (raw.map MiraProfile.stamp)) hlen).2 (by
      obtain ⟨q, hq, hlt⟩ := hsec
      obtain ⟨j, hj, rfl⟩ := List.mem_iff_getElem.1 hq
      exact ⟨j, hj, by rw [getElem?_vec MiraProfile.stamp _ _ _ (List.getElem?_eq_getElem hj)]; exact hlt⟩)
    rw [ht] at hf
    cases hf
    obtain ⟨⟨m, hm⟩, hrange, -⟩ := hall i hi
    rw [hvec, ← hstamp, ← hor.stamp] at hm
    rw [← hhour, ← hor.hour] at hm hrange
    obtain ⟨-, hlo, hup⟩ := hon'
    rcases hrange with ⟨h0, h24⟩ | ⟨hlast, h24⟩
    · left
      refine ⟨?_, h24⟩
      have hmd : m = d := by
        have a1 : (m : α) < d + 1 := by linarith
        have a2 : (d : α) < m + 1 := by linarith
        have a1' : m < d + 1 := by exact_mod_cast a1
        have a2' : d < m + 1 := by exact_mod_cast a2
        omega
      rw [← hmd]; exact hm
    · right
      have hmd : m + 1 = d := by
        rw [h24] at hm
        have a1 : (m : α) + 1 < d + 1 := by linarith
        have a2 : (d : α) ≤ m + 1 := by linarith
        have a1' : m + 1 < d + 1 := by exact_mod_cast a1
        have a2' : d ≤ m + 1 := by exact_mod_cast a2
        omega
      refine ⟨?_, h24, ?_⟩
      · rw [hm, h24, ← hmd]; push_cast; ring
      · rw [List.getLast?_eq_getElem?, List.length_map, List.getElem?_map, ← hlast, List.getElem?_eq_getElem hi,
          hor.stamp, hstamp]
        rfl

end

/-! ### Examples -/

/-- A profile with one gate that points to zenith. -/
def exampleProfile (stamp tpow zh : ℚ) : MiraProfile ℚ :=
  ⟨stamp, 0, tpow, some 90, some 0, fun _ => some zh, fun _ => some 1, fun _ => some 1, fun _ => some (-20),
    fun _ => some 10, fun _ => 0⟩

/-- Options of a MIRA-35; decibels are left as they are. -/
def exampleOptions (date : Option ℤ) : MiraOptions ℚ :=
  ⟨date, "mira-35", "x", "1", false, none, none, none, true, 1, fun l => l.insertionSort fun p q => p.hour ≤ q.hour, id, 0⟩

/-- Not in order, with a duplicate, a profile of the day before and one with low power. -/
example : (mira2nc (exampleOptions (some 1)) [exampleProfile 93600 20 1, exampleProfile 90000 20 2, exampleProfile 90000 20 3,
      exampleProfile 3600 20 4, exampleProfile 97200 2 5]).toOption.map
    (fun r => r.profiles.map fun p => (p.stamp, p.hour, p.zh 0)) = some [(90000, 1, some 2), (93600, 2, some 1)] := by
  decide +kernel

example (date : Option ℤ) (l : List (MiraProfile ℚ)) : ((exampleOptions date).sort l).Perm l :=
  List.perm_insertionSort _ _

/-- C108, a finding. Without an expected date, profiles of another day are put between those of the first day, and dropped
if there is a profile at the same time of day. -/
theorem C108_two_days :
    (mira2nc (exampleOptions none) [exampleProfile 90000 20 1, exampleProfile 97200 20 2,
      exampleProfile 176400 20 3, exampleProfile 180000 20 4]).toOption.map
    (fun r => r.profiles.map fun p => (p.stamp, p.hour)) = some [(90000, 1), (180000, 2), (97200, 3)] := by
  decide +kernel

/-- C108, a finding. The last record of a file is put at the end of the day if it is at midnight, although it belongs to the
expected day, so that it is after all other profiles. -/
theorem C108_midnight_last :
    (mira2nc (exampleOptions (some 1)) [exampleProfile 90000 20 1, exampleProfile 97200 20 2,
      exampleProfile 86400 20 3]).toOption.map
    (fun r => r.profiles.map fun p => (p.stamp, p.hour)) = some [(90000, 1), (97200, 3), (86400, 24)] := by
  decide +kernel

/-- C108. Only the four known models are accepted. -/
theorem C108_model {α : Type} [Field α] [LinearOrder α] [IsStrictOrderedRing α] [FloorRing α] (o : MiraOptions α)
    (raw : List (MiraProfile α)) (out : MiraResult α) (h : mira2nc o raw = .ok out) :
    o.model ∈ ["mira-35", "mira-35s", "mira-35c", "mira-10"] := by
  by_contra hm
  have hok : miraModelOk o.model = false := by
    simp only [List.mem_cons, List.not_mem_nil, or_false, not_or] at hm
    simp [miraModelOk, hm]
  unfold mira2nc miraSelect at h
  simp only [bind, Except.bind, pure, Except.pure, hok, Bool.not_false, if_true] at h
  cases ht : initTime (some (raw.length, vec (raw.map MiraProfile.stamp))) with
  | error e => rw [ht] at h; cases h
  | ok hours => rw [ht] at h; cases h

/-- C108. Each of the four models is accepted: a file is refused for its model only if it is none of these. -/
theorem C108_models (model : String) : miraModelOk model = true ↔ model ∈ ["mira-35", "mira-35s", "mira-35c", "mira-10"] := by
  simp [miraModelOk, or_assoc]


end Cloudnet
