import Verif.Lidar.Polly
import Verif.Lidar.Vaisala
import Verif.Disdronator.ParsivelProps

/-! Properties of the PollyXT reader (C126). -/

namespace Cloudnet

variable {α : Type}

namespace Spec

/-- The most frequent value of a list; of several, the one that comes first. -/
def MostFrequent (l : List ℤ) (m : ℤ) : Prop :=
  ∃ pre post, l = pre ++ m :: post ∧ (∀ y, l.count y ≤ l.count m) ∧ ∀ y ∈ pre, l.count y < l.count m

/-- The heights of a file add up to a value; masked ones do not count, but one must be valid. -/
def HeightsSum (h : List (Option ℤ)) (m : ℤ) : Prop := (∃ x, some x ∈ h) ∧ m = (h.filterMap id).sum

/-- The times of two files agree to 15 ms (or whatever 0.015 is in the unit of the file). -/
def TimesAgree [Field α] [LinearOrder α] (b : PollyBsc α) (v : PollyVol α) : Prop :=
  List.Forall₂ (fun p q => |p.time - q.1| < 15 / 1000) b.profiles v.profiles

/-- The channel has a signal in one of the files: the valid values do not add up to zero. -/
def ChannelAlive [AddCommMonoid α] (ch : PollyChannel) (files : List (PollyBsc α)) : Prop :=
  ∃ f ∈ files, (f.profiles.map fun p => ((p.beta ch).filterMap id).sum).sum ≠ 0

/-- The rows of a pair of files. -/
def pollyRows (ch : PollyChannel) (b : PollyBsc α) (v : PollyVol α) : List (PollyRow α) :=
  List.zipWith (fun p q => ⟨p.time, p.beta ch, q.2, p.snr ch, b.calibration ch⟩) b.profiles v.profiles

end Spec

theorem find?_split {β : Type} (p : β → Bool) (l : List β) (m : β) (h : l.find? p = some m) :
    ∃ pre post, l = pre ++ m :: post ∧ p m = true ∧ ∀ y ∈ pre, p y = false := by
  rw [List.find?_eq_some_iff_append] at h
  obtain ⟨h1, pre, post, h2, h3⟩ := h
  exact ⟨pre, post, h2, h1, fun y hy => by simpa using h3 y hy⟩

theorem pollyMostCommon_spec (l : List ℤ) :
    (∀ m, pollyMostCommon l = some m ↔ Spec.MostFrequent l m) ∧ (pollyMostCommon l = none ↔ l = []) := by
  have huniq : ∀ m m', Spec.MostFrequent l m → Spec.MostFrequent l m' → m = m' := by
    rintro m m' ⟨pre, post, e, h1, h2⟩ ⟨pre', post', e', h1', h2'⟩
    rcases lt_trichotomy pre.length pre'.length with hlt | heq | hlt
    · have : m ∈ pre' := by
        have hm : l[pre.length]? = some m := by rw [e]; simp
        rw [e', List.getElem?_append_left hlt] at hm
        exact List.mem_of_getElem? hm
      exact absurd (h1 m') (not_le.2 (h2' m this))
    · have hm : l[pre.length]? = some m := by rw [e]; simp
      have hm' : l[pre'.length]? = some m' := by rw [e']; simp
      rw [heq, hm'] at hm
      exact (Option.some.inj hm).symm
    · have : m' ∈ pre := by
        have hm : l[pre'.length]? = some m' := by rw [e']; simp
        rw [e, List.getElem?_append_left hlt] at hm
        exact List.mem_of_getElem? hm
      exact absurd (h1' m) (not_le.2 (h2 m' this))
  have hex : l ≠ [] → ∃ m, pollyMostCommon l = some m := by
    intro hne
    obtain ⟨x, hx⟩ := List.exists_mem_of_ne_nil l hne
    obtain ⟨m, hm, hmax⟩ := Finset.exists_max_image l.toFinset (fun y => l.count y) ⟨x, List.mem_toFinset.2 hx⟩
    rw [List.mem_toFinset] at hm
    replace hmax : ∀ y ∈ l, l.count y ≤ l.count m := fun y hy => hmax y (List.mem_toFinset.2 hy)
    cases hf : pollyMostCommon l with
    | some m => exact ⟨m, rfl⟩
    | none =>
      unfold pollyMostCommon at hf
      rw [List.find?_eq_none] at hf
      exact absurd (by rw [List.all_eq_true]; intro y hy; simpa using hmax y hy) (hf m hm)
  have hspec : ∀ m, pollyMostCommon l = some m → Spec.MostFrequent l m := by
    intro m h
    obtain ⟨pre, post, e, h1, h2⟩ := find?_split _ _ _ h
    rw [List.all_eq_true] at h1
    have h1' : ∀ y, l.count y ≤ l.count m := by
      intro y
      by_cases hy : y ∈ l
      · simpa using h1 y hy
      · rw [List.count_eq_zero_of_not_mem hy]; exact Nat.zero_le _
    refine ⟨pre, post, e, h1', ?_⟩
    intro y hy
    have := h2 y hy
    rw [Bool.eq_false_iff, Ne, List.all_eq_true] at this
    push Not at this
    obtain ⟨z, hz, hzy⟩ := this
    have : l.count y < l.count z := by simpa using hzy
    exact lt_of_lt_of_le this (h1' z)
  refine ⟨fun m => ⟨hspec m, ?_⟩, ?_⟩
  · intro h
    have hne : l ≠ [] := by
      obtain ⟨pre, post, e, -⟩ := h
      rw [e]; simp
    obtain ⟨m', hm'⟩ := hex hne
    rw [hm', huniq m' m (hspec m' hm') h]
  · constructor
    · intro h
      by_contra hne
      obtain ⟨m', hm'⟩ := hex hne
      rw [hm'] at h
      cases h
    · rintro rfl; rfl

theorem pollySum_iff (h : List (Option ℤ)) (m : ℤ) : pollySum h = some m ↔ Spec.HeightsSum h m := by
  unfold pollySum Spec.HeightsSum
  have hs : (h.map fun x => x.getD 0).sum = (h.filterMap id).sum := by
    induction h with
    | nil => rfl
    | cons a h ih => cases a <;> simp [ih]
  split
  · rename_i hall
    rw [List.all_eq_true] at hall
    simp only [reduceCtorEq, false_iff, not_and]
    rintro ⟨x, hx⟩
    simpa using hall _ hx
  · rename_i hall
    rw [List.all_eq_true] at hall
    push Not at hall
    obtain ⟨x, hx, hn⟩ := hall
    cases x with
    | none => simp at hn
    | some x =>
      rw [hs, Option.some.injEq]
      exact ⟨fun e => ⟨⟨x, hx⟩, e.symm⟩, fun e => e.2.symm⟩

/-- **C126.** Files are paired by their place in the sorted lists of names. A pair is used if the (rounded) heights of both files add up to
the sum that is most frequent among all files; pairs keep their order. -/
theorem C126_pairs (bsc : List (PollyBsc α)) (vol : List (PollyVol α)) :
    (∀ m, Spec.MostFrequent (((bsc.map fun f => pollySum f.heights) ++ vol.map fun f => pollySum f.heights).filterMap id) m →
      (pollyPairs bsc vol).Sublist (bsc.zip vol) ∧
      (∀ b v, (b, v) ∈ pollyPairs bsc vol ↔ (b, v) ∈ bsc.zip vol ∧ Spec.HeightsSum b.heights m ∧ Spec.HeightsSum v.heights m)) ∧
    ((∀ f ∈ bsc, ∀ m, ¬ Spec.HeightsSum f.heights m) → (∀ f ∈ vol, ∀ m, ¬ Spec.HeightsSum f.heights m) → pollyPairs bsc vol = []) := by
  refine ⟨?_, ?_⟩
  · intro m hm
    have e := ((pollyMostCommon_spec _).1 m).2 hm
    have e' : pollyPairs bsc vol = (bsc.zip vol).filter fun p => pollySum p.1.heights = some m ∧ pollySum p.2.heights = some m := by
      unfold pollyPairs
      simp only [e]
    rw [e']
    refine ⟨List.filter_sublist, ?_⟩
    intro b v
    rw [List.mem_filter]
    simp only [decide_eq_true_eq, pollySum_iff]
  · intro h1 h2
    have n1 : ∀ h : List (Option ℤ), (∀ m, ¬ Spec.HeightsSum h m) → pollySum h = none := by
      intro h hn
      cases hs : pollySum h with
      | none => rfl
      | some m => exact absurd ((pollySum_iff h m).1 hs) (hn m)
    have : ((bsc.map fun f => pollySum f.heights) ++ vol.map fun f => pollySum f.heights).filterMap id = [] := by
      rw [List.filterMap_eq_nil_iff]
      intro x hx
      rw [List.mem_append, List.mem_map, List.mem_map] at hx
      rcases hx with ⟨f, hf, rfl⟩ | ⟨f, hf, rfl⟩
      · exact n1 _ (h1 f hf)
      · exact n1 _ (h2 f hf)
    unfold pollyPairs
    simp only [this]
    rfl

section
variable [Field α] [LinearOrder α]

theorem pollyWorks_spec (ch : PollyChannel) (files : List (PollyBsc α)) (h : ∀ f ∈ files, f.hasBeta ch = true) :
    (Spec.ChannelAlive ch files → pollyWorks ch files = .ok true) ∧ (¬ Spec.ChannelAlive ch files → pollyWorks ch files = .ok false) := by
  induction files with
  | nil =>
    refine ⟨?_, fun _ => rfl⟩
    rintro ⟨f, hf, -⟩
    simp at hf
  | cons f files ih =>
    obtain ⟨ih1, ih2⟩ := ih fun g hg => h g (by simp [hg])
    have hb := h f (by simp)
    have hz : pollyOnlyZeros ch f = decide ((f.profiles.map fun p => ((p.beta ch).filterMap id).sum).sum = 0) := rfl
    unfold pollyWorks
    simp only [hb, Bool.not_true, Bool.false_eq_true, if_false, hz]
    by_cases hzero : (f.profiles.map fun p => ((p.beta ch).filterMap id).sum).sum = 0
    · simp only [hzero, decide_true, Bool.not_true, Bool.false_eq_true, if_false]
      have : Spec.ChannelAlive ch (f :: files) ↔ Spec.ChannelAlive ch files := by
        unfold Spec.ChannelAlive
        constructor
        · rintro ⟨g, hg, hn⟩
          rcases List.mem_cons.1 hg with rfl | hg
          · exact absurd hzero hn
          · exact ⟨g, hg, hn⟩
        · rintro ⟨g, hg, hn⟩
          exact ⟨g, by simp [hg], hn⟩
      rw [this]
      exact ⟨ih1, ih2⟩
    · simp only [hzero, decide_false, Bool.not_false, if_true]
      exact ⟨fun _ => trivial, fun hn => absurd ⟨f, by simp, hzero⟩ hn⟩

/-- **C126.** The channel used is the first of 1064, 532 and 355 nm that has a signal in one of the files; if none has, the files cannot
be read. -/
theorem C126_channel (files : List (PollyBsc α)) (h : ∀ f ∈ files, ∀ ch, f.hasBeta ch = true) :
    (pollyChannel files = .ok .ch1064 ↔ Spec.ChannelAlive .ch1064 files) ∧
    (pollyChannel files = .ok .ch532 ↔ ¬ Spec.ChannelAlive .ch1064 files ∧ Spec.ChannelAlive .ch532 files) ∧
    (pollyChannel files = .ok .ch355 ↔
      ¬ Spec.ChannelAlive .ch1064 files ∧ ¬ Spec.ChannelAlive .ch532 files ∧ Spec.ChannelAlive .ch355 files) ∧
    (pollyChannel files = .error "ValidTimeStampError" ↔ ∀ ch, ¬ Spec.ChannelAlive ch files) := by
  obtain ⟨a1, a2⟩ := pollyWorks_spec .ch1064 files fun f hf => h f hf _
  obtain ⟨b1, b2⟩ := pollyWorks_spec .ch532 files fun f hf => h f hf _
  obtain ⟨c1, c2⟩ := pollyWorks_spec .ch355 files fun f hf => h f hf _
  have hall : (∀ ch, ¬ Spec.ChannelAlive ch files) ↔
      ¬ Spec.ChannelAlive .ch1064 files ∧ ¬ Spec.ChannelAlive .ch532 files ∧ ¬ Spec.ChannelAlive .ch355 files :=
    ⟨fun h => ⟨h _, h _, h _⟩, fun ⟨x, y, z⟩ ch => by cases ch <;> assumption⟩
  rw [hall]
  unfold pollyChannel
  simp only [pollyChannel.go]
  by_cases ha : Spec.ChannelAlive .ch1064 files
  · simp [a1 ha, ha]
  · by_cases hb : Spec.ChannelAlive .ch532 files
    · simp [a2 ha, b1 hb, ha, hb]
    · by_cases hc : Spec.ChannelAlive .ch355 files
      · simp [a2 ha, b2 hb, c1 hc, ha, hb, hc]
      · simp [a2 ha, b2 hb, c2 hc, ha, hb, hc]

theorem pollyTimesAgree_iff (b : PollyBsc α) (v : PollyVol α) : pollyTimesAgree b v = true ↔ Spec.TimesAgree b v := by
  unfold pollyTimesAgree Spec.TimesAgree
  simp only [decide_eq_true_eq]
  rw [List.forall₂_iff_zip]
  refine and_congr Iff.rfl ?_
  rw [List.all_eq_true]
  constructor
  · intro h a b hab
    simpa using h _ hab
  · intro h p hp
    simpa using h hp

open Classical in
theorem pollyLoop_spec (ch : PollyChannel) (pairs : List (PollyBsc α × PollyVol α)) (rows : List (PollyRow α)) :
    pollyLoop ch pairs = .ok rows ↔
      (∀ p ∈ pairs, Spec.TimesAgree p.1 p.2 → p.1.hasBeta ch = true) ∧
      rows = (pairs.filter fun p => Spec.TimesAgree p.1 p.2 ∧ p.1.hasSnr ch = true).flatMap fun p => Spec.pollyRows ch p.1 p.2 := by
  have hr : ∀ b : PollyBsc α, ∀ v : PollyVol α, pollyRows ch b v = Spec.pollyRows ch b v := by
    intro b v
    unfold pollyRows Spec.pollyRows
    rw [List.zip, List.map_zipWith]
  induction pairs generalizing rows with
  | nil =>
    simp only [pollyLoop, List.not_mem_nil, false_implies, implies_true, List.filter_nil, List.flatMap_nil, true_and]
    constructor
    · intro h; exact (Except.ok.inj h).symm
    · rintro rfl; rfl
  | cons p pairs ih =>
    obtain ⟨b, v⟩ := p
    unfold pollyLoop
    by_cases ht : Spec.TimesAgree b v
    · rw [(pollyTimesAgree_iff b v).2 ht]
      simp only [Bool.not_true, Bool.false_eq_true, if_false]
      cases hb : b.hasBeta ch with
      | false =>
        simp only [Bool.not_false, if_true, reduceCtorEq, false_iff, not_and]
        intro h
        have := h (b, v) (by simp) ht
        rw [hb] at this
        cases this
      | true =>
        simp only [Bool.not_true, Bool.false_eq_true, if_false]
        cases hs : b.hasSnr ch with
        | false =>
          simp only [Bool.not_false, if_true]
          refine (ih rows).trans ?_
          rw [List.filter_cons_of_neg (by simp [hs])]
          simp only [List.mem_cons, forall_eq_or_imp, hb, implies_true, true_and]
        | true =>
          simp only [Bool.not_true, Bool.false_eq_true, if_false]
          rw [except_map_ok, List.filter_cons_of_pos (by simp [hs, ht]), List.flatMap_cons]
          simp only [List.mem_cons, forall_eq_or_imp, hb, implies_true, true_and]
          constructor
          · rintro ⟨r, h1, rfl⟩
            replace h1 := (ih _).1 h1
            exact ⟨h1.1, by rw [hr, h1.2]⟩
          · rintro ⟨h1, rfl⟩
            refine ⟨_, (ih _).2 ⟨h1, rfl⟩, ?_⟩
            rw [hr]
    · have : pollyTimesAgree b v = false := by rw [Bool.eq_false_iff, Ne, pollyTimesAgree_iff]; exact ht
      rw [this]
      simp only [Bool.not_false, if_true]
      refine (ih rows).trans ?_
      rw [List.filter_cons_of_neg (by simp [ht])]
      simp only [List.mem_cons, forall_eq_or_imp, ht, false_implies, true_and]

open Classical in
/-- **C126.** What is read: the pairs with common heights whose times agree and which have a signal-to-noise ratio for the channel, one after
another; in each row the values of one profile of the two files. -/
theorem C126_rows (stored : ℕ) (bsc : List (PollyBsc α)) (vol : List (PollyVol α)) (d : PollyData α) (w : ℕ)
    (h : pollyFetch stored bsc vol = (.ok d, w)) :
    bsc ≠ [] ∧ bsc.length = vol.length ∧ pollyChannel ((pollyPairs bsc vol).map Prod.fst) = .ok d.channel ∧
    d.rows = ((pollyPairs bsc vol).filter fun p => Spec.TimesAgree p.1 p.2 ∧ p.1.hasSnr d.channel = true).flatMap
      fun p => Spec.pollyRows d.channel p.1 p.2 := by
  unfold pollyFetch at h
  split at h
  · simp at h
  · rename_i h1
    split at h
    · simp at h
    · rename_i h2
      dsimp only at h
      split at h
      · simp at h
      · split at h
        · simp at h
        · rename_i ch hch
          rw [Prod.mk.injEq, except_map_ok] at h
          obtain ⟨⟨rows, hr, rfl⟩, -⟩ := h
          exact ⟨h1, not_not.1 h2, hch, ((pollyLoop_spec _ _ _).1 hr).2⟩

/-- **C126.** Files that cannot be read: none, a different number of the two kinds, or none with common heights. -/
theorem C126_errors (stored : ℕ) (bsc : List (PollyBsc α)) (vol : List (PollyVol α)) :
    (bsc = [] → pollyFetch stored bsc vol = (.error "RuntimeError", stored)) ∧
    (bsc ≠ [] → bsc.length ≠ vol.length → pollyFetch stored bsc vol = (.error "InconsistentDataError", stored)) ∧
    (bsc ≠ [] → bsc.length = vol.length → pollyPairs bsc vol = [] → pollyFetch stored bsc vol = (.error "InconsistentDataError", stored)) := by
  refine ⟨?_, ?_, ?_⟩
  · intro h; unfold pollyFetch; rw [if_pos h]
  · intro h1 h2; unfold pollyFetch; rw [if_neg h1, if_pos h2]
  · intro h1 h2 h3
    unfold pollyFetch
    rw [if_neg h1, if_neg (not_not.2 h2), h3]
    rfl

/-- **C126, finding** The times of all files are taken as relative to the epoch of the last pair with common heights, even if that pair was
ignored. -/
theorem C126_epoch (stored : ℕ) (bsc : List (PollyBsc α)) (vol : List (PollyVol α)) (d : PollyData α) (w : ℕ)
    (h : pollyFetch stored bsc vol = (.ok d, w)) :
    ∃ p, (pollyPairs bsc vol).getLast? = some p ∧ d.epoch = p.1.epoch := by
  unfold pollyFetch at h
  split at h
  · simp at h
  · split at h
    · simp at h
    · dsimp only at h
      split at h
      · simp at h
      · rename_i p hp
        split at h
        · simp at h
        · rw [Prod.mk.injEq, except_map_ok] at h
          obtain ⟨⟨rows, hr, rfl⟩, -⟩ := h
          exact ⟨p, hp, rfl⟩

/-- A call chooses a channel: it gets as far as that. -/
def Spec.Chooses (call : List (PollyBsc α) × List (PollyVol α)) (ch : PollyChannel) : Prop :=
  call.1 ≠ [] ∧ call.1.length = call.2.length ∧ pollyPairs call.1 call.2 ≠ [] ∧
    pollyChannel ((pollyPairs call.1 call.2).map Prod.fst) = .ok ch

theorem pollyFetch_wavelength (stored : ℕ) (call : List (PollyBsc α) × List (PollyVol α)) :
    (∀ ch, Spec.Chooses call ch → ch ≠ .ch1064 → (pollyFetch stored call.1 call.2).2 = ch.wavelength) ∧
    ((∀ ch, Spec.Chooses call ch → ch = .ch1064) → (pollyFetch stored call.1 call.2).2 = stored) := by
  obtain ⟨bsc, vol⟩ := call
  unfold pollyFetch Spec.Chooses
  dsimp only
  by_cases h1 : bsc = []
  · rw [if_pos h1]
    exact ⟨fun ch hc => absurd h1 hc.1, fun _ => rfl⟩
  · rw [if_neg h1]
    by_cases h2 : bsc.length = vol.length
    · rw [if_neg (not_not.2 h2)]
      cases hl : (pollyPairs bsc vol).getLast? with
      | none =>
        rw [List.getLast?_eq_none_iff] at hl
        exact ⟨fun ch hc => absurd hl hc.2.2.1, fun _ => rfl⟩
      | some last =>
        have hne : pollyPairs bsc vol ≠ [] := by
          intro e; rw [e] at hl; simp at hl
        cases hch : pollyChannel ((pollyPairs bsc vol).map Prod.fst) with
        | error e => exact ⟨fun ch hc => absurd hc.2.2.2 (by simp), fun _ => rfl⟩
        | ok ch =>
          refine ⟨?_, ?_⟩
          · rintro ch' ⟨-, -, -, e⟩ hn
            obtain rfl := Except.ok.inj e
            simp [pollyWavelength, hn]
          · intro h
            have := h ch ⟨h1, h2, hne, rfl⟩
            simp [pollyWavelength, this]
    · rw [if_pos h2]
      exact ⟨fun ch hc => absurd hc.2.1 h2, fun _ => rfl⟩

/-- Calls of `pollyxt2nc` one after another in one process; what is left of the module is the wavelength stored in it. -/
def pollyProcess : ℕ → List (List (PollyBsc α) × List (PollyVol α)) → List (Except String (PollyData α) × ℕ)
  | _, [] => []
  | stored, call :: calls => pollyFetch stored call.1 call.2 :: pollyProcess (pollyFetch stored call.1 call.2).2 calls

theorem pollyProcess_get (stored : ℕ) (calls : List (List (PollyBsc α) × List (PollyVol α))) (k : ℕ) (r : Except String (PollyData α) × ℕ)
    (h : (pollyProcess stored calls)[k]? = some r) :
    r.2 = (calls.take (k + 1)).foldl (fun s call => (pollyFetch s call.1 call.2).2) stored := by
  induction calls generalizing stored k with
  | nil => simp [pollyProcess] at h
  | cons call calls ih =>
    cases k with
    | zero =>
      simp only [pollyProcess, List.getElem?_cons_zero, Option.some.injEq] at h
      rw [← h]
      simp
    | succ k =>
      simp only [pollyProcess, List.getElem?_cons_succ] at h
      rw [ih _ _ h]
      simp

/-- **C126.** In a new process the wavelength written is that of the channel used. -/
theorem C126_wavelength_new (bsc : List (PollyBsc α)) (vol : List (PollyVol α)) (d : PollyData α) (w : ℕ)
    (h : pollyFetch 1064 bsc vol = (.ok d, w)) : w = d.channel.wavelength := by
  obtain ⟨h1, h2, h3, -⟩ := C126_rows _ _ _ _ _ h
  have hne : pollyPairs bsc vol ≠ [] := by
    obtain ⟨p, hp, -⟩ := C126_epoch _ _ _ _ _ h
    intro e; rw [e] at hp; simp at hp
  have hch : Spec.Chooses (bsc, vol) d.channel := ⟨h1, h2, hne, h3⟩
  have hw := pollyFetch_wavelength 1064 (bsc, vol)
  rw [h] at hw
  by_cases hc : d.channel = .ch1064
  · rw [hc]
    apply hw.2
    rintro ch ⟨-, -, -, e⟩
    rw [h3] at e
    rw [← Except.ok.inj e, hc]
  · exact hw.1 _ hch hc

/-- **C126, finding** In one process, the wavelength written depends on earlier calls: it is that of the last call so far that chose another
channel than 1064 nm, and 1064 nm if there was none. A call that uses 1064 nm after one that used 532 nm writes 532 nm. -/
theorem C126_wavelength_history (calls : List (List (PollyBsc α) × List (PollyVol α))) (k : ℕ) (r : Except String (PollyData α) × ℕ)
    (h : (pollyProcess 1064 calls)[k]? = some r) :
    (∀ w, Spec.Last (fun call w => ∃ ch, Spec.Chooses call ch ∧ ch ≠ .ch1064 ∧ w = ch.wavelength) (calls.take (k + 1)) w → r.2 = w) ∧
    ((∀ call ∈ calls.take (k + 1), ∀ ch, Spec.Chooses call ch → ch = .ch1064) → r.2 = 1064) := by
  rw [pollyProcess_get _ _ _ _ h]
  obtain ⟨a, b⟩ := last_fold (fun s : ℕ => some s) (fun s (call : List (PollyBsc α) × List (PollyVol α)) => (pollyFetch s call.1 call.2).2)
    (fun call w => ∃ ch, Spec.Chooses call ch ∧ ch ≠ .ch1064 ∧ w = ch.wavelength)
    (by rintro s q x ⟨ch, h1, h2, rfl⟩; rw [(pollyFetch_wavelength s q).1 ch h1 h2])
    (by
      intro s q hq
      rw [(pollyFetch_wavelength s q).2]
      intro ch hc
      by_contra hn
      exact hq _ ⟨ch, hc, hn, rfl⟩) (calls.take (k + 1)) 1064
  refine ⟨fun w hw => Option.some.inj (a w hw), ?_⟩
  intro hall
  refine Option.some.inj (b ?_)
  rintro w ⟨pre, q, post, e, ⟨ch, h1, h2, -⟩, -⟩
  exact h2 (hall q (by rw [e]; simp) ch h1)

/-- **C126.** Backscatter is kept where the signal-to-noise ratio is valid and not below the limit, and the value is valid and not negative;
depolarisation likewise, between 0 and 1. -/
theorem C126_screening (limit : α) (snr raw : Option α) (v : α) :
    (pollyBeta limit snr raw = some v ↔ (∃ s, snr = some s ∧ limit ≤ s) ∧ raw = some v ∧ 0 ≤ v) ∧
    (pollyDepol limit snr raw = some v ↔ (∃ s, snr = some s ∧ limit ≤ s) ∧ raw = some v ∧ 0 ≤ v ∧ v ≤ 1) := by
  cases snr with
  | none => simp [pollyBeta, pollyDepol]
  | some s =>
    by_cases hs : s < limit
    · have : ¬ limit ≤ s := not_le.2 hs
      simp [pollyBeta, pollyDepol, hs]
    · have hs' : limit ≤ s := not_lt.1 hs
      cases raw with
      | none => simp [pollyBeta, pollyDepol, hs]
      | some r =>
        simp only [pollyBeta, pollyDepol, hs, if_false, Option.bind_some, Option.some.injEq, exists_eq_left', hs', true_and]
        refine ⟨?_, ?_⟩
        · by_cases hr : r < 0
          · rw [if_pos hr]
            simp only [reduceCtorEq, false_iff, not_and, not_le]
            rintro rfl; exact hr
          · rw [if_neg hr, Option.some.injEq]
            exact ⟨fun e => ⟨e, e ▸ not_lt.1 hr⟩, fun e => e.1⟩
        · by_cases h1 : 1 < r
          · rw [if_pos h1]
            simp only [Option.bind_none, reduceCtorEq, false_iff, not_and, not_le]
            rintro rfl _; exact h1
          · rw [if_neg h1, Option.bind_some]
            by_cases hr : r < 0
            · rw [if_pos hr]
              simp only [reduceCtorEq, false_iff, not_and, not_le]
              rintro rfl h0; exact absurd hr (not_lt.2 h0)
            · rw [if_neg hr, Option.some.injEq]
              exact ⟨fun e => ⟨e, e ▸ not_lt.1 hr, e ▸ not_lt.1 h1⟩, fun e => e.1⟩

/-- **C126, finding** The zenith angle is 5 degrees whatever `site_meta` says, although `zenith_angle` is a documented key of it. -/
theorem C126_zenith (siteMeta : List (String × α)) : pollyZenithOf siteMeta = 5 := rfl

end

/-- **C126.** Profiles without any valid raw backscatter are dropped, the others are kept in order, and so are the heights unless there are
as many as profiles. Finding: in that case heights are dropped too. -/
theorem C126_masked_profiles (range : List α) (rows : List (PollyRow α)) :
    (pollyScreen range rows).2 = rows.filter (fun r => r.beta.any Option.isSome) ∧
    (range.length ≠ rows.length → (pollyScreen range rows).1 = range) ∧
    (range.length = rows.length → (pollyScreen range rows).1.length = (pollyScreen range rows).2.length) := by
  have hf : ∀ rows : List (PollyRow α), pickRows ((List.range rows.length).filter fun i =>
      decide ((rows[i]?.map fun r => r.beta.any Option.isSome) = some true)) rows = rows.filter fun r => r.beta.any Option.isSome := by
    intro rows
    unfold pickRows
    induction rows using List.reverseRecOn with
    | nil => simp
    | append_singleton l a ih =>
      rw [List.length_append, List.filter_append, ← ih]
      simp only [List.length_cons, List.length_nil, zero_add]
      rw [List.range_succ, List.filter_append, List.filterMap_append]
      congr 1
      · have e1 : ((List.range l.length).filter fun i =>
            decide (((l ++ [a])[i]?.map fun r => r.beta.any Option.isSome) = some true)) =
            (List.range l.length).filter fun i => decide ((l[i]?.map fun r => r.beta.any Option.isSome) = some true) := by
          refine List.filter_congr ?_
          intro i hi
          rw [List.getElem?_append_left (List.mem_range.1 hi)]
        rw [e1]
        refine List.filterMap_congr ?_
        intro i hi
        rw [List.getElem?_append_left (List.mem_range.1 (List.mem_filter.1 hi).1)]
      · have : (l ++ [a])[l.length]? = some a := by simp
        cases hd : a.beta.any Option.isSome with
        | true => simp only [List.filter_cons, List.filter_nil, this, Option.map_some, hd, decide_true, if_true, List.filterMap_cons,
            List.filterMap_nil]
        | false => simp only [List.filter_cons, List.filter_nil, this, Option.map_some, hd, Option.some.injEq, Bool.false_eq_true,
            decide_false, if_false, List.filterMap_nil]
  refine ⟨hf rows, ?_, ?_⟩
  · intro h
    simp [pollyScreen, h]
  · intro h
    unfold pollyScreen
    simp only [h, if_true]
    have lt : ∀ i ∈ (List.range rows.length).filter fun i =>
        decide ((rows[i]?.map fun r => r.beta.any Option.isSome) = some true), i < rows.length := fun i hi =>
      List.mem_range.1 (List.mem_filter.1 hi).1
    rw [pickRows_length _ _ lt, pickRows_length _ _ (by rw [h]; exact lt)]

/-! Two days of files: on the first the 1064 nm channel is dead. -/

def pollyDemoBsc (epoch : ℤ) (t0 b1064 b532 : ℚ) : PollyBsc ℚ where
  heights := [some 10, some 20, none]
  epoch := epoch
  hasBeta := fun _ => true
  hasSnr := fun _ => true
  calibration := fun _ => 7
  profiles := [⟨t0, fun ch => match ch with
    | .ch1064 => [some b1064, none, none]
    | .ch532 => [some b532, some 1, none]
    | .ch355 => [none, none, none], fun _ => [some 3, some 1, none]⟩]

def pollyDemoVol (t0 : ℚ) : PollyVol ℚ := ⟨[some 10, some 20, none], [(t0, [some (1 / 10), some 2, none])]⟩

example : (pollyFetch 1064 [pollyDemoBsc 0 100 0 4] [pollyDemoVol 100]).1.toOption =
    some ⟨.ch532, 0, [⟨100, [some 4, some 1, none], [some (1 / 10), some 2, none], [some 3, some 1, none], 7⟩]⟩ := by decide +kernel

example : (pollyProcess 1064 [([pollyDemoBsc 0 100 0 4], [pollyDemoVol 100]), ([pollyDemoBsc 0 100 5 4], [pollyDemoVol 100])]).map
    (fun r => (r.1.toOption.map PollyData.channel, r.2)) = [(some .ch532, 532), (some .ch1064, 532)] := by decide +kernel

/-- The finding about epochs: the second file counts from another day, and the first one's times are taken as relative to it. -/
example : (pollyFetch 1064 [pollyDemoBsc 0 100 5 4, pollyDemoBsc 1 200 5 4] [pollyDemoVol 100, pollyDemoVol 200]).1.toOption.map
    (fun d => (d.epoch, d.rows.map PollyRow.time)) = some (1, [100, 200]) := by decide +kernel

/-- The second pair has different times and is ignored, but its epoch is used. -/
example : (pollyFetch 1064 [pollyDemoBsc 0 100 5 4, pollyDemoBsc 1 200 5 4] [pollyDemoVol 100, pollyDemoVol 201]).1.toOption.map
    (fun d => (d.epoch, d.rows.map PollyRow.time)) = some (1, [100]) := by decide +kernel

example : Spec.MostFrequent [30, 20, 20, 30] 30 := ((pollyMostCommon_spec _).1 _).1 (by decide)

/-- **C126.** The key that would give the zenith angle. -/
theorem C126_zenith_key {α : Type} [Field α] (z : α) (rest : List (String × α)) :
    pollyZenith (("zenith_angle", z) :: rest) = z ∧ ∀ key, key ≠ "zenith_angle" → pollyZenith ((key, z) :: rest) = pollyZenith rest := by
  refine ⟨by simp [pollyZenith, List.lookup], fun key hk => ?_⟩
  have : ("zenith_angle" == key) = false := by simpa using fun h => hk h.symm
  simp [pollyZenith, List.lookup, this]


end Cloudnet
