import Mathlib.Tactic
import Verif.MwrTools.Model
import Verif.Save.Props

/-!
Property C133: HATPRO Level 1c and Level 2 files.
-/

namespace Cloudnet

variable {β : Type} {α : Type} [Field α] [LinearOrder α] [IsStrictOrderedRing α]

/-! ## Replacement of text -/

theorem replaceFrom_absent (old new s : List Char) (h : ¬ old <:+: s) : replaceFrom old new 0 s = s := by
  induction s with
  | nil => rfl
  | cons c cs ih =>
    unfold replaceFrom
    rw [if_neg, ih (fun hi => h (hi.trans (List.suffix_cons c cs).isInfix))]
    intro hp
    rw [List.isPrefixOf_iff_prefix] at hp
    exact h hp.isInfix

theorem replaceFrom_skip (old new a b : List Char) : replaceFrom old new a.length (a ++ b) = replaceFrom old new 0 b := by
  induction a with
  | nil => rfl
  | cons c cs ih => exact ih

/-- A text that occurs once is replaced there. -/
theorem replaceFrom_once (old new a b : List Char) (hne : old ≠ []) (ha : ∀ i < a.length, ¬ old <+: (a ++ old).drop i)
    (hb : ¬ old <:+: b) : replaceFrom old new 0 (a ++ (old ++ b)) = a ++ (new ++ b) := by
  induction a with
  | nil =>
    obtain ⟨c, cs, rfl⟩ := List.exists_cons_of_ne_nil hne
    rw [List.nil_append, List.nil_append, List.cons_append]
    unfold replaceFrom
    rw [if_pos (by rw [List.isPrefixOf_iff_prefix]; exact ⟨b, rfl⟩)]
    rw [show (c :: cs).length - 1 = cs.length from rfl, replaceFrom_skip, replaceFrom_absent _ _ _ hb]
  | cons c cs ih =>
    rw [List.cons_append]
    unfold replaceFrom
    rw [if_neg, List.cons_append, ih]
    · intro i hi
      have := ha (i + 1) (by simpa using hi)
      simpa using this
    · intro hp
      rw [List.isPrefixOf_iff_prefix] at hp
      have h0 := ha 0 (by simp)
      apply h0
      rw [List.drop_zero]
      have h1 : (c :: cs) ++ old <+: c :: (cs ++ (old ++ b)) := ⟨b, by simp⟩
      exact List.prefix_of_prefix_length_le hp h1 (by simp; omega)

/-! ## Level 1c -/

namespace Spec

/-- The flag is known and not zero. -/
def Flagged (flag : Option ℤ) : Prop := ∃ v, flag = some v ∧ v ≠ 0

/-- At most nine tenths of the flags are set. -/
def MostlyGood (flags : List (Option ℤ)) : Prop :=
  ∃ n, n = Nat.card {i : Fin flags.length // Flagged (flags.get i)} ∧ (n : ℚ) ≤ 9 / 10 * flags.length

/-- Increasing times that are all on this day, one at least. -/
def OnDay [FloorRing α] (day : ℤ) (times : List α) : Prop :=
  times ≠ [] ∧ times.Pairwise (· < ·) ∧ ∀ t ∈ times, (day : α) * 86400 ≤ t ∧ t < (day + 1) * 86400

end Spec

theorem countP_card {A : Type} (p : A → Bool) (l : List A) : l.countP p = Nat.card {i : Fin l.length // p (l.get i) = true} := by
  rw [Nat.card_eq_fintype_card, Fintype.card_subtype, List.countP_eq_length_filter]
  have : l.filter p = ((List.finRange l.length).filter fun i => p (l.get i)).map l.get := by
    conv_lhs => rw [← List.map_get_finRange l, List.filter_map]
    rfl
  rw [this, List.length_map]
  rw [← List.toFinset_card_of_nodup ((List.nodup_finRange _).filter _)]
  congr 1
  ext i
  simp

theorem zip_tail_all (times : List α) :
    ((times.zip times.tail).all fun p => decide (0 < p.2 - p.1)) = true ↔ times.Pairwise (· < ·) := by
  rw [← List.isChain_iff_pairwise]
  induction times with
  | nil => simp
  | cons a l ih =>
    cases l with
    | nil => simp
    | cons b l =>
      rw [List.isChain_cons_cons]
      simp only [List.tail_cons] at ih ⊢
      rw [List.zip_cons_cons, List.all_cons, Bool.and_eq_true, ih]
      simp

theorem dedup_singleton {A : Type} [DecidableEq A] (l : List A) (x : A) : l.dedup = [x] ↔ l ≠ [] ∧ ∀ y ∈ l, y = x := by
  constructor
  · intro h
    have hm : ∀ y, y ∈ l ↔ y = x := fun y => by rw [← List.mem_dedup, h, List.mem_singleton]
    refine ⟨?_, fun y hy => (hm y).1 hy⟩
    rintro rfl
    simp at h
  · rintro ⟨hne, h⟩
    have hx : x ∈ l := by
      obtain ⟨y, hy⟩ := List.exists_mem_of_ne_nil l hne
      exact h y hy ▸ hy
    rw [← List.perm_singleton, List.perm_ext_iff_of_nodup (List.nodup_dedup l) (by simp)]
    intro y
    rw [List.mem_dedup, List.mem_singleton]
    exact ⟨h y, fun e => e ▸ hx⟩

theorem day_iff [FloorRing α] (day : ℤ) (t : α) : ⌊t / 86400⌋ = day ↔ (day : α) * 86400 ≤ t ∧ t < (day + 1) * 86400 := by
  rw [Int.floor_eq_iff, le_div_iff₀ (by norm_num), div_lt_iff₀ (by norm_num)]

/-- **C133.** When data are accepted by `hatpro2l1c`: at most nine tenths of the flags are set and, if a date is given, the times are
increasing and all of that date. -/
theorem C133_accepted [FloorRing α] (flags : List (Option ℤ)) (date : Option ℤ) (times : List α) :
    l1cCheck flags date times = .ok () ↔ Spec.MostlyGood flags ∧ ∀ day, date = some day → Spec.OnDay day times := by
  have hflag : (90 * flags.length < 100 * flags.countP fun x => x.any (· != 0)) ↔
      ¬ Spec.MostlyGood flags := by
    have hcard : Nat.card {i : Fin flags.length // Spec.Flagged (flags.get i)} =
        flags.countP fun x => x.any (· != 0) := by
      rw [countP_card]
      have : ∀ i : Fin flags.length, Spec.Flagged (flags.get i) ↔
          (flags.get i).any (· != 0) = true := by
        intro i
        unfold Spec.Flagged
        cases flags.get i <;> simp
      simp only [this]
    unfold Spec.MostlyGood
    rw [hcard]
    simp only [exists_eq_left, not_le]
    rw [← Nat.cast_lt (α := ℚ)]
    push_cast
    constructor <;> intro h <;> linarith
  unfold l1cCheck
  dsimp only
  by_cases hg : Spec.MostlyGood flags
  · rw [if_neg (fun h => hflag.1 h hg)]
    cases date with
    | none => simp [hg]
    | some d =>
      dsimp only
      by_cases hinc : times.Pairwise (· < ·)
      · rw [(zip_tail_all times).2 hinc, if_neg (by simp)]
        have hd : ∀ x, (times.map fun t => ⌊t / 86400⌋).dedup = [x] ↔ times ≠ [] ∧ ∀ t ∈ times, ⌊t / 86400⌋ = x := by
          intro x
          rw [dedup_singleton]
          simp
        constructor
        · intro h
          refine ⟨hg, fun day hday => ?_⟩
          cases hday
          split at h
          · next x hx =>
            split at h
            · cases h
            · next hdx =>
              have hdx : d = x := by simpa using hdx
              subst hdx
              obtain ⟨h1, h2⟩ := (hd _).1 hx
              exact ⟨h1, hinc, fun t ht => (day_iff _ _).1 (h2 t ht)⟩
          · cases h
        · rintro ⟨_, h⟩
          obtain ⟨h1, _, h3⟩ := h d rfl
          have := (hd d).2 ⟨h1, fun t ht => (day_iff _ _).2 (h3 t ht)⟩
          rw [this]
          simp
      · have : ((times.zip times.tail).all fun p => decide (0 < p.2 - p.1)) = false := by
          rw [← Bool.not_eq_true, zip_tail_all]
          exact hinc
        rw [if_pos this]
        refine iff_of_false (by simp) ?_
        rintro ⟨_, h⟩
        exact hinc (h d rfl).2.1
  · rw [if_pos (hflag.2 hg)]
    exact iff_of_false (by simp) fun h => hg h.1

/-- **C133.** A finding: flags that are all missing are accepted. -/
theorem C133_missing_flags [FloorRing α] (n : ℕ) (times : List α) :
    l1cCheck (List.replicate n none) none times = .ok () := by
  rw [C133_accepted]
  refine ⟨⟨0, ?_, by positivity⟩, by simp⟩
  symm
  rw [Nat.card_eq_zero]
  left
  constructor
  rintro ⟨i, v, hv, _⟩
  simp at hv

/-- **C133.** The times of accepted data are hours of the day; a single record at midnight gets the hour 24. -/
theorem C133_times [FloorRing α] (flags : List (Option ℤ)) (day : ℤ) (times : List α)
    (h : l1cCheck flags (some day) times = .ok ()) :
    ∃ hours, l1cHours times = .ok hours ∧
      (times ≠ [(day : α) * 86400] → List.Forall₂ (fun t hour : α => hour = (t - day * 86400) / 3600 ∧ 0 ≤ hour ∧ hour < 24) times hours) ∧
      (times = [(day : α) * 86400] → hours = [24]) := by
  obtain ⟨hne, hinc, hday⟩ := ((C133_accepted _ _ _).1 h).2 day rfl
  have hpos : 0 < times.length := List.length_pos_of_ne_nil hne
  have hmod : ∀ t ∈ times, npMod t 86400 / 3600 = (t - day * 86400) / 3600 := by
    intro t ht
    unfold npMod
    rw [(day_iff day t).2 (hday t ht)]
    ring
  refine ⟨_, by unfold l1cHours seconds2hours; rw [if_neg (by omega)]; rfl, fun hnot => ?_, fun heq => ?_⟩
  · rw [List.forall₂_iff_get]
    refine ⟨by simp, fun i hi hi' => ?_⟩
    have hti : times.getD i 0 = times[i] := by
      rw [List.getD_eq_getElem?_getD, List.getElem?_eq_getElem hi]
      rfl
    have hti' : times.getD (times.length - 1) 0 = times[times.length - 1] := by
      rw [List.getD_eq_getElem?_getD, List.getElem?_eq_getElem (by omega)]
      rfl
    have hmem : times[i] ∈ times := List.getElem_mem hi
    obtain ⟨h1, h2⟩ := hday _ hmem
    simp only [List.get_eq_getElem, List.getElem_map, List.getElem_range]
    rw [if_neg, hti, hmod _ hmem]
    · refine ⟨rfl, ?_, ?_⟩
      · apply div_nonneg _ (by norm_num)
        linarith
      · rw [div_lt_iff₀ (by norm_num)]
        linarith
    · rintro ⟨hlast, hz⟩
      rw [hti', hmod _ (List.getElem_mem _)] at hz
      have hz' : times[times.length - 1] = day * 86400 := by
        rcases div_eq_zero_iff.1 hz with hz | hz
        · linarith
        · norm_num at hz
      apply hnot
      have hone : times.length = 1 := by
        by_contra hlen
        have hlt : 0 < times.length - 1 := by omega
        have h3 := List.pairwise_iff_getElem.1 hinc 0 (times.length - 1) hpos (by omega) hlt
        have h4 := (hday _ (List.getElem_mem hpos)).1
        rw [hz'] at h3
        exact absurd h4 (not_le.2 h3)
      obtain ⟨x, rfl⟩ := List.length_eq_one_iff.1 hone
      simp only [List.length_singleton, Nat.sub_self, List.getElem_cons_zero] at hz'
      rw [hz']
  · subst heq
    simp only [List.length_singleton, List.range_one, List.map_cons, List.map_nil]
    have := hmod ((day : α) * 86400) (by simp)
    simp [this]

/-- **C133.** Zenith angles. -/
theorem C133_zenith (data : List (String × List (Option α))) (k : String) :
    (l1cZenith data).lookup k =
      if k = "zenith_angle" then ((data.lookup "elevation_angle").map fun e => e.map fun x => x.map (90 - ·)).or (data.lookup k)
      else if k = "ir_zenith_angle" then
        ((data.lookup "ir_elevation_angle").map fun e => e.map fun x => x.map (90 - ·)).or (data.lookup k)
      else data.lookup k := by
  have r1 : textReplace "elevation_angle" "elevation" "zenith" = "zenith_angle" := by decide +kernel
  have r2 : textReplace "ir_elevation_angle" "elevation" "zenith" = "ir_zenith_angle" := by decide +kernel
  unfold l1cZenith
  simp only [List.foldl_cons, List.foldl_nil, r1, r2]
  cases h1 : data.lookup "elevation_angle" with
  | none =>
    dsimp only
    cases h2 : data.lookup "ir_elevation_angle" with
    | none => simp
    | some e =>
      dsimp only
      rw [lookup_dictSet]
      by_cases k1 : k = "zenith_angle"
      · subst k1; simp
      · by_cases k2 : k = "ir_zenith_angle" <;> simp [k1, k2]
  | some e =>
    dsimp only
    rw [lookup_dictSet, if_neg (by decide)]
    cases h2 : data.lookup "ir_elevation_angle" with
    | none =>
      dsimp only
      rw [lookup_dictSet]
      by_cases k1 : k = "zenith_angle"
      · subst k1; simp
      · by_cases k2 : k = "ir_zenith_angle" <;> simp [k1, k2]
    | some e' =>
      dsimp only
      rw [lookup_dictSet, lookup_dictSet]
      by_cases k1 : k = "zenith_angle"
      · subst k1; simp
      · by_cases k2 : k = "ir_zenith_angle" <;> simp [k1, k2]

namespace Spec

/-- The radiometers of the manufacturer RPG. -/
def rpgRadiometer (model : String) : InstrumentInfo := ⟨"mwr", "microwave radiometer", some model, some "RPG-Radiometer Physics"⟩

end Spec

/-- **C133.** When a Level 1c file is written. -/
theorem C133_l1c_iff [FloorRing α] (fits : List ℕ → List ℕ → Bool) (version stamp mwrpyVersion : String) (flags : List (Option ℤ))
    (date : Option ℤ) (times : List α) (o : L1bObject β) (links : Option (List String)) (lidar : Option (DiskFile β)) (uuid : String)
    (disk : Option (DiskFile β)) :
    (hatpro2l1c fits version stamp mwrpyVersion flags date times o links lidar uuid disk).2 = none ↔
      Spec.MostlyGood flags ∧ (∀ day, date = some day → Spec.OnDay day times) ∧
      (Spec.DimensionsKnown o ∧ Spec.Writable fits (Spec.dimension o) (o.data.map Prod.snd) ∧ o.siteName ≠ none) ∧
      links ≠ none ∧ ∀ l, lidar = some l → l.globals.lookup "source" ≠ none ∧ l.globals.lookup "history" ≠ none := by
  unfold hatpro2l1c
  cases hc : l1cCheck flags date times with
  | error e =>
    refine iff_of_false (by simp) ?_
    rintro ⟨h1, h2, _⟩
    have := (C133_accepted flags date times).2 ⟨h1, h2⟩
    rw [hc] at this
    cases this
  | ok u =>
    dsimp only
    obtain ⟨c1, c2⟩ := (C133_accepted flags date times).1 hc
    have hs := C129_saved_iff fits version stamp o uuid disk
    cases hsave : saveLevel1b fits version stamp o uuid disk with
    | mk f e =>
      rw [hsave] at hs
      cases e with
      | some e =>
        refine iff_of_false (by cases f <;> simp) ?_
        rintro ⟨_, _, h3, _⟩
        exact absurd (hs.2 h3) (by simp)
      | none =>
        obtain ⟨f', location, hf, _, _, _, _, _, _, _, _, _, _, _, hh, ht, hsrc, _⟩ := C129_file fits version stamp o uuid disk f hsave
        subst hf
        dsimp only
        have h3 := hs.1 rfl
        unfold l1cGlobals
        dsimp only
        rw [set_lookup, if_neg (by decide), ht]
        dsimp only
        cases links with
        | none => simp
        | some links =>
          simp only [set_lookup, String.reduceEq, if_false, hh, hsrc, if_true]
          cases lidar with
          | none => exact iff_of_true rfl ⟨c1, c2, h3, by simp, fun l hl => by cases hl⟩
          | some l =>
            dsimp only
            cases hls : l.globals.lookup "source" with
            | none => exact iff_of_false (by simp) fun h => (h.2.2.2.2 l rfl).1 hls
            | some a =>
              cases hlh : l.globals.lookup "history" with
              | none => exact iff_of_false (by simp) fun h => (h.2.2.2.2 l rfl).2 hlh
              | some b =>
                refine iff_of_true rfl ⟨c1, c2, h3, by simp, fun l' hl' => ?_⟩
                cases hl'
                rw [hls, hlh]
                simp

/-- **C133.** The global attributes of a Level 1c file: those of the Level 1b file with another type, title and history, the version of
mwrpy, the links of the coefficients, and source and history of the lidar file if there is one. No instrument identifier. -/
theorem C133_l1c_file [FloorRing α] (fits : List ℕ → List ℕ → Bool) (version stamp mwrpyVersion : String) (flags : List (Option ℤ))
    (date : Option ℤ) (times : List α) (o : L1bObject β) (links : List String) (lidar : Option (DiskFile β)) (uuid : String)
    (disk out : Option (DiskFile β)) (model : String) (hmodel : model ∈ ["HATPRO", "LHATPRO", "LHUMPRO-U90"])
    (ho : o.instrument = Spec.rpgRadiometer model) (hstamp : 'm' ∉ stamp.toList)
    (h : hatpro2l1c fits version stamp mwrpyVersion flags date times o (some links) lidar uuid disk = (out, none)) :
    ∃ f location, out = some f ∧ o.siteName = some location ∧
      List.Forall₂ (Spec.WrittenAs fits (Spec.dimension o)) (o.data.map Prod.snd) f.vars ∧
      f.globals.lookup "cloudnet_file_type" = some "mwr-l1c" ∧ f.globals.lookup "file_uuid" = some uuid ∧
      f.globals.lookup "location" = some location ∧
      f.globals.lookup "year" = some (toString o.year) ∧ f.globals.lookup "month" = some (zfill2 o.month) ∧
      f.globals.lookup "day" = some (zfill2 o.day) ∧
      (¬ "radiometer".toList <:+: location.toList →
        f.globals.lookup "title" = some (model ++ " microwave radiometer Level 1c from " ++ location)) ∧
      f.globals.lookup "mwrpy_version" = some mwrpyVersion ∧
      f.globals.lookup "mwrpy_coefficients" = some (String.ofList (joinWith ", ".toList (links.map String.toList))) ∧
      (lidar = none → f.globals.lookup "source" = some ("RPG-Radiometer Physics " ++ model) ∧
        f.globals.lookup "history" = some (stamp ++ " - mwr-l1c file created")) ∧
      (∀ l, lidar = some l → ∃ s t, l.globals.lookup "source" = some s ∧ l.globals.lookup "history" = some t ∧
        f.globals.lookup "source" = some ("RPG-Radiometer Physics " ++ model ++ "\n" ++ s) ∧
        f.globals.lookup "history" = some (stamp ++ " - mwr-l1c file created\n" ++ t)) ∧
      f.globals.lookup "instrument_pid" = none := by
  unfold hatpro2l1c at h
  cases hc : l1cCheck flags date times with
  | error e => rw [hc] at h; simp at h
  | ok u =>
    rw [hc] at h
    dsimp only at h
    cases hsave : saveLevel1b fits version stamp o uuid disk with
    | mk f0 e =>
      rw [hsave] at h
      cases e with
      | some e => cases f0 <;> simp at h
      | none =>
        obtain ⟨f, location, hf, hl, _, hv, _, hu, _, _, hloc, hy, hm, hd, hh, ht, hsrc, _, _, hno, _⟩ :=
          C129_file fits version stamp o uuid disk f0 hsave
        subst hf
        dsimp only at h
        have hpid := hno "instrument_pid" (by decide) (by decide)
        have htitle : ¬ "radiometer".toList <:+: location.toList → textReplace (l1bTitle o.instrument location) "radiometer"
            "radiometer Level 1c" = model ++ " microwave radiometer Level 1c from " ++ location := by
          intro hn
          have hb : ¬ "radiometer".toList <:+: " from ".toList ++ location.toList := by
            intro hi
            rw [show " from ".toList = [' ', 'f', 'r', 'o', 'm', ' '] from rfl] at hi
            simp only [List.cons_append, List.nil_append] at hi
            rw [show "radiometer".toList = ['r', 'a', 'd', 'i', 'o', 'm', 'e', 't', 'e', 'r'] from rfl] at hi hn
            simp only [List.infix_cons_iff] at hi
            rcases hi with hi | hi | hi | hi | hi | hi | hi
            · simp [List.cons_prefix_cons] at hi
            · simp [List.cons_prefix_cons] at hi
            · simp [List.cons_prefix_cons] at hi
            · simp [List.cons_prefix_cons] at hi
            · simp [List.cons_prefix_cons] at hi
            · simp [List.cons_prefix_cons] at hi
            · exact hn hi
          have ha : ∀ i < (model ++ " microwave ").toList.length,
              ¬ "radiometer".toList <+: ((model ++ " microwave ").toList ++ "radiometer".toList).drop i := by
            simp only [List.mem_cons, List.not_mem_nil, or_false] at hmodel
            rcases hmodel with rfl | rfl | rfl <;> decide +kernel
          have hne : model ≠ "" := by
            rintro rfl
            revert hmodel
            decide
          have := replaceFrom_once "radiometer".toList "radiometer Level 1c".toList (model ++ " microwave ").toList
            (" from ".toList ++ location.toList) (by decide) ha hb
          unfold textReplace l1bTitle
          rw [ho]
          simp only [Spec.rpgRadiometer, if_neg hne]
          have e1 : (model ++ " " ++ "microwave radiometer" ++ " from " ++ location).toList =
              (model ++ " microwave ").toList ++ ("radiometer".toList ++ (" from ".toList ++ location.toList)) := by
            simp
          rw [e1, this]
          apply String.toList_injective
          simp
        have hhist : textReplace (stamp ++ " - " ++ o.instrument.domain ++ " file created") "mwr" "mwr-l1c" =
            stamp ++ " - mwr-l1c file created" := by
          have ha : ∀ i < (stamp ++ " - ").toList.length, ¬ "mwr".toList <+: ((stamp ++ " - ").toList ++ "mwr".toList).drop i := by
            intro i hi hp
            have hm : 'm' ∉ (stamp ++ " - ").toList := by simp [hstamp]
            apply hm
            rw [List.drop_append_of_le_length hi.le, List.drop_eq_getElem_cons hi, show "mwr".toList = ['m', 'w', 'r'] from rfl,
              List.cons_append, List.cons_prefix_cons] at hp
            rw [hp.1]
            exact List.getElem_mem hi
          have := replaceFrom_once "mwr".toList "mwr-l1c".toList (stamp ++ " - ").toList " file created".toList (by decide) ha (by decide)
          unfold textReplace
          rw [ho]
          simp only [Spec.rpgRadiometer]
          have e1 : (stamp ++ " - " ++ "mwr" ++ " file created").toList =
              (stamp ++ " - ").toList ++ ("mwr".toList ++ " file created".toList) := by
            simp
          rw [e1, this]
          apply String.toList_injective
          simp
        have hsource : l1bSource o.instrument = "RPG-Radiometer Physics " ++ model := by
          rw [ho]
          rfl
        unfold l1cGlobals at h
        dsimp only at h
        rw [set_lookup, if_neg (by decide), ht] at h
        dsimp only at h
        simp only [set_lookup, String.reduceEq, if_false, hh, hsrc, if_true, hhist, hsource] at h
        cases lidar with
        | none =>
          dsimp only at h
          refine ⟨_, location, (Prod.mk.inj h).1.symm, hl, hv, ?_, ?_, ?_, ?_, ?_, ?_, fun hn => ?_, ?_, ?_, fun _ => ⟨?_, ?_⟩,
            (fun l hl => by cases hl), ?_⟩ <;> simp [set_lookup, hu, hloc, hy, hm, hd, hsrc, hsource, hpid]
          exact htitle hn
        | some l =>
          dsimp only at h
          cases hls : l.globals.lookup "source" with
          | none => rw [hls] at h; simp at h
          | some s =>
            cases hlh : l.globals.lookup "history" with
            | none => rw [hls, hlh] at h; simp at h
            | some t =>
              rw [hls, hlh] at h
              refine ⟨_, location, (Prod.mk.inj h).1.symm, hl, hv, ?_, ?_, ?_, ?_, ?_, ?_, fun hn => ?_, ?_, ?_, (fun hn => by cases hn),
                fun l' hl' => ⟨s, t, by cases hl'; exact hls, by cases hl'; exact hlh, ?_, ?_⟩, ?_⟩ <;>
                simp [set_lookup, hu, hloc, hy, hm, hd, hpid]
              · exact htitle hn
              · apply String.toList_injective
                simp

/-! ## Coefficients -/

theorem splitComma_append (acc : List Char) (l rest : List Char) (h : ¬ [',', ' '] <:+: l ++ [',']) :
    splitCommaFrom acc (l ++ ',' :: ' ' :: rest) = (acc.reverse ++ l) :: splitCommaFrom [] rest := by
  induction l generalizing acc with
  | nil => simp [splitCommaFrom]
  | cons c cs ih =>
    have hcs : ¬ [',', ' '] <:+: cs ++ [','] := fun hi => h (hi.trans (List.suffix_cons c (cs ++ [','])).isInfix)
    rw [List.cons_append, splitCommaFrom.eq_def]
    split
    · next heq => cases heq
    · next heq =>
      exfalso
      rename_i x y z w
      obtain ⟨rfl, h2⟩ := List.cons.inj heq
      apply h
      rcases cs with _ | ⟨d, ds⟩
      · simp at h2
      · rw [List.cons_append] at h2
        obtain ⟨rfl, _⟩ := List.cons.inj h2
        exact ⟨[], ds ++ [','], by simp⟩
    · next heq =>
      obtain ⟨rfl, rfl⟩ := List.cons.inj heq
      rw [ih _ hcs]
      simp

theorem splitComma_end (acc l : List Char) (h : ¬ [',', ' '] <:+: l) : splitCommaFrom acc l = [acc.reverse ++ l] := by
  induction l generalizing acc with
  | nil => simp [splitCommaFrom]
  | cons c cs ih =>
    rw [splitCommaFrom.eq_def]
    split
    · next heq => cases heq
    · next heq =>
      exact absurd ⟨[], _, by rw [heq]; rfl⟩ h
    · next heq =>
      obtain ⟨rfl, rfl⟩ := List.cons.inj heq
      rw [ih _ fun hi => h (hi.trans (List.suffix_cons c cs).isInfix)]
      simp

/-- A text joined by commas is split into its parts. -/
theorem splitComma_join (links : List (List Char)) (hne : links ≠ []) (h : ∀ l ∈ links, ',' ∉ l) :
    splitCommaFrom [] (joinWith ", ".toList links) = links := by
  have hno : ∀ l : List Char, ',' ∉ l → ¬ [',', ' '] <:+: l := fun l hl hi => hl (hi.mem (by simp))
  have hno' : ∀ l : List Char, ',' ∉ l → ¬ [',', ' '] <:+: l ++ [','] := by
    rintro l hl ⟨a, b, hab⟩
    have hlen := congrArg List.length hab
    simp at hlen
    rcases List.eq_nil_or_concat b with rfl | ⟨b', c, rfl⟩
    · rw [List.append_nil] at hab
      have := List.append_inj_right' (s₁ := a ++ [',']) (t₁ := [' ']) (s₂ := l) (t₂ := [',']) (by simpa using hab) rfl
      simp at this
    · have h1 : (a ++ [',', ' '] ++ b') ++ [c] = l ++ [','] := by simpa using hab
      have h2 := List.append_inj_left' h1 rfl
      exact hl (by rw [← h2]; simp)
  induction links with
  | nil => exact absurd rfl hne
  | cons l links ih =>
    cases links with
    | nil =>
      show splitCommaFrom [] (joinWith ", ".toList [l]) = [l]
      have : joinWith ", ".toList [l] = l := by simp [joinWith]
      rw [this, splitComma_end _ _ (hno l (h l (by simp)))]
      rfl
    | cons m links =>
      have : joinWith ", ".toList (l :: m :: links) = l ++ ',' :: ' ' :: joinWith ", ".toList (m :: links) := by
        simp [joinWith]
      rw [this, splitComma_append _ _ _ (hno' l (h l (by simp))), ih (by simp) fun x hx => h x (by simp [hx])]
      rfl

/-- **C133.** The coefficients used for Level 2 are those linked in the Level 1c file, in order, each in a file named like the link; a
file of a name contains the answer to the last link of that name. **A finding:** links with equal names overwrite each other; without
links the empty link is asked for. -/
theorem C133_coefficients (get : String → β) (folder : String) (links : List String) (hne : links ≠ []) (h : ∀ l ∈ links, ',' ∉ l.toList) :
    ∃ bases, List.Forall₂ Spec.IsBasename links bases ∧
      (readCoefficients get folder (String.ofList (joinWith ", ".toList (links.map String.toList)))).2 = bases.map (folder ++ "/" ++ ·) ∧
      ∀ path, (readCoefficients get folder (String.ofList (joinWith ", ".toList (links.map String.toList)))).1.lookup path =
        ((links.zip bases).reverse.find? fun p => folder ++ "/" ++ p.2 = path).map fun p => get p.1 := by
  have hs : (splitCommaFrom [] (String.ofList (joinWith ", ".toList (links.map String.toList))).toList).map String.ofList = links := by
    rw [String.toList_ofList, splitComma_join _ (by simpa using hne)]
    · rw [List.map_map]
      conv_rhs => rw [← List.map_id links]
      apply List.map_congr_left
      intro l _
      simp
    · intro l hl
      obtain ⟨x, hx, rfl⟩ := List.mem_map.1 hl
      exact h x hx
  refine ⟨links.map posixBasename, ?_, ?_, fun path => ?_⟩
  · rw [List.forall₂_map_right_iff, List.forall₂_same]
    exact fun p _ => posixBasename_spec p
  · unfold readCoefficients
    rw [hs, List.map_map]
    rfl
  · unfold readCoefficients
    rw [hs]
    dsimp only
    have key : ∀ (ls : List String) (d : List (String × β)),
        (ls.foldl (fun files link => dictSet files (folder ++ "/" ++ String.ofList ((link.toList.splitOn '/').getLastD []))
          (get link)) d).lookup path =
        (((ls.zip (ls.map posixBasename)).reverse.find? fun p => folder ++ "/" ++ p.2 = path).map fun p => get p.1).or (d.lookup path) := by
      intro ls
      induction ls with
      | nil => intro d; rfl
      | cons l ls ih =>
        intro d
        rw [List.foldl_cons, ih, List.map_cons, List.zip_cons_cons, List.reverse_cons, List.find?_append, lookup_dictSet]
        cases ((ls.zip (ls.map posixBasename)).reverse.find? fun p => folder ++ "/" ++ p.2 = path) with
        | some p => rfl
        | none =>
          simp only [Option.map_none, Option.none_or]
          by_cases hp : folder ++ "/" ++ posixBasename l = path
          · rw [if_pos (by rw [← hp]; rfl)]
            simp [hp]
          · rw [if_neg (fun e => hp (by rw [e]; rfl))]
            simp [hp]
    rw [key]
    simp


/-! ## Level 2 -/

namespace Spec

/-- A variable of the output of mwrpy in the file of Cloudnet: only attributes may differ. Those of the time describe hours of the day,
units and names of some variables are the common ones of Cloudnet if there are such. -/
def Harmonized (common : String → Option MetaData) (units : String) (v w : DiskVar β) : Prop :=
  w.name = v.name ∧ w.dataType = v.dataType ∧ w.dims = v.dims ∧ w.shape = v.shape ∧ w.filled = v.filled ∧ w.content = v.content ∧
  ∀ a, w.attr a =
    if v.name = "time" ∧ a = .standardName then some "time"
    else if v.name = "time" ∧ a = .longName then some "Time UTC"
    else if v.name = "time" ∧ a = .calendar then some "standard"
    else if v.name = "time" ∧ a = .units then some units
    else if v.name ∈ ["lwp", "iwv", "temperature", "azimuth_angle", "latitude", "longitude", "altitude"] ∧
        (a = .units ∨ a = .longName ∨ a = .standardName) then
      ((common v.name).bind fun m => m.value a).or (v.attr a)
    else v.attr a

/-- What the Level 1c file must have. -/
def l1cNeeded : List String := ["location", "year", "month", "day", "history", "file_uuid", "instrument_pid"]

end Spec

theorem setVar_globals (f : DiskFile β) (name : String) (c : (AttrName → Option String) → AttrName → Option String) :
    (f.setVar name c).globals = f.globals ∧ (f.setVar name c).dims = f.dims := ⟨rfl, rfl⟩

theorem replaceAttributes_spec (common : String → Option MetaData) (keys : List String) (attributes : List AttrName) (f : DiskFile β) :
    (replaceAttributes common keys attributes f).globals = f.globals ∧ (replaceAttributes common keys attributes f).dims = f.dims ∧
    (replaceAttributes common keys attributes f).vars = f.vars.map fun v => { v with attr := fun a =>
      if v.name ∈ keys ∧ a ∈ attributes then ((common v.name).bind fun m => m.value a).or (v.attr a) else v.attr a } := by
  unfold replaceAttributes
  induction keys generalizing f with
  | nil =>
    refine ⟨rfl, rfl, ?_⟩
    conv_lhs => rw [List.foldl_nil, ← List.map_id f.vars]
    apply List.map_congr_left
    intro v _
    simp
  | cons key keys ih =>
    rw [List.foldl_cons]
    cases hc : common key with
    | none =>
      dsimp only
      obtain ⟨h1, h2, h3⟩ := ih f
      refine ⟨h1, h2, h3.trans ?_⟩
      apply List.map_congr_left
      intro v _
      congr 1
      funext a
      by_cases hv : v.name = key
      · simp [hv, hc]
      · simp [hv]
    | some m =>
      dsimp only
      obtain ⟨h1, h2, h3⟩ := ih (f.setVar key fun attr a => if a ∈ attributes then (m.value a).or (attr a) else attr a)
      refine ⟨h1, h2, h3.trans ?_⟩
      unfold DiskFile.setVar
      dsimp only
      rw [List.map_map]
      apply List.map_congr_left
      intro v _
      by_cases hv : v.name = key
      · have : ∀ x y : Option String, x.or (x.or y) = x.or y := by intro x y; cases x <;> rfl
        simp only [Function.comp, hv, if_true, hc, Option.bind_some, List.mem_cons, true_or, true_and]
        congr 1
        funext a
        by_cases ha : a ∈ attributes
        · by_cases hk : key ∈ keys <;> simp [ha, hk, this]
        · simp [ha]
      · simp [Function.comp, hv]

theorem withGlobal_none (s : Saving β) (other : DiskFile β) (key : String) (step : String → DiskFile β → Saving β) :
    (s.withGlobal other key step).2 = none ↔ s.2 = none ∧ ∃ v, other.globals.lookup key = some v ∧ (step v s.1).2 = none := by
  unfold Saving.withGlobal
  rw [next_none]
  cases other.globals.lookup key <;> simp

theorem withGlobal_eq (s : Saving β) (other : DiskFile β) (key : String) (step : String → DiskFile β → Saving β) (v : String)
    (hs : s.2 = none) (hv : other.globals.lookup key = some v) : s.withGlobal other key step = step v s.1 := by
  unfold Saving.withGlobal
  rw [next_eq _ _ hs, hv]

theorem var_setVar (f : DiskFile β) (name key : String) (c : (AttrName → Option String) → AttrName → Option String) :
    (f.setVar name c).var key = none ↔ f.var key = none := by
  rw [var_none, var_none]
  unfold DiskFile.setVar
  have : (f.vars.map fun v => if v.name = name then { v with attr := c v.attr } else v).map DiskVar.name = f.vars.map DiskVar.name := by
    rw [List.map_map]
    apply List.map_congr_left
    intro v _
    simp only [Function.comp]
    split <;> rfl
  rw [this]

theorem fixTime_none (f : DiskFile β) : (fixTimeAttributes f).2 = none ↔
    f.var "time" ≠ none ∧ ∀ k ∈ ["year", "month", "day"], f.globals.lookup k ≠ none := by
  unfold fixTimeAttributes
  cases f.var "time" with
  | none => simp
  | some v =>
    dsimp only
    rw [(setVar_globals _ _ _).1]
    simp only [List.forall_mem_cons, List.forall_mem_nil, and_true]
    generalize f.globals.lookup "year" = y
    generalize f.globals.lookup "month" = m
    generalize f.globals.lookup "day" = d
    cases y <;> cases m <;> cases d <;> simp

/-- The attributes of a variable after those of the time were written. -/
def timeAttr (units : String) (v : DiskVar β) (a : AttrName) : Option String :=
  if v.name = "time" ∧ a = .units then some units
  else if v.name = "time" ∧ a = .standardName then some "time"
  else if v.name = "time" ∧ a = .longName then some "Time UTC"
  else if v.name = "time" ∧ a = .calendar then some "standard" else v.attr a

theorem fixTime_spec (f : DiskFile β) (y m d : String) (hv : f.var "time" ≠ none) (hy : f.globals.lookup "year" = some y)
    (hm : f.globals.lookup "month" = some m) (hd : f.globals.lookup "day" = some d) :
    fixTimeAttributes f = ({ f with vars := f.vars.map fun v =>
      { v with attr := timeAttr ("hours since " ++ y ++ "-" ++ m ++ "-" ++ d ++ " 00:00:00 +00:00") v } }, none) := by
  unfold fixTimeAttributes
  cases h : f.var "time" with
  | none => exact absurd h hv
  | some w =>
    dsimp only
    rw [(setVar_globals _ _ _).1, hy, hm, hd]
    dsimp only
    unfold DiskFile.setVar
    dsimp only
    rw [List.map_map]
    congr 2
    apply List.map_congr_left
    intro v _
    by_cases hn : v.name = "time"
    · simp only [Function.comp, hn, if_true]
      congr 1
      funext a
      simp [timeAttr, hn]
    · simp only [Function.comp, hn, if_false]
      have : timeAttr ("hours since " ++ y ++ "-" ++ m ++ "-" ++ d ++ " 00:00:00 +00:00") v = v.attr := by
        funext a
        simp [timeAttr, hn]
      rw [this]

/-- **C133.** When a Level 2 file is finished. -/
theorem C133_harmonized_iff (common : String → Option MetaData) (version mwrpyVersion stamp uuid : String) (multi : Bool)
    (l1c l2 : DiskFile β) :
    (mwrHarmonize common version mwrpyVersion stamp uuid multi l1c l2).2 = none ↔
      (∃ v ∈ l2.vars, v.name = "time") ∧ ∀ k ∈ Spec.l1cNeeded, l1c.globals.lookup k ≠ none := by
  unfold mwrHarmonize
  dsimp only
  rw [withGlobal_none, withGlobal_none, withGlobal_none, withGlobal_none]
  simp only [fixTime_none, true_and, and_true]
  have hvar : ∀ f : DiskFile β, f.var "time" ≠ none ↔ ∃ v ∈ f.vars, v.name = "time" := by
    intro f
    rw [ne_eq, var_none]
    simp
  have hnn : ∀ x : Option String, (∃ v, x = some v) ↔ x ≠ none := fun x => by cases x <;> simp
  simp only [hvar, hnn]
  generalize hg : copyGlobals l1c ({ l2 with globals := [] } : DiskFile β) ["year", "month", "day", "location", "source"] = g
  have hgl : ∀ k, g.globals.lookup k = if k ∈ ["year", "month", "day", "location", "source"] then l1c.globals.lookup k else none := by
    intro k
    rw [← hg, copyGlobals_lookup]
    simp
  have hgv : g.vars = l2.vars := by rw [← hg]; exact (copyGlobals_vars _ _ _).1
  obtain ⟨r1, _, r3⟩ := replaceAttributes_spec common ["lwp", "iwv", "temperature", "azimuth_angle", "latitude", "longitude", "altitude"]
    [.units, .longName, .standardName] g
  generalize replaceAttributes common ["lwp", "iwv", "temperature", "azimuth_angle", "latitude", "longitude", "altitude"]
    [.units, .longName, .standardName] g = f at r1 r3
  have e1 : ∀ (f : DiskFile β) k v, (f.set k v).vars = f.vars := fun _ _ _ => rfl
  have hfv : (∃ v ∈ f.vars, v.name = "time") ↔ ∃ v ∈ l2.vars, v.name = "time" := by
    rw [r3, hgv]
    simp
  have hlook : ∀ k ∈ ["year", "month", "day"], f.globals.lookup k = l1c.globals.lookup k := by
    intro k hk
    rw [r1, hgl]
    simp only [List.mem_cons, List.not_mem_nil, or_false] at hk
    rcases hk with rfl | rfl | rfl <;> simp
  simp only [e1, hfv, set_lookup, Spec.l1cNeeded, List.forall_mem_cons, List.forall_mem_nil, String.reduceEq, if_false, and_true,
    hlook "year" (by simp), hlook "month" (by simp), hlook "day" (by simp)]
  have hex : ∀ (x : Option String) (p : Prop), (∃ v, x = some v ∧ p) ↔ x ≠ none ∧ p := fun x p => by cases x <;> simp
  simp only [List.not_mem_nil, false_implies, implies_true, and_true, hex]
  tauto

/-- **C133.** The Level 2 file: data and dimensions are those written by mwrpy, and the global attributes are exactly these. -/
theorem C133_harmonized (common : String → Option MetaData) (version mwrpyVersion stamp uuid : String) (multi : Bool)
    (l1c l2 f : DiskFile β) (h : mwrHarmonize common version mwrpyVersion stamp uuid multi l1c l2 = (f, none)) :
    ∃ location y m d history id pid,
      l1c.globals.lookup "location" = some location ∧ l1c.globals.lookup "year" = some y ∧ l1c.globals.lookup "month" = some m ∧
      l1c.globals.lookup "day" = some d ∧ l1c.globals.lookup "history" = some history ∧ l1c.globals.lookup "file_uuid" = some id ∧
      l1c.globals.lookup "instrument_pid" = some pid ∧ f.dims = l2.dims ∧
      List.Forall₂ (Spec.Harmonized common ("hours since " ++ y ++ "-" ++ m ++ "-" ++ d ++ " 00:00:00 +00:00")) l2.vars f.vars ∧
      ∀ k, f.globals.lookup k =
        if k ∈ ["year", "month", "day", "location", "source"] then l1c.globals.lookup k
        else if k = "Conventions" then some "CF-1.8" else if k = "cloudnetpy_version" then some version
        else if k = "file_uuid" then some uuid
        else if k = "title" then
          some ("MWR " ++ (if multi then "multiple-pointing" else "single-pointing") ++ " from " ++ location)
        else if k = "cloudnet_file_type" then some (if multi then "mwr-multi" else "mwr-single")
        else if k = "history" then some (stamp ++ " - MWR " ++ (if multi then "multiple-pointing" else "single-pointing") ++
          " file created \n" ++ history)
        else if k = "source_file_uuids" then some id else if k = "mwrpy_version" then some mwrpyVersion
        else if k = "instrument_pid" then some pid else none := by
  have hok : (mwrHarmonize common version mwrpyVersion stamp uuid multi l1c l2).2 = none := by rw [h]
  obtain ⟨htime, hneed⟩ := (C133_harmonized_iff common version mwrpyVersion stamp uuid multi l1c l2).1 hok
  have hget : ∀ k ∈ Spec.l1cNeeded, ∃ v, l1c.globals.lookup k = some v := fun k hk => Option.ne_none_iff_exists'.1 (hneed k hk)
  obtain ⟨location, hloc⟩ := hget "location" (by decide)
  obtain ⟨y, hy⟩ := hget "year" (by decide)
  obtain ⟨m, hm⟩ := hget "month" (by decide)
  obtain ⟨d, hd⟩ := hget "day" (by decide)
  obtain ⟨history, hh⟩ := hget "history" (by decide)
  obtain ⟨id, hi⟩ := hget "file_uuid" (by decide)
  obtain ⟨pid, hp⟩ := hget "instrument_pid" (by decide)
  refine ⟨location, y, m, d, history, id, pid, hloc, hy, hm, hd, hh, hi, hp, ?_⟩
  unfold mwrHarmonize at h
  dsimp only at h
  generalize (if multi = true then "multiple-pointing" else "single-pointing") = kind at h ⊢
  generalize (if multi = true then "mwr-multi" else "mwr-single") = type at h ⊢
  generalize hg : copyGlobals l1c ({ l2 with globals := [] } : DiskFile β) ["year", "month", "day", "location", "source"] = g at h
  have hgl : ∀ k, g.globals.lookup k = if k ∈ ["year", "month", "day", "location", "source"] then l1c.globals.lookup k else none := by
    intro k
    rw [← hg, copyGlobals_lookup]
    simp
  have hgv : g.vars = l2.vars ∧ g.dims = l2.dims := by rw [← hg]; exact copyGlobals_vars _ _ _
  obtain ⟨r1, r2, r3⟩ := replaceAttributes_spec common
    ["lwp", "iwv", "temperature", "azimuth_angle", "latitude", "longitude", "altitude"] [.units, .longName, .standardName] g
  generalize replaceAttributes common ["lwp", "iwv", "temperature", "azimuth_angle", "latitude", "longitude", "altitude"]
    [.units, .longName, .standardName] g = r at h r1 r2 r3
  rw [withGlobal_eq _ l1c "location" _ location rfl hloc] at h
  have hr : ∀ k ∈ ["year", "month", "day"], r.globals.lookup k = l1c.globals.lookup k := by
    intro k hk
    rw [r1, hgl]
    simp only [List.mem_cons, List.not_mem_nil, or_false] at hk
    rcases hk with rfl | rfl | rfl <;> simp
  have hrt : r.var "time" ≠ none := by
    rw [ne_eq, var_none, r3, hgv.1]
    simp only [List.map_map, List.mem_map, Function.comp, not_not]
    obtain ⟨v, hv, hn⟩ := htime
    exact ⟨v, hv, hn⟩
  rw [fixTime_spec _ y m d (by exact hrt) (by simp [set_lookup, hr "year" (by simp), hy]) (by simp [set_lookup, hr "month" (by simp), hm])
    (by simp [set_lookup, hr "day" (by simp), hd])] at h
  rw [withGlobal_eq _ l1c "history" _ history rfl hh, withGlobal_eq _ l1c "file_uuid" _ id rfl hi,
    withGlobal_eq _ l1c "instrument_pid" _ pid rfl hp] at h
  have hf := (Prod.mk.inj h).1.symm
  clear h
  refine ⟨?_, ?_, fun k => ?_⟩
  · rw [hf]
    exact r2.trans hgv.2
  · rw [hf]
    show List.Forall₂ _ l2.vars (r.vars.map _)
    rw [r3, hgv.1, List.map_map, List.forall₂_map_right_iff, List.forall₂_same]
    intro v _
    refine ⟨rfl, rfl, rfl, rfl, rfl, rfl, fun a => ?_⟩
    simp only [Function.comp, timeAttr, List.mem_cons, List.not_mem_nil, or_false]
    by_cases hn : v.name = "time"
    · cases a <;> simp [hn]
    · simp [hn]
  · rw [hf]
    have e1 : ∀ (f : DiskFile β) (vs : List (DiskVar β)), ({ f with vars := vs } : DiskFile β).globals = f.globals := fun _ _ => rfl
    simp only [set_lookup, e1, r1, hgl]
    by_cases k1 : k ∈ ["year", "month", "day", "location", "source"]
    · simp only [List.mem_cons, List.not_mem_nil, or_false] at k1
      rcases k1 with rfl | rfl | rfl | rfl | rfl <;> simp
    · simp only [k1, if_false]
      grind (splits := 30)

/-- **C133.** When a product is finished: mwrpy made the file, at least one value is not flagged, and the Level 1c file has all that is
needed. **A finding:** data that are all flagged raise after mwrpy has written its file, which stays as it is. -/
theorem C133_generated_iff (common : String → Option MetaData) (version mwrpyVersion stamp uuid : String) (product : MwrProduct)
    (l1c : DiskFile β) (l2 : Option (DiskFile β)) (flags : String → Option (List (Option ℤ))) (old : Option (DiskFile β)) :
    ((mwrGenerate common version mwrpyVersion stamp uuid product l1c l2 flags old).2 = none ↔
      ∃ f2 q, l2 = some f2 ∧ flags (if product = .multi then "temperature_quality_flag" else "lwp_quality_flag") = some q ∧
        some 0 ∈ q ∧ (mwrHarmonize common version mwrpyVersion stamp uuid (decide (product = .multi)) l1c f2).2 = none) ∧
    (l2 = none → mwrGenerate common version mwrpyVersion stamp uuid product l1c l2 flags old = (old, some "ValidTimeStampError")) ∧
    (∀ f2 q, l2 = some f2 → flags (if product = .multi then "temperature_quality_flag" else "lwp_quality_flag") = some q → some 0 ∉ q →
      mwrGenerate common version mwrpyVersion stamp uuid product l1c l2 flags old = (some f2, some "ValidTimeStampError")) := by
  have hany : ∀ q : List (Option ℤ), (q.any fun x => x == some 0) = true ↔ some 0 ∈ q := by
    intro q
    simp
  refine ⟨?_, ?_, ?_⟩
  · unfold mwrGenerate
    cases l2 with
    | none => simp
    | some f2 =>
      simp only [decide_eq_true_eq]
      cases hq : flags (if product = .multi then "temperature_quality_flag" else "lwp_quality_flag") with
      | none => simp
      | some q =>
        dsimp only
        by_cases h0 : some 0 ∈ q
        · rw [(hany q).2 h0]
          simp [h0]
        · rw [if_pos (by rw [← Bool.not_eq_true, hany]; exact h0)]
          simp [h0]
  · rintro rfl
    rfl
  · rintro f2 q rfl hq h0
    unfold mwrGenerate
    simp only [decide_eq_true_eq, hq]
    rw [if_pos (by rw [← Bool.not_eq_true, hany]; exact h0)]

/-- **C133.** A finding: no Level 2 file can be finished from a file that `hatpro2l1c` has written, since that has no instrument
identifier. -/
theorem C133_chain [FloorRing α] (fits : List ℕ → List ℕ → Bool) (version stamp mwrpyVersion : String) (flags : List (Option ℤ))
    (date : Option ℤ) (times : List α) (o : L1bObject β) (links : List String) (lidar : Option (DiskFile β)) (uuid : String)
    (disk : Option (DiskFile β)) (l1c : DiskFile β) (model : String) (hmodel : model ∈ ["HATPRO", "LHATPRO", "LHUMPRO-U90"])
    (ho : o.instrument = Spec.rpgRadiometer model) (hstamp : 'm' ∉ stamp.toList)
    (h : hatpro2l1c fits version stamp mwrpyVersion flags date times o (some links) lidar uuid disk = (some l1c, none))
    (common : String → Option MetaData) (stamp' uuid' : String) (product : MwrProduct) (l2 : Option (DiskFile β))
    (quality : String → Option (List (Option ℤ))) (old : Option (DiskFile β)) :
    (mwrGenerate common version mwrpyVersion stamp' uuid' product l1c l2 quality old).2 ≠ none := by
  obtain ⟨f, _, hf, _, _, _, _, _, _, _, _, _, _, _, _, _, hpid⟩ := C133_l1c_file fits version stamp mwrpyVersion flags date times o links
    lidar uuid disk _ model hmodel ho hstamp h
  cases hf
  intro hn
  obtain ⟨f2, q, _, _, _, hh⟩ := (C133_generated_iff _ _ _ _ _ _ _ _ _ _).1.1 hn
  exact ((C133_harmonized_iff _ _ _ _ _ _ _ _).1 hh).2 "instrument_pid" (by decide) hpid

/-! ## Examples -/

/-- A HATPRO at Munich. -/
def exampleHatpro : L1bObject ℕ :=
  { data := [("time", exampleArray "time" [3] ["time"])]
    instrument := Spec.rpgRadiometer "HATPRO", siteName := some "Munich", year := 2024, month := 3, day := 12
    serial := none, software := [], nDiameter := none, nVelocity := none }

example : (hatpro2l1c (· == ·) "1.0" "now" "0.9" [some 0, none, some 3] (some 1) [(86400 : ℚ), 86401, 172799] exampleHatpro
      (some ["https://a/x.nc", "https://b/y.nc"]) (some exampleLidarFile.file) "u" none).2 = none ∧
    (hatpro2l1c (· == ·) "1.0" "now" "0.9" [some 0, none, some 3] (some 1) [(86400 : ℚ), 86401, 172799] exampleHatpro
      (some ["https://a/x.nc", "https://b/y.nc"]) (some exampleLidarFile.file) "u" none).1.map (fun f => f.globals) =
      some [("Conventions", "CF-1.8"), ("cloudnetpy_version", "1.0"), ("file_uuid", "u"), ("cloudnet_file_type", "mwr-l1c"),
        ("title", "HATPRO microwave radiometer Level 1c from Munich"), ("year", "2024"), ("month", "03"), ("day", "12"),
        ("location", "Munich"), ("history", "now - mwr-l1c file created\nlidar made"), ("source", "RPG-Radiometer Physics HATPRO\nLufft CHM15k"),
        ("references", "https://doi.org/10.21105/joss.02123"), ("mwrpy_version", "0.9"),
        ("mwrpy_coefficients", "https://a/x.nc, https://b/y.nc")] := by
  refine ⟨by decide +kernel, by decide +kernel⟩

/-- Two links with the same name: one file remains. -/
example : readCoefficients (fun l => l) "tmp" "https://a/x.nc, https://b/x.nc" =
    ([("tmp/x.nc", "https://b/x.nc")], ["tmp/x.nc", "tmp/x.nc"]) := by
  decide +kernel

/-- A Level 1c file with an identifier is enough. -/
example : (mwrHarmonize (fun _ => none) "1.0" "0.9" "now" "u" true
      { dims := [], vars := []
        globals := [("location", "Munich"), ("year", "2024"), ("month", "03"), ("day", "12"), ("history", "old"), ("file_uuid", "l1c"),
          ("instrument_pid", "pid")] }
      (⟨[("time", 3)], [⟨"time", "f8", ["time"], [3], false, some 1, fun _ => none⟩], [("author", "mwrpy")]⟩ : DiskFile ℕ)).2 = none ∧
    (mwrHarmonize (fun _ => none) "1.0" "0.9" "now" "u" true
      { dims := [], vars := []
        globals := [("location", "Munich"), ("year", "2024"), ("month", "03"), ("day", "12"), ("history", "old"), ("file_uuid", "l1c"),
          ("instrument_pid", "pid")] }
      (⟨[("time", 3)], [⟨"time", "f8", ["time"], [3], false, some 1, fun _ => none⟩], [("author", "mwrpy")]⟩ : DiskFile ℕ)).1.globals.lookup
        "title" = some "MWR multiple-pointing from Munich" := by
  refine ⟨by decide +kernel, by decide +kernel⟩

end Cloudnet
