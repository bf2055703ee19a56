import Verif.Calib.Model
import Verif.CeiloDay.Props
import Verif.MwrTools.Props
import Verif.CliRun.Props
import Verif.Mira.Props
import Verif.EpsLidar.Props
import Verif.Disdrom.Rd80Props
import Mathlib.Tactic

/-! C166: settings of the command line interface for the functions that read instruments. -/

namespace Cloudnet

namespace Spec

/-- The portal has answered, and the calibration of the instrument has this value. -/
def Knows {α : Type} (answer : PortalAnswer α) (key : String) (v : CalValue α) : Prop :=
  ∃ d, answer = .answered (some d) ∧ d.lookup key = some v

/-- The portal could be asked. -/
def Reached {α : Type} (answer : PortalAnswer α) : Prop := ∀ e, answer ≠ .failed e

/-- A name that is part of another one. -/
def NamePart (part name : String) : Prop := ∃ a b, name.toList = a ++ part.toList ++ b

end Spec

section
variable {α : Type} [Field α] [DecidableEq α] {β : Type}

theorem hasText_part (part name : String) : hasText part name = true ↔ Spec.NamePart part name := by
  unfold hasText Spec.NamePart
  rw [decide_eq_true_iff]
  exact ⟨fun ⟨a, b, h⟩ => ⟨a, b, h.symm⟩, fun ⟨a, b, h⟩ => ⟨a, b, h.symm⟩⟩

theorem getCalibration_ok (answer : PortalAnswer α) (h : Spec.Reached answer) :
    ∃ cal, getCalibration answer = .ok cal ∧ ∀ key v, cal.lookup key = some v ↔ Spec.Knows answer key v := by
  rcases answer with _ | e | d
  · exact ⟨[], rfl, fun key v => by simp [Spec.Knows]⟩
  · exact absurd rfl (h e)
  · refine ⟨d.getD [], rfl, fun key v => ?_⟩
    rcases d with _ | d <;> simp [Spec.Knows]

theorem lookup_getD (cal : Settings α) (key : String) (v w : CalValue α) :
    (cal.lookup key).getD w = v ↔ cal.lookup key = some v ∨ (cal.lookup key = none ∧ v = w) := by
  cases cal.lookup key <;> simp [eq_comm]

/-- **C166.** A lidar other than PollyXT: the function gets the model and the coordinates of the site, and the calibration factor of the portal.
**A finding:** the factor of a CL61 is never passed on; a factor of zero counts as missing. -/
theorem C166_lidar (answer : PortalAnswer α) (h : Spec.Reached answer) (get : String → Option β) (folder : String) (disk : List (String × β))
    (id name : String) (hid : ¬ Spec.NamePart "pollyxt" id) (lat lon alt : CalValue α) :
    ∃ m, instrumentSettings answer get folder disk "lidar" id (siteSettings name lat lon alt) = .ok m ∧
      m.lookup "model" = some (.text id) ∧ m.lookup "name" = some (.text name) ∧ m.lookup "latitude" = some lat ∧
      m.lookup "longitude" = some lon ∧ m.lookup "altitude" = some alt ∧
      ∀ x, m.number? "calibration_factor" = some x ↔ id ≠ "cl61d" ∧ x ≠ 0 ∧ Spec.Knows answer "calibration_factor" (.number x) := by
  obtain ⟨cal, hc, hk⟩ := getCalibration_ok answer h
  have hr : readerOf "lidar" id = some "ceilo2nc" := by
    have : hasText "pollyxt" id = false := by
      rw [Bool.eq_false_iff]; exact fun hh => hid ((hasText_part _ _).1 hh)
    simp [readerOf, this]
  unfold instrumentSettings
  rw [hc]
  simp only [hr]
  simp only [bind, Except.bind, pure, Except.pure]
  simp only [show ("ceilo2nc" : String) ≠ "mira2nc" by decide, show ("ceilo2nc" : String) ≠ "pollyxt2nc" by decide, if_false, if_true]
  by_cases hcl : id = "cl61d"
  · subst hcl
    rw [if_pos rfl]
    refine ⟨_, rfl, ?_⟩
    simp [lookup_dictSet, siteSettings, List.lookup, Settings.number?]
  · rw [if_neg hcl]
    refine ⟨_, rfl, ?_⟩
    by_cases ht : ((cal.lookup "calibration_factor").getD .null).truthy = true
    · rw [if_pos ht]
      refine ⟨by simp [lookup_dictSet], by simp [lookup_dictSet, siteSettings, List.lookup], by simp [lookup_dictSet, siteSettings, List.lookup],
        by simp [lookup_dictSet, siteSettings, List.lookup], by simp [lookup_dictSet, siteSettings, List.lookup], fun x => ?_⟩
      rw [← hk]
      have hl : ∀ (d : Settings α) v, (dictSet d "calibration_factor" v).lookup "calibration_factor" = some v := fun d v => by simp [lookup_dictSet]
      cases hv : cal.lookup "calibration_factor" with
      | none => rw [hv] at ht; cases ht
      | some v =>
        rw [hv] at ht
        simp only [Settings.number?, hl, Option.getD_some]
        cases v <;> simp_all [CalValue.truthy]
        rintro rfl; assumption
    · rw [if_neg ht]
      refine ⟨by simp [lookup_dictSet], by simp [lookup_dictSet, siteSettings, List.lookup], by simp [lookup_dictSet, siteSettings, List.lookup],
        by simp [lookup_dictSet, siteSettings, List.lookup], by simp [lookup_dictSet, siteSettings, List.lookup], fun x => ?_⟩
      rw [← hk]
      have hn : Settings.number? (dictSet (siteSettings name lat lon alt) "model" (.text id)) "calibration_factor" = none := by
        simp [lookup_dictSet, siteSettings, List.lookup, Settings.number?]
      rw [hn]
      constructor
      · rintro ⟨⟩
      · rintro ⟨_, hx, hv⟩
        rw [hv] at ht
        simp [CalValue.truthy, hx] at ht

/-- The settings of a MIRA radar. -/
theorem mira_settings (answer : PortalAnswer α) (h : Spec.Reached answer) (get : String → Option β) (folder : String) (disk : List (String × β))
    (id name : String) (hid : Spec.NamePart "mira" id) (lat lon alt : CalValue α) :
    ∃ v, instrumentSettings answer get folder disk "radar" id (siteSettings name lat lon alt) =
        .ok (dictSet (siteSettings name lat lon alt) "range_correction_factor" v) ∧
      (Spec.Knows answer "range_correction_factor" v ∨ (v = .null ∧ ∀ w, ¬ Spec.Knows answer "range_correction_factor" w)) := by
  obtain ⟨cal, hc, hk⟩ := getCalibration_ok answer h
  have hr : readerOf "radar" id = some "mira2nc" := by simp [readerOf, (hasText_part _ _).2 hid]
  unfold instrumentSettings
  rw [hc]
  simp only [hr]
  simp only [bind, Except.bind, pure, Except.pure, if_true]
  refine ⟨_, rfl, ?_⟩
  cases hv : cal.lookup "range_correction_factor" with
  | none => exact .inr ⟨rfl, fun w hw => by rw [← hk, hv] at hw; cases hw⟩
  | some v => exact .inl ((hk _ _).1 hv)

/-- **C166.** A MIRA radar: the function gets the coordinates of the site and the factor for ranges of the portal. -/
theorem C166_mira (answer : PortalAnswer α) (h : Spec.Reached answer) (get : String → Option β) (folder : String) (disk : List (String × β))
    (id name : String) (hid : Spec.NamePart "mira" id) (lat lon alt : CalValue α) :
    ∃ m, instrumentSettings answer get folder disk "radar" id (siteSettings name lat lon alt) = .ok m ∧
      m.lookup "name" = some (.text name) ∧ m.lookup "latitude" = some lat ∧ m.lookup "longitude" = some lon ∧ m.lookup "altitude" = some alt ∧
      ∀ x, m.number? "range_correction_factor" = some x ↔ Spec.Knows answer "range_correction_factor" (.number x) := by
  obtain ⟨v, hm, hv⟩ := mira_settings answer h get folder disk id name hid lat lon alt
  refine ⟨_, hm, by simp [lookup_dictSet, siteSettings, List.lookup], by simp [lookup_dictSet, siteSettings, List.lookup],
    by simp [lookup_dictSet, siteSettings, List.lookup], by simp [lookup_dictSet, siteSettings, List.lookup], fun x => ?_⟩
  have hl : (dictSet (siteSettings name lat lon alt) "range_correction_factor" v).lookup "range_correction_factor" = some v := by
    simp [lookup_dictSet]
  have huniq : ∀ w, Spec.Knows answer "range_correction_factor" w → Spec.Knows answer "range_correction_factor" v → w = v := by
    rintro w ⟨d, h1, h2⟩ ⟨d', h1', h2'⟩
    rw [h1] at h1'
    cases h1'
    rw [h2] at h2'
    exact Option.some.inj h2'
  unfold Settings.number?
  rw [hl]
  rcases hv with hv | ⟨rfl, hv⟩
  · constructor
    · intro hx
      cases v <;> simp_all
    · intro hx
      rw [← huniq _ hx hv]
  · simp only [reduceCtorEq, false_iff]
    exact hv _

end

/-- **C166, a finding.** The model of a MIRA radar is not passed on: every one is processed as a MIRA-35, with the SNR limit and the power limit
of that, whatever the portal knows. A MIRA-10 should have the limit −30 dB and a MIRA-35C the power limit 0.5. -/
theorem C166_mira_model {α β : Type} [Field α] [LinearOrder α] [IsStrictOrderedRing α] (answer : PortalAnswer α) (h : Spec.Reached answer)
    (get : String → Option β) (folder : String) (disk : List (String × β)) (id name : String) (hid : Spec.NamePart "mira" id)
    (lat lon alt : CalValue α) (o : MiraOptions α) :
    (∃ m, instrumentSettings answer get folder disk "radar" id (siteSettings name lat lon alt) = .ok m ∧
      (m.mira o).model = "mira-35" ∧ miraSnrLimit (m.mira o) = -17 ∧ (m.mira o).zenithOffset = none ∧ (m.mira o).azimuthOffset = none ∧
      ∀ p, miraPowerOk (m.mira o) p = true ↔ 5 ≤ p.tpow) ∧
    miraSnrLimit { o with model := "mira-10", snrLimit := none } = -30 ∧
    ∀ p, miraPowerOk { o with model := "mira-35c" } p = true ↔ 1 / 2 ≤ p.tpow := by
  obtain ⟨v, hm, -⟩ := mira_settings answer h get folder disk id name hid lat lon alt
  refine ⟨⟨_, hm, ?_, ?_, ?_, ?_, fun p => ?_⟩, by simp [miraSnrLimit], fun p => ?_⟩
  · simp [Settings.mira, Settings.miraModel, lookup_dictSet, siteSettings, List.lookup]
  · simp [Settings.mira, Settings.miraModel, Settings.number?, lookup_dictSet, siteSettings, List.lookup, miraSnrLimit]
  · simp [Settings.mira, Settings.number?, lookup_dictSet, siteSettings, List.lookup]
  · simp [Settings.mira, Settings.number?, lookup_dictSet, siteSettings, List.lookup]
  · simp [Settings.mira, Settings.miraModel, lookup_dictSet, siteSettings, List.lookup, miraPowerOk]
  · simp [miraPowerOk]
    norm_num

section
variable {α : Type} [Field α] [DecidableEq α] {β : Type}

/-- **C166.** PollyXT: the function gets the SNR limit of the portal, or 25 if the portal does not know one (the function itself would use 2). -/
theorem C166_polly (answer : PortalAnswer α) (h : Spec.Reached answer) (get : String → Option β) (folder : String) (disk : List (String × β))
    (id name : String) (hid : Spec.NamePart "pollyxt" id) (lat lon alt : CalValue α) :
    ∃ m, instrumentSettings answer get folder disk "lidar" id (siteSettings name lat lon alt) = .ok m ∧
      m.lookup "name" = some (.text name) ∧ m.lookup "latitude" = some lat ∧ m.lookup "longitude" = some lon ∧ m.lookup "altitude" = some alt ∧
      (∀ v, Spec.Knows answer "snr_limit" v → m.lookup "snr_limit" = some v) ∧
      ((∀ v, ¬ Spec.Knows answer "snr_limit" v) → m.lookup "snr_limit" = some (.number 25)) := by
  obtain ⟨cal, hc, hk⟩ := getCalibration_ok answer h
  have hr : readerOf "lidar" id = some "pollyxt2nc" := by simp [readerOf, (hasText_part _ _).2 hid]
  unfold instrumentSettings
  rw [hc]
  simp only [hr]
  simp only [bind, Except.bind, pure, Except.pure]
  simp only [show ("pollyxt2nc" : String) ≠ "mira2nc" by decide, if_false, if_true]
  refine ⟨_, rfl, by simp [lookup_dictSet, siteSettings, List.lookup], by simp [lookup_dictSet, siteSettings, List.lookup],
    by simp [lookup_dictSet, siteSettings, List.lookup], by simp [lookup_dictSet, siteSettings, List.lookup], fun v hv => ?_, fun hv => ?_⟩
  · rw [lookup_dictSet, if_pos rfl, (hk _ _).2 hv]; rfl
  · have : cal.lookup "snr_limit" = none := by
      cases hl : cal.lookup "snr_limit" with
      | none => rfl
      | some v => exact absurd ((hk _ _).1 hl) (hv v)
    rw [lookup_dictSet, if_pos rfl, this]; rfl

/-- **C166.** All other instruments: only the coordinates of the site are passed on, whatever the portal knows. -/
theorem C166_others (answer : PortalAnswer α) (h : Spec.Reached answer) (get : String → Option β) (folder : String) (disk : List (String × β))
    (product id reader : String) (base : Settings α) (hr : readerOf product id = some reader)
    (hn : reader ∉ ["mira2nc", "pollyxt2nc", "ceilo2nc", "hatpro2l1c"]) :
    instrumentSettings answer get folder disk product id base = .ok base := by
  obtain ⟨cal, hc, hk⟩ := getCalibration_ok answer h
  simp only [List.mem_cons, List.not_mem_nil, or_false, not_or] at hn
  unfold instrumentSettings
  rw [hc]
  simp only [hr]
  simp only [bind, Except.bind, pure, Except.pure]
  rw [if_neg hn.1, if_neg hn.2.1, if_neg hn.2.2.1, if_neg hn.2.2.2]

/-- **C166.** If the portal answers with an error, instruments are processed as if there were no calibration; other exceptions end the run. -/
theorem C166_refused (get : String → Option β) (folder : String) (disk : List (String × β)) (product id : String) (base : Settings α) :
    instrumentSettings .refused get folder disk product id base = instrumentSettings (.answered none) get folder disk product id base ∧
    instrumentSettings .refused get folder disk product id base = instrumentSettings (.answered (some [])) get folder disk product id base ∧
    ∀ e, instrumentSettings (.failed e) get folder disk product id base = .error e :=
  ⟨rfl, rfl, fun _ => rfl⟩

end

section
variable {α : Type} [Field α] [LinearOrder α] [IsStrictOrderedRing α] [FloorRing α] {β : Type}

/-- **C166.** The backscatter of a CHM 15k with new firmware, from the raw file to the product: the number in the file times the factor that the
portal knows for the instrument, and 3·10⁻¹² if the portal knows none or answers with an error. The backscatter of a CL61 is that of the file,
**even if the portal knows a factor**. -/
theorem C166_backscatter (answer : PortalAnswer α) (hr : Spec.Reached answer) (get : String → Option β) (folder : String) (disk : List (String × β))
    (id name : String) (hid : ¬ Spec.NamePart "pollyxt" id) (lat lon : CalValue α) (altitude : α) (nu : LidarNumerics α) (nn : α → α → α)
    (argsort : List α → List ℕ) (ha : ∀ l, Spec.IsArgsort l (argsort l)) (rangeCorrected : Bool) (date : Option ℤ) (f : NcLidarFile α)
    (hs : Spec.LidarShape f) (hn : date = none ∨ f.range.length ≠ f.times.length) :
    ∃ m, instrumentSettings answer get folder disk "lidar" id (siteSettings name lat lon (.number altitude)) = .ok m ∧
      ∀ out, ncLidar2nc nu nn argsort (m.number? "calibration_factor") (m.number? "altitude") rangeCorrected date f = .ok out →
      ∃ src : List ℕ, (∀ i ∈ src, i < f.times.length) ∧ Spec.IsMatrix src.length f.range.length out.betaRaw ∧
        ∀ (k i j : ℕ) (b : α), src[k]? = some i → Spec.cell f.beta i j = some b →
          ((∃ kx version std nn1, f.kind = .lufft kx version std nn1 ∧ lufftOld version = .ok false) → id ≠ "cl61d" →
            (∀ x, x ≠ 0 → Spec.Knows answer "calibration_factor" (.number x) → Spec.cell out.betaRaw k j = some (b * x)) ∧
            ((∀ v, ¬ Spec.Knows answer "calibration_factor" v) → Spec.cell out.betaRaw k j = some (b * (3 / 10 ^ 12)))) ∧
          ((∃ masked x p, f.kind = .cl61d masked x p) → id = "cl61d" → Spec.cell out.betaRaw k j = some b) := by
  obtain ⟨m, hm, -, -, -, -, -, hc⟩ := C166_lidar answer hr get folder disk id name hid lat lon (.number altitude)
  refine ⟨m, hm, fun out ho => ?_⟩
  obtain ⟨src, hp, -⟩ := C151_profiles nu nn argsort ha _ _ rangeCorrected date f hs hn out ho
  refine ⟨src, hp.exist, hp.raw, fun k i j b hk hb => ?_⟩
  obtain ⟨r, s, -, hscale, hcell⟩ := hp.value k i j b hk hb
  unfold Spec.LidarScale at hscale
  refine ⟨?_, ?_⟩
  · rintro ⟨kx, version, std, nn1, hkind, hold⟩ hcl
    rw [hkind] at hscale
    dsimp only at hscale
    rcases hscale with ⟨-, hsc⟩ | ⟨h1, -⟩
    swap
    · rw [hold] at h1; cases h1
    refine ⟨fun x hx hkn => ?_, fun hkn => ?_⟩
    · rw [(hc x).2 ⟨hcl, hx, hkn⟩] at hsc
      rw [hcell, hsc]; rfl
    · have : m.number? "calibration_factor" = none := by
        cases hv : m.number? "calibration_factor" with
        | none => rfl
        | some x => exact absurd ((hc x).1 hv).2.2 (hkn _)
      rw [this] at hsc
      rw [hcell, hsc]; rfl
  · rintro ⟨masked, x, p, hkind⟩ hcl
    rw [hkind] at hscale
    dsimp only at hscale
    have : m.number? "calibration_factor" = none := by
      cases hv : m.number? "calibration_factor" with
      | none => rfl
      | some x => exact absurd hcl ((hc x).1 hv).1
    rw [this] at hscale
    rw [hcell, hscale]
    simp

end

section
variable {α : Type} [Field α] [DecidableEq α] {β : Type}

theorem basename_unique (path base : String) (h : Spec.IsBasename path base) : base = posixBasename path := by
  unfold posixBasename
  rcases h with ⟨hb, rfl | ⟨fo, hp⟩⟩
  · rw [splitOn_none _ _ hb]; simp
  · rw [hp, splitOn_last _ _ _ hb]; simp

theorem bases_eq (links bases : List String) (h : List.Forall₂ Spec.IsBasename links bases) : bases = links.map posixBasename := by
  induction h with
  | nil => rfl
  | cons h1 _ ih => rw [List.map_cons, ← ih, ← basename_unique _ _ h1]

theorem pathName_basename (path base : String) (h : Spec.IsBasename path base) (h1 : base ≠ "") (h2 : base ≠ ".") : pathName path = base := by
  have hb := basename_unique path base h
  unfold posixBasename at hb
  unfold pathName
  have hne := List.splitOn_ne_nil '/' path.toList
  obtain ⟨init, last, he⟩ : ∃ init last, path.toList.splitOn '/' = init ++ [last] :=
    ⟨_, _, (List.dropLast_append_getLast hne).symm⟩
  rw [he] at hb ⊢
  have hl : (init ++ [last]).getLastD [] = last := by simp
  rw [hl] at hb
  have h1' : last ≠ [] := by rintro rfl; exact h1 hb
  have h2' : last ≠ ['.'] := by rintro rfl; exact h2 hb
  rw [List.filter_append, List.filter_cons_of_pos (by simp [h1', h2']), List.filter_nil]
  have : ∀ l : List (List Char), (l ++ [last]).getLastD [] = last := fun l => by simp
  rw [this, hb]

theorem fetchLinks_ok (get : String → Option β) (folder : String) (links bases : List String) (h : List.Forall₂ Spec.IsBasename links bases)
    (hb : ∀ b ∈ bases, b ≠ "" ∧ b ≠ "." ∧ b ≠ "..") (s : List (String × β) × List String) (hg : ∀ l ∈ links, get l ≠ none) :
    ∃ files, fetchLinks get folder links s = .ok (files, s.2 ++ bases.map (folder ++ "/" ++ ·)) ∧
      ∀ path, files.lookup path = (((links.zip bases).reverse.find? fun p => folder ++ "/" ++ p.2 = path).bind fun p => get p.1).or
        (s.1.lookup path) := by
  induction h generalizing s with
  | nil => exact ⟨s.1, by simp [fetchLinks], by simp⟩
  | @cons link base links bases h1 _ ih =>
    obtain ⟨hb1, hb2, hb3⟩ := hb base (by simp)
    have hpn := pathName_basename link base h1 hb1 hb2
    obtain ⟨content, hcon⟩ := Option.ne_none_iff_exists'.1 (hg link (by simp))
    obtain ⟨files, hf, hl⟩ := ih (fun b hb' => hb b (by simp [hb'])) (dictSet s.1 (folder ++ "/" ++ base) content, s.2 ++ [folder ++ "/" ++ base])
      fun l hl => hg l (by simp [hl])
    refine ⟨files, ?_, fun path => ?_⟩
    · rw [fetchLinks, hcon]
      dsimp only
      rw [hpn, if_neg (by simp [hb1, hb3]), hf]
      simp
    · rw [hl path, lookup_dictSet, List.zip_cons_cons, List.reverse_cons, List.find?_append]
      cases hfi : (links.zip bases).reverse.find? fun p => decide (folder ++ "/" ++ p.2 = path) with
      | some p =>
        have hp := List.mem_of_find?_eq_some hfi
        have : p.1 ∈ links := (List.of_mem_zip (List.mem_reverse.1 hp)).1
        obtain ⟨c, hc⟩ := Option.ne_none_iff_exists'.1 (hg p.1 (by simp [this]))
        simp [hc]
      | none =>
        simp only [Option.bind_none, Option.none_or]
        by_cases hp : folder ++ "/" ++ base = path
        · subst hp
          simp [hcon]
        · rw [if_neg (Ne.symm hp)]
          simp [hp]

theorem fetchLinks_error (get : String → Option β) (folder : String) (links : List String) (s : List (String × β) × List String)
    (h : ∃ l ∈ links, get l = none) : ∃ e, fetchLinks get folder links s = .error e := by
  induction links generalizing s with
  | nil => simp at h
  | cons link links ih =>
    rw [fetchLinks]
    cases hg : get link with
    | none => exact ⟨_, rfl⟩
    | some content =>
      dsimp only
      split_ifs
      · exact ⟨_, rfl⟩
      · apply ih
        obtain ⟨l, hl, hn⟩ := h
        rcases List.mem_cons.1 hl with rfl | hl
        · rw [hg] at hn; cases hn
        · exact ⟨l, hl, hn⟩

/-- **C166.** The coefficients for a microwave radiometer: the links of the first entry of the portal are downloaded, in order, each to a file with the
name of the link in the temporary folder; if one cannot be downloaded, the radiometer is not processed. Without entries, or without links in the
first one, it is an error. **A finding:** of links with equal names only the last is kept, and other entries are not used. -/
theorem C166_coefficients (get : String → Option β) (folder : String) (disk : List (String × β)) (cal : Settings α) :
    (∀ links bases others, cal.lookup "retrieval_coefficients" = some (.coefficients (some links :: others)) → links ≠ [] →
      List.Forall₂ Spec.IsBasename links bases → (∀ b ∈ bases, b ≠ "" ∧ b ≠ "." ∧ b ≠ "..") →
      ((∀ l ∈ links, get l ≠ none) → ∃ files, fetchCoefficients get folder disk cal = .ok (files, bases.map (folder ++ "/" ++ ·), links) ∧
        ∀ path, files.lookup path = (((links.zip bases).reverse.find? fun p => folder ++ "/" ++ p.2 = path).bind fun p => get p.1).or
          (disk.lookup path)) ∧
      ((∃ l ∈ links, get l = none) → ∃ e, fetchCoefficients get folder disk cal = .error e)) ∧
    ((∀ links others, cal.lookup "retrieval_coefficients" = some (.coefficients (some links :: others)) → links = []) →
      ∃ e, fetchCoefficients get folder disk cal = .error e) := by
  refine ⟨fun links bases others hc hne hb hn => ?_, fun hno => ?_⟩
  · obtain ⟨l0, ls, rfl⟩ := List.exists_cons_of_ne_nil hne
    unfold fetchCoefficients
    rw [hc]
    dsimp only
    constructor
    · intro hg
      obtain ⟨files, hf, hl⟩ := fetchLinks_ok get folder _ bases hb hn (disk, []) hg
      refine ⟨files, ?_, hl⟩
      rw [hf]
      simp [Except.map]
    · intro hg
      obtain ⟨e, he⟩ := fetchLinks_error get folder _ (disk, []) hg
      rw [he]
      exact ⟨e, rfl⟩
  · unfold fetchCoefficients
    split
    · exact ⟨_, rfl⟩
    · exact ⟨_, rfl⟩
    · split
      next hc => exact absurd (hno _ _ (by assumption)) (by simp)
      next => exact ⟨_, rfl⟩
    · exact ⟨_, rfl⟩

/-- **C166.** The Level 1c and the Level 2 product of a radiometer use the same coefficients: if the links stay what they are, the `i`-th file given to
the Level 1c processing has the content of the `i`-th file given to the Level 2 processing, which reads the links from the Level 1c file. This
holds also for links with equal names. -/
theorem C166_level2 (get : String → β) (folder folder2 : String) (disk : List (String × β)) (cal : Settings α) (links bases : List String)
    (others : List (Option (List String))) (hc : cal.lookup "retrieval_coefficients" = some (.coefficients (some links :: others)))
    (hne : links ≠ []) (hb : List.Forall₂ Spec.IsBasename links bases) (hn : ∀ b ∈ bases, b ≠ "" ∧ b ≠ "." ∧ b ≠ "..")
    (hcomma : ∀ l ∈ links, ',' ∉ l.toList) :
    ∃ files paths, fetchCoefficients (fun l => some (get l)) folder disk cal = .ok (files, paths, links) ∧ paths.length = links.length ∧
      ∀ (i : ℕ) (p p2 : String), paths[i]? = some p →
        (readCoefficients get folder2 (String.ofList (joinWith ", ".toList (links.map String.toList)))).2[i]? = some p2 →
        ∃ content, files.lookup p = some content ∧
          (readCoefficients get folder2 (String.ofList (joinWith ", ".toList (links.map String.toList)))).1.lookup p2 = some content := by
  obtain ⟨files, hf, hl⟩ := ((C166_coefficients (fun l => some (get l)) folder disk cal).1 links bases others hc hne hb hn).1 (by simp)
  obtain ⟨bases2, hb2, hp2, hl2⟩ := C133_coefficients get folder2 links hne hcomma
  have hlen := hb.length_eq
  have hbb : bases2 = bases := by rw [bases_eq _ _ hb, bases_eq _ _ hb2]
  subst hbb
  refine ⟨files, _, hf, by simp [hlen], fun i p p2 hp hp2' => ?_⟩
  rw [hp2] at hp2'
  rw [List.getElem?_map] at hp hp2'
  obtain ⟨b, hbi, rfl⟩ := Option.map_eq_some_iff.1 hp
  rw [hbi] at hp2'
  obtain rfl := Option.some.inj hp2'
  have hex : ∃ q, (links.zip bases2).reverse.find? (fun q => decide (q.2 = b)) = some q := by
    rw [← Option.isSome_iff_exists, List.find?_isSome]
    have hi : i < bases2.length := (List.getElem?_eq_some_iff.1 hbi).1
    have hi' : i < links.length := by omega
    refine ⟨(links[i], bases2[i]), List.mem_reverse.2 ?_, by simp [(List.getElem?_eq_some_iff.1 hbi).2]⟩
    have : (links.zip bases2)[i]'(by simp; omega) = (links[i], bases2[i]) := by simp
    rw [← this]
    exact List.getElem_mem _
  obtain ⟨q, hq⟩ := hex
  have hcancel : ∀ fo : String, (fun q : String × String => decide (fo ++ "/" ++ q.2 = fo ++ "/" ++ b)) = fun q => decide (q.2 = b) := by
    intro fo
    funext q
    simp
  refine ⟨get q.1, ?_, ?_⟩
  · rw [hl, hcancel, hq]; rfl
  · rw [hl2, hcancel, hq]; rfl

theorem lookup_reverse_nodup {γ : Type} (l : List (String × γ)) (h : (l.map Prod.fst).Nodup) (key : String) : l.reverse.lookup key = l.lookup key := by
  induction l with
  | nil => rfl
  | cons kv l ih =>
    obtain ⟨k, v⟩ := kv
    rw [List.map_cons, List.nodup_cons] at h
    rw [List.reverse_cons, List.lookup_append, ih h.2]
    by_cases hk : key = k
    · subst hk
      have : l.lookup key = none := by
        rw [List.lookup_eq_none_iff]
        intro p hp
        rw [bne_iff_ne]
        intro hh
        exact h.1 (List.mem_map.2 ⟨p, hp, hh.symm⟩)
      simp [this, List.lookup_cons]
    · simp [List.lookup_cons, beq_false_of_ne hk]

/-- **C166.** Level 1c of a radiometer: the function gets the files and links of the coefficients and everything the portal knows about the
instrument, **in place of the coordinates of the site if they have the same name**. -/
theorem C166_l1c (answer : PortalAnswer α) (get : String → Option β) (folder : String) (disk files : List (String × β))
    (id : String) (base cal : Settings α) (paths links : List String) (hcal : answer = .answered (some cal))
    (hf : fetchCoefficients get folder disk cal = .ok (files, paths, links)) :
    ∃ m, instrumentSettings answer get folder disk "mwr-l1c" id base = .ok m ∧
      m.lookup "coefficientFiles" = some (.names paths) ∧ m.lookup "coefficientLinks" = some (.names links) ∧
      ∀ key, key ≠ "coefficientFiles" → key ≠ "coefficientLinks" → (cal.map Prod.fst).Nodup →
        m.lookup key = (cal.lookup key).or (base.lookup key) := by
  have hr : readerOf "mwr-l1c" id = some "hatpro2l1c" := by
    simp [readerOf]
  unfold instrumentSettings
  rw [hcal]
  simp only [hr, getCalibration, Option.getD_some]
  simp only [bind, Except.bind, pure, Except.pure]
  simp only [show ("hatpro2l1c" : String) ≠ "mira2nc" by decide, show ("hatpro2l1c" : String) ≠ "pollyxt2nc" by decide,
    show ("hatpro2l1c" : String) ≠ "ceilo2nc" by decide, if_false, if_true, hf]
  refine ⟨_, rfl, by simp [lookup_dictSet], by simp [lookup_dictSet], fun key k1 k2 hnd => ?_⟩
  rw [lookup_dictSet, if_neg k2, lookup_dictSet, if_neg k1, dictMerge, lookup_foldl_dictSet]
  rw [lookup_reverse_nodup cal hnd]

end

/-- **C166, a finding.** Two links with the same name: both files given to the processing are the second one. -/
theorem C166_same_names : ∃ (get : String → Option String) (cal : Settings ℚ) (files : List (String × String)),
    cal.lookup "retrieval_coefficients" = some (.coefficients [some ["https://a.org/1/iwv.ret", "https://a.org/2/iwv.ret"]]) ∧
    get "https://a.org/1/iwv.ret" = some "first" ∧ get "https://a.org/2/iwv.ret" = some "second" ∧
    fetchCoefficients get "/tmp" [] cal =
      .ok (files, ["/tmp/iwv.ret", "/tmp/iwv.ret"], ["https://a.org/1/iwv.ret", "https://a.org/2/iwv.ret"]) ∧
    files = [("/tmp/iwv.ret", "second")] :=
  ⟨fun l => if l = "https://a.org/1/iwv.ret" then some "first" else if l = "https://a.org/2/iwv.ret" then some "second" else none,
    [("retrieval_coefficients", .coefficients [some ["https://a.org/1/iwv.ret", "https://a.org/2/iwv.ret"]])], _,
    rfl, rfl, rfl, by decide +kernel, rfl⟩

/-- A CHM 15k with a factor, and a CL61 with one that is not used. -/
def exampleAnswer : PortalAnswer ℚ := .answered (some [("calibration_factor", .number (2 / 10 ^ 12))])

example : Spec.Reached exampleAnswer ∧ Spec.Knows exampleAnswer "calibration_factor" (.number (2 / 10 ^ 12)) :=
  ⟨by simp [Spec.Reached, exampleAnswer], _, rfl, rfl⟩

example : (match instrumentSettings exampleAnswer (fun _ => (none : Option String)) "/tmp" [] "lidar" "chm15k"
      (siteSettings "Site" (.number 60) (.number 25) (.number 100)) with
    | .ok m => decide (Settings.number? m "calibration_factor" = some (2 / 10 ^ 12 : ℚ)) && decide (Settings.number? m "altitude" = some 100)
    | .error _ => false) = true ∧
    (match instrumentSettings exampleAnswer (fun _ => (none : Option String)) "/tmp" [] "lidar" "cl61d"
      (siteSettings "Site" (.number 60) (.number 25) (.number 100)) with
    | .ok m => decide (Settings.number? m "calibration_factor" = (none : Option ℚ))
    | .error _ => false) = true := by
  constructor
  · decide +kernel
  · decide +kernel

/-- The names of radars and lidars of the portal meet the assumptions. -/
example : Spec.NamePart "mira" "mira-10" ∧ Spec.NamePart "pollyxt" "pollyxt" ∧ ¬ Spec.NamePart "pollyxt" "chm15k" ∧
    ¬ Spec.NamePart "pollyxt" "cl61d" := by
  simp only [← hasText_part]
  decide +kernel

/-- A CHM 15k file that is read with the factor of the portal. -/
def exampleChm : NcLidarFile ℚ := { exLidar with kind := .lufft false (.words ["CHM15k".toList, "FW".toList, "1.040".toList]) [1, 1, 1] [1, 1, 1] }

example : Spec.LidarShape exampleChm ∧ exampleChm.range.length ≠ exampleChm.times.length :=
  ⟨⟨⟨rfl, by decide⟩, rfl, rfl⟩, by decide⟩

example : (match ncLidar2nc exNumerics (fun _ _ => 1) stableArgsort (some (2 / 10 ^ 12)) (some 100) true (some 20000) exampleChm with
    | .ok d => decide (d.betaRaw = [[6 / 10 ^ 12, -8 / 10 ^ 12], [2 / 10 ^ 12, 4 / 10 ^ 12]])
    | .error _ => false) = true := by decide +kernel

end Cloudnet
