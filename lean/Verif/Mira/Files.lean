import Mathlib.Tactic
import Verif.Mira.Model
import Verif.Categorize.Props
import Verif.NcRadar.Props
import Verif.Source.Props

namespace Cloudnet

/-! ## C106: input files of a MIRA radar -/

namespace Spec

/-- The file name `name` has the extension `ext`, in any case, perhaps followed by a counter: `radar.ZNC`, `radar.znc.2`. -/
def HasExtension (ext : String) (name : String) : Prop :=
  ∃ stem w counter : List Char, w.map Char.toLower = ext.toList ∧ (∀ c ∈ w, isWordChar c = true) ∧
    name.toList = stem ++ '.' :: w ++ counter ∧
    (counter = [] ∨ ∃ digits : List Char, counter = '.' :: digits ∧ digits ≠ [] ∧ ∀ c ∈ digits, c.isDigit = true)

end Spec

theorem isCounter_iff (l : List Char) : isCounter l = true ↔
    l = [] ∨ ∃ digits : List Char, l = '.' :: digits ∧ digits ≠ [] ∧ ∀ c ∈ digits, c.isDigit = true := by
  cases l with
  | nil => simp [isCounter]
  | cons c ds => simp [isCounter, and_assoc]

theorem suffixMatch_sound (l w : List Char) (h : suffixMatch l = some w) :
    ∃ stem counter : List Char, l = stem ++ '.' :: w ++ counter ∧ w ≠ [] ∧ (∀ c ∈ w, isWordChar c = true) ∧
      isCounter counter = true := by
  induction l with
  | nil => cases h
  | cons c cs ih =>
    rw [suffixMatch] at h
    split at h
    · rename_i hc
      simp only [Bool.and_eq_true, beq_iff_eq, bne_iff_ne, ne_eq] at hc
      obtain ⟨⟨rfl, hw⟩, hk⟩ := hc
      cases h
      refine ⟨[], _, ?_, hw, fun c hc => List.all_eq_true.1 (List.all_takeWhile (p := isWordChar) (l := cs)) c hc, hk⟩
      simp [List.takeWhile_append_dropWhile]
    · obtain ⟨stem, counter, rfl, rest⟩ := ih h
      exact ⟨c :: stem, counter, by simp, rest⟩

theorem dot_not_word : isWordChar '.' = false := by decide

theorem dropWhile_dot (s rest : List Char) : ∃ t, (s ++ '.' :: rest).dropWhile isWordChar = t ++ '.' :: rest := by
  induction s with
  | nil => exact ⟨[], by rw [List.nil_append, List.dropWhile_cons_of_neg (by simp [dot_not_word])]⟩
  | cons a s ih =>
    rw [List.cons_append, List.dropWhile_cons]
    split
    · exact ih
    · exact ⟨a :: s, rfl⟩

theorem suffixMatch_complete (stem w counter : List Char) (hw : ∀ c ∈ w, isWordChar c = true)
    (hd : ∃ c ∈ w, c.isDigit = false) (hc : isCounter counter = true) :
    suffixMatch (stem ++ '.' :: w ++ counter) = some w := by
  have hstop : ∀ c ∈ counter.head?, isWordChar c = false := by
    intro c hmem
    cases counter with
    | nil => cases hmem
    | cons a l =>
      simp only [isCounter, Bool.and_eq_true, beq_iff_eq] at hc
      simp only [List.head?_cons, Option.mem_def, Option.some.injEq] at hmem
      rw [← hmem, hc.1.1]; exact dot_not_word
  have htake : (w ++ counter).takeWhile isWordChar = w := by
    rw [List.takeWhile_append_of_pos hw]
    cases counter with
    | nil => simp
    | cons a l => rw [List.takeWhile_cons_of_neg (by simp [hstop a (by simp)])]; simp
  have hdrop : (w ++ counter).dropWhile isWordChar = counter := by
    rw [List.dropWhile_append_of_pos hw]
    cases counter with
    | nil => simp
    | cons a l => rw [List.dropWhile_cons_of_neg (by simp [hstop a (by simp)])]
  have hne : w ≠ [] := by rintro rfl; obtain ⟨c, hc, -⟩ := hd; cases hc
  induction stem with
  | nil =>
    rw [List.nil_append, List.cons_append, suffixMatch]
    rw [htake, hdrop, if_pos]
    simp [hne, hc]
  | cons a s ih =>
    rw [List.cons_append, List.cons_append, suffixMatch]
    rw [if_neg, ih]
    simp only [Bool.and_eq_true, not_and, Bool.not_eq_true]
    intro _
    rw [List.append_assoc, List.cons_append]
    obtain ⟨t, ht⟩ := dropWhile_dot s (w ++ counter)
    rw [ht]
    obtain ⟨c, hcw, hdig⟩ := hd
    rw [← Bool.not_eq_true, isCounter_iff]
    rintro (h | ⟨digits, h, -, hall⟩)
    · simp at h
    · have : c ∈ digits := by
        cases t with
        | nil =>
          simp only [List.nil_append, List.cons.injEq, true_and] at h
          rw [← h]; simp [hcw]
        | cons b t =>
          simp only [List.cons_append, List.cons.injEq] at h
          rw [← h.2]; simp [hcw]
      rw [hall c this] at hdig; cases hdig

theorem toLower_digit (c : Char) (h : c.isDigit = true) : c.toLower = c := by
  have hd : c.val ≥ 48 ∧ c.val ≤ 57 := by simpa [Char.isDigit] using h
  unfold Char.toLower
  rw [dif_neg]
  rintro ⟨h1, h2⟩
  have a := hd.2
  have := UInt32.le_trans h1 a
  revert this; decide

/-- C106. The type of a file is its extension, in any case, also if a counter follows it. (For an extension that is
not a number.) -/
theorem C106_extension (ext name : String) (hext : ∃ c ∈ ext.toList, c.isDigit = false) :
    miraSuffix name = ext ↔ Spec.HasExtension ext name := by
  unfold miraSuffix
  constructor
  · intro h
    cases hm : suffixMatch name.toList with
    | none =>
      rw [hm] at h
      subst h
      obtain ⟨c, hc, -⟩ := hext
      simp at hc
    | some w =>
      rw [hm] at h
      obtain ⟨stem, counter, hname, -, hw, hk⟩ := suffixMatch_sound _ _ hm
      refine ⟨stem, w, counter, ?_, hw, hname, (isCounter_iff _).1 hk⟩
      rw [← h, String.toList_ofList]
  · rintro ⟨stem, w, counter, hlow, hw, hname, hk⟩
    have hd : ∃ c ∈ w, c.isDigit = false := by
      obtain ⟨c, hc, hdig⟩ := hext
      rw [← hlow, List.mem_map] at hc
      obtain ⟨x, hx, rfl⟩ := hc
      refine ⟨x, hx, ?_⟩
      by_contra hne
      rw [toLower_digit x (by simpa using hne)] at hdig
      exact hne hdig
    rw [hname, suffixMatch_complete stem w counter hw hd ((isCounter_iff _).2 hk)]
    dsimp only
    rw [hlow, String.ofList_toList]

example : miraSuffix "/data/20240101.0000.MMCLX.12" = "mmclx" ∧ miraSuffix "a.b/radar.znc" = "znc" ∧
    miraSuffix "radar" = "" := by decide +kernel

theorem miraKeymap_ok (t : String) : (∃ k, miraKeymap t = .ok k) ↔ t = "znc" ∨ t = "mmclx" := by
  unfold miraKeymap
  split
  · simp_all
  · split
    · simp_all
    · simp_all

theorem fromList_ok (files out : List String) (keymap : List (String × String)) :
    miraInputFiles.fromList files = .ok (out, keymap) ↔
      files ≠ [] ∧ out = files ∧ ∃ t, (t = "znc" ∨ t = "mmclx") ∧ (∀ f ∈ files, miraSuffix f = t) ∧
        miraKeymap t = .ok keymap := by
  cases files with
  | nil => simp [miraInputFiles.fromList]
  | cons f fs =>
    rw [miraInputFiles.fromList]
    constructor
    · intro h
      split at h
      · cases h
      · rename_i hmix
        simp only [List.any_eq_true, bne_iff_ne, ne_eq, not_exists, not_and, not_not] at hmix
        cases hk : miraKeymap (miraSuffix f) with
        | error e => rw [hk] at h; cases h
        | ok k =>
          rw [hk] at h
          simp only [Except.map, Except.ok.injEq, Prod.mk.injEq] at h
          exact ⟨by simp, h.1.symm, _, (miraKeymap_ok _).1 ⟨k, hk⟩, hmix, by rw [hk, h.2]⟩
    · rintro ⟨-, rfl, t, -, hall, hk⟩
      have hf := hall f (by simp)
      rw [if_neg, hf, hk]
      · rfl
      · simp only [List.any_eq_true, bne_iff_ne, ne_eq, not_exists, not_and, not_not]
        intro g hg
        rw [hall g hg, hf]

/-- C106. A list of files is accepted exactly if it is not empty and all files are of one of the two known types; the files
are then read in alphabetical order, none is left out, with the variable names of their type. -/
theorem C106_list (paths files : List String) (keymap : List (String × String)) :
    miraInputFiles (.files paths) = .ok (files, keymap) ↔
      paths ≠ [] ∧ files.Perm paths ∧ files.Pairwise (· ≤ ·) ∧
      ∃ t, (t = "znc" ∨ t = "mmclx") ∧ (∀ p ∈ paths, Spec.HasExtension t p) ∧ miraKeymap t = .ok keymap := by
  have hext : ∀ t, (t = "znc" ∨ t = "mmclx") → ∀ p, miraSuffix p = t ↔ Spec.HasExtension t p := by
    rintro t (rfl | rfl) p
    · exact C106_extension _ _ ⟨'z', by decide, by decide⟩
    · exact C106_extension _ _ ⟨'m', by decide, by decide⟩
  show miraInputFiles.fromList _ = _ ↔ _
  rw [fromList_ok]
  have hperm := List.perm_insertionSort (· ≤ ·) paths
  constructor
  · rintro ⟨hne, rfl, t, ht, hall, hk⟩
    refine ⟨?_, hperm, List.pairwise_insertionSort _ _, t, ht, fun p hp => (hext t ht p).1 (hall p (hperm.mem_iff.2 hp)), hk⟩
    rintro rfl; simp at hne
  · rintro ⟨hne, hp, hs, t, ht, hall, hk⟩
    refine ⟨?_, ?_, t, ht, fun p hp => (hext t ht p).2 (hall p (hperm.mem_iff.1 hp)), hk⟩
    · intro h
      rw [h] at hperm
      exact hne (List.nil_perm.1 hperm)
    · exact (hp.trans hperm.symm).eq_of_pairwise (fun _ _ _ _ => le_antisymm) hs (List.pairwise_insertionSort _ _)

example : (miraInputFiles (.files ["b.znc", "a.znc"])).toOption.map Prod.fst = some ["a.znc", "b.znc"] ∧
    (miraInputFiles (.files ["b.znc", "a.mmclx"])).toOption = none ∧
    (miraInputFiles (.files [])).toOption = none := by decide +kernel

/-- The files of a listing whose name ends with an extension. -/
def Spec.withEnding (ext : String) (listing : List String) : List String :=
  listing.filter fun f => ext.toList.isSuffixOf (f.toList.map Char.toLower)

theorem mem_sortedFilenames (dir : String) (listing : List String) (ext f : String) :
    f ∈ sortedFilenames dir listing ext ↔ ∃ g ∈ Spec.withEnding ext listing, f = dir ++ "/" ++ g := by
  unfold sortedFilenames Spec.withEnding pyLower
  rw [List.mem_insertionSort, List.mem_map]
  constructor
  · rintro ⟨g, hg, rfl⟩; exact ⟨g, hg, rfl⟩
  · rintro ⟨g, hg, rfl⟩; exact ⟨g, hg, rfl⟩

theorem map_toLower_suffix (e : List Char) (f : List Char) (h : '.' :: e <:+ f.map Char.toLower)
    (he : ∀ c ∈ e, isWordChar c = true) :
    ∃ stem w : List Char, f = stem ++ '.' :: w ∧ w.map Char.toLower = e ∧ ∀ c ∈ w, isWordChar c = true := by
  obtain ⟨pre, hpre⟩ := h
  obtain ⟨stem, rest, rfl, hstem, hrest⟩ := List.map_eq_append_iff.1 hpre.symm
  obtain ⟨d, w, rfl, hd, hw⟩ := List.map_eq_cons_iff.1 hrest
  have low : ∀ c : Char, c.toLower ≠ c → c.isUpper = true := by
    intro c hc
    unfold Char.toLower at hc
    split at hc
    · rename_i hcond
      simpa [Char.isUpper] using hcond
    · exact absurd rfl hc
  have hdot : d = '.' := by
    by_contra hne
    have hup := low d (by rw [hd]; exact fun h => hne h.symm)
    have h1 : ('.' : Char).val = d.val + 32 := by
      rw [← hd]
      unfold Char.toLower
      rw [dif_pos (by simpa [Char.isUpper] using hup)]
      rfl
    simp only [Char.isUpper, ge_iff_le, Bool.and_eq_true, decide_eq_true_eq] at hup
    obtain ⟨a, b⟩ := hup
    have h2 := congrArg UInt32.toNat h1
    rw [UInt32.toNat_add] at h2
    have a' : 65 ≤ d.val.toNat := a
    have b' : d.val.toNat ≤ 90 := b
    have h3 : ('.' : Char).val.toNat = 46 := by decide
    have h4 : (32 : UInt32).toNat = 32 := by decide
    rw [h3, h4] at h2
    omega
  subst hdot
  refine ⟨stem, w, rfl, hw, fun c hc => ?_⟩
  by_cases heq : c.toLower = c
  · rw [← heq]
    exact he _ (by rw [← hw]; exact List.mem_map_of_mem hc)
  · have := low c heq
    simp [isWordChar, Char.isAlphanum, Char.isAlpha, this]

theorem sortedFilenames_nil (path : String) (listing : List String) (ext : String) :
    sortedFilenames path listing ext = [] ↔ Spec.withEnding ext listing = [] := by
  simp only [List.eq_nil_iff_forall_not_mem, mem_sortedFilenames]
  constructor
  · intro h f hf; exact h _ ⟨f, hf, rfl⟩
  · rintro h f ⟨g, hg, -⟩; exact h g hg

theorem fromList_sorted (path : String) (listing : List String) (ext t : String) (ht : t = "znc" ∨ t = "mmclx")
    (hch : ext.toList = '.' :: t.toList) :
    (Spec.withEnding ext listing = [] → ∃ e, miraInputFiles.fromList (sortedFilenames path listing ext) = .error e) ∧
    (Spec.withEnding ext listing ≠ [] → ∃ files keymap,
      miraInputFiles.fromList (sortedFilenames path listing ext) = .ok (files, keymap) ∧
      files.Perm ((Spec.withEnding ext listing).map fun f => path ++ "/" ++ f) ∧ files.Pairwise (· ≤ ·) ∧
      miraKeymap t = .ok keymap) := by
  obtain ⟨keymap, hk⟩ := (miraKeymap_ok t).2 ht
  refine ⟨fun h => ?_, fun h => ⟨sortedFilenames path listing ext, keymap, ?_, ?_, ?_, hk⟩⟩
  · rw [(sortedFilenames_nil _ _ _).2 h]; exact ⟨_, rfl⟩
  · rw [fromList_ok]
    refine ⟨fun hc => h ((sortedFilenames_nil _ _ _).1 hc), rfl, t, ht, fun f hf => ?_, hk⟩
    obtain ⟨g, hg, rfl⟩ := (mem_sortedFilenames _ _ _ _).1 hf
    have hnd : (∃ c ∈ t.toList, c.isDigit = false) ∧ ∀ c ∈ t.toList, isWordChar c = true := by
      rcases ht with rfl | rfl
      · exact ⟨⟨'z', by decide, by decide⟩, by decide⟩
      · exact ⟨⟨'m', by decide, by decide⟩, by decide⟩
    rw [C106_extension _ _ hnd.1]
    have hsuf := (List.mem_filter.1 hg).2
    rw [List.isSuffixOf_iff_suffix, hch] at hsuf
    obtain ⟨stem, w, hgl, hlow, hw⟩ := map_toLower_suffix _ _ hsuf hnd.2
    refine ⟨(path ++ "/").toList ++ stem, w, [], hlow, hw, ?_, Or.inl rfl⟩
    rw [String.toList_append, hgl]
    simp
  · exact List.perm_insertionSort _ _
  · exact List.pairwise_insertionSort _ _

/-- C106. Of a directory the `.znc` files are read, or the `.mmclx` files if there is none of the former, in alphabetical
order and none left out; other files do not matter. Without any there is an error. -/
theorem C106_directory (path : String) (listing : List String) :
    (∀ t, t = "znc" ∧ Spec.withEnding ".znc" listing ≠ [] ∨
        t = "mmclx" ∧ Spec.withEnding ".znc" listing = [] ∧ Spec.withEnding ".mmclx" listing ≠ [] →
      ∃ files keymap, miraInputFiles (.dir path listing) = .ok (files, keymap) ∧
        files.Perm ((Spec.withEnding ("." ++ t) listing).map fun f => path ++ "/" ++ f) ∧ files.Pairwise (· ≤ ·) ∧
        miraKeymap t = .ok keymap) ∧
    (Spec.withEnding ".znc" listing = [] → Spec.withEnding ".mmclx" listing = [] →
      ∃ e, miraInputFiles (.dir path listing) = .error e) := by
  have hz := sortedFilenames_nil path listing ".znc"
  have key1 := fromList_sorted path listing ".znc" "znc" (Or.inl rfl) (by decide)
  have key2 := fromList_sorted path listing ".mmclx" "mmclx" (Or.inr rfl) (by decide)
  have hrun : miraInputFiles (.dir path listing) = miraInputFiles.fromList
      (if sortedFilenames path listing ".znc" = [] then sortedFilenames path listing ".mmclx"
        else sortedFilenames path listing ".znc") := rfl
  have e1 : "." ++ "znc" = ".znc" := by decide
  have e2 : "." ++ "mmclx" = ".mmclx" := by decide
  refine ⟨?_, fun h1 h2 => ?_⟩
  · rintro t (⟨rfl, h⟩ | ⟨rfl, h, h'⟩)
    · rw [hrun, if_neg (fun hc => h (hz.1 hc)), e1]; exact key1.2 h
    · rw [hrun, if_pos (hz.2 h), e2]; exact key2.2 h'
  · rw [hrun, if_pos (hz.2 h1)]; exact key2.1 h2

example : (miraInputFiles (.dir "d" ["x.mmclx", "B.ZNC", "a.znc", "c.znc.1", "notes"])).toOption.map Prod.fst =
    some ["d/B.ZNC", "d/a.znc"] := by decide +kernel

/-- C106, a finding. A numbered file is read if it is in a list, but is skipped in a directory. -/
theorem C106_numbered_file_skipped :
    (miraInputFiles (.files ["d/a.znc", "d/c.znc.1"])).toOption.map Prod.fst = some ["d/a.znc", "d/c.znc.1"] ∧
    (miraInputFiles (.dir "d" ["a.znc", "c.znc.1"])).toOption.map Prod.fst = some ["d/a.znc"] := by decide +kernel

/-! ## C107: variables of a MIRA file -/

/-- C107. Every variable of the output is the last one of the names given for it that is in the file; other variables of
the file are not used. -/
theorem C107_last {β : Type} (keymap : List (String × String)) (vars : List (String × β)) (name : String) :
    (initData keymap vars).lookup name =
      ((keymap.filter fun kn => kn.2 == name).filterMap fun kn => vars.lookup kn.1).getLast? := by
  have h : ∀ (l : List (String × String)) (d : List (String × β)),
      (l.foldl (initStep vars) d).lookup name =
        (((l.filter fun kn => kn.2 == name).filterMap fun kn => vars.lookup kn.1).getLast?).or (d.lookup name) := by
    intro l
    induction l with
    | nil => intro d; simp
    | cons kn l ih =>
      intro d
      rw [List.foldl_cons, ih]
      unfold initStep
      cases hv : vars.lookup kn.1 with
      | none =>
        by_cases hn : (kn.2 == name) = true
        · rw [List.filter_cons, if_pos hn, List.filterMap_cons, hv]
        · rw [List.filter_cons, if_neg hn]
      | some a =>
        dsimp only
        rw [lookup_dictSet]
        by_cases hn : (kn.2 == name) = true
        · rw [List.filter_cons, if_pos hn, List.filterMap_cons, hv, List.getLast?_cons, if_pos (beq_iff_eq.1 hn).symm]
          cases ((l.filter fun kn => kn.2 == name).filterMap fun kn => vars.lookup kn.1).getLast? <;> rfl
        · rw [List.filter_cons, if_neg hn, if_neg fun h => hn (beq_iff_eq.2 h.symm)]
  rw [initData, h]
  simp

/-- C107. In the newer files the variable of the co-polarised channel (`...h2l`) is used, or else the global one; in the older
files `Zg`, or else `Ze`. Nothing but the listed variables is used. -/
theorem C107_names {β : Type} (vars : List (String × β)) :
    (∀ keymap, miraKeymap "znc" = .ok keymap →
      (initData keymap vars).lookup "Zh" = (vars.lookup "Zh2l").or (vars.lookup "Zg") ∧
      (initData keymap vars).lookup "v" = (vars.lookup "VELh2l").or (vars.lookup "VELg") ∧
      (initData keymap vars).lookup "width" = (vars.lookup "RMSh2l").or (vars.lookup "RMSg") ∧
      (initData keymap vars).lookup "ldr" = (vars.lookup "LDRh2l").or (vars.lookup "LDRg") ∧
      (initData keymap vars).lookup "SNR" = (vars.lookup "SNRh2l").or (vars.lookup "SNRg")) ∧
    (∀ keymap, miraKeymap "mmclx" = .ok keymap →
      (initData keymap vars).lookup "Zh" = (vars.lookup "Zg").or (vars.lookup "Ze") ∧
      (initData keymap vars).lookup "v" = vars.lookup "VELg" ∧
      (initData keymap vars).lookup "width" = vars.lookup "RMSg" ∧
      (initData keymap vars).lookup "ldr" = vars.lookup "LDRg" ∧
      (initData keymap vars).lookup "SNR" = vars.lookup "SNRg") ∧
    ∀ t, t = "znc" ∨ t = "mmclx" → ∀ keymap, miraKeymap t = .ok keymap →
      (initData keymap vars).lookup "elevation" = vars.lookup "elv" ∧
      (initData keymap vars).lookup "azimuth_angle" = vars.lookup "azi" ∧
      (initData keymap vars).lookup "nfft" = vars.lookup "nfft" ∧
      (initData keymap vars).lookup "nave" = vars.lookup "nave" ∧
      (initData keymap vars).lookup "prf" = vars.lookup "prf" ∧
      (initData keymap vars).lookup "rg0" = vars.lookup "rg0" ∧
      (initData keymap vars).lookup "nyquist_velocity" = vars.lookup "NyquistVelocity" ∧
      (initData keymap vars).lookup "tpow" = vars.lookup "tpow" ∧
      ∀ name, name ∉ ["Zh", "v", "width", "ldr", "SNR", "elevation", "azimuth_angle", "nfft", "nave", "prf", "rg0",
        "nyquist_velocity", "tpow"] → (initData keymap vars).lookup name = none := by
  have two : ∀ a b : Option β, ([a, b].filterMap id).getLast? = b.or a := by
    intro a b; cases a <;> cases b <;> rfl
  have one : ∀ a : Option β, ([a].filterMap id).getLast? = a := by intro a; cases a <;> rfl
  have hmap : ∀ l : List (String × String), (l.filterMap fun kn => vars.lookup kn.1) =
      (l.map fun kn => vars.lookup kn.1).filterMap id := by
    intro l; rw [List.filterMap_map]; rfl
  have sel : ∀ (keymap sub : List (String × String)) (name : String),
      (keymap.filter fun kn => kn.2 == name) = sub →
      (initData keymap vars).lookup name = ((sub.map fun kn => vars.lookup kn.1).filterMap id).getLast? := by
    intro keymap sub name h
    rw [C107_last, h, hmap]
  refine ⟨fun keymap hk => ?_, fun keymap hk => ?_, fun t ht keymap hk => ?_⟩
  · have hk := Except.ok.inj hk
    subst hk
    refine ⟨?_, ?_, ?_, ?_, ?_⟩
    · exact (sel _ [("Zg", "Zh"), ("Zh2l", "Zh")] _ (by decide)).trans (two _ _)
    · exact (sel _ [("VELg", "v"), ("VELh2l", "v")] _ (by decide)).trans (two _ _)
    · exact (sel _ [("RMSg", "width"), ("RMSh2l", "width")] _ (by decide)).trans (two _ _)
    · exact (sel _ [("LDRg", "ldr"), ("LDRh2l", "ldr")] _ (by decide)).trans (two _ _)
    · exact (sel _ [("SNRg", "SNR"), ("SNRh2l", "SNR")] _ (by decide)).trans (two _ _)
  · have hk := Except.ok.inj hk
    subst hk
    refine ⟨?_, ?_, ?_, ?_, ?_⟩
    · exact (sel _ [("Ze", "Zh"), ("Zg", "Zh")] _ (by decide)).trans (two _ _)
    · exact (sel _ [("VELg", "v")] _ (by decide)).trans (one _)
    · exact (sel _ [("RMSg", "width")] _ (by decide)).trans (one _)
    · exact (sel _ [("LDRg", "ldr")] _ (by decide)).trans (one _)
    · exact (sel _ [("SNRg", "SNR")] _ (by decide)).trans (one _)
  · have hnames : ∀ kn ∈ keymap, kn.2 ∈ ["Zh", "v", "width", "ldr", "SNR", "elevation", "azimuth_angle", "nfft", "nave",
        "prf", "rg0", "nyquist_velocity", "tpow"] := by
      rcases ht with rfl | rfl <;> · have hk := Except.ok.inj hk; subst hk; decide
    refine ⟨?_, ?_, ?_, ?_, ?_, ?_, ?_, ?_, fun name hn => ?_⟩
    pick_goal 9
    · rw [C107_last, List.filter_eq_nil_iff.2]
      · rfl
      · intro kn hkn heq
        rw [beq_iff_eq] at heq
        exact hn (heq ▸ hnames kn hkn)
    · refine (sel _ [("elv", "elevation")] _ ?_).trans (one _)
      rcases ht with rfl | rfl <;> · have hk := Except.ok.inj hk; subst hk; decide
    · refine (sel _ [("azi", "azimuth_angle")] _ ?_).trans (one _)
      rcases ht with rfl | rfl <;> · have hk := Except.ok.inj hk; subst hk; decide
    · refine (sel _ [("nfft", "nfft")] _ ?_).trans (one _)
      rcases ht with rfl | rfl <;> · have hk := Except.ok.inj hk; subst hk; decide
    · refine (sel _ [("nave", "nave")] _ ?_).trans (one _)
      rcases ht with rfl | rfl <;> · have hk := Except.ok.inj hk; subst hk; decide
    · refine (sel _ [("prf", "prf")] _ ?_).trans (one _)
      rcases ht with rfl | rfl <;> · have hk := Except.ok.inj hk; subst hk; decide
    · refine (sel _ [("rg0", "rg0")] _ ?_).trans (one _)
      rcases ht with rfl | rfl <;> · have hk := Except.ok.inj hk; subst hk; decide
    · refine (sel _ [("NyquistVelocity", "nyquist_velocity")] _ ?_).trans (one _)
      rcases ht with rfl | rfl <;> · have hk := Except.ok.inj hk; subst hk; decide
    · refine (sel _ [("tpow", "tpow")] _ ?_).trans (one _)
      rcases ht with rfl | rfl <;> · have hk := Except.ok.inj hk; subst hk; decide

example : (miraKeymap "znc").toOption.map (fun k => initData k [("Zg", 1), ("VELh2l", 2), ("VELg", 3), ("x", 4)]) =
    some [("Zh", 1), ("v", 2)] := by decide +kernel

/-! The header of a file -/

/-- One line of the header. -/
theorem hrdLine (key rest l : List Char) (hkey : ':' ∉ key) (hl : l = key ++ ':' :: rest) :
    l.contains ':' = true ∧ l.takeWhile (fun c => decide (c ≠ ':')) = key ∧
      (l.dropWhile fun c => decide (c ≠ ':')).drop 1 = rest := by
  subst hl
  have hk : ∀ c ∈ key, decide (c ≠ ':') = true := fun c hc => by
    rw [decide_eq_true_eq]
    rintro rfl
    exact hkey hc
  refine ⟨by simp, ?_, ?_⟩
  · rw [List.takeWhile_append_of_pos hk]; simp
  · rw [List.dropWhile_append_of_pos hk]; simp

theorem hrdLine_split (l : List Char) (h : l.contains ':' = true) :
    ':' ∉ l.takeWhile (fun c => decide (c ≠ ':')) ∧
    l = l.takeWhile (fun c => decide (c ≠ ':')) ++ ':' :: (l.dropWhile fun c => decide (c ≠ ':')).drop 1 := by
  induction l with
  | nil => simp at h
  | cons c l ih =>
    by_cases hc : c = ':'
    · subst hc; simp
    · have hl : l.contains ':' = true := by
        rw [List.contains_cons] at h
        simpa [Ne.symm hc] using h
      have := ih hl
      simp only [List.takeWhile_cons, List.dropWhile_cons, hc, ne_eq, not_false_eq_true, decide_true, if_true,
        List.mem_cons, not_or, List.cons_append]
      exact ⟨⟨Ne.symm hc, this.1⟩, by rw [← this.2]⟩

/-- C107. The header of a file gives for a key what follows the colon in the last line that starts with the key and a
colon, without surrounding white space. -/
theorem C107_header (lines : List (List Char)) (hne : lines ≠ []) (hnl : ∀ l ∈ lines, '\n' ∉ l) (key value : String) :
    (readHrd (String.ofList (List.intercalate ['\n'] lines))).lookup key = some value ↔
      ':' ∉ key.toList ∧ ∃ before rest after, lines = before ++ (key.toList ++ ':' :: rest) :: after ∧
        pyStrip (String.ofList rest) = value ∧ ∀ l ∈ after, ¬ key.toList ++ [':'] <+: l := by
  unfold readHrd splitChar
  rw [String.toList_ofList, List.splitOn_intercalate _ hnl hne]
  clear hne hnl
  induction lines using List.reverseRecOn with
  | nil => simp
  | append_singleton lines l ih =>
    rw [List.map_append, List.filter_append, List.foldl_append]
    by_cases hc : l.contains ':' = true
    · obtain ⟨hk, hl⟩ := hrdLine_split l hc
      have hf : (List.map String.ofList [l]).filter (fun l => l.toList.contains ':') = [String.ofList l] := by
        simp only [List.map_cons, List.map_nil, List.filter_cons, String.toList_ofList, hc, if_true, List.filter_nil]
      rw [hf, List.foldl_cons, List.foldl_nil, lookup_dictSet, String.toList_ofList]
      generalize hk' : l.takeWhile (fun c => decide (c ≠ ':')) = k at hk hl
      generalize hr' : (l.dropWhile fun c => decide (c ≠ ':')).drop 1 = r at hl
      by_cases he : key = String.ofList k
      · rw [if_pos he]
        have hek : key.toList = k := by rw [he, String.toList_ofList]
        rw [hek]
        constructor
        · intro h
          exact ⟨hk, lines, r, [], by rw [hl], by simpa using h, by simp⟩
        · rintro ⟨-, before, rest, after, h1, h2, h3⟩
          rcases List.eq_nil_or_concat after with ha | ⟨after', x, ha⟩
          · subst ha
            have h4 := (List.append_inj' h1 rfl).2
            rw [List.cons.injEq] at h4
            have := (hrdLine k rest l hk h4.1).2.2
            rw [hr'] at this
            rw [this, h2]
          · subst ha
            exfalso
            have h4 : lines ++ [l] = (before ++ (k ++ ':' :: rest) :: after') ++ [x] := by
              rw [h1]; simp
            have h5 := (List.append_inj' h4 rfl).2
            rw [List.cons.injEq] at h5
            refine h3 x (by simp) ?_
            rw [← h5.1, hl]
            exact ⟨r, by simp⟩
      · rw [if_neg he, ih]
        have hnp : ':' ∉ key.toList → ¬ key.toList ++ [':'] <+: l := by
          rintro hkey ⟨t, ht⟩
          have := (hrdLine key.toList t l hkey (by rw [← ht]; simp)).2.1
          rw [hk'] at this
          exact he (by rw [this, String.ofList_toList])
        refine and_congr_right fun hkey => ?_
        constructor
        · rintro ⟨before, rest, after, h1, h2, h3⟩
          refine ⟨before, rest, after ++ [l], by rw [h1]; simp, h2, ?_⟩
          intro x hx
          rcases List.mem_append.1 hx with hx | hx
          · exact h3 x hx
          · rw [List.mem_singleton.1 hx]; exact hnp hkey
        · rintro ⟨before, rest, after, h1, h2, h3⟩
          rcases List.eq_nil_or_concat after with ha | ⟨after', x, ha⟩
          · subst ha
            exfalso
            have h4 := (List.append_inj' h1 rfl).2
            rw [List.cons.injEq] at h4
            exact hnp hkey ⟨rest, by rw [h4.1]; simp⟩
          · subst ha
            have h4 : lines ++ [l] = (before ++ (key.toList ++ ':' :: rest) :: after') ++ [x] := by
              rw [h1]; simp
            exact ⟨before, rest, after', (List.append_inj' h4 rfl).1, h2, fun y hy => h3 y (by simp [hy])⟩
    · have hf : (List.map String.ofList [l]).filter (fun l => l.toList.contains ':') = [] := by
        simp only [List.map_cons, List.map_nil, List.filter_cons, String.toList_ofList, hc, if_false, List.filter_nil]
        rfl
      rw [hf, List.foldl_nil, ih]
      refine and_congr_right fun hkey => ?_
      have hnp : ∀ rest, l ≠ key.toList ++ ':' :: rest := by
        rintro rest rfl
        exact hc (by simp)
      constructor
      · rintro ⟨before, rest, after, h1, h2, h3⟩
        refine ⟨before, rest, after ++ [l], by rw [h1]; simp, h2, ?_⟩
        intro x hx
        rcases List.mem_append.1 hx with hx | hx
        · exact h3 x hx
        · rw [List.mem_singleton.1 hx]
          rintro ⟨t, ht⟩
          exact hnp t (by rw [← ht]; simp)
      · rintro ⟨before, rest, after, h1, h2, h3⟩
        rcases List.eq_nil_or_concat after with ha | ⟨after', x, ha⟩
        · subst ha
          exfalso
          have h4 := (List.append_inj' h1 rfl).2
          rw [List.cons.injEq] at h4
          exact hnp rest h4.1
        · subst ha
          have h4 : lines ++ [l] = (before ++ (key.toList ++ ':' :: rest) :: after') ++ [x] := by
            rw [h1]; simp
          exact ⟨before, rest, after', (List.append_inj' h4 rfl).1, h2, fun y hy => h3 y (by simp [hy])⟩

example : (readHrd "DESCR: data\nXMT:  35.5E9 \nNOTE 1\nXMT: 35.1E9").lookup "XMT" = some "35.1E9" := by decide +kernel

end Cloudnet
