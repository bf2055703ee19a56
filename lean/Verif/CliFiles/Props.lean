import Verif.CliFiles.Model
import Verif.CliRun.Props
import Verif.EpsLidar.Props
import Mathlib.Tactic

namespace Cloudnet

variable {γ : Type}

namespace Spec

/-- The name of a compressed file ends with the suffix `.gz`; the rest is the name of the decompressed file. -/
def Unpacks (name stem : String) : Prop := name = stem ++ ".gz" ∧ stem ≠ ""

/-- No two files have the same name, and decompressed files have names of their own. -/
structure NamesApart (names : List String) : Prop where
  nodup : names.Nodup
  fresh : ∀ n ∈ names, ∀ stem, Unpacks n stem → stem ∉ names
  once : ∀ n ∈ names, ∀ m ∈ names, ∀ stem, Unpacks n stem → Unpacks m stem → n = m

/-- The name of the file that is used, and its content. -/
def Unpacked (w : RawTools γ) (f g : String × γ) : Prop :=
  Unpacks f.1 g.1 ∧ g.2 = (w.gunzip f.2).1 ∨ (∀ stem, ¬ Unpacks f.1 stem) ∧ g = f

/-- The client keeps an existing file only if it is the file of the portal; or files are removed before. -/
def FreshDownload (w : RawTools γ) (r : RawRun γ) : Prop := r.force = true ∨ ∀ old new, w.keep old new = true → old = new

/-- All compressed files are complete. -/
def Complete (w : RawTools γ) (r : RawRun γ) : Prop := ∀ f ∈ r.files, ∀ stem, Unpacks f.1 stem → (w.gunzip f.2).2 = true

end Spec

theorem gzStem_iff (name stem : String) : gzStem name = some stem ↔ Spec.Unpacks name stem := by
  unfold gzStem Spec.Unpacks
  constructor
  · intro h
    split at h
    · rename_i hc
      obtain ⟨⟨p, hp⟩, hl⟩ := hc
      have hlen : name.toList.length = p.length + 3 := by rw [← hp]; simp
      rw [hlen] at h hl
      rw [← hp] at h
      simp only [Nat.add_sub_cancel, List.take_left, Option.some.injEq] at h
      subst h
      refine ⟨?_, ?_⟩
      · apply String.toList_injective
        rw [String.toList_append, String.toList_ofList, hp]
      · intro h0
        have := congrArg String.toList h0
        rw [String.toList_ofList] at this
        rw [this] at hl
        simp at hl
    · cases h
  · rintro ⟨rfl, h0⟩
    have hne : stem.toList ≠ [] := by
      intro h
      exact h0 (String.toList_injective (by rw [h]; rfl))
    have hpos := List.length_pos_iff.2 hne
    have h3 : ".gz".toList.length = 3 := by decide
    rw [if_pos]
    · congr 1
      apply String.toList_injective
      rw [String.toList_ofList, String.toList_append, List.length_append, h3, Nat.add_sub_cancel, List.take_left]
    · refine ⟨?_, ?_⟩
      · rw [String.toList_append]; exact List.suffix_append _ _
      · rw [String.toList_append, List.length_append, h3]; omega

theorem gzStem_none (name : String) : gzStem name = none ↔ ∀ stem, ¬ Spec.Unpacks name stem := by
  rw [Option.eq_none_iff_forall_ne_some]
  exact forall_congr' fun stem => (gzStem_iff name stem).not

theorem download_other (w : RawTools γ) (files : List (String × γ)) (d : RawFolder γ) (q : String) (h : q ∉ files.map Prod.fst) :
    (files.foldl (downloadFile w) d) q = d q := by
  induction files generalizing d with
  | nil => rfl
  | cons f l ih =>
    simp only [List.map_cons, List.mem_cons, not_or] at h
    rw [List.foldl_cons, ih _ h.2]
    simp [downloadFile, h.1]

theorem download_mem (w : RawTools γ) (files : List (String × γ)) (hnd : (files.map Prod.fst).Nodup) (d : RawFolder γ)
    (f : String × γ) (hf : f ∈ files) (hk : ∀ old, d f.1 = some old → w.keep old f.2 = true → old = f.2) :
    (files.foldl (downloadFile w) d) f.1 = some f.2 := by
  induction files generalizing d with
  | nil => cases hf
  | cons g l ih =>
    rw [List.map_cons, List.nodup_cons] at hnd
    rw [List.foldl_cons]
    rcases List.mem_cons.1 hf with rfl | hf
    · rw [download_other w l _ _ hnd.1]
      unfold downloadFile
      rw [if_pos rfl]
      cases hd : d f.1 with
      | none => rfl
      | some old =>
        dsimp only
        split
        · rw [hk old hd ‹_›]
        · rfl
    · have hne : f.1 ≠ g.1 := by
        intro h
        exact hnd.1 (h ▸ List.mem_map_of_mem hf)
      apply ih hnd.2 _ hf
      intro old ho
      apply hk old
      simpa [downloadFile, hne] using ho

/-- Files after the download. -/
theorem fetchRaw_spec (w : RawTools γ) (r : RawRun γ) (hnd : (r.files.map Prod.fst).Nodup) (hk : Spec.FreshDownload w r) (d : RawFolder γ) :
    (∀ f ∈ r.files, fetchRaw w r.force r.files d f.1 = some f.2) ∧ ∀ q, q ∉ r.files.map Prod.fst → fetchRaw w r.force r.files d q = d q := by
  constructor
  · intro f hf
    apply download_mem w r.files hnd _ f hf
    intro old ho hkeep
    rcases hk with hforce | hk
    · rw [if_pos hforce] at ho
      unfold removeFiles at ho
      rw [if_pos (List.mem_map_of_mem hf)] at ho
      cases ho
    · exact hk old _ hkeep
  · intro q hq
    unfold fetchRaw
    rw [download_other w _ _ _ hq]
    split
    · simp [removeFiles, hq]
    · rfl

theorem unzip_spec (w : RawTools γ) (names : List String) (hn : Spec.NamesApart names) (d : RawFolder γ) (hd : ∀ n ∈ names, ∃ c, d n = some c)
    (hc : ∀ n ∈ names, ∀ stem c, gzStem n = some stem → d n = some c → (w.gunzip c).2 = true) :
    (unzipFiles w d names).2 = .ok (names.map fun n => (gzStem n).getD n) ∧
      (∀ n ∈ names, ∀ stem c, gzStem n = some stem → d n = some c → (unzipFiles w d names).1 stem = some (w.gunzip c).1) ∧
      ∀ q, (∀ n ∈ names, gzStem n ≠ some q) → (unzipFiles w d names).1 q = d q := by
  induction names generalizing d with
  | nil => exact ⟨rfl, (fun _ h => absurd h List.not_mem_nil), fun _ _ => rfl⟩
  | cons n l ih =>
    have hl : Spec.NamesApart l :=
      ⟨(List.nodup_cons.1 hn.nodup).2, fun m hm s hs => fun h => hn.fresh m (List.mem_cons_of_mem _ hm) s hs (List.mem_cons_of_mem _ h),
        fun a ha b hb => hn.once a (List.mem_cons_of_mem _ ha) b (List.mem_cons_of_mem _ hb)⟩
    have hnl := (List.nodup_cons.1 hn.nodup).1
    cases hg : gzStem n with
    | none =>
      obtain ⟨h1, h2, h3⟩ := ih hl d (fun m hm => hd m (List.mem_cons_of_mem _ hm)) fun m hm => hc m (List.mem_cons_of_mem _ hm)
      have hu : unzipFiles w d (n :: l) = ((unzipFiles w d l).1, .ok (n :: l.map fun n => (gzStem n).getD n)) := by
        rw [unzipFiles, unzipFile, hg]
        dsimp only
        rcases hx : unzipFiles w d l with ⟨d', e⟩
        rw [hx] at h1
        dsimp only at h1
        subst h1
        rfl
      rw [hu]
      refine ⟨by simp [hg], ?_, ?_⟩
      · intro m hm stem c hs hdm
        rcases List.mem_cons.1 hm with rfl | hm
        · rw [hg] at hs; cases hs
        · exact h2 m hm stem c hs hdm
      · intro q hq
        exact h3 q fun m hm => hq m (List.mem_cons_of_mem _ hm)
    | some stem =>
      obtain ⟨c, hdc⟩ := hd n (by simp)
      have hok := hc n (by simp) stem c hg hdc
      have hsl : stem ∉ n :: l := hn.fresh n (by simp) stem ((gzStem_iff _ _).1 hg)
      set d' : RawFolder γ := fun q => if q = stem then some (w.gunzip c).1 else d q with hd'
      have hdl : ∀ m ∈ l, d' m = d m := by
        intro m hm
        have : m ≠ stem := fun h => hsl (h ▸ List.mem_cons_of_mem _ hm)
        simp [hd', this]
      obtain ⟨h1, h2, h3⟩ := ih hl d' (fun m hm => by rw [hdl m hm]; exact hd m (List.mem_cons_of_mem _ hm))
        (fun m hm s c' hs hdm => hc m (List.mem_cons_of_mem _ hm) s c' hs (by rw [← hdl m hm]; exact hdm))
      have hu : unzipFiles w d (n :: l) = ((unzipFiles w d' l).1, .ok (stem :: l.map fun n => (gzStem n).getD n)) := by
        rw [unzipFiles, unzipFile, hg]
        dsimp only
        rw [hdc]
        dsimp only
        rw [hok, if_pos rfl]
        dsimp only
        rcases hx : unzipFiles w d' l with ⟨d'', e⟩
        rw [hx] at h1
        dsimp only at h1
        subst h1
        rfl
      rw [hu]
      refine ⟨by simp [hg], ?_, ?_⟩
      · intro m hm s c' hs hdm
        rcases List.mem_cons.1 hm with rfl | hm
        · rw [hg] at hs; cases hs
          rw [hdc] at hdm; cases hdm
          dsimp only
          rw [h3 stem]
          · simp [hd']
          · intro m' hm' hs'
            have := hn.once m (by simp) m' (List.mem_cons_of_mem _ hm') stem ((gzStem_iff _ _).1 hg) ((gzStem_iff _ _).1 hs')
            exact hnl (this ▸ hm')
        · exact h2 m hm s c' hs (by rw [hdl m hm]; exact hdm)
      · intro q hq
        dsimp only
        rw [h3 q fun m hm => hq m (List.mem_cons_of_mem _ hm)]
        have : q ≠ stem := fun h => hq n (by simp) (h ▸ hg)
        simp [hd', this]

/-- What the folder has after downloading and decompressing, whatever it had before. -/
theorem prepare_spec (w : RawTools γ) (r : RawRun γ) (hn : Spec.NamesApart (r.files.map Prod.fst)) (hk : Spec.FreshDownload w r)
    (hc : Spec.Complete w r) (d : RawFolder γ) :
    (r.prepare w d).2 = .ok (r.files.map fun f => (gzStem f.1).getD f.1) ∧
      (∀ f ∈ r.files, (r.prepare w d).1 f.1 = some f.2) ∧
      (∀ f ∈ r.files, ∀ stem, gzStem f.1 = some stem → (r.prepare w d).1 stem = some (w.gunzip f.2).1) ∧
      ∀ q, q ∉ r.files.map Prod.fst → (∀ f ∈ r.files, gzStem f.1 ≠ some q) → (r.prepare w d).1 q = d q := by
  obtain ⟨h1, h2⟩ := fetchRaw_spec w r hn.nodup hk d
  have hmem : ∀ n ∈ r.files.map Prod.fst, ∃ f ∈ r.files, f.1 = n := by
    intro n hn
    obtain ⟨f, hf, rfl⟩ := List.mem_map.1 hn
    exact ⟨f, hf, rfl⟩
  obtain ⟨u1, u2, u3⟩ := unzip_spec w (r.files.map Prod.fst) hn (fetchRaw w r.force r.files d)
    (fun n hn => by obtain ⟨f, hf, rfl⟩ := hmem n hn; exact ⟨f.2, h1 f hf⟩)
    (fun n hn stem c hs hd => by
      obtain ⟨f, hf, rfl⟩ := hmem n hn
      rw [h1 f hf] at hd
      cases hd
      exact hc f hf stem ((gzStem_iff _ _).1 hs))
  refine ⟨?_, ?_, ?_, ?_⟩
  · unfold RawRun.prepare
    rw [u1, List.map_map]
    rfl
  · intro f hf
    unfold RawRun.prepare
    rw [u3 f.1, h1 f hf]
    intro n hn' hs
    exact hn.fresh n hn' f.1 ((gzStem_iff _ _).1 hs) (List.mem_map_of_mem hf)
  · intro f hf stem hs
    exact u2 f.1 (List.mem_map_of_mem hf) stem f.2 hs (h1 f hf)
  · intro q hq hq'
    unfold RawRun.prepare
    rw [u3 q, h2 q hq]
    intro n hn' hs
    obtain ⟨f, hf, rfl⟩ := hmem n hn'
    exact hq' f hf hs

/-! ### Raw files -/

/-- **C161.** Whatever is in the folder, from whatever runs before, finished or not: the files that are used are those of the portal, one for each
in the same order, decompressed. -/
theorem C161_files (w : RawTools γ) (r : RawRun γ) (hn : Spec.NamesApart (r.files.map Prod.fst)) (hk : Spec.FreshDownload w r)
    (hc : Spec.Complete w r) (d : RawFolder γ) :
    ∃ used : List (String × γ), List.Forall₂ (Spec.Unpacked w) r.files used ∧ (r.prepare w d).2 = .ok (used.map Prod.fst) ∧
      ∀ g ∈ used, (r.prepare w d).1 g.1 = some g.2 := by
  obtain ⟨h1, h2, h3, -⟩ := prepare_spec w r hn hk hc d
  refine ⟨r.files.map fun f => match gzStem f.1 with | none => f | some s => (s, (w.gunzip f.2).1), ?_, ?_, ?_⟩
  · rw [List.forall₂_map_right_iff, List.forall₂_same]
    intro f _
    cases hs : gzStem f.1 with
    | none => exact Or.inr ⟨(gzStem_none _).1 hs, rfl⟩
    | some s => exact Or.inl ⟨(gzStem_iff _ _).1 hs, rfl⟩
  · rw [h1, List.map_map]
    congr 2
    funext f
    dsimp only [Function.comp]
    cases gzStem f.1 <;> rfl
  · intro g hg
    obtain ⟨f, hf, rfl⟩ := List.mem_map.1 hg
    cases hs : gzStem f.1 with
    | none => exact h2 f hf
    | some s => exact h3 f hf s hs

/-- **C161.** Nothing else in the folder changes: a name that is neither that of a file of the portal nor of a decompressed one has the same content as before. -/
theorem C161_others (w : RawTools γ) (r : RawRun γ) (hn : Spec.NamesApart (r.files.map Prod.fst)) (hk : Spec.FreshDownload w r)
    (hc : Spec.Complete w r) (d : RawFolder γ) (q : String) (hq : ∀ f ∈ r.files, f.1 ≠ q ∧ ¬ Spec.Unpacks f.1 q) : (r.prepare w d).1 q = d q := by
  obtain ⟨-, -, -, h⟩ := prepare_spec w r hn hk hc d
  apply h
  · intro hm
    obtain ⟨f, hf, rfl⟩ := List.mem_map.1 hm
    exact (hq f hf).1 rfl
  · intro f hf hs
    exact (hq f hf).2 ((gzStem_iff _ _).1 hs)

/-- The readers that are given a folder instead of files. -/
def Spec.FolderReader (reader : String) : Prop := reader ∈ ["rpg2nc", "hatpro2nc", "hatpro2l1c"]

/-- **C161, a finding.** Readers of folders (RPG radars and radiometers) also read files of earlier runs that the portal does not have any more, and those
that `--force-download` should replace if their names have changed: a file of the folder is read unless a file of the portal has its name. -/
theorem C161_folder_stale (w : RawTools γ) (reader id : String) (hr : Spec.FolderReader reader) (runs : List (RawRun γ))
    (hruns : ∀ r ∈ runs, Spec.NamesApart (r.files.map Prod.fst) ∧ Spec.FreshDownload w r ∧ Spec.Complete w r) (d : RawFolder γ)
    (q : String) (c : γ) (hq : d q = some c) (hother : ∀ r ∈ runs, ∀ f ∈ r.files, f.1 ≠ q ∧ ¬ Spec.Unpacks f.1 q) (names : List String) :
    ∃ input, readerInput w reader id (folderAfter w d runs) names = .ok input ∧ input.Reads (folderAfter w d runs) c := by
  have hin : readerInput w reader id (folderAfter w d runs) names = .ok .folder := by
    unfold readerInput
    rw [if_pos]
    simpa [Spec.FolderReader] using hr
  refine ⟨.folder, hin, q, ?_⟩
  unfold folderAfter
  induction runs generalizing d with
  | nil => exact hq
  | cons r l ih =>
    rw [List.foldl_cons]
    obtain ⟨h1, h2, h3⟩ := hruns r (by simp)
    apply ih (fun r' hr' => hruns r' (List.mem_cons_of_mem _ hr')) _ ?_ (fun r' hr' => hother r' (List.mem_cons_of_mem _ hr'))
    · unfold readerInput
      rw [if_pos]
      simpa [Spec.FolderReader] using hr
    · rw [C161_others w r h1 h2 h3 d q (hother r (by simp)), hq]

/-- **C161.** Nothing else is read from a folder: in a folder that was empty before the runs, each file is one of the portal at some run, or decompressed from one. -/
theorem C161_folder_origin (w : RawTools γ) (runs : List (RawRun γ))
    (hruns : ∀ r ∈ runs, Spec.NamesApart (r.files.map Prod.fst) ∧ Spec.FreshDownload w r ∧ Spec.Complete w r) (q : String) (c : γ)
    (h : folderAfter w (fun _ => none) runs q = some c) :
    ∃ r ∈ runs, ∃ f ∈ r.files, f = (q, c) ∨ Spec.Unpacks f.1 q ∧ c = (w.gunzip f.2).1 := by
  induction runs using List.reverseRecOn with
  | nil => cases h
  | append_singleton l r ih =>
    obtain ⟨h1, h2, h3⟩ := hruns r (by simp)
    unfold folderAfter at h
    rw [List.foldl_append, List.foldl_cons, List.foldl_nil] at h
    obtain ⟨-, p2, p3, -⟩ := prepare_spec w r h1 h2 h3 (l.foldl (fun d r => (r.prepare w d).1) fun _ => none)
    by_cases hq : ∀ f ∈ r.files, f.1 ≠ q ∧ ¬ Spec.Unpacks f.1 q
    · rw [C161_others w r h1 h2 h3 _ q hq] at h
      obtain ⟨r', hr', f, hf, hfq⟩ := ih (fun r' hr' => hruns r' (by simp [hr'])) h
      exact ⟨r', by simp [hr'], f, hf, hfq⟩
    · push Not at hq
      obtain ⟨f, hf, hfq⟩ := hq
      refine ⟨r, by simp, f, hf, ?_⟩
      by_cases hn : f.1 = q
      · left
        have := p2 f hf
        rw [hn, h] at this
        cases this
        rw [← hn]
      · right
        have hu := hfq hn
        refine ⟨hu, ?_⟩
        have := p3 f hf q ((gzStem_iff _ _).2 hu)
        rw [h] at this
        cases this
        rfl

/-- **C161.** The other readers get the files of the portal, decompressed, whatever is in the folder: as a list, or joined to a single file. -/
theorem C161_listed (w : RawTools γ) (reader id : String) (hr : ¬ Spec.FolderReader reader) (r : RawRun γ)
    (hn : Spec.NamesApart (r.files.map Prod.fst)) (hk : Spec.FreshDownload w r) (hc : Spec.Complete w r) (d : RawFolder γ) :
    ∃ used : List (String × γ), List.Forall₂ (Spec.Unpacked w) r.files used ∧ (r.prepare w d).2 = .ok (used.map Prod.fst) ∧
      readerInput w reader id (r.prepare w d).1 (used.map Prod.fst) =
        if reader = "basta2nc" then
          match used with
          | [g] => .ok (.single g.2)
          | _ => .error "ValueError: Multiple input files found"
        else if reader = "ceilo2nc" ∧ id = "cl61d" then (w.concat (used.map Prod.snd)).map .single
        else if reader = "thies2nc" ∨ reader = "ceilo2nc" then (concatenateRaw w (used.map Prod.snd)).map .single
        else .ok (.files (used.map Prod.fst)) := by
  obtain ⟨used, h1, h2, h3⟩ := C161_files w r hn hk hc d
  refine ⟨used, h1, h2, ?_⟩
  have hfm : (used.map Prod.fst).filterMap (r.prepare w d).1 = used.map Prod.snd := by
    clear h1 h2
    induction used with
    | nil => rfl
    | cons g l ih =>
      rw [List.map_cons, List.filterMap_cons, h3 g (by simp), ih fun g hg => h3 g (List.mem_cons_of_mem _ hg)]
      rfl
  unfold readerInput
  rw [if_neg (by simpa [Spec.FolderReader] using hr), hfm]
  by_cases hb : reader = "basta2nc"
  · rw [if_pos hb, if_pos hb]
    rcases used with _ | ⟨g, _ | ⟨g', l⟩⟩
    · rfl
    · have hg := h3 g (by simp)
      show (match (r.prepare w d).1 g.1 with
        | some c => Except.ok (RawInput.single c)
        | none => .error "FileNotFoundError") = _
      rw [hg]
    · rfl
  · rw [if_neg hb, if_neg hb]

/-- **C161.** Several files are joined as netCDF files, or as text if that gives an I/O error; a single one is used as it is. -/
theorem C161_joined (w : RawTools γ) (contents : List γ) (c : γ) :
    concatenateRaw w contents = .ok c ↔
      contents = [c] ∨ 1 < contents.length ∧ (w.concat contents = .ok c ∨ w.concat contents = .error "OSError" ∧ c = w.text contents) := by
  rcases contents with _ | ⟨a, _ | ⟨b, l⟩⟩
  · simp [concatenateRaw]
  · simp [concatenateRaw]
  · unfold concatenateRaw
    simp only [List.length_cons]
    cases hx : w.concat (a :: b :: l) with
    | ok c' => simp
    | error e =>
      by_cases he : e = "OSError"
      · simp [he, eq_comm]
      · simp [he]

/-- **C161, a finding.** A compressed and a decompressed file of the same name: the compressed one is used twice. -/
theorem C161_same_name (w : RawTools γ) (a b : γ) (hb : (w.gunzip b).2 = true) :
    ∃ d' : RawFolder γ, (RawRun.mk [("a.nc", a), ("a.nc.gz", b)] false).prepare w (fun _ => none) = (d', .ok ["a.nc", "a.nc"]) ∧
      d' "a.nc" = some (w.gunzip b).1 := by
  have e1 : gzStem "a.nc" = none := by decide +kernel
  have e2 : gzStem "a.nc.gz" = some "a.nc" := by decide +kernel
  have h : ((RawRun.mk [("a.nc", a), ("a.nc.gz", b)] false).prepare w (fun _ => none)).2 = .ok ["a.nc", "a.nc"] := by
    simp [RawRun.prepare, fetchRaw, downloadFile, unzipFiles, unzipFile, e1, e2, hb]
  refine ⟨_, Prod.ext rfl h, ?_⟩
  simp [RawRun.prepare, fetchRaw, downloadFile, unzipFiles, unzipFile, e1, e2, hb]

/-- **C161.** A compressed file that is not complete stops the run, at any place of the list. -/
theorem C161_damaged (w : RawTools γ) (r : RawRun γ) (hn : Spec.NamesApart (r.files.map Prod.fst)) (hk : Spec.FreshDownload w r)
    (f : String × γ) (hf : f ∈ r.files) (stem : String) (hs : Spec.Unpacks f.1 stem) (hbad : (w.gunzip f.2).2 = false) (d : RawFolder γ) :
    (r.prepare w d).2 = .error "EOFError" := by
  obtain ⟨h1, -⟩ := fetchRaw_spec w r hn.nodup hk d
  unfold RawRun.prepare
  generalize fetchRaw w r.force r.files d = d1 at h1
  have key : ∀ (l : List (String × γ)) (d1 : RawFolder γ), Spec.NamesApart (l.map Prod.fst) → f ∈ l → (∀ g ∈ l, d1 g.1 = some g.2) →
      (unzipFiles w d1 (l.map Prod.fst)).2 = .error "EOFError" := by
    intro l
    induction l with
    | nil => intro _ _ h; cases h
    | cons g l ih =>
      intro d1 hn hf hd
      have hl : Spec.NamesApart (l.map Prod.fst) :=
        ⟨(List.nodup_cons.1 hn.nodup).2, fun m hm s hs => fun h => hn.fresh m (List.mem_cons_of_mem _ hm) s hs (List.mem_cons_of_mem _ h),
          fun a ha b hb => hn.once a (List.mem_cons_of_mem _ ha) b (List.mem_cons_of_mem _ hb)⟩
      rw [List.map_cons, unzipFiles, unzipFile]
      cases hg : gzStem g.1 with
      | none =>
        have hfl : f ∈ l := by
          rcases List.mem_cons.1 hf with rfl | h
          · rw [(gzStem_iff _ _).2 hs] at hg; cases hg
          · exact h
        have := ih d1 hl hfl fun g hg => hd g (List.mem_cons_of_mem _ hg)
        dsimp only
        rcases hx : unzipFiles w d1 (l.map Prod.fst) with ⟨d', e⟩
        rw [hx] at this
        dsimp only at this
        subst this
        rfl
      | some s =>
        dsimp only
        rw [hd g (by simp)]
        dsimp only
        cases hgz : (w.gunzip g.2).2 with
        | false => rfl
        | true =>
          have hfl : f ∈ l := by
            rcases List.mem_cons.1 hf with rfl | h
            · rw [hbad] at hgz; cases hgz
            · exact h
          have hsl := hn.fresh g.1 (by simp) s ((gzStem_iff _ _).1 hg)
          have := ih (fun q => if q = s then some (w.gunzip g.2).1 else d1 q) hl hfl fun g' hg' => by
            have : g'.1 ≠ s := fun h => hsl (h ▸ List.mem_map_of_mem (List.mem_cons_of_mem _ hg'))
            simp [this, hd g' (List.mem_cons_of_mem _ hg')]
          rw [if_pos rfl]
          dsimp only
          rcases hx : unzipFiles w (fun q => if q = s then some (w.gunzip g.2).1 else d1 q) (l.map Prod.fst) with ⟨d', e⟩
          rw [hx] at this
          dsimp only at this
          subst this
          rfl
  exact key r.files d1 hn hf h1

/-- Two runs for a radiometer: the file of the first run, which the portal has replaced by one of another name, is read again. -/
example : let w : RawTools String := ⟨fun a b => a == b, fun c => (c ++ " decompressed", true), fun _ => .error "OSError", String.join⟩
    let d := folderAfter w (fun _ => none) [⟨[("230101.BRT.gz", "first")], false⟩, ⟨[("230101_v2.BRT", "second")], true⟩]
    d "230101.BRT" = some "first decompressed" ∧ d "230101_v2.BRT" = some "second" ∧ d "230101.BRT.gz" = some "first" := by
  decide +kernel

example : Spec.NamesApart ["230101.BRT.gz", "230101_v2.BRT"] := by
  have e : ∀ n stem, n ∈ ["230101.BRT.gz", "230101_v2.BRT"] → Spec.Unpacks n stem → n = "230101.BRT.gz" ∧ stem = "230101.BRT" := by
    intro n stem hn hs
    have h1 : gzStem "230101.BRT.gz" = some "230101.BRT" := by decide +kernel
    have h2 : gzStem "230101_v2.BRT" = none := by decide +kernel
    rw [← gzStem_iff] at hs
    simp only [List.mem_cons, List.not_mem_nil, or_false] at hn
    rcases hn with rfl | rfl
    · rw [h1] at hs; cases hs; exact ⟨rfl, rfl⟩
    · rw [h2] at hs; cases hs
  refine ⟨by decide, ?_, ?_⟩
  · intro n hn stem hs
    rw [(e n stem hn hs).2]
    decide
  · intro n hn m hm stem hs hs'
    rw [(e n stem hn hs).1, (e m stem hm hs').1]

/-! ### Checksums -/

theorem fileBlocks_flatten (size : ℕ) (hs : 0 < size) (bytes : List UInt8) : (fileBlocks size bytes).flatten = bytes := by
  induction h : bytes.length using Nat.strong_induction_on generalizing bytes with
  | _ n ih =>
    rw [fileBlocks]
    split
    · rename_i hc
      rcases hc with rfl | hc
      · rfl
      · omega
    · rename_i hc
      push Not at hc
      have hpos := List.length_pos_iff.2 hc.1
      rw [List.flatten_cons, ih (bytes.drop size).length (by rw [List.length_drop]; omega) _ rfl, List.take_append_drop]

/-- **C161.** The checksum of a file is that of its bytes, however large the file is; the blocks in which it is read do not matter. -/
theorem C161_checksum {σ δ : Type} (start : σ) (update : σ → UInt8 → σ) (digest : σ → δ) (bytes : List UInt8) :
    hashFile start update digest bytes = digest (bytes.foldl update start) := by
  unfold hashFile
  rw [← List.foldl_flatten, fileBlocks_flatten 4096 (by norm_num)]

/-- A sum as checksum, of more bytes than a block has. -/
example : hashFile (0 : ℕ) (fun s b => s + b.toNat) id (List.replicate 5000 1) = 5000 := by
  rw [C161_checksum]
  have : ∀ n s : ℕ, (List.replicate n (1 : UInt8)).foldl (fun s b => s + b.toNat) s = s + n := by
    intro n
    induction n with
    | zero => intro s; rfl
    | succ n ih =>
      intro s
      rw [List.replicate_succ, List.foldl_cons, ih]
      have : (1 : UInt8).toNat = 1 := rfl
      omega
  rw [this]
  simp

/-! ### Plots -/

/-- The text after the last hyphen. -/
def Spec.AfterHyphen (id name : String) : Prop := '-' ∉ name.toList ∧ (name = id ∨ ∃ before, id = before ++ "-" ++ name)

/-- **C161.** A figure is made only of a product that was made, and only on request; of the variables of the command line or else of those of the portal. An
image is written only with `--plot`. -/
theorem C161_plot (portal : List (String × List String)) (file : Option String) (product : String) (a : PlotArgs) (out : Option FigureCall)
    (h : plotProduct portal file product a = .ok out) :
    (out = none ↔ file = none ∨ (a.plot = false ∧ a.showFigure = false)) ∧
      ∀ call, out = some call → file = some call.file ∧ call.maxY = a.maxY ∧ (call.image = none ↔ a.plot = false) ∧
        (∀ names, a.names = some names → call.names = splitChar ',' names) ∧
        (a.names = none → ∃ ids, portal.lookup product = some ids ∧ List.Forall₂ Spec.AfterHyphen ids call.names) := by
  unfold plotProduct at h
  cases file with
  | none => cases h; simp
  | some f =>
    dsimp only at h
    by_cases hp : (!a.plot && !a.showFigure) = true
    · rw [if_pos hp] at h
      cases h
      simp only [Bool.and_eq_true, Bool.not_eq_eq_eq_not, Bool.not_true] at hp
      simp [hp.1, hp.2]
    · rw [if_neg hp] at h
      have hp' : ¬ (a.plot = false ∧ a.showFigure = false) := by
        rintro ⟨h1, h2⟩
        exact hp (by simp [h1, h2])
      have himg : ∀ x : String, (if a.plot = true then some x else none) = none ↔ a.plot = false := by
        intro x; cases a.plot <;> simp
      cases hn : a.names with
      | some names =>
        rw [hn] at h
        cases h
        refine ⟨by simp [hp'], ?_⟩
        intro call hcall
        cases hcall
        exact ⟨rfl, rfl, himg _, fun _ h => by cases h; rfl, fun h => by cases h⟩
      | none =>
        rw [hn] at h
        dsimp only at h
        cases hl : portal.lookup product with
        | none => rw [hl] at h; cases h
        | some ids =>
          rw [hl] at h
          cases h
          refine ⟨by simp [hp'], ?_⟩
          intro call hcall
          cases hcall
          refine ⟨rfl, rfl, himg _, (fun _ h => nomatch h), fun _ => ⟨ids, rfl, ?_⟩⟩
          rw [List.forall₂_map_right_iff, List.forall₂_same]
          intro id _
          by_cases hh : '-' ∈ id.toList
          · obtain ⟨x, y, hxy, hy⟩ : ∃ x y, id.toList = x ++ '-' :: y ∧ '-' ∉ y := by
              have : ∀ l : List Char, '-' ∈ l → ∃ x y, l = x ++ '-' :: y ∧ '-' ∉ y := by
                intro l hl
                induction l with
                | nil => cases hl
                | cons a l ih =>
                  by_cases hm : '-' ∈ l
                  · obtain ⟨x, y, rfl, hy⟩ := ih hm
                    exact ⟨a :: x, y, rfl, hy⟩
                  · rcases List.mem_cons.1 hl with rfl | h
                    · exact ⟨[], l, rfl, hm⟩
                    · exact absurd h hm
              exact this _ hh
            have hs : (splitChar '-' id).getLastD "" = String.ofList y := by
              unfold splitChar
              have hl := splitOn_last '-' x y hy
              rw [← hxy] at hl
              have hne : id.toList.splitOn '-' ≠ [] := List.splitOn_ne_nil _ _
              rw [List.getLastD_eq_getLast?, List.getLast?_map]
              rw [List.getLastD_eq_getLast?] at hl
              cases hg : (id.toList.splitOn '-').getLast? with
              | none => exact absurd (List.getLast?_eq_none_iff.1 hg) hne
              | some z => rw [hg] at hl; simp at hl; simp [hl]
            rw [hs]
            refine ⟨by simpa using hy, Or.inr ⟨String.ofList x, ?_⟩⟩
            apply String.toList_injective
            simp [hxy]
          · have hs : (splitChar '-' id).getLastD "" = id := by
              unfold splitChar
              rw [splitOn_none '-' _ hh]
              simp
            rw [hs]
            exact ⟨hh, Or.inl rfl⟩

/-- **C161.** The image is next to the file, with the suffix replaced, if `.nc` is nowhere else in the path. -/
theorem C161_image (portal : List (String × List String)) (base product : String) (hbase : ¬ ".nc".toList <:+: base.toList) (a : PlotArgs)
    (ha : a.plot = true) (call : FigureCall) (h : plotProduct portal (some (base ++ ".nc")) product a = .ok (some call)) :
    call.image = some (base ++ ".png") := by
  have hrep : textReplace (base ++ ".nc") ".nc" ".png" = base ++ ".png" := by
    unfold textReplace
    have hl : (base ++ ".nc").toList = base.toList ++ (".nc".toList ++ []) := by simp [String.toList_append]
    rw [hl, replaceFrom_once]
    · apply String.toList_injective
      simp [String.toList_append]
    · decide
    · intro i hi hpre
      rw [List.drop_append_of_le_length hi.le] at hpre
      have hlen : (base.toList.drop i).length = base.toList.length - i := by simp
      by_cases hk : 3 ≤ base.toList.length - i
      · apply hbase
        have : ".nc".toList <+: base.toList.drop i := by
          rw [List.prefix_iff_eq_take] at hpre ⊢
          rw [hpre]
          rw [List.take_append_of_le_length (by rw [hlen]; exact hk)]
          simp
        exact this.isInfix.trans (List.drop_suffix _ _).isInfix
      · obtain ⟨t, ht⟩ := hpre
        have h1 : (".nc".toList ++ t)[base.toList.length - i]? = (base.toList.drop i ++ ".nc".toList)[base.toList.length - i]? := by
          rw [ht]
        rw [List.getElem?_append_left (by simp; omega), List.getElem?_append_right (by rw [hlen]), hlen, Nat.sub_self] at h1
        have h0 : 0 < base.toList.length - i := by omega
        push Not at hk
        revert h1
        generalize base.toList.length - i = k at h0 hk
        interval_cases k <;> decide
    · decide
  unfold plotProduct at h
  dsimp only at h
  rw [ha] at h
  cases hn : a.names with
  | some names =>
    rw [hn] at h
    cases h
    simp [hrep]
  | none =>
    rw [hn] at h
    dsimp only at h
    cases hl : portal.lookup product with
    | none => rw [hl] at h; cases h
    | some ids =>
      rw [hl] at h
      cases h
      simp [hrep]

/-- **C161, a finding.** If `.nc` is elsewhere in the path, the image goes to another folder. -/
theorem C161_image_elsewhere : plotProduct [] (some "site.nc/out/20230101_radar.nc") "radar" ⟨true, false, some "Z,v", none⟩ =
    .ok (some ⟨"site.nc/out/20230101_radar.nc", ["Z", "v"], some "site.png/out/20230101_radar.png", none⟩) := by
  decide +kernel

/-- **C161, a finding.** Without names on the command line, a product that the portal does not list ends the run. -/
theorem C161_unlisted (portal : List (String × List String)) (file product : String) (a : PlotArgs) (ha : a.plot = true ∨ a.showFigure = true)
    (hn : a.names = none) : plotProduct portal (some file) product a = .error "StopIteration" ↔ portal.lookup product = none := by
  have hp : ¬ (!a.plot && !a.showFigure) = true := by
    rcases ha with h | h <;> simp [h]
  unfold plotProduct
  dsimp only
  rw [if_neg hp, hn]
  dsimp only
  cases portal.lookup product <;> simp

example : plotProduct [("radar", ["radar-Zh", "radar-v"])] (some "20230101_radar.nc") "radar" ⟨true, false, none, some 10⟩ =
    .ok (some ⟨"20230101_radar.nc", ["Zh", "v"], some "20230101_radar.png", some 10⟩) := by
  decide +kernel

end Cloudnet
