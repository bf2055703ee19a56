import Mathlib.Tactic
import Verif.Save.Product

/-!
Properties C131 (categorize files) and C132 (Level 3 files) on disk.
-/

namespace Cloudnet

variable {β : Type}

namespace Spec

/-- Sources of several files: each line once, in order. -/
def SourceLines (files : List (InputFile β)) (text : Option String) : Prop :=
  ∃ lines : List Text, lines.Pairwise (· < ·) ∧
    (∀ l, l ∈ lines ↔ ∃ i ∈ files, Spec.IsLine ((i.file.globals.lookup "source").getD "").toList l) ∧
    text = if lines = [] then none else some (String.ofList (joinWith ['\n'] lines))

/-- Persistent identifiers of several files: each that is not empty once, in order. -/
def PidLines (files : List (InputFile β)) (text : Option String) : Prop :=
  ∃ pids : List Text, pids.Pairwise (· < ·) ∧
    (∀ p, p ∈ pids ↔ p ≠ [] ∧ ∃ i ∈ files, ((i.file.globals.lookup "instrument_pid").getD "").toList = p) ∧
    text = if pids = [] then none else some (String.ofList (joinWith ['\n'] pids))

end Spec

/-- **C131.** A categorize file is written if and only if all its arrays can be. -/
theorem C131_saved_iff (fits : List ℕ → List ℕ → Bool) (parse : Text → Option ℤ) (dtMin : ℤ) (version stamp voodoo : String)
    (nTime nHeight nModelTime nModelHeight : ℕ) (arrays : List (String × CloudnetArray (FileArray β))) (radar : InputFile β)
    (others : List (InputFile β)) (location uuid : String) :
    (saveCategorize fits parse dtMin version stamp voodoo nTime nHeight nModelTime nModelHeight arrays radar others location uuid).2 =
        none ↔
      Spec.Writable fits (fun d => [("time", nTime), ("height", nHeight), ("model_time", nModelTime),
        ("model_height", nModelHeight)].lookup d) (arrays.map Prod.snd) := by
  unfold saveCategorize
  dsimp only
  rw [next_none, (initFile_spec _ _ _ _ _).1]
  simp

/-- **C131.** The categorize file. -/
theorem C131_file (fits : List ℕ → List ℕ → Bool) (parse : Text → Option ℤ) (dtMin : ℤ)
    (hmin : ∀ l t, parse l = some t → dtMin < t) (version stamp voodoo : String)
    (nTime nHeight nModelTime nModelHeight : ℕ) (arrays : List (String × CloudnetArray (FileArray β))) (radar : InputFile β)
    (others : List (InputFile β)) (location uuid : String) (f : DiskFile β)
    (h : saveCategorize fits parse dtMin version stamp voodoo nTime nHeight nModelTime nModelHeight arrays radar others location uuid =
      (f, none)) :
    f.dims = [("time", nTime), ("height", nHeight), ("model_time", nModelTime), ("model_height", nModelHeight)] ∧
    List.Forall₂ (Spec.WrittenAs fits fun d => f.dims.lookup d) (arrays.map Prod.snd) f.vars ∧
    ∃ fileType uuids history sources pids,
      fileType = (if (arrays.lookup "liquid_prob").isSome then "categorize-voodoo" else "categorize") ∧
      Spec.UuidsOf (radar :: others) uuids ∧
      Spec.HistoryOf parse (stamp ++ " - " ++ fileType ++ " file created") (radar :: others) history ∧
      Spec.SourceLines (radar :: others) sources ∧ Spec.PidLines (radar :: others) pids ∧
      ∀ k, f.globals.lookup k =
        if k = "Conventions" then some "CF-1.8" else if k = "cloudnetpy_version" then some version
        else if k = "file_uuid" then some uuid else if k = "cloudnet_file_type" then some fileType
        else if k ∈ ["year", "month", "day", "location"] then radar.file.globals.lookup k
        else if k = "title" then some ("Cloud categorization products from " ++ location)
        else if k = "source_file_uuids" then some uuids
        else if k = "references" then some (if (arrays.lookup "liquid_prob").isSome then
            "https://doi.org/10.21105/joss.02123, https://doi.org/10.5194/amt-15-5343-2022"
          else "https://doi.org/10.21105/joss.02123, https://doi.org/10.1175/BAMS-88-6-883")
        else if k = "voodoonet_version" ∧ (arrays.lookup "liquid_prob").isSome then some voodoo
        else if k = "source" then sources else if k = "source_instrument_pids" then pids
        else if k = "history" then some history else none := by
  have hok : (saveCategorize fits parse dtMin version stamp voodoo nTime nHeight nModelTime nModelHeight arrays radar others location
    uuid).2 = none := by rw [h]
  unfold saveCategorize at h hok
  dsimp only at h hok
  rw [next_none] at hok
  rw [next_eq _ _ hok.1] at h
  obtain ⟨i2, i3, i4⟩ := (initFile_spec _ _ _ _ _).2.1 hok.1
  clear hok
  generalize (initFile fits version [("time", nTime), ("height", nHeight), ("model_time", nModelTime), ("model_height", nModelHeight)]
    arrays uuid).1 = g at h i2 i3 i4
  have hf := (Prod.mk.inj h).1.symm
  clear h
  generalize hv : (arrays.lookup "liquid_prob").isSome = isVoodoo at hf ⊢
  have hinst := C76_source_instruments
    (((radar :: others).map InputFile.attributes).map fun s => { s with source := some (s.source.getD []) })
  generalize addSourceInstruments
    (((radar :: others).map InputFile.attributes).map fun s => { s with source := some (s.source.getD []) }) = inst at hf hinst
  obtain ⟨⟨lines, l1, l2, l3⟩, pids, p1, p2, p3⟩ := hinst
  have hs : Spec.SourceLines (radar :: others) (inst.1.map String.ofList) := by
    refine ⟨lines, l1, fun l => ?_, ?_⟩
    · rw [l2]
      constructor
      · rintro ⟨s, hs, src, h1, h2⟩
        obtain ⟨s', hs', rfl⟩ := List.mem_map.1 hs
        obtain ⟨i, hi, rfl⟩ := List.mem_map.1 hs'
        refine ⟨i, hi, ?_⟩
        cases h1
        cases hl : i.file.globals.lookup "source" <;> simpa [InputFile.attributes, hl] using h2
      · rintro ⟨i, hi, h2⟩
        refine ⟨_, List.mem_map_of_mem (List.mem_map_of_mem hi), _, rfl, ?_⟩
        cases hl : i.file.globals.lookup "source" <;> simpa [InputFile.attributes, hl] using h2
    · rw [l3]
      split <;> rfl
  have hp : Spec.PidLines (radar :: others) (inst.2.map String.ofList) := by
    refine ⟨pids, p1, fun p => ?_, ?_⟩
    · rw [p2]
      constructor
      · rintro ⟨hne, s, hs, rfl⟩
        obtain ⟨s', hs', rfl⟩ := List.mem_map.1 hs
        obtain ⟨i, hi, rfl⟩ := List.mem_map.1 hs'
        exact ⟨hne, i, hi, rfl⟩
      · rintro ⟨hne, i, hi, rfl⟩
        exact ⟨hne, _, List.mem_map_of_mem (List.mem_map_of_mem hi), rfl⟩
    · rw [p3]
      split <;> rfl
  have hvars : f.vars = g.vars ∧ f.dims = g.dims := by
    rw [hf]
    constructor
    · refine ((setSome_vars _ _ _).1.trans (setSome_vars _ _ _).1).trans ?_
      cases isVoodoo <;> exact (copyGlobals_vars _ _ _).1
    · refine ((setSome_vars _ _ _).2.trans (setSome_vars _ _ _).2).trans ?_
      cases isVoodoo <;> exact (copyGlobals_vars _ _ _).2
  refine ⟨hvars.2.trans i2, by rw [hvars.1, hvars.2, i2]; exact i3, _, _, _, _, _, rfl, uuidsOf (radar :: others),
    historyOf parse dtMin hmin _ (radar :: others), hs, hp, fun k => ?_⟩
  rw [hf]
  clear hf hvars l2 l3 p2 p3
  cases isVoodoo
  · by_cases k1 : k ∈ ["year", "month", "day", "location", "source", "source_instrument_pids"]
    · simp only [List.mem_cons, List.not_mem_nil, or_false] at k1
      rcases k1 with rfl | rfl | rfl | rfl | rfl | rfl <;> simp [set_lookup, setSome_lookup, copyGlobals_lookup, i4]
    · simp only [List.mem_cons, List.not_mem_nil, or_false] at k1 ⊢
      push Not at k1
      obtain ⟨h1, h2, h3, h4, h5, h6⟩ := k1
      simp only [set_lookup, setSome_lookup, copyGlobals_lookup, i4, List.mem_cons, List.not_mem_nil, h1, h2, h3, h4, h5, h6, or_false, if_false, Bool.false_eq_true, and_false,
        show references (some "categorize") [] = "https://doi.org/10.21105/joss.02123, https://doi.org/10.1175/BAMS-88-6-883" from rfl]
      grind
  · by_cases k1 : k ∈ ["year", "month", "day", "location", "source", "source_instrument_pids"]
    · simp only [List.mem_cons, List.not_mem_nil, or_false] at k1
      rcases k1 with rfl | rfl | rfl | rfl | rfl | rfl <;> simp [set_lookup, setSome_lookup, copyGlobals_lookup, i4]
    · simp only [List.mem_cons, List.not_mem_nil, or_false] at k1 ⊢
      push Not at k1
      obtain ⟨h1, h2, h3, h4, h5, h6⟩ := k1
      simp only [set_lookup, setSome_lookup, copyGlobals_lookup, i4, List.mem_cons, List.not_mem_nil, h1, h2, h3, h4, h5, h6, or_false, if_false, if_true, and_true,
        show references (some "categorize-voodoo") ["https://doi.org/10.5194/amt-15-5343-2022"] =
          "https://doi.org/10.21105/joss.02123, https://doi.org/10.5194/amt-15-5343-2022" from rfl]
      grind

/-! ## C132 -/

namespace Spec

/-- The part of a path after the last slash. -/
def IsBasename (path base : String) : Prop :=
  '/' ∉ base.toList ∧ (path = base ∨ ∃ folder : List Char, path.toList = folder ++ '/' :: base.toList)

/-- The name given, or another one if none is. -/
def nameOr (given : Option String) (other : String) : String := if given = none ∨ given = some "" then other else given.getD other

/-- The name of the site given, or the location of the model file. -/
def SiteOf (m : L3Model β) (siteName : Option String) (location : String) : Prop :=
  (siteName = some location ∧ location ≠ "") ∨
  ((siteName = none ∨ siteName = some "") ∧ m.input.file.globals.lookup "location" = some location)

end Spec

theorem intercalate_tail (a : Char) (parts : List (List Char)) (h : parts ≠ []) :
    [a].intercalate parts = parts.getLastD [] ∨ ∃ x, [a].intercalate parts = x ++ a :: parts.getLastD [] := by
  induction parts with
  | nil => exact absurd rfl h
  | cons p parts ih =>
    rcases parts with _ | ⟨q, parts⟩
    · left
      simp
    · right
      have hi : [a].intercalate (p :: q :: parts) = p ++ a :: [a].intercalate (q :: parts) := by
        simp [List.intercalate_cons_cons]
      have hl : (p :: q :: parts).getLastD [] = (q :: parts).getLastD [] := by simp [List.getLastD_cons]
      rw [hi, hl]
      rcases ih (by simp) with h1 | ⟨x, h1⟩
      · exact ⟨p, by rw [h1]⟩
      · exact ⟨p ++ a :: x, by rw [h1]; simp⟩

theorem splitOn_getLast (a : Char) (l : List Char) :
    a ∉ (l.splitOn a).getLastD [] ∧
      (l = (l.splitOn a).getLastD [] ∨ ∃ x, l = x ++ a :: (l.splitOn a).getLastD []) := by
  have hne : l.splitOn a ≠ [] := List.splitOn_ne_nil a l
  constructor
  · apply splitOn_not_mem
    obtain ⟨y, ys, hy⟩ := List.exists_cons_of_ne_nil hne
    rw [hy, ← List.getLast_eq_getLastD (by simp)]
    exact List.getLast_mem _
  · have := intercalate_tail a _ hne
    rwa [List.intercalate_splitOn] at this

/-- The name of a file without its folder. -/
theorem posixBasename_spec (path : String) : Spec.IsBasename path (posixBasename path) := by
  obtain ⟨h1, h2⟩ := splitOn_getLast '/' path.toList
  refine ⟨by simpa [posixBasename] using h1, ?_⟩
  rcases h2 with h2 | h2
  · left
    unfold posixBasename
    rw [← h2]
    simp
  · right
    simpa [posixBasename] using h2

theorem l3Site_ok (m : L3Model β) (siteName : Option String) (location : String) :
    Spec.SiteOf m siteName location ↔ l3Site m siteName = .ok location := by
  unfold Spec.SiteOf l3Site
  cases siteName with
  | none => cases m.input.file.globals.lookup "location" <;> simp
  | some s =>
    by_cases hs : s = ""
    · subst hs
      cases m.input.file.globals.lookup "location" <;> simp
    · simp [hs]
      rintro rfl
      exact hs

/-- **C132.** A Level 3 file is written if and only if a site is known and all arrays can be written; an unknown site leaves an old file
as it is. -/
theorem C132_saved_iff (fits : List ℕ → List ℕ → Bool) (parse : Text → Option ℤ) (dtMin : ℤ) (version stamp product : String)
    (m : L3Model β) (obs : InputFile β) (modelFiles : List String) (productFile uuid : String) (modelName siteName : Option String)
    (old : Option (DiskFile β)) :
    ((saveL3 fits parse dtMin version stamp product m obs modelFiles productFile uuid modelName siteName old).2 = none ↔
      (∃ location, Spec.SiteOf m siteName location) ∧
        Spec.Writable fits (fun d => [("time", m.nTime), ("level", m.nLevel)].lookup d) (m.data.map Prod.snd)) ∧
    ((¬ ∃ location, Spec.SiteOf m siteName location) →
      (saveL3 fits parse dtMin version stamp product m obs modelFiles productFile uuid modelName siteName old).1 = old) := by
  unfold saveL3
  simp only [l3Site_ok]
  generalize l3Site m siteName = site
  cases site with
  | error e => simp
  | ok l =>
    dsimp only
    rw [next_none, (initFile_spec _ _ _ _ _).1]
    simp

theorem l3Globals_vars (parse : Text → Option ℤ) (dtMin : ℤ) (stamp product : String) (m : L3Model β) (obs : InputFile β)
    (modelFiles : List String) (productFile : String) (modelName : Option String) (location : String) (f : DiskFile β) :
    (l3Globals parse dtMin stamp product m obs modelFiles productFile modelName location f).vars = f.vars ∧
    (l3Globals parse dtMin stamp product m obs modelFiles productFile modelName location f).dims = f.dims := by
  have e1 : ∀ (f : DiskFile β) k v, (f.set k v).vars = f.vars := fun _ _ _ => rfl
  have e2 : ∀ (f : DiskFile β) k v, (f.set k v).dims = f.dims := fun _ _ _ => rfl
  unfold l3Globals
  dsimp only
  rw [e1, e2]
  split <;> simp only [e1, e2, copyGlobals_vars, setSome_vars, and_self]

theorem l3Globals_lookup (parse : Text → Option ℤ) (dtMin : ℤ) (stamp product : String) (m : L3Model β) (obs : InputFile β)
    (modelFiles : List String) (productFile : String) (modelName : Option String) (location : String) (f : DiskFile β)
    (version uuid : String)
    (hg : ∀ k, f.globals.lookup k = if k = "Conventions" then some "CF-1.8" else if k = "cloudnetpy_version" then some version
      else if k = "file_uuid" then some uuid else none) (k : String) :
    (l3Globals parse dtMin stamp product m obs modelFiles productFile modelName location f).globals.lookup k =
        if k = "Conventions" then some "CF-1.8" else if k = "cloudnetpy_version" then some version
        else if k = "file_uuid" then some uuid else if k = "cloudnet_file_type" then some ("l3-" ++ product)
        else if k = "title" then some ("Observed and modeled " ++ l3Name product ++ " over " ++ location)
        else if k = "model_id" then some m.name
        else if k = "model_name" then some (Spec.nameOr modelName m.name)
        else if k = "source" then some (String.ofList
          (joinWith ['\n'] ((posixBasename productFile :: modelFiles.map posixBasename).map String.toList)))
        else if k = "source_file_uuids" then some (String.ofList (getSourceUuids [m.input.attributes, obs.attributes]))
        else if k = "source_instrument_pids" then obs.file.globals.lookup k
        else if k = "location" then some location
        else if k = "day" then (m.input.file.globals.lookup k).or (some m.date.2.2)
        else if k = "month" then if (m.input.file.globals.lookup "day").isSome then m.input.file.globals.lookup k else some m.date.2.1
        else if k = "year" then if (m.input.file.globals.lookup "day").isSome then m.input.file.globals.lookup k else some m.date.1
        else if k = "history" then some (String.ofList
          (mergeHistory parse dtMin (stamp ++ " - L3 " ++ l3Name product ++ " file created").toList [m.input.attributes])) else none := by
  have hmn : orElseText modelName m.name = Spec.nameOr modelName m.name := by
    unfold orElseText Spec.nameOr
    cases modelName with
    | none => rfl
    | some s => by_cases hs : s = "" <;> simp [hs]
  unfold l3Globals
  dsimp only
  rw [hmn]
  generalize String.ofList (mergeHistory parse dtMin (stamp ++ " - L3 " ++ l3Name product ++ " file created").toList
    [m.input.attributes]) = history
  generalize String.ofList (getSourceUuids [m.input.attributes, obs.attributes]) = uuids
  generalize "Observed and modeled " ++ l3Name product ++ " over " ++ location = title
  generalize "l3-" ++ product = kind
  generalize Spec.nameOr modelName m.name = name
  generalize String.ofList (joinWith ['\n'] ((posixBasename productFile :: modelFiles.map posixBasename).map String.toList)) = source
  by_cases k1 : k ∈ ["day", "month", "year", "location", "source_instrument_pids"]
  · simp only [List.mem_cons, List.not_mem_nil, or_false] at k1
    rcases k1 with rfl | rfl | rfl | rfl | rfl <;> cases hd : m.input.file.globals.lookup "day" <;>
      simp [set_lookup, setSome_lookup, copyGlobals_lookup, hg, hd]
  · simp only [List.mem_cons, List.not_mem_nil, or_false] at k1
    push Not at k1
    obtain ⟨h1, h2, h3, h4, h5⟩ := k1
    cases m.input.file.globals.lookup "day"
    all_goals
      simp only [Option.isSome_none, Option.isSome_some, Bool.false_eq_true, if_true, set_lookup, setSome_lookup, copyGlobals_lookup,
        hg, List.mem_cons, List.not_mem_nil, h1, h2, h3, h4, h5, if_false, or_false]
      grind (splits := 40)

/-- **C132.** The names of Level 3 products. -/
theorem C132_names : l3Name "cf" = "cloud fraction" ∧ l3Name "iwc" = "ice water content" ∧ l3Name "lwc" = "liquid water content" ∧
    ∀ product, product ∉ ["cf", "iwc", "lwc"] → l3Name product = product := by
  refine ⟨rfl, rfl, rfl, fun p hp => ?_⟩
  simp only [List.mem_cons, List.not_mem_nil, or_false, not_or] at hp
  unfold l3Name
  rw [if_neg hp.1, if_neg hp.2.1, if_neg hp.2.2]

/-- **C132.** The Level 3 file. **A finding:** its history continues only that of the model file, not that of the product compared
with it, and of the model file it takes only the last line. -/
theorem C132_file (fits : List ℕ → List ℕ → Bool) (parse : Text → Option ℤ) (dtMin : ℤ)
    (hmin : ∀ l t, parse l = some t → dtMin < t) (version stamp product : String)
    (m : L3Model β) (obs : InputFile β) (modelFiles : List String) (productFile uuid : String) (modelName siteName : Option String)
    (old disk : Option (DiskFile β))
    (h : saveL3 fits parse dtMin version stamp product m obs modelFiles productFile uuid modelName siteName old = (disk, none)) :
    ∃ f location uuids history bases, disk = some f ∧ Spec.SiteOf m siteName location ∧
      f.dims = [("time", m.nTime), ("level", m.nLevel)] ∧
      List.Forall₂ (Spec.WrittenAs fits fun d => f.dims.lookup d) (m.data.map Prod.snd) f.vars ∧
      Spec.UuidsOf [m.input, obs] uuids ∧
      Spec.HistoryOf parse (stamp ++ " - L3 " ++ l3Name product ++ " file created") [m.input] history ∧
      List.Forall₂ Spec.IsBasename (productFile :: modelFiles) bases ∧
      ∀ k, f.globals.lookup k =
        if k = "Conventions" then some "CF-1.8" else if k = "cloudnetpy_version" then some version
        else if k = "file_uuid" then some uuid else if k = "cloudnet_file_type" then some ("l3-" ++ product)
        else if k = "title" then some ("Observed and modeled " ++ l3Name product ++ " over " ++ location)
        else if k = "model_id" then some m.name
        else if k = "model_name" then some (Spec.nameOr modelName m.name)
        else if k = "source" then some (String.ofList (joinWith ['\n'] (bases.map String.toList)))
        else if k = "source_file_uuids" then some uuids
        else if k = "source_instrument_pids" then obs.file.globals.lookup k
        else if k = "location" then some location
        else if k = "day" then (m.input.file.globals.lookup k).or (some m.date.2.2)
        else if k = "month" then if (m.input.file.globals.lookup "day").isSome then m.input.file.globals.lookup k else some m.date.2.1
        else if k = "year" then if (m.input.file.globals.lookup "day").isSome then m.input.file.globals.lookup k else some m.date.1
        else if k = "history" then some history else none := by
  unfold saveL3 at h
  simp only [l3Site_ok]
  generalize l3Site m siteName = site at h ⊢
  cases site with
  | error e => simp at h
  | ok location =>
    dsimp only at h
    have hok := (Prod.mk.inj h).2
    rw [next_none] at hok
    rw [next_eq _ _ hok.1] at h
    obtain ⟨i2, i3, i4⟩ := (initFile_spec _ _ _ _ _).2.1 hok.1
    clear hok
    generalize (initFile fits version [("time", m.nTime), ("level", m.nLevel)] m.data uuid).1 = g at h i2 i3 i4
    have hf := (Prod.mk.inj h).1.symm
    clear h
    have hv := l3Globals_vars parse dtMin stamp product m obs modelFiles productFile modelName location g
    refine ⟨_, location, _, _, (productFile :: modelFiles).map posixBasename, hf, rfl, hv.2.trans i2, ?_, uuidsOf [m.input, obs],
      historyOf parse dtMin hmin _ [m.input], ?_, fun k => ?_⟩
    · rw [hv.1, hv.2, i2]
      exact i3
    · rw [List.forall₂_map_right_iff, List.forall₂_same]
      exact fun p _ => posixBasename_spec p
    · rw [l3Globals_lookup parse dtMin stamp product m obs modelFiles productFile modelName location g version uuid i4]
      rfl

/-- A radar file and a lidar file. -/
def exampleRadarFile : InputFile ℕ :=
  { isModel := false
    file := { dims := [], vars := []
              globals := [("location", "Munich"), ("year", "2024"), ("file_uuid", "r"), ("source", "METEK MIRA-35"),
                ("instrument_pid", "pid1"), ("history", "radar made")] } }

def exampleLidarFile : InputFile ℕ :=
  { isModel := false
    file := { dims := [], vars := []
              globals := [("location", "Elsewhere"), ("file_uuid", "l"), ("source", "Lufft CHM15k"), ("history", "lidar made")] } }

def exampleModelFile : InputFile ℕ :=
  { isModel := true
    file := { dims := [], vars := []
              globals := [("location", "Munich"), ("year", "2024"), ("month", "03"), ("day", "12"), ("file_uuid", "m"),
                ("history", "first\nsecond")] } }

example : (saveCategorize (· == ·) (fun _ => none) 0 "1.0" "now" "0.1" 3 2 4 5
      [("Z", exampleArray "Z" [3, 2] ["time", "height"]), ("temperature", exampleArray "temperature" [4, 5] ["model_time", "model_height"])]
      exampleRadarFile [exampleLidarFile, exampleModelFile] "Munich" "u").2 = none ∧
    (saveCategorize (· == ·) (fun _ => none) 0 "1.0" "now" "0.1" 3 2 4 5
      [("Z", exampleArray "Z" [3, 2] ["time", "height"]), ("temperature", exampleArray "temperature" [4, 5] ["model_time", "model_height"])]
      exampleRadarFile [exampleLidarFile, exampleModelFile] "Munich" "u").1.globals =
      [("Conventions", "CF-1.8"), ("cloudnetpy_version", "1.0"), ("file_uuid", "u"), ("cloudnet_file_type", "categorize"),
        ("year", "2024"), ("location", "Munich"), ("title", "Cloud categorization products from Munich"),
        ("source_file_uuids", "l, m, r"),
        ("references", "https://doi.org/10.21105/joss.02123, https://doi.org/10.1175/BAMS-88-6-883"),
        ("source", "\nLufft CHM15k\nMETEK MIRA-35"), ("source_instrument_pids", "pid1"),
        ("history", "now - categorize file created\nradar made\nlidar made\nsecond")] := by
  refine ⟨by decide +kernel, by decide +kernel⟩

/-- The history of the observations is not continued, and the first line of that of the model is lost. -/
example : (saveL3 (· == ·) (fun _ => none) 0 "1.0" "now" "iwc"
      { data := [("iwc", exampleArray "iwc" [3, 2] ["time", "level"])], nTime := 3, nLevel := 2, input := exampleModelFile
        name := "ecmwf", date := ("2024", "03", "12") }
      exampleInput ["a/b/m.nc"] "c/iwc.nc" "u" none (some "") none).1.map (fun f => (f.globals.lookup "history", f.globals.lookup "source",
        f.globals.lookup "location", f.globals.lookup "source_file_uuids")) =
      some (some "now - L3 ice water content file created\nsecond", some "iwc.nc\nm.nc", some "Munich", some "cat, m") := by
  decide +kernel

end Cloudnet
