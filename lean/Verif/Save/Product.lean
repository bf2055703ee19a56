import Mathlib.Tactic
import Verif.Save.Level1b

/-!
Properties C130 (product files), C131 (categorize files) and C132 (Level 3 files) on disk.
-/

namespace Cloudnet

variable {β : Type}

namespace Spec

/-- A line of the history of another file that is taken over: of a model file (known as such, or by its type) only the last one. -/
def FromHistory (i : InputFile β) (l : Text) : Prop :=
  ∃ h, i.file.globals.lookup "history" = some h ∧
    ((i.isModel = true ∨ i.file.globals.lookup "cloudnet_file_type" = some "model") → IsLastLine h.toList l) ∧
    (¬ (i.isModel = true ∨ i.file.globals.lookup "cloudnet_file_type" = some "model") → IsLine h.toList l)

/-- The history of a file made from others: a new line, then each line of the histories of the others once (of a model file only the
last one), latest first, lines without time at the end. -/
def HistoryOf (parse : Text → Option ℤ) (newLine : String) (files : List (InputFile β)) (text : String) : Prop :=
  ∃ lines : List Text, text = String.ofList (newLine.toList ++ lines.flatMap fun l => '\n' :: l) ∧ lines.Nodup ∧
    (∀ l, l ∈ lines ↔ ∃ i ∈ files, FromHistory i l) ∧
    lines.Pairwise fun a b => parse b = none ∨ ∃ ta tb, parse a = some ta ∧ parse b = some tb ∧ tb ≤ ta

/-- The identifiers of these files, each once in order, with commas between them. -/
def UuidsOf (files : List (InputFile β)) (text : String) : Prop :=
  ∃ uuids : List Text, text = String.ofList (joinWith ", ".toList uuids) ∧ uuids.Pairwise (· < ·) ∧
    ∀ u, u ∈ uuids ↔ ∃ i ∈ files, i.file.globals.lookup "file_uuid" = some (String.ofList u)

/-- The variables of another file that can be copied into a file with these dimensions. -/
def Copyable (fits : List ℕ → List ℕ → Bool) (dimension : String → Option ℕ) (source : DiskFile β) (keys : List String) : Prop :=
  ∀ key ∈ keys, ∀ v, source.var key = some v → ∃ sizes, Sizes dimension v.dims sizes ∧ fits v.shape sizes = true

/-- Names of product files. -/
def productNames : List (String × String) :=
  [("lwc", "liquid water content"), ("iwc", "ice water content"), ("drizzle", "drizzle"), ("classification", "classification"),
    ("der", "droplet effective radius"), ("ier", "ice effective radius"), ("classification-voodoo", "classification-voodoo"),
    ("epsilon-radar", "dissipation rate of turbulent kinetic energy")]

end Spec

theorem historyOf (parse : Text → Option ℤ) (dtMin : ℤ) (hmin : ∀ l t, parse l = some t → dtMin < t) (newLine : String)
    (files : List (InputFile β)) :
    Spec.HistoryOf parse newLine files (String.ofList (mergeHistory parse dtMin newLine.toList (files.map InputFile.attributes))) := by
  obtain ⟨lines, h1, h2, h3, h4⟩ := C41_merge_history parse dtMin hmin newLine.toList (files.map InputFile.attributes)
  refine ⟨lines, by rw [h1], h2, fun l => ?_, h4⟩
  rw [h3]
  have key : ∀ i : InputFile β, Spec.TakenOver i.attributes l ↔ Spec.FromHistory i l := by
    intro i
    unfold Spec.TakenOver Spec.FromHistory InputFile.attributes
    cases i.file.globals.lookup "history" with
    | none => simp
    | some h =>
      cases hm : i.isModel <;> by_cases ht : i.file.globals.lookup "cloudnet_file_type" = some "model" <;> simp [ht]
  simp only [List.mem_map, exists_exists_and_eq_and, key]

theorem uuidsOf (files : List (InputFile β)) :
    Spec.UuidsOf files (String.ofList (getSourceUuids (files.map InputFile.attributes))) := by
  obtain ⟨uuids, h1, h2, h3⟩ := C42_source_uuids (files.map InputFile.attributes)
  refine ⟨uuids, by rw [h1], h2, fun u => ?_⟩
  rw [h3]
  simp only [List.mem_map, exists_exists_and_eq_and, InputFile.attributes, Option.map_eq_some_iff]
  constructor
  · rintro ⟨i, hi, s, hs, rfl⟩
    exact ⟨i, hi, by simpa using hs⟩
  · rintro ⟨i, hi, hs⟩
    exact ⟨i, hi, _, hs, by simp⟩

/-- **C130.** Product types and their names. -/
theorem C130_identifier (id : String) : identifierName id = Spec.productNames.lookup id := by
  unfold identifierName
  by_cases h : id ∈ ["lwc", "iwc", "drizzle", "classification", "der", "ier", "classification-voodoo", "epsilon-radar"]
  · rw [if_pos h]
    simp only [List.mem_cons, List.not_mem_nil, or_false] at h
    rcases h with rfl | rfl | rfl | rfl | rfl | rfl | rfl | rfl <;> decide +kernel
  · rw [if_neg h]
    symm
    rw [List.lookup_eq_none_iff]
    intro p hp
    rw [bne_iff_ne]
    rintro rfl
    apply h
    revert p
    decide

theorem var_append (f : DiskFile β) (v : DiskVar β) (key : String) :
    ({ f with vars := f.vars ++ [v] } : DiskFile β).var key = (f.var key).or (if v.name = key then some v else none) := by
  unfold DiskFile.var
  rw [List.find?_append]
  congr 1
  by_cases h : v.name = key
  · simp [h]
  · rw [if_neg h, List.find?_cons, show (v.name == key) = false by simpa using h]
    rfl

theorem var_none (f : DiskFile β) (key : String) : f.var key = none ↔ key ∉ f.vars.map DiskVar.name := by
  unfold DiskFile.var
  rw [List.find?_eq_none, List.mem_map]
  constructor
  · rintro h ⟨v, hv, rfl⟩
    exact absurd (by simp) (h v hv)
  · intro h v hv he
    exact h ⟨v, hv, by simpa using he⟩

theorem var_name (f : DiskFile β) (key : String) (v : DiskVar β) (h : f.var key = some v) : v.name = key := by
  have := List.find?_some h
  simpa using this

theorem copyVars_spec (fits : List ℕ → List ℕ → Bool) (source : DiskFile β) (keys : List String) (f : DiskFile β) :
    (copyVars fits source f keys).1.dims = f.dims ∧ (copyVars fits source f keys).1.globals = f.globals ∧
    (∀ key v, f.var key = some v → (copyVars fits source f keys).1.var key = some v) ∧
    ((copyVars fits source f keys).2 = none →
      ∀ key, f.var key = none →
        (key ∉ keys → (copyVars fits source f keys).1.var key = none) ∧
        (source.var key = none → (copyVars fits source f keys).1.var key = none) ∧
        (∀ v, key ∈ keys → source.var key = some v → ∃ sizes, Spec.Sizes (fun d => f.dims.lookup d) v.dims sizes ∧
          fits v.shape sizes = true ∧ (copyVars fits source f keys).1.var key = some { v with shape := sizes })) ∧
    ((copyVars fits source f keys).2 = none ↔
      Spec.Copyable fits (fun d => f.dims.lookup d) source (keys.filter fun k => decide (k ∉ f.vars.map DiskVar.name))) := by
  induction keys generalizing f with
  | nil =>
    refine ⟨rfl, rfl, fun _ _ h => h, fun _ key hk => ⟨fun _ => hk, fun _ => hk, fun v h => by cases h⟩, ?_⟩
    simp [copyVars, Spec.Copyable]
  | cons k keys ih =>
    unfold copyVars
    cases hs : source.var k with
    | none =>
      dsimp only
      obtain ⟨i1, i2, i3, i4, i5⟩ := ih f
      refine ⟨i1, i2, i3, fun hok key hk => ?_, ?_⟩
      · obtain ⟨j1, j2, j3⟩ := i4 hok key hk
        refine ⟨fun h => j1 fun h' => h (by simp [h']), j2, fun v hm hv => j3 v ?_ hv⟩
        rcases List.mem_cons.1 hm with rfl | hm
        · rw [hs] at hv; cases hv
        · exact hm
      · rw [i5, List.filter_cons]
        split
        · unfold Spec.Copyable
          constructor
          · intro h key hm v hv
            rcases List.mem_cons.1 hm with rfl | hm
            · rw [hs] at hv; cases hv
            · exact h key hm v hv
          · intro h key hm
            exact h key (List.mem_cons_of_mem _ hm)
        · rfl
    | some v =>
      dsimp only
      by_cases hin : k ∈ f.vars.map DiskVar.name
      · rw [if_pos hin]
        obtain ⟨i1, i2, i3, i4, i5⟩ := ih f
        refine ⟨i1, i2, i3, fun hok key hk => ?_, ?_⟩
        · obtain ⟨j1, j2, j3⟩ := i4 hok key hk
          refine ⟨fun h => j1 fun h' => h (by simp [h']), j2, fun v hm hv => j3 v ?_ hv⟩
          rcases List.mem_cons.1 hm with rfl | hm
          · exact absurd hin ((var_none f key).1 hk)
          · exact hm
        · rw [i5, List.filter_cons, if_neg (by simpa using hin)]
      · rw [if_neg hin]
        have hvn : v.name = k := var_name _ _ _ hs
        have hdecide : decide (k ∉ f.vars.map DiskVar.name) = true := decide_eq_true hin
        cases hm : v.dims.mapM (f.dims.lookup ·) with
        | none =>
          dsimp only
          refine ⟨rfl, rfl, fun _ _ h => h, fun h => by simp at h, iff_of_false (by simp) ?_⟩
          intro h
          obtain ⟨sizes, hz, _⟩ := h k (by rw [List.filter_cons, if_pos hdecide]; simp) v hs
          rw [(sizes_of_mapM _ _ _).2 hz] at hm
          cases hm
        | some sizes =>
          dsimp only
          have hsz := (sizes_of_mapM _ _ _).1 hm
          by_cases hfit : fits v.shape sizes = true
          · rw [if_pos hfit]
            obtain ⟨i1, i2, i3, i4, i5⟩ := ih { f with vars := f.vars ++ [{ v with shape := sizes }] }
            refine ⟨i1, i2, fun key w hw => i3 key w ?_, fun hok key hk => ?_, ?_⟩
            · rw [var_append, hw]; rfl
            · by_cases hkk : key = k
              · subst hkk
                have hnew : ({ f with vars := f.vars ++ [{ v with shape := sizes }] } : DiskFile β).var key =
                    some { v with shape := sizes } := by
                  rw [var_append, hk]
                  simp [hvn]
                refine ⟨fun h => absurd (by simp) h, fun h => absurd (hs.symm.trans h) (by simp), fun w _ hw => ?_⟩
                rw [hs] at hw
                cases hw
                exact ⟨sizes, hsz, hfit, i3 _ _ hnew⟩
              · have hold : ({ f with vars := f.vars ++ [{ v with shape := sizes }] } : DiskFile β).var key = none := by
                  rw [var_append, hk]
                  simp [hvn, Ne.symm hkk]
                obtain ⟨j1, j2, j3⟩ := i4 hok key hold
                refine ⟨fun h => j1 fun h' => h (by simp [h']), j2, fun w hm' hw => j3 w ?_ hw⟩
                rcases List.mem_cons.1 hm' with h | h
                · exact absurd h hkk
                · exact h
            · rw [i5, List.filter_cons, if_pos hdecide]
              unfold Spec.Copyable
              constructor
              · intro h key hm' w hw
                by_cases hkk : key = k
                · subst hkk
                  rw [hs] at hw
                  cases hw
                  exact ⟨sizes, hsz, hfit⟩
                · refine h key ?_ w hw
                  rcases List.mem_cons.1 hm' with h' | h'
                  · exact absurd h' hkk
                  · rw [List.mem_filter] at h' ⊢
                    refine ⟨h'.1, ?_⟩
                    have := of_decide_eq_true h'.2
                    simp only [List.map_append, List.map_cons, List.map_nil, List.mem_append, List.mem_singleton, hvn]
                    simp only [decide_eq_true_eq, not_or]
                    exact ⟨this, hkk⟩
              · intro h key hm'
                rw [List.mem_filter] at hm'
                refine h key ?_
                have h2 := of_decide_eq_true hm'.2
                simp only [List.map_append, List.map_cons, List.map_nil, List.mem_append, not_or] at h2
                simp [List.mem_filter, hm'.1]
                right
                intro x hx hxk
                exact h2.1 (List.mem_map.2 ⟨x, hx, hxk⟩)
          · rw [if_neg hfit]
            refine ⟨rfl, rfl, fun key w hw => by rw [var_append, hw]; rfl, fun h => by simp at h, iff_of_false (by simp) ?_⟩
            intro h
            obtain ⟨sizes', hz, hf'⟩ := h k (by rw [List.filter_cons, if_pos hdecide]; simp) v hs
            rw [sizes_unique _ _ _ _ hz hsz] at hf'
            exact hfit hf'

/-! ## C130 -/

/-- The number of heights of a product. -/
theorem heightSize_ok (o : ProductObject β) (n : ℕ) : heightSize o = .ok n ↔
    (∃ a, o.data.lookup "height" = some a ∧ a.data.shape.head? = some n) ∨
    (o.data.lookup "height" = none ∧ ∃ v, o.input.file.var "height" = some v ∧ v.shape.head? = some n) := by
  unfold heightSize
  cases h1 : o.data.lookup "height" with
  | some a => simp [firstSize_ok]
  | none =>
    cases h2 : o.input.file.var "height" with
    | none => simp
    | some v =>
      rcases h3 : v.shape with _ | ⟨m, l⟩ <;> simp [h3]

/-- **C130.** A product file that was written has the arrays of the product, and the position, times, heights and the further variables
asked for of the input file, unless the product has an array of that name. -/
theorem C130_variables (fits : List ℕ → List ℕ → Bool) (parse : Text → Option ℤ) (dtMin : ℤ) (version stamp shortId : String)
    (o : ProductObject β) (uuid : String) (copy : List String) (extra : List (InputFile β)) (old disk : Option (DiskFile β))
    (h : saveProductFile fits parse dtMin version stamp shortId o uuid copy extra old = (disk, none)) :
    ∃ f n, disk = some f ∧ heightSize o = .ok n ∧ f.dims = [("time", o.nTime), ("height", n)] ∧
      (∀ kv ∈ o.data, ∃ v, f.var kv.2.name = some v ∧ Spec.WrittenAs fits (fun d => f.dims.lookup d) kv.2 v) ∧
      (∀ key, (∀ kv ∈ o.data, kv.2.name ≠ key) →
        (∀ v, key ∈ ["altitude", "latitude", "longitude", "time", "height"] ++ copy → o.input.file.var key = some v →
          ∃ sizes, Spec.Sizes (fun d => f.dims.lookup d) v.dims sizes ∧ fits v.shape sizes = true ∧
            f.var key = some { v with shape := sizes }) ∧
        (key ∉ ["altitude", "latitude", "longitude", "time", "height"] ++ copy → f.var key = none) ∧
        (o.input.file.var key = none → f.var key = none)) := by
  unfold saveProductFile at h
  cases hid : identifierName shortId with
  | none => rw [hid] at h; simp at h
  | some readable =>
    rw [hid] at h
    dsimp only at h
    cases hh : heightSize o with
    | error e => rw [hh] at h; simp at h
    | ok n =>
      rw [hh] at h
      dsimp only at h
      have h2 : ((initFile fits version [("time", o.nTime), ("height", n)] o.data uuid).next
        (productGlobals fits parse dtMin stamp shortId readable o copy extra)).2 = none := (Prod.mk.inj h).2
      rw [next_none] at h2
      obtain ⟨i0, i1, _⟩ := initFile_spec fits version [("time", o.nTime), ("height", n)] o.data uuid
      obtain ⟨i2, i3, i4⟩ := i1 h2.1
      have hnames := (i0.1 h2.1).1
      rw [next_eq _ _ h2.1] at h
      generalize (initFile fits version [("time", o.nTime), ("height", n)] o.data uuid).1 = g at h h2 i2 i3 i4
      obtain ⟨h2a, h2b⟩ := h2
      have hc := copyVars_spec fits o.input.file (["altitude", "latitude", "longitude", "time", "height"] ++ copy)
        (g.set "cloudnet_file_type" shortId)
      have hcn : (copyVars fits o.input.file (g.set "cloudnet_file_type" shortId)
          (["altitude", "latitude", "longitude", "time", "height"] ++ copy)).2 = none := by
        unfold productGlobals at h2b
        rw [next_none] at h2b
        exact h2b.1
      have hv : (productGlobals fits parse dtMin stamp shortId readable o copy extra g).1.vars =
          (copyVars fits o.input.file (g.set "cloudnet_file_type" shortId)
            (["altitude", "latitude", "longitude", "time", "height"] ++ copy)).1.vars ∧
          (productGlobals fits parse dtMin stamp shortId readable o copy extra g).1.dims =
          (copyVars fits o.input.file (g.set "cloudnet_file_type" shortId)
            (["altitude", "latitude", "longitude", "time", "height"] ++ copy)).1.dims := by
        unfold productGlobals
        rw [next_eq _ _ hcn]
        cases o.input.file.globals.lookup "location" with
        | none => exact ⟨rfl, rfl⟩
        | some l =>
          dsimp only
          cases (extra.map InputFile.attributes).mapM SourceFile.source with
          | none => exact copyGlobals_vars _ _ _
          | some es =>
            dsimp only
            refine ⟨(setSome_vars _ _ _).1.trans (copyGlobals_vars _ _ _).1, (setSome_vars _ _ _).2.trans (copyGlobals_vars _ _ _).2⟩
      obtain ⟨c1, c2, c3, c4, c5⟩ := hc
      have hvar : ∀ key, (productGlobals fits parse dtMin stamp shortId readable o copy extra g).1.var key =
          (copyVars fits o.input.file (g.set "cloudnet_file_type" shortId)
            (["altitude", "latitude", "longitude", "time", "height"] ++ copy)).1.var key := by
        intro key
        unfold DiskFile.var
        rw [hv.1]
      have hdims : (productGlobals fits parse dtMin stamp shortId readable o copy extra g).1.dims = [("time", o.nTime), ("height", n)] := by
        rw [hv.2, c1]
        exact i2
      refine ⟨_, n, (Prod.mk.inj h).1.symm, rfl, hdims, ?_, ?_⟩
      · intro kv hkv
        rw [hdims]
        have hgn : g.vars.map DiskVar.name = (o.data.map Prod.snd).map (·.name) := by
          have : ∀ (l : List (CloudnetArray (FileArray β))) (m : List (DiskVar β)),
              List.Forall₂ (Spec.WrittenAs fits fun d => [("time", o.nTime), ("height", n)].lookup d) l m →
              m.map DiskVar.name = l.map (·.name) := by
            intro l m hlm
            induction hlm with
            | nil => rfl
            | cons h1 _ ih => simp [ih, h1.1]
          exact this _ _ i3
        obtain ⟨v, hvm, hvw⟩ := forall₂_exists i3 kv.2 (List.mem_map_of_mem hkv)
        refine ⟨v, ?_, hvw⟩
        rw [hvar]
        apply c3
        have hfind : g.var kv.2.name = some v := by
          unfold DiskFile.var
          have hnd : (g.vars.map DiskVar.name).Nodup := by rw [hgn]; exact hnames
          have hname : v.name = kv.2.name := hvw.1
          obtain ⟨w, hw⟩ : ∃ w, g.vars.find? (fun x => x.name == kv.2.name) = some w := by
            rw [← Option.isSome_iff_exists, List.find?_isSome]
            exact ⟨v, hvm, by simpa using hname⟩
          rw [hw]
          have hwm := List.mem_of_find?_eq_some hw
          have hwn := List.find?_some hw
          have : w = v := List.inj_on_of_nodup_map hnd hwm hvm (by rw [hname]; simpa using hwn)
          rw [this]
        exact hfind
      · intro key hkey
        have hg : (g.set "cloudnet_file_type" shortId).var key = none := by
          rw [var_none]
          show key ∉ g.vars.map DiskVar.name
          intro hk
          rw [List.mem_map] at hk
          obtain ⟨v, hv1, hv2⟩ := hk
          obtain ⟨a, ha, hw⟩ := forall₂_exists (i3.flip) v hv1
          obtain ⟨kv, hkv, rfl⟩ := List.mem_map.1 ha
          exact hkey kv hkv (hw.1.symm.trans hv2)
        obtain ⟨j1, j2, j3⟩ := c4 hcn key hg
        rw [hvar, hdims]
        refine ⟨fun v hm hv => ?_, j1, j2⟩
        obtain ⟨sizes, s1, s2, s3⟩ := j3 v hm hv
        refine ⟨sizes, ?_, s2, s3⟩
        have : (g.set "cloudnet_file_type" shortId).dims = [("time", o.nTime), ("height", n)] := i2
        rw [this] at s1
        exact s1

/-- **C130.** The global attributes of a product file. The identifier of the file itself is not among the source identifiers. -/
theorem C130_attributes (fits : List ℕ → List ℕ → Bool) (parse : Text → Option ℤ) (dtMin : ℤ)
    (hmin : ∀ l t, parse l = some t → dtMin < t) (version stamp shortId : String)
    (o : ProductObject β) (uuid : String) (copy : List String) (extra : List (InputFile β)) (old disk : Option (DiskFile β))
    (h : saveProductFile fits parse dtMin version stamp shortId o uuid copy extra old = (disk, none)) :
    ∃ f readable location uuids history, disk = some f ∧ (shortId, readable) ∈ Spec.productNames ∧
      o.input.file.globals.lookup "location" = some location ∧
      f.globals.lookup "Conventions" = some "CF-1.8" ∧ f.globals.lookup "cloudnetpy_version" = some version ∧
      f.globals.lookup "file_uuid" = some uuid ∧ f.globals.lookup "cloudnet_file_type" = some shortId ∧
      f.globals.lookup "title" = some (capitalize readable ++ " products from " ++ location) ∧
      f.globals.lookup "source_file_uuids" = some uuids ∧ Spec.UuidsOf (o.input :: extra) uuids ∧
      f.globals.lookup "history" = some history ∧
      Spec.HistoryOf parse (stamp ++ " - " ++ readable ++ " file created") (o.input :: extra) history ∧
      f.globals.lookup "references" = some (references (some shortId) []) ∧
      (∀ k ∈ ["location", "day", "month", "year", "source_instrument_pids", "instrument_pid", "voodoonet_version"],
        f.globals.lookup k = o.input.file.globals.lookup k) ∧
      (extra = [] → f.globals.lookup "source" = o.input.file.globals.lookup "source") ∧
      ∃ sources, (extra.map InputFile.attributes).mapM SourceFile.source = some sources ∧
        f.globals.lookup "source" =
          (appendExtraSources ((o.input.file.globals.lookup "source").map String.toList) sources).map String.ofList := by
  unfold saveProductFile at h
  cases hid : identifierName shortId with
  | none => rw [hid] at h; simp at h
  | some readable =>
    rw [hid] at h
    dsimp only at h
    cases hh : heightSize o with
    | error e => rw [hh] at h; simp at h
    | ok n =>
      rw [hh] at h
      dsimp only at h
      have h2 : ((initFile fits version [("time", o.nTime), ("height", n)] o.data uuid).next
        (productGlobals fits parse dtMin stamp shortId readable o copy extra)).2 = none := (Prod.mk.inj h).2
      rw [next_none] at h2
      obtain ⟨_, i1, _⟩ := initFile_spec fits version [("time", o.nTime), ("height", n)] o.data uuid
      obtain ⟨_, _, i4⟩ := i1 h2.1
      rw [next_eq _ _ h2.1] at h
      generalize (initFile fits version [("time", o.nTime), ("height", n)] o.data uuid).1 = g at h h2 i4
      have hdisk := (Prod.mk.inj h).1.symm
      clear h
      obtain ⟨_, h2b⟩ := h2
      have hcg := (copyVars_spec fits o.input.file (["altitude", "latitude", "longitude", "time", "height"] ++ copy)
        (g.set "cloudnet_file_type" shortId)).2.1
      unfold productGlobals at h2b hdisk
      rw [next_none] at h2b
      rw [next_eq _ _ h2b.1] at hdisk
      generalize (copyVars fits o.input.file (g.set "cloudnet_file_type" shortId)
        (["altitude", "latitude", "longitude", "time", "height"] ++ copy)).1 = c at hdisk h2b hcg
      obtain ⟨_, h2c⟩ := h2b
      cases hl : o.input.file.globals.lookup "location" with
      | none => rw [hl] at h2c; simp at h2c
      | some location =>
        rw [hl] at h2c hdisk
        dsimp only at h2c hdisk
        cases hs : (extra.map InputFile.attributes).mapM SourceFile.source with
        | none => rw [hs] at h2c; simp at h2c
        | some sources =>
          rw [hs] at hdisk
          dsimp only at hdisk
          clear h2c
          have hc : ∀ k, c.globals.lookup k = if k = "cloudnet_file_type" then some shortId else
              if k = "Conventions" then some "CF-1.8" else if k = "cloudnetpy_version" then some version
              else if k = "file_uuid" then some uuid else none := by
            intro k
            rw [hcg, set_lookup, i4]
          have e1 := uuidsOf (o.input :: extra)
          have e2 := historyOf parse dtMin hmin (stamp ++ " - " ++ readable ++ " file created") (o.input :: extra)
          have hread : (shortId, readable) ∈ Spec.productNames := by
            rw [C130_identifier] at hid
            rw [lookup_iff_mem_nodup (by decide)] at hid
            exact hid
          refine ⟨_, readable, location, _, _, hdisk, hread, rfl, ?_, ?_, ?_, ?_, ?_, ?_, e1, ?_, e2, ?_, ?_, ?_, sources, rfl, ?_⟩
          · simp [set_lookup, setSome_lookup, copyGlobals_lookup, hc]
          · simp [set_lookup, setSome_lookup, copyGlobals_lookup, hc]
          · simp [set_lookup, setSome_lookup, copyGlobals_lookup, hc]
          · simp [set_lookup, setSome_lookup, copyGlobals_lookup, hc]
          · simp [set_lookup, setSome_lookup, copyGlobals_lookup, hc]
          · simp [set_lookup, setSome_lookup, copyGlobals_lookup, hc]
          · simp [set_lookup]
          · simp [set_lookup]
          · intro k hk
            simp only [List.mem_cons, List.not_mem_nil, or_false] at hk
            rcases hk with rfl | rfl | rfl | rfl | rfl | rfl | rfl <;>
              simp [set_lookup, setSome_lookup, copyGlobals_lookup, hc]
          · intro hex
            subst hex
            simp only [List.map_nil, List.mapM_nil] at hs
            cases hs
            simp [set_lookup, setSome_lookup, copyGlobals_lookup, hc, appendExtraSources]
          · have hnone : ∀ x (l : List Text), (x ≠ none) → appendExtraSources x l ≠ none := by
              intro x l hx
              unfold appendExtraSources
              split
              · exact hx
              · dsimp only
                split
                · exact hx
                · simp
            simp [set_lookup, setSome_lookup, copyGlobals_lookup, hc]
            cases hx : o.input.file.globals.lookup "source" with
            | none => simp
            | some s =>
              have := hnone (some s.toList) sources (by simp)
              cases hy : appendExtraSources (some s.toList) sources with
              | none => exact absurd hy this
              | some t => simp [hy]

/-- **C130.** When a product file is written. -/
theorem C130_saved_iff (fits : List ℕ → List ℕ → Bool) (parse : Text → Option ℤ) (dtMin : ℤ) (version stamp shortId : String)
    (o : ProductObject β) (uuid : String) (copy : List String) (extra : List (InputFile β)) (old : Option (DiskFile β)) :
    (saveProductFile fits parse dtMin version stamp shortId o uuid copy extra old).2 = none ↔
      shortId ∈ Spec.productNames.map Prod.fst ∧ (o.input.file.globals.lookup "location").isSome = true ∧
      (∀ i ∈ extra, (i.file.globals.lookup "source").isSome = true) ∧
      ∃ n, heightSize o = .ok n ∧
        Spec.Writable fits (fun d => [("time", o.nTime), ("height", n)].lookup d) (o.data.map Prod.snd) ∧
        Spec.Copyable fits (fun d => [("time", o.nTime), ("height", n)].lookup d) o.input.file
          ((["altitude", "latitude", "longitude", "time", "height"] ++ copy).filter fun k =>
            decide (k ∉ o.data.map fun kv => kv.2.name)) := by
  have hids : shortId ∈ Spec.productNames.map Prod.fst ↔ ∃ r, identifierName shortId = some r := by
    rw [C130_identifier]
    constructor
    · intro h
      obtain ⟨p, hp, rfl⟩ := List.mem_map.1 h
      exact ⟨p.2, (lookup_iff_mem_nodup (by decide) _ _).2 hp⟩
    · rintro ⟨r, hr⟩
      exact List.mem_map.2 ⟨_, (lookup_iff_mem_nodup (by decide) _ _).1 hr, rfl⟩
  have hsrc : (∃ s, (extra.map InputFile.attributes).mapM SourceFile.source = some s) ↔
      ∀ i ∈ extra, (i.file.globals.lookup "source").isSome = true := by
    constructor
    · rintro ⟨s, hs⟩ i hi
      rw [mapM_option_iff] at hs
      obtain ⟨t, _, ht⟩ := forall₂_exists hs i.attributes (List.mem_map_of_mem hi)
      simp only [InputFile.attributes, Option.map_eq_some_iff] at ht
      obtain ⟨x, hx, _⟩ := ht
      rw [hx]; rfl
    · intro h
      induction extra with
      | nil => exact ⟨[], rfl⟩
      | cons i is ih =>
        obtain ⟨s, hs⟩ := ih fun j hj => h j (by simp [hj])
        obtain ⟨x, hx⟩ := Option.isSome_iff_exists.1 (h i (by simp))
        refine ⟨x.toList :: s, ?_⟩
        rw [mapM_option_iff] at hs ⊢
        exact .cons (by simp [InputFile.attributes, hx]) hs
  unfold saveProductFile
  cases hid : identifierName shortId with
  | none =>
    refine iff_of_false (by simp) ?_
    rintro ⟨h, _⟩
    obtain ⟨r, hr⟩ := hids.1 h
    rw [hid] at hr
    cases hr
  | some readable =>
    dsimp only
    cases hh : heightSize o with
    | error e =>
      refine iff_of_false (by simp) ?_
      rintro ⟨_, _, _, n, hn, _⟩
      cases hn
    | ok n =>
      dsimp only
      rw [next_none]
      obtain ⟨i0, i1, _⟩ := initFile_spec fits version [("time", o.nTime), ("height", n)] o.data uuid
      rw [i0]
      have key : ∀ hw : Spec.Writable fits (fun d => [("time", o.nTime), ("height", n)].lookup d) (o.data.map Prod.snd),
          ((productGlobals fits parse dtMin stamp shortId readable o copy extra
            (initFile fits version [("time", o.nTime), ("height", n)] o.data uuid).1).2 = none ↔
          (o.input.file.globals.lookup "location").isSome = true ∧
          (∀ i ∈ extra, (i.file.globals.lookup "source").isSome = true) ∧
          Spec.Copyable fits (fun d => [("time", o.nTime), ("height", n)].lookup d) o.input.file
          ((["altitude", "latitude", "longitude", "time", "height"] ++ copy).filter fun k =>
            decide (k ∉ o.data.map fun kv => kv.2.name))) := by
        intro hw
        obtain ⟨i2, i3, _⟩ := i1 (i0.2 hw)
        generalize (initFile fits version [("time", o.nTime), ("height", n)] o.data uuid).1 = g at i2 i3
        have hgn : g.vars.map DiskVar.name = o.data.map fun kv => kv.2.name := by
          have : ∀ (l : List (CloudnetArray (FileArray β))) (m : List (DiskVar β)),
              List.Forall₂ (Spec.WrittenAs fits fun d => [("time", o.nTime), ("height", n)].lookup d) l m →
              m.map DiskVar.name = l.map (·.name) := by
            intro l m hlm
            induction hlm with
            | nil => rfl
            | cons h1 _ ih => simp [ih, h1.1]
          rw [this _ _ i3, List.map_map]
          rfl
        have hc := (copyVars_spec fits o.input.file (["altitude", "latitude", "longitude", "time", "height"] ++ copy)
          (g.set "cloudnet_file_type" shortId)).2.2.2.2
        rw [show (g.set "cloudnet_file_type" shortId).dims = [("time", o.nTime), ("height", n)] from i2,
          show (g.set "cloudnet_file_type" shortId).vars.map DiskVar.name = o.data.map fun kv => kv.2.name from hgn] at hc
        unfold productGlobals
        rw [next_none, hc, ← hsrc]
        cases o.input.file.globals.lookup "location" with
        | none => simp
        | some l =>
          dsimp only
          cases (extra.map InputFile.attributes).mapM SourceFile.source with
          | none => simp
          | some s => simp
      constructor
      · rintro ⟨hw, hp⟩
        obtain ⟨k1, k2, k3⟩ := (key hw).1 hp
        exact ⟨hids.2 ⟨_, hid⟩, k1, k2, n, rfl, hw, k3⟩
      · rintro ⟨_, k1, k2, m, hm, hw, k3⟩
        cases hm
        exact ⟨hw, (key hw).2 ⟨k1, k2, k3⟩⟩

/-- **C130.** An unknown product type or an unknown number of heights is noticed before the file is touched; **a finding:** after any
other error an old file is lost. -/
theorem C130_failure (fits : List ℕ → List ℕ → Bool) (parse : Text → Option ℤ) (dtMin : ℤ) (version stamp shortId : String)
    (o : ProductObject β) (uuid : String) (copy : List String) (extra : List (InputFile β)) (old : Option (DiskFile β))
    (h : (saveProductFile fits parse dtMin version stamp shortId o uuid copy extra old).2 ≠ none) :
    ((shortId ∉ Spec.productNames.map Prod.fst ∨ ∃ e, heightSize o = .error e) →
      (saveProductFile fits parse dtMin version stamp shortId o uuid copy extra old).1 = old) ∧
    ((shortId ∈ Spec.productNames.map Prod.fst ∧ ∃ n, heightSize o = .ok n) →
      ∃ f, (saveProductFile fits parse dtMin version stamp shortId o uuid copy extra old).1 = some f ∧
        f.globals.lookup "history" = none ∧ f.globals.lookup "references" = none) := by
  have hids : shortId ∈ Spec.productNames.map Prod.fst ↔ ∃ r, identifierName shortId = some r := by
    rw [C130_identifier]
    constructor
    · intro h
      obtain ⟨p, hp, rfl⟩ := List.mem_map.1 h
      exact ⟨p.2, (lookup_iff_mem_nodup (by decide) _ _).2 hp⟩
    · rintro ⟨r, hr⟩
      exact List.mem_map.2 ⟨_, (lookup_iff_mem_nodup (by decide) _ _).1 hr, rfl⟩
  unfold saveProductFile at h ⊢
  constructor
  · rintro (h1 | ⟨e, he⟩)
    · cases hid : identifierName shortId with
      | none => rfl
      | some r => exact absurd (hids.2 ⟨r, hid⟩) h1
    · cases hid : identifierName shortId with
      | none => rfl
      | some r =>
        dsimp only
        rw [he]
  · rintro ⟨h1, n, hn⟩
    obtain ⟨r, hr⟩ := hids.1 h1
    rw [hr] at h ⊢
    dsimp only at h ⊢
    rw [hn] at h ⊢
    dsimp only at h ⊢
    refine ⟨_, rfl, ?_⟩
    obtain ⟨i0, i1, i2⟩ := initFile_spec fits version [("time", o.nTime), ("height", n)] o.data uuid
    cases hi : (initFile fits version [("time", o.nTime), ("height", n)] o.data uuid).2 with
    | some e =>
      rw [next_error _ _ e hi]
      obtain ⟨_, i4, _⟩ := i2 (by rw [hi]; simp)
      rw [i4]
      exact ⟨rfl, rfl⟩
    | none =>
      rw [next_eq _ _ hi] at h ⊢
      obtain ⟨_, _, i5⟩ := i1 hi
      generalize (initFile fits version [("time", o.nTime), ("height", n)] o.data uuid).1 = g at h i5
      have hcg := (copyVars_spec fits o.input.file (["altitude", "latitude", "longitude", "time", "height"] ++ copy)
        (g.set "cloudnet_file_type" shortId)).2.1
      unfold productGlobals at h ⊢
      cases hc : (copyVars fits o.input.file (g.set "cloudnet_file_type" shortId)
        (["altitude", "latitude", "longitude", "time", "height"] ++ copy)).2 with
      | some e =>
        rw [next_error _ _ e hc, hcg, set_lookup, set_lookup, i5, i5]
        exact ⟨by simp, by simp⟩
      | none =>
        rw [next_eq _ _ hc] at h ⊢
        generalize (copyVars fits o.input.file (g.set "cloudnet_file_type" shortId)
          (["altitude", "latitude", "longitude", "time", "height"] ++ copy)).1 = c at h hcg
        have hcl : ∀ k, c.globals.lookup k = if k = "cloudnet_file_type" then some shortId else
              if k = "Conventions" then some "CF-1.8" else if k = "cloudnetpy_version" then some version
              else if k = "file_uuid" then some uuid else none := by
          intro k
          rw [hcg, set_lookup, i5]
        cases hl : o.input.file.globals.lookup "location" with
        | none =>
          rw [hl] at h
          dsimp only
          rw [hcl, hcl]
          exact ⟨by simp, by simp⟩
        | some l =>
          rw [hl] at h
          dsimp only at h ⊢
          cases hs : (extra.map InputFile.attributes).mapM SourceFile.source with
          | none =>
            dsimp only
            simp [copyGlobals_lookup, set_lookup, hcl]
          | some s =>
            rw [hs] at h
            simp at h

/-- **C130.** The references of each product. -/
theorem C130_references :
    (∀ id, references id [] = "https://doi.org/10.21105/joss.02123" ++
      (match [("der", ", https://doi.org/10.1175/1520-0426(2002)019<0835:TROSCD>2.0.CO;2"),
        ("ier", ", https://doi.org/10.1175/JAM2340.1, https://doi.org/10.1175/JAM2543.1, https://doi.org/10.5194/amt-13-5335-2020"),
        ("lwc", ", https://doi.org/10.1175/BAMS-88-6-883"), ("categorize", ", https://doi.org/10.1175/BAMS-88-6-883"),
        ("iwc", ", https://doi.org/10.1175/JAM2340.1"), ("drizzle", ", https://doi.org/10.1175/JAM-2181.1"),
        ("epsilon-radar", ", https://doi.org/10.5194/amt-13-5335-2020, https://doi.org/10.1002/2015JD024543")].lookup (id.getD "")
        with | some s => s | none => "")) ∧
    ∀ id extra, (references id extra).toList = (references id []).toList ++ extra.flatMap fun x => ", ".toList ++ x.toList := by
  constructor
  · intro id
    unfold references
    dsimp only [List.foldl_nil]
    congr 1
    split <;> first | rfl | skip
    next h1 h2 h3 h4 h5 h6 h7 =>
      cases id with
      | none => decide +kernel
      | some s =>
        have hn : ∀ t, s ≠ t → (s == t) = false := fun t h => by simpa using h
        simp only [Option.some.injEq] at h1 h2 h3 h4 h5 h6 h7
        simp only [Option.getD_some, List.lookup_cons, hn _ h1, hn _ h2, hn _ h3, hn _ h4, hn _ h5, hn _ h6, hn _ h7, List.lookup_nil]
  · intro id extra
    have : ∀ (l : List String) (a : String),
        (l.foldl (fun r x => r ++ ", " ++ x) a).toList = a.toList ++ l.flatMap fun x => ", ".toList ++ x.toList := by
      intro l
      induction l with
      | nil => intro a; simp
      | cons x l ih =>
        intro a
        rw [List.foldl_cons, ih]
        simp
    unfold references
    exact this _ _

/-- An input file with a height and a radar frequency. -/
def exampleInput : InputFile ℕ :=
  { isModel := false
    file := { dims := [("time", 3), ("height", 2)]
              vars := [⟨"height", "f4", ["height"], [2], true, some 5, fun _ => none⟩, ⟨"time", "f4", ["time"], [3], true, some 6, fun _ => none⟩,
                ⟨"radar_frequency", "f4", [], [], true, some 35, fun _ => none⟩, ⟨"Z", "f4", ["time", "height"], [3, 2], true, some 9, fun _ => none⟩]
              globals := [("location", "Munich"), ("year", "2024"), ("file_uuid", "cat"), ("source", "radar"),
                ("history", "2024-03-12 10:00:00 +00:00 - categorize file created"), ("title", "Cloud categorization")] } }

/-- A product with its own height. -/
def exampleProduct : ProductObject ℕ :=
  { data := [("iwc", exampleArray "iwc" [3, 2] ["time", "height"]), ("height", exampleArray "height" [2] ["height"])]
    nTime := 3, input := exampleInput }

example : (saveProductFile (· == ·) (fun _ => none) 0 "1.0" "now" "iwc" exampleProduct "u" ["radar_frequency"] [] none).2 = none ∧
    (saveProductFile (· == ·) (fun _ => none) 0 "1.0" "now" "iwc" exampleProduct "u" ["radar_frequency"] [] none).1.map
      (fun f => (f.dims, f.vars.map fun v => (v.name, v.content))) =
      some ([("time", 3), ("height", 2)], [("iwc", some 7), ("height", some 7), ("time", some 6), ("radar_frequency", some 35)]) ∧
    (saveProductFile (· == ·) (fun _ => none) 0 "1.0" "now" "iwc" exampleProduct "u" ["radar_frequency"] [] none).1.map
      (fun f => (f.globals.lookup "title", f.globals.lookup "source_file_uuids", f.globals.lookup "history")) =
      some (some "Ice water content products from Munich", some "cat",
        some "now - ice water content file created\n2024-03-12 10:00:00 +00:00 - categorize file created") := by
  refine ⟨by decide +kernel, by decide +kernel, by decide +kernel⟩

/-- An unknown product leaves the old file; a variable that cannot be copied, here one with two heights into a file with three, does
not. -/
example : saveProductFile (· == ·) (fun _ => none) 0 "1.0" "now" "iwp" exampleProduct "u" [] [] (some ⟨[], [], [("title", "old")]⟩) =
    (some ⟨[], [], [("title", "old")]⟩, some "ValueError") := by
  rfl

example : (saveProductFile (· == ·) (fun _ => none) 0 "1.0" "now" "iwc"
      { exampleProduct with data := [("height", exampleArray "height" [3] ["height"])] } "u" ["Z"] [] none).2 = some "IndexError" := by
  decide +kernel

end Cloudnet
