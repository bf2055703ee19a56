import Mathlib.Tactic
import Verif.CrashSave.Model
import Verif.Save.Props

namespace Cloudnet

/-! ## C159: interrupted writing of files -/

variable {β : Type}

/-- `part` is a beginning of `whole`: its variables are the first ones, complete, perhaps followed by the next one without content. -/
def Spec.Beginning (part whole : DiskFile β) : Prop :=
  ∃ d, part.vars = whole.vars.take d ∨
    ∃ v, whole.vars[d]? = some v ∧ part.vars = whole.vars.take d ++ [{ v with content := none, attr := fun _ => none }]

/-- The global attribute is in the file. -/
def Spec.HasGlobal (f : DiskFile β) (key : String) : Prop := ∃ value, f.globals.lookup key = some value

/-! ### Runs -/

/-- The file after some operations. -/
def afterOps (f : DiskFile β) (ops : List (WriteOp β)) : DiskFile β := ops.foldl WriteOp.run f

theorem afterOps_append (f : DiskFile β) (a b : List (WriteOp β)) : afterOps f (a ++ b) = afterOps (afterOps f a) b := List.foldl_append

theorem writeOps_append (a b : List (SaveStep β)) : writeOps (a ++ b) = writeOps a ++ writeOps b := List.flatMap_append

theorem writeOps_nil : writeOps ([] : List (SaveStep β)) = [] := rfl

theorem writeOps_cons (s : SaveStep β) (l : List (SaveStep β)) : writeOps (s :: l) = s.ops ++ writeOps l := rfl

/-- The variables of the steps. -/
def stepVars (steps : List (SaveStep β)) : List (DiskVar β) :=
  steps.filterMap fun s => match s with | .var v => some v | _ => none

theorem stepVars_append (a b : List (SaveStep β)) : stepVars (a ++ b) = stepVars a ++ stepVars b := List.filterMap_append

/-- A variable with a new name is appended. -/
theorem afterOps_var (f : DiskFile β) (v : DiskVar β) (h : v.name ∉ f.vars.map DiskVar.name) :
    afterOps f (SaveStep.ops (.var v)) = { f with vars := f.vars ++ [v] } := by
  simp only [afterOps, SaveStep.ops, List.foldl_cons, List.foldl_nil, WriteOp.run]
  congr 1
  rw [List.map_append]
  congr 1
  · conv_rhs => rw [← List.map_id f.vars]
    apply List.map_congr_left
    intro w hw
    rw [if_neg]
    · rfl
    · intro hc
      exact h (hc ▸ List.mem_map_of_mem hw)
  · simp

/-- The variables after whole steps. -/
theorem afterSteps_vars (f : DiskFile β) (steps : List (SaveStep β)) (h : ((f.vars ++ stepVars steps).map DiskVar.name).Nodup) :
    (afterOps f (writeOps steps)).vars = f.vars ++ stepVars steps := by
  induction steps generalizing f with
  | nil => simp [writeOps_nil, afterOps, stepVars]
  | cons s l ih =>
    rw [writeOps_cons, afterOps_append]
    cases s with
    | dim name size =>
      exact ih _ h
    | attr key value =>
      exact ih _ h
    | var v =>
      have hs : stepVars (SaveStep.var v :: l) = v :: stepVars l := rfl
      rw [hs] at h ⊢
      have hv : v.name ∉ f.vars.map DiskVar.name := by
        rw [List.map_append, List.map_cons, List.nodup_append] at h
        intro hc
        exact h.2.2 _ hc _ List.mem_cons_self rfl
      rw [afterOps_var f v hv, ih]
      · simp
      · simpa using h

/-- The variables when the writing stops. -/
theorem stopped_vars (f : DiskFile β) (steps : List (SaveStep β)) (h : ((f.vars ++ stepVars steps).map DiskVar.name).Nodup) (k : ℕ) :
    ∃ d, (afterOps f ((writeOps steps).take k)).vars = f.vars ++ (stepVars steps).take d ∨
      ∃ v, (stepVars steps)[d]? = some v ∧
        (afterOps f ((writeOps steps).take k)).vars = f.vars ++ (stepVars steps).take d ++ [{ v with content := none, attr := fun _ => none }] := by
  induction steps generalizing f k with
  | nil => exact ⟨0, Or.inl (by simp [writeOps_nil, afterOps])⟩
  | cons s l ih =>
    rw [writeOps_cons]
    cases s with
    | dim name size =>
      cases k with
      | zero => exact ⟨0, Or.inl (by simp [afterOps])⟩
      | succ k => exact ih (WriteOp.run f (.dim name size)) h k
    | attr key value =>
      cases k with
      | zero => exact ⟨0, Or.inl (by simp [afterOps])⟩
      | succ k => exact ih (WriteOp.run f (.attr key value)) h k
    | var v =>
      have hs : stepVars (SaveStep.var v :: l) = v :: stepVars l := rfl
      rw [hs] at h ⊢
      have hv : v.name ∉ f.vars.map DiskVar.name := by
        rw [List.map_append, List.map_cons, List.nodup_append] at h
        intro hc
        exact h.2.2 _ hc _ List.mem_cons_self rfl
      match k with
      | 0 => exact ⟨0, Or.inl (by simp [afterOps])⟩
      | 1 => exact ⟨0, Or.inr ⟨v, rfl, by simp [afterOps, SaveStep.ops, WriteOp.run]⟩⟩
      | k + 2 =>
        have hops : (SaveStep.ops (.var v) ++ writeOps l).take (k + 2) = SaveStep.ops (.var v) ++ (writeOps l).take k := by
          simp [SaveStep.ops]
        rw [hops, afterOps_append, afterOps_var f v hv]
        obtain ⟨d, hd⟩ := ih { f with vars := f.vars ++ [v] } (by simpa using h) k
        refine ⟨d + 1, ?_⟩
        rcases hd with hd | ⟨w, hw, hd⟩
        · exact Or.inl (by rw [hd]; simp)
        · exact Or.inr ⟨w, by simpa using hw, by rw [hd]; simp⟩

/-- The keys of the attributes that operations set. -/
def opKeys (ops : List (WriteOp β)) : List String := ops.filterMap fun o => match o with | .attr key _ => some key | _ => none

theorem afterOps_global (ops : List (WriteOp β)) (f : DiskFile β) (key : String) :
    Spec.HasGlobal (afterOps f ops) key ↔ Spec.HasGlobal f key ∨ key ∈ opKeys ops := by
  induction ops generalizing f with
  | nil => simp [afterOps, opKeys]
  | cons o l ih =>
    have := ih (WriteOp.run f o)
    rw [show afterOps f (o :: l) = afterOps (WriteOp.run f o) l from rfl, this]
    cases o with
    | dim name size => exact Iff.rfl
    | create v => exact Iff.rfl
    | write v => exact Iff.rfl
    | attr k v =>
      have hk : opKeys (WriteOp.attr k v :: l) = k :: opKeys l := rfl
      rw [hk, List.mem_cons]
      unfold Spec.HasGlobal
      simp only [WriteOp.run, set_lookup]
      by_cases h : key = k
      · simp [h]
      · simp [h]

theorem opKeys_attr (l : List (SaveStep β)) (key : String) :
    key ∈ opKeys (writeOps l) ↔ ∃ value, SaveStep.attr key value ∈ l := by
  induction l with
  | nil => simp [writeOps_nil, opKeys]
  | cons s l ih =>
    rw [writeOps_cons]
    unfold opKeys at ih ⊢
    rw [List.filterMap_append, List.mem_append, ih]
    cases s with
    | dim name size => simp [SaveStep.ops]
    | var v => simp [SaveStep.ops]
    | attr k v =>
      simp only [SaveStep.ops, List.filterMap_cons, List.filterMap_nil, List.mem_cons, List.not_mem_nil, or_false, SaveStep.attr.injEq]
      constructor
      · rintro (h | ⟨value, h⟩)
        · exact ⟨v, Or.inl ⟨h, rfl⟩⟩
        · exact ⟨value, Or.inr h⟩
      · rintro ⟨value, h | h⟩
        · exact Or.inl h.1
        · exact Or.inr ⟨value, h⟩

/-- The attribute that is written last is in the file exactly if the run has come to its end. -/
theorem stopped_marker (steps : List (SaveStep β)) (key value : String) (h : ∀ v, SaveStep.attr key v ∉ steps) (k : ℕ) :
    Spec.HasGlobal (stoppedAfter (steps ++ [.attr key value]) k) key ↔
      stoppedAfter (steps ++ [.attr key value]) k = wholeFile (steps ++ [.attr key value]) := by
  have hops : writeOps (steps ++ [.attr key value]) = writeOps steps ++ [.attr key value] := writeOps_append _ _
  have hno : key ∉ opKeys (writeOps steps) := by
    rw [opKeys_attr]
    rintro ⟨v, hv⟩
    exact h v hv
  unfold stoppedAfter wholeFile
  rw [hops]
  constructor
  · intro hg
    by_cases hk : k ≤ (writeOps steps).length
    · exfalso
      rw [List.take_append_of_le_length hk] at hg
      rcases (afterOps_global _ _ _).1 hg with ⟨_, h⟩ | h
      · cases h
      · unfold opKeys at h hno
        rw [List.mem_filterMap] at h hno
        obtain ⟨o, ho, he⟩ := h
        exact hno ⟨o, List.mem_of_mem_take ho, he⟩
    · rw [List.take_of_length_le (by simp; omega)]
  · intro he
    rw [he]
    refine (afterOps_global _ _ _).2 (Or.inr ?_)
    simp [opKeys]

/-- A stopped run leaves a beginning of the file. -/
theorem stopped_beginning (steps : List (SaveStep β)) (h : ((stepVars steps).map DiskVar.name).Nodup) (k : ℕ) :
    Spec.Beginning (stoppedAfter steps k) (wholeFile steps) := by
  have hw : (wholeFile steps).vars = stepVars steps := by
    have := afterSteps_vars ⟨[], [], []⟩ steps (by simpa using h)
    simpa [wholeFile, afterOps] using this
  obtain ⟨d, hd⟩ := stopped_vars ⟨[], [], []⟩ steps (by simpa using h) k
  refine ⟨d, ?_⟩
  rw [hw]
  rcases hd with hd | ⟨v, hv, hd⟩
  · exact Or.inl (by simpa [stoppedAfter, afterOps] using hd)
  · exact Or.inr ⟨v, hv, by simpa [stoppedAfter, afterOps] using hd⟩

/-! ### The runs give the files of C129 to C132 -/

theorem afterOps_attrs (f : DiskFile β) (l : List (String × String)) : afterOps f (writeOps (l.map fun kv => .attr kv.1 kv.2)) = f.setAll l := by
  induction l generalizing f with
  | nil => rfl
  | cons kv l ih => exact ih (f.set kv.1 kv.2)

theorem afterOps_dims (f : DiskFile β) (dims : List (String × ℕ)) :
    afterOps f (writeOps (dims.map fun d => .dim d.1 d.2)) = { f with dims := f.dims ++ dims } := by
  induction dims generalizing f with
  | nil => simp [writeOps_nil, afterOps]
  | cons d l ih =>
    refine (ih _).trans ?_
    simp [WriteOp.run]

theorem afterOps_arrays (fits : List ℕ → List ℕ → Bool) (as : List (CloudnetArray (FileArray β))) (f : DiskFile β)
    (h : (writeVars fits f as).2 = none) :
    (writeVars fits f as).1 = afterOps f (writeOps (as.map fun a => .var (arrayVar f.dims a))) ∧
      (as.map CloudnetArray.name).Nodup ∧ ∀ a ∈ as, a.name ∉ f.vars.map DiskVar.name := by
  induction as generalizing f with
  | nil => exact ⟨rfl, by simp, by simp⟩
  | cons a as ih =>
    unfold writeVars at h ⊢
    by_cases hn : a.name ∈ f.vars.map DiskVar.name
    · rw [if_pos hn] at h; cases h
    · rw [if_neg hn] at h ⊢
      cases hm : (a.dimensions.getD []).mapM (f.dims.lookup ·) with
      | none => rw [hm] at h; cases h
      | some sizes =>
        rw [hm] at h
        simp only at h ⊢
        by_cases hf : fits a.data.shape sizes
        · rw [if_pos hf] at h ⊢
          obtain ⟨i1, i2, i3⟩ := ih _ h
          refine ⟨?_, ?_, ?_⟩
          · rw [i1, List.map_cons, writeOps_cons, afterOps_append, afterOps_var f _ hn]
            simp only [arrayVar, hm, Option.getD_some]
          · rw [List.map_cons, List.nodup_cons]
            refine ⟨?_, i2⟩
            intro hc
            obtain ⟨b, hb, hbe⟩ := List.mem_map.1 hc
            exact i3 b hb (by simp [hbe])
          · intro b hb
            rcases List.mem_cons.1 hb with rfl | hb
            · exact hn
            · intro hc
              exact i3 b hb (by simp only [List.map_append, List.mem_append]; exact Or.inl hc)
        · rw [if_neg hf] at h; cases h

theorem stepVars_map_var (l : List (DiskVar β)) : stepVars (l.map SaveStep.var) = l := by
  induction l with
  | nil => rfl
  | cons v l ih => exact congrArg (v :: ·) ih

theorem stepVars_no_var (l : List (SaveStep β)) (h : ∀ v, SaveStep.var v ∉ l) : stepVars l = [] := by
  unfold stepVars
  rw [List.filterMap_eq_nil_iff]
  intro s hs
  cases s with
  | var v => exact absurd hs (h v)
  | dim name size => rfl
  | attr key value => rfl

theorem initSteps_vars (version : String) (dims : List (String × ℕ)) (arrays : List (String × CloudnetArray (FileArray β))) (uuid : String) :
    stepVars (initSteps version dims arrays uuid) = arrays.map fun a => arrayVar dims a.2 := by
  unfold initSteps
  rw [stepVars_append, stepVars_append, stepVars_no_var (dims.map _) (by simp), stepVars_no_var [_, _, _] (by simp)]
  have : (arrays.map fun a => SaveStep.var (arrayVar dims a.2)) = (arrays.map fun a => arrayVar dims a.2).map SaveStep.var := by
    rw [List.map_map]; rfl
  rw [this, stepVars_map_var]
  simp

theorem initFile_steps (fits : List ℕ → List ℕ → Bool) (version : String) (dims : List (String × ℕ))
    (arrays : List (String × CloudnetArray (FileArray β))) (uuid : String) (h : (initFile fits version dims arrays uuid).2 = none) :
    (initFile fits version dims arrays uuid).1 = wholeFile (initSteps version dims arrays uuid) ∧
      (arrays.map fun a => a.2.name).Nodup ∧ (initFile fits version dims arrays uuid).1.dims = dims := by
  unfold initFile at h ⊢
  obtain ⟨h1, h2⟩ := (next_none _ _).1 h
  rw [next_eq _ _ h1]
  obtain ⟨a1, a2, -⟩ := afterOps_arrays fits _ _ h1
  have hw : (writeVars fits ⟨dims, [], []⟩ (arrays.map Prod.snd)).1 =
      afterOps ⟨dims, [], []⟩ (writeOps (arrays.map fun a => .var (arrayVar dims a.2))) := by
    rw [a1, List.map_map]; rfl
  have hwhole : wholeFile (initSteps version dims arrays uuid) =
      ((writeVars fits ⟨dims, [], []⟩ (arrays.map Prod.snd)).1).setAll
        [("Conventions", "CF-1.8"), ("cloudnetpy_version", version), ("file_uuid", uuid)] := by
    rw [← afterOps_attrs, hw]
    unfold wholeFile initSteps
    rw [writeOps_append, writeOps_append]
    change afterOps _ _ = _
    rw [afterOps_append, afterOps_append, afterOps_dims]
    rfl
  refine ⟨hwhole.symm, by rw [List.map_map] at a2; exact a2, ?_⟩
  rw [(setAll_vars _ _).2]
  have : ∀ (l : List (SaveStep β)) (f : DiskFile β), (∀ s ∈ l, ∃ v, s = SaveStep.var v) → (afterOps f (writeOps l)).dims = f.dims := by
    intro l
    induction l with
    | nil => intro f _; rfl
    | cons s l ih =>
      intro f hall
      obtain ⟨v, rfl⟩ := hall s List.mem_cons_self
      exact ih _ fun s hs => hall s (List.mem_cons_of_mem _ hs)
  rw [hw, this]
  intro s hs
  obtain ⟨a, _, rfl⟩ := List.mem_map.1 hs
  exact ⟨_, rfl⟩

theorem wholeFile_append (a b : List (SaveStep β)) : wholeFile (a ++ b) = afterOps (wholeFile a) (writeOps b) := by
  unfold wholeFile
  rw [writeOps_append]
  exact afterOps_append _ _ _

/-- What is claimed about stopping at any point of a run that would give the file `f`: a beginning of the file is left, and it is the whole file
exactly if the attribute `key` is there. -/
theorem stopped_run (steps : List (SaveStep β)) (key value : String) (f : DiskFile β) (hf : wholeFile (steps ++ [.attr key value]) = f)
    (hn : ((stepVars steps).map DiskVar.name).Nodup) (hkey : ∀ v, SaveStep.attr key v ∉ steps) (k : ℕ) :
    Spec.Beginning (stoppedAfter (steps ++ [.attr key value]) k) f ∧
      (Spec.HasGlobal (stoppedAfter (steps ++ [.attr key value]) k) key ↔ stoppedAfter (steps ++ [.attr key value]) k = f) := by
  subst hf
  refine ⟨stopped_beginning _ ?_ k, stopped_marker steps key value hkey k⟩
  rw [stepVars_append, stepVars_no_var [SaveStep.attr key value] (by simp), List.append_nil]
  exact hn

/-- **C159.** A Level 1b file whose writing stops at any point, for whatever reason. The steps are those of the file of C129; what is left at the
final name has the first of its variables, complete, and perhaps the next one without content; and it is the whole file exactly if it has the
global attribute `references`. -/
theorem C159_level1b (fits : List ℕ → List ℕ → Bool) (version stamp : String) (o : L1bObject β) (uuid : String) (old : Option (DiskFile β))
    (f : DiskFile β) (h : saveLevel1b fits version stamp o uuid old = (some f, none)) :
    ∃ dims location, netcdfDimensions o = .ok dims ∧ o.siteName = some location ∧
      wholeFile (level1bSteps version stamp o dims location uuid) = f ∧
      ∀ k, Spec.Beginning (stoppedAfter (level1bSteps version stamp o dims location uuid) k) f ∧
        (Spec.HasGlobal (stoppedAfter (level1bSteps version stamp o dims location uuid) k) "references" ↔
          stoppedAfter (level1bSteps version stamp o dims location uuid) k = f) := by
  unfold saveLevel1b at h
  cases hd : netcdfDimensions o with
  | error e => rw [hd] at h; cases h
  | ok dims =>
    rw [hd] at h
    simp only [Prod.mk.injEq, Option.some.injEq] at h
    obtain ⟨hf, hnone⟩ := h
    obtain ⟨h1, h2⟩ := (next_none _ _).1 hnone
    rw [next_eq _ _ h1] at hf
    obtain ⟨a1, a2, -⟩ := initFile_steps fits version dims o.data uuid h1
    cases hs : o.siteName with
    | none => simp only [level1bGlobals, hs] at h2; cases h2
    | some location =>
      simp only [level1bGlobals, hs] at hf
      rw [a1] at hf
      refine ⟨dims, location, rfl, rfl, ?_⟩
      have hwhole : wholeFile (level1bSteps version stamp o dims location uuid) = f := by
        rw [← hf, ← afterOps_attrs]
        unfold level1bSteps
        rw [List.append_assoc, List.append_assoc, List.append_assoc, wholeFile_append]
        congr 2
        cases o.serial <;> simp
      refine ⟨hwhole, fun k => ?_⟩
      refine stopped_run _ _ _ f hwhole ?_ ?_ k
      · rw [stepVars_append, stepVars_append, stepVars_append, initSteps_vars, stepVars_no_var [_, _, _, _, _, _, _, _] (by simp),
          stepVars_no_var (o.software.map _) (by simp), stepVars_no_var _ (by cases o.serial <;> simp)]
        simpa [Function.comp_def, arrayVar] using a2
      · intro v hv
        have hver : ∀ s : String, s ++ "_version" ≠ "references" := fun s => version_ne s "references" (by decide +kernel)
        rcases hser : o.serial with _ | ser <;> rw [hser] at hv <;> simp [initSteps, hver] at hv

/-- **C159, finding.** `hatpro2l1c` writes its file in two passes: between them there is a file at the final name that has all variables and the
attribute `references`, but is announced as a Level 1b file. -/
theorem C159_hatpro_l1c (fits : List ℕ → List ℕ → Bool) (version stamp : String) (o : L1bObject β) (uuid : String) (old : Option (DiskFile β))
    (f : DiskFile β) (h : saveLevel1b fits version stamp o uuid old = (some f, none)) (hdomain : o.instrument.domain = "mwr")
    (title mwrpy coefficients history : String) (withLidar : Option (String × String)) :
    ∃ dims location, wholeFile (level1bSteps version stamp o dims location uuid) = f ∧
      ∃ k, stoppedAfter (hatproL1cSteps (level1bSteps version stamp o dims location uuid) title mwrpy coefficients history withLidar) k = f ∧
        Spec.HasGlobal f "references" ∧ f.globals.lookup "cloudnet_file_type" = some "mwr" ∧
        (wholeFile (hatproL1cSteps (level1bSteps version stamp o dims location uuid) title mwrpy coefficients history withLidar)).globals.lookup
          "cloudnet_file_type" = some "mwr-l1c" := by
  obtain ⟨dims, location, -, -, hwhole, -⟩ := C159_level1b fits version stamp o uuid old f h
  refine ⟨dims, location, hwhole, (writeOps (level1bSteps version stamp o dims location uuid)).length, ?_, ?_, ?_, ?_⟩
  · unfold stoppedAfter hatproL1cSteps
    rw [List.append_assoc, writeOps_append, List.take_left']
    · exact hwhole
    · rfl
  · obtain ⟨g, loc, hg, -, -, -, -, -, -, -, -, -, -, -, -, -, -, -, href, -⟩ := C129_file fits version stamp o uuid old (some f) h
    cases hg
    exact ⟨_, href⟩
  · obtain ⟨g, loc, hg, -, -, -, -, -, -, ht, -⟩ := C129_file fits version stamp o uuid old (some f) h
    cases hg
    rw [ht, hdomain]
  · unfold hatproL1cSteps
    rw [List.append_assoc, wholeFile_append]
    cases withLidar <;> simp [writeOps, SaveStep.ops, afterOps, WriteOp.run, set_lookup]

theorem copyVars_steps (fits : List ℕ → List ℕ → Bool) (source : DiskFile β) (keys : List String) (f : DiskFile β)
    (h : (copyVars fits source f keys).2 = none) :
    (copyVars fits source f keys).1 =
        afterOps f (writeOps ((copiedVars source f.dims (f.vars.map DiskVar.name) keys).map .var)) ∧
      ((copiedVars source f.dims (f.vars.map DiskVar.name) keys).map DiskVar.name).Nodup ∧
      ∀ v ∈ copiedVars source f.dims (f.vars.map DiskVar.name) keys, v.name ∉ f.vars.map DiskVar.name := by
  induction keys generalizing f with
  | nil => exact ⟨rfl, by simp [copiedVars], by simp [copiedVars]⟩
  | cons key keys ih =>
    unfold copyVars at h ⊢
    unfold copiedVars
    cases hv : source.var key with
    | none => rw [hv] at h; simp only at h ⊢; exact ih f h
    | some v =>
      rw [hv] at h
      simp only at h ⊢
      have hvn := var_name source key v hv
      by_cases hk : key ∈ f.vars.map DiskVar.name
      · rw [if_pos hk] at h ⊢
        rw [if_pos hk]
        exact ih f h
      · rw [if_neg hk] at h ⊢
        rw [if_neg hk]
        cases hm : v.dims.mapM (f.dims.lookup ·) with
        | none => rw [hm] at h; cases h
        | some sizes =>
          rw [hm] at h
          simp only [Option.getD_some] at h ⊢
          by_cases hf : fits v.shape sizes
          · rw [if_pos hf] at h ⊢
            obtain ⟨i1, i2, i3⟩ := ih _ h
            have hnames : (f.vars ++ [{ v with shape := sizes }]).map DiskVar.name = f.vars.map DiskVar.name ++ [v.name] := by simp
            rw [hnames] at i1 i2 i3
            refine ⟨?_, ?_, ?_⟩
            · rw [i1, List.map_cons, writeOps_cons, afterOps_append, afterOps_var f _ (by rw [hvn]; exact hk)]
            · rw [List.map_cons, List.nodup_cons]
              refine ⟨?_, i2⟩
              intro hc
              obtain ⟨w, hw, hwe⟩ := List.mem_map.1 hc
              exact i3 w hw (by rw [hwe]; simp)
            · intro w hw
              rcases List.mem_cons.1 hw with rfl | hw
              · simp only; rw [hvn]; exact hk
              · intro hc
                exact i3 w hw (List.mem_append_left _ hc)
          · rw [if_neg hf] at h; cases h

theorem copyGlobals_steps (source f : DiskFile β) (keys : List String) : copyGlobals source f keys = afterOps f (writeOps (copiedGlobals source keys)) := by
  unfold copyGlobals copiedGlobals
  induction keys generalizing f with
  | nil => rfl
  | cons key keys ih =>
    rw [List.foldl_cons, List.filterMap_cons]
    cases h : source.globals.lookup key with
    | none => exact ih f
    | some v => exact ih (f.set key v)

theorem copiedGlobals_no_var (source : DiskFile β) (keys : List String) (v : DiskVar β) : SaveStep.var v ∉ copiedGlobals source keys := by
  unfold copiedGlobals
  rw [List.mem_filterMap]
  rintro ⟨key, _, h⟩
  cases hl : source.globals.lookup key with
  | none => rw [hl] at h; cases h
  | some x => rw [hl] at h; cases h

theorem copiedGlobals_attr (source : DiskFile β) (keys : List String) (k v : String) (hk : k ∉ keys) : SaveStep.attr k v ∉ copiedGlobals source keys := by
  unfold copiedGlobals
  rw [List.mem_filterMap]
  rintro ⟨key, hm, h⟩
  cases hl : source.globals.lookup key with
  | none => rw [hl] at h; cases h
  | some x =>
    rw [hl] at h
    simp only [Option.map_some, Option.some.injEq, SaveStep.attr.injEq] at h
    exact hk (h.1 ▸ hm)

theorem initSteps_attr (version : String) (dims : List (String × ℕ)) (arrays : List (String × CloudnetArray (FileArray β))) (uuid k v : String)
    (hk : k ∉ ["Conventions", "cloudnetpy_version", "file_uuid"]) : SaveStep.attr k v ∉ initSteps version dims arrays uuid := by
  simp only [List.mem_cons, List.not_mem_nil, or_false, not_or] at hk
  simp [initSteps, hk]

theorem afterOps_one (f : DiskFile β) (key value : String) : afterOps f (writeOps [.attr key value]) = f.set key value := rfl

/-- **C159.** A categorize file whose writing stops at any point: a beginning of the file of C131 is left, and it is the whole file exactly if it has
the global attribute `history`. -/
theorem C159_categorize (fits : List ℕ → List ℕ → Bool) (parse : Text → Option ℤ) (dtMin : ℤ) (version stamp voodoo : String)
    (nTime nHeight nModelTime nModelHeight : ℕ) (arrays : List (String × CloudnetArray (FileArray β))) (radar : InputFile β)
    (others : List (InputFile β)) (location uuid : String) (f : DiskFile β)
    (h : saveCategorize fits parse dtMin version stamp voodoo nTime nHeight nModelTime nModelHeight arrays radar others location uuid = (f, none)) :
    let steps := categorizeSteps parse dtMin version stamp voodoo nTime nHeight nModelTime nModelHeight arrays radar others location uuid
    wholeFile steps = f ∧ ∀ k, Spec.Beginning (stoppedAfter steps k) f ∧
      (Spec.HasGlobal (stoppedAfter steps k) "history" ↔ stoppedAfter steps k = f) := by
  intro steps
  have hnone : (saveCategorize fits parse dtMin version stamp voodoo nTime nHeight nModelTime nModelHeight arrays radar others location uuid).2 = none := by
    rw [h]
  unfold saveCategorize at h hnone
  obtain ⟨h1, -⟩ := (next_none _ _).1 hnone
  rw [next_eq _ _ h1] at h
  obtain ⟨a1, a2, -⟩ := initFile_steps fits version _ arrays uuid h1
  rw [a1] at h
  have hwhole : wholeFile steps = f := by
    rw [← (Prod.mk.inj h).1]
    unfold steps categorizeSteps
    simp only [wholeFile_append, afterOps_one, ← copyGlobals_steps]
    congr 1
    cases (addSourceInstruments (((radar :: others).map InputFile.attributes).map fun s => { s with source := some (s.source.getD []) })).1 <;>
      cases (addSourceInstruments (((radar :: others).map InputFile.attributes).map fun s => { s with source := some (s.source.getD []) })).2 <;>
      by_cases hv : (arrays.lookup "liquid_prob").isSome <;> simp [hv, DiskFile.setSome] <;> rfl
  refine ⟨hwhole, fun k => stopped_run _ _ _ f hwhole ?_ ?_ k⟩
  · simp only [stepVars_append, initSteps_vars, stepVars_no_var _ (copiedGlobals_no_var _ _)]
    rw [stepVars_no_var [_] (by simp), stepVars_no_var [_, _, _] (by simp), stepVars_no_var _ (by split <;> simp), stepVars_no_var _ (by split <;> simp),
      stepVars_no_var _ (by split <;> simp)]
    simpa [Function.comp_def, arrayVar] using a2
  · intro v hv
    simp only [List.mem_append] at hv
    rcases hv with ((((((hv | hv) | hv) | hv) | hv) | hv) | hv)
    · exact initSteps_attr _ _ _ _ _ _ (by decide) hv
    · simp at hv
    · exact copiedGlobals_attr _ _ _ _ (by decide) hv
    · simp at hv
    · split at hv <;> simp at hv
    · split at hv <;> simp at hv
    · split at hv <;> simp at hv

/-- **C159.** A Level 3 file whose writing stops at any point: a beginning of the file of C132 is left, and it is the whole file exactly if it has the
global attribute `history`. -/
theorem C159_level3 (fits : List ℕ → List ℕ → Bool) (parse : Text → Option ℤ) (dtMin : ℤ) (version stamp product : String) (m : L3Model β)
    (obs : InputFile β) (modelFiles : List String) (productFile uuid : String) (modelName siteName : Option String) (old : Option (DiskFile β))
    (f : DiskFile β) (h : saveL3 fits parse dtMin version stamp product m obs modelFiles productFile uuid modelName siteName old = (some f, none)) :
    ∃ location, l3Site m siteName = .ok location ∧
      wholeFile (l3Steps parse dtMin version stamp product m obs modelFiles productFile uuid modelName location) = f ∧
      ∀ k, Spec.Beginning (stoppedAfter (l3Steps parse dtMin version stamp product m obs modelFiles productFile uuid modelName location) k) f ∧
        (Spec.HasGlobal (stoppedAfter (l3Steps parse dtMin version stamp product m obs modelFiles productFile uuid modelName location) k) "history" ↔
          stoppedAfter (l3Steps parse dtMin version stamp product m obs modelFiles productFile uuid modelName location) k = f) := by
  unfold saveL3 at h
  cases hl : l3Site m siteName with
  | error e => rw [hl] at h; cases h
  | ok location =>
    rw [hl] at h
    simp only [Prod.mk.injEq, Option.some.injEq] at h
    obtain ⟨hf, hnone⟩ := h
    obtain ⟨h1, -⟩ := (next_none _ _).1 hnone
    rw [next_eq _ _ h1] at hf
    obtain ⟨a1, a2, -⟩ := initFile_steps fits version _ m.data uuid h1
    rw [a1] at hf
    refine ⟨location, rfl, ?_⟩
    have hwhole : wholeFile (l3Steps parse dtMin version stamp product m obs modelFiles productFile uuid modelName location) = f := by
      rw [← hf]
      unfold l3Steps l3Globals
      simp only [wholeFile_append, afterOps_one, ← copyGlobals_steps]
      congr 1
      cases obs.file.globals.lookup "source_instrument_pids" <;>
        by_cases hv : (m.input.file.globals.lookup "day").isSome <;> simp [hv, DiskFile.setSome] <;> rfl
    refine ⟨hwhole, fun k => stopped_run _ _ _ f hwhole ?_ ?_ k⟩
    · simp only [stepVars_append, initSteps_vars, stepVars_no_var _ (copiedGlobals_no_var _ _)]
      rw [stepVars_no_var [_, _, _, _, _, _, _] (by simp), stepVars_no_var [_] (by simp), stepVars_no_var _ (by split <;> simp),
        stepVars_no_var _ (by split <;> simp)]
      simpa [Function.comp_def, arrayVar] using a2
    · intro v hv
      simp only [List.mem_append] at hv
      rcases hv with (((((hv | hv) | hv) | hv) | hv) | hv)
      · exact initSteps_attr _ _ _ _ _ _ (by decide) hv
      · simp at hv
      · split at hv <;> simp at hv
      · exact copiedGlobals_attr _ _ _ _ (by decide) hv
      · simp at hv
      · split at hv <;> simp at hv

/-- **C159.** A product file whose writing stops at any point: a beginning of the file of C130 is left, and it is the whole file exactly if it has the
global attribute `references`. -/
theorem C159_product (fits : List ℕ → List ℕ → Bool) (parse : Text → Option ℤ) (dtMin : ℤ) (version stamp shortId : String) (o : ProductObject β)
    (uuid : String) (copy : List String) (extra : List (InputFile β)) (old : Option (DiskFile β)) (f : DiskFile β)
    (h : saveProductFile fits parse dtMin version stamp shortId o uuid copy extra old = (some f, none)) :
    ∃ readable height location extraSources, identifierName shortId = some readable ∧ heightSize o = .ok height ∧
      o.input.file.globals.lookup "location" = some location ∧ (extra.map InputFile.attributes).mapM SourceFile.source = some extraSources ∧
      wholeFile (productSteps parse dtMin version stamp shortId readable o height uuid copy extra location extraSources) = f ∧
      ∀ k, Spec.Beginning (stoppedAfter (productSteps parse dtMin version stamp shortId readable o height uuid copy extra location extraSources) k) f ∧
        (Spec.HasGlobal (stoppedAfter (productSteps parse dtMin version stamp shortId readable o height uuid copy extra location extraSources) k)
            "references" ↔
          stoppedAfter (productSteps parse dtMin version stamp shortId readable o height uuid copy extra location extraSources) k = f) := by
  unfold saveProductFile at h
  cases hid : identifierName shortId with
  | none => rw [hid] at h; cases h
  | some readable =>
    rw [hid] at h
    cases hh : heightSize o with
    | error e => simp only [hh] at h; cases h
    | ok height =>
      simp only [hh, Prod.mk.injEq, Option.some.injEq] at h
      obtain ⟨hf, hnone⟩ := h
      obtain ⟨h1, h2⟩ := (next_none _ _).1 hnone
      rw [next_eq _ _ h1] at hf
      obtain ⟨a1, a2, a3⟩ := initFile_steps fits version _ o.data uuid h1
      unfold productGlobals at hf h2
      obtain ⟨h3, h4⟩ := (next_none _ _).1 h2
      rw [next_eq _ _ h3] at hf
      obtain ⟨c1, c2, c3⟩ := copyVars_steps fits _ _ _ h3
      set g0 := (initFile fits version [("time", o.nTime), ("height", height)] o.data uuid).1 with hg0
      have hg0v : g0.vars = o.data.map fun a => arrayVar [("time", o.nTime), ("height", height)] a.2 := by
        rw [a1]
        have := afterSteps_vars ⟨[], [], []⟩ (initSteps version [("time", o.nTime), ("height", height)] o.data uuid) (by
          rw [initSteps_vars]; simpa [Function.comp_def, arrayVar] using a2)
        rw [initSteps_vars] at this
        simpa [wholeFile, afterOps] using this
      have hnames : (g0.set "cloudnet_file_type" shortId).vars.map DiskVar.name = o.data.map fun a => a.2.name := by
        change g0.vars.map DiskVar.name = _
        rw [hg0v, List.map_map]; rfl
      have hdims : (g0.set "cloudnet_file_type" shortId).dims = [("time", o.nTime), ("height", height)] := a3
      rw [hnames, hdims] at c1 c2 c3
      cases hloc : o.input.file.globals.lookup "location" with
      | none => rw [hloc] at h4; cases h4
      | some location =>
        rw [hloc] at h4 hf
        simp only at h4 hf
        cases hex : (extra.map InputFile.attributes).mapM SourceFile.source with
        | none => rw [hex] at h4; cases h4
        | some extraSources =>
          rw [hex] at hf
          simp only at hf
          refine ⟨readable, height, location, extraSources, rfl, rfl, rfl, rfl, ?_⟩
          have hwhole : wholeFile (productSteps parse dtMin version stamp shortId readable o height uuid copy extra location extraSources) = f := by
            have hsource : ∀ g : DiskFile β, g.globals.lookup "source" = none →
                (copyGlobals o.input.file g ["location", "day", "month", "year", "source", "source_instrument_pids", "instrument_pid",
                  "voodoonet_version"]).globals.lookup "source" = o.input.file.globals.lookup "source" := by
              intro g hg
              rw [copyGlobals_lookup, if_pos (by decide), hg, Option.or_none]
            rw [← hf, hsource _ (by
              rw [set_lookup, if_neg (by decide), set_lookup, if_neg (by decide), (copyVars_spec fits _ _ _).2.1, set_lookup, if_neg (by decide),
                ((initFile_spec fits version _ o.data uuid).2.1 h1).2.2, if_neg (by decide), if_neg (by decide), if_neg (by decide)]), c1, a1]
            unfold productSteps
            simp only [wholeFile_append, afterOps_one, ← copyGlobals_steps]
            cases appendExtraSources ((o.input.file.globals.lookup "source").map String.toList) extraSources <;> rfl
          refine ⟨hwhole, fun k => ?_⟩
          refine stopped_run _ _ _ f hwhole ?_ ?_ k
          · simp only [stepVars_append, initSteps_vars, stepVars_no_var _ (copiedGlobals_no_var _ _), stepVars_map_var]
            rw [stepVars_no_var [_] (by simp), stepVars_no_var [_, _] (by simp), stepVars_no_var _ (by split <;> simp), stepVars_no_var [_] (by simp)]
            simp only [List.append_nil, List.map_append, List.map_map]
            rw [List.nodup_append]
            refine ⟨by simpa [Function.comp_def, arrayVar] using a2, c2, ?_⟩
            rintro x hx y hy rfl
            obtain ⟨v, hv, rfl⟩ := List.mem_map.1 hy
            refine c3 v hv ?_
            simpa [Function.comp_def, arrayVar] using hx
          · intro v hv
            simp only [List.mem_append] at hv
            rcases hv with ((((((hv | hv) | hv) | hv) | hv) | hv) | hv)
            · exact initSteps_attr _ _ _ _ _ _ (by decide) hv
            · simp at hv
            · simp at hv
            · simp at hv
            · exact copiedGlobals_attr _ _ _ _ (by decide) hv
            · split at hv <;> simp at hv
            · simp at hv

/-- **C159.** After a run that was stopped anywhere, even before the first dimension, a run without `overwrite` fails and leaves the incomplete file;
with `overwrite` it gives the same file as a run that was not stopped. -/
theorem C159_level3_rerun (fits : List ℕ → List ℕ → Bool) (parse : Text → Option ℤ) (dtMin : ℤ) (version stamp product : String) (m : L3Model β)
    (obs : InputFile β) (modelFiles : List String) (productFile uuid : String) (modelName siteName : Option String) (f : DiskFile β)
    (h : saveL3 fits parse dtMin version stamp product m obs modelFiles productFile uuid modelName siteName none = (some f, none)) (left : DiskFile β) :
    l3Rerun false (some left) (saveL3 fits parse dtMin version stamp product m obs modelFiles productFile uuid modelName siteName) =
      (some left, some "FileExistsError") ∧
    l3Rerun true (some left) (saveL3 fits parse dtMin version stamp product m obs modelFiles productFile uuid modelName siteName) = (some f, none) := by
  refine ⟨rfl, ?_⟩
  change saveL3 fits parse dtMin version stamp product m obs modelFiles productFile uuid modelName siteName (some left) = _
  unfold saveL3 at h ⊢
  cases hl : l3Site m siteName with
  | error e => rw [hl] at h; cases h
  | ok location => rw [hl] at h; exact h

/-! ### Examples -/

/-- A radar file: stopped after the dimensions, one variable and the creation of the second. -/
example : (saveLevel1b (· == ·) "1.0" "now" (exampleL1b (some "Munich") [3, 2]) "u" (some ⟨[], [], [("title", "old")]⟩)).2 = none ∧
    (stoppedAfter (level1bSteps "1.0" "now" (exampleL1b (some "Munich") [3, 2]) [("time", 3), ("range", 2)] "Munich" "u") 5).vars.map
      (fun v => (v.name, v.content)) = [("time", some 7), ("range", none)] ∧
    (stoppedAfter (level1bSteps "1.0" "now" (exampleL1b (some "Munich") [3, 2]) [("time", 3), ("range", 2)] "Munich" "u") 12).globals =
      [("Conventions", "CF-1.8"), ("cloudnetpy_version", "1.0")] := by
  refine ⟨by decide +kernel, by decide +kernel, by decide +kernel⟩

/-- A categorize file and a Level 3 file as in the examples of C131 and C132 can be saved, so the theorems apply. -/
example : (saveCategorize (· == ·) (fun _ => none) 0 "1.0" "now" "0.1" 3 2 4 5
      [("Z", exampleArray "Z" [3, 2] ["time", "height"]), ("temperature", exampleArray "temperature" [4, 5] ["model_time", "model_height"])]
      exampleRadarFile [exampleLidarFile, exampleModelFile] "Munich" "u").2 = none ∧
    (saveL3 (· == ·) (fun _ => none) 0 "1.0" "now" "iwc"
      { data := [("iwc", exampleArray "iwc" [3, 2] ["time", "level"])], nTime := 3, nLevel := 2, input := exampleModelFile
        name := "ecmwf", date := ("2024", "03", "12") }
      exampleInput ["a/b/m.nc"] "c/iwc.nc" "u" none (some "") none).2 = none ∧
    (saveProductFile (· == ·) (fun _ => none) 0 "1.0" "now" "iwc" exampleProduct "u" ["radar_frequency"] [] none).2 = none := by
  refine ⟨by decide +kernel, by decide +kernel, by decide +kernel⟩

/-- A product file: stopped while the variables of the categorize file are copied. -/
example : (stoppedAfter (productSteps (fun _ => none) 0 "1.0" "now" "iwc" "ice water content" exampleProduct 2 "u" ["radar_frequency"] [] "Munich" [])
      11).vars.map (fun v => (v.name, v.content)) = [("iwc", some 7), ("height", some 7), ("time", none)] := by
  decide +kernel

end Cloudnet
