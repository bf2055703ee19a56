import Mathlib.Tactic
import Verif.Save.Model
import Verif.Output.Props
import Verif.Categorize.Props
import Verif.Disdronator.ParsivelProps

/-!
Specification of what is on disk, and lemmas on writing files.
-/

namespace Cloudnet

variable {β : Type}

namespace Spec

/-- The sizes of a list of dimensions. -/
def Sizes (dimension : String → Option ℕ) (names : List String) (sizes : List ℕ) : Prop :=
  List.Forall₂ (fun d n => dimension d = some n) names sizes

/-- A variable of a file has everything of an array: name, type, dimensions, values, attributes. It has a fill value exactly if the
array is a masked array. -/
def WrittenAs (fits : List ℕ → List ℕ → Bool) (dimension : String → Option ℕ) (a : CloudnetArray (FileArray β)) (v : DiskVar β) : Prop :=
  v.name = a.name ∧ v.dataType = a.dataType ∧ v.dims = a.dimensions.getD [] ∧ Sizes dimension v.dims v.shape ∧
    fits a.data.shape v.shape = true ∧ v.filled = a.data.masked ∧ v.content = some a.data.content ∧ v.attr = a.attr

/-- Arrays that can be written: no name is used twice, all dimensions are there, the data have their sizes. -/
def Writable (fits : List ℕ → List ℕ → Bool) (dimension : String → Option ℕ) (arrays : List (CloudnetArray (FileArray β))) : Prop :=
  (arrays.map (·.name)).Nodup ∧
    ∀ a ∈ arrays, ∃ sizes, Sizes dimension (a.dimensions.getD []) sizes ∧ fits a.data.shape sizes = true

end Spec

/-! ## Steps -/

theorem next_none (s : Saving β) (g : DiskFile β → Saving β) : (s.next g).2 = none ↔ s.2 = none ∧ (g s.1).2 = none := by
  unfold Saving.next
  cases h : s.2 with
  | none => simp
  | some e => simp [h]

theorem next_eq (s : Saving β) (g : DiskFile β → Saving β) (h : s.2 = none) : s.next g = g s.1 := by
  unfold Saving.next
  rw [h]

theorem next_error (s : Saving β) (g : DiskFile β → Saving β) (e : String) (h : s.2 = some e) : s.next g = s := by
  unfold Saving.next
  rw [h]

theorem set_lookup (f : DiskFile β) (key value k : String) :
    (f.set key value).globals.lookup k = if k = key then some value else f.globals.lookup k :=
  lookup_dictSet f.globals key value k

theorem setSome_lookup (f : DiskFile β) (key : String) (value : Option String) (k : String) :
    (f.setSome key value).globals.lookup k = if k = key then value.or (f.globals.lookup k) else f.globals.lookup k := by
  cases value with
  | none => simp [DiskFile.setSome]
  | some v => simp [DiskFile.setSome, set_lookup]

theorem setSome_vars (f : DiskFile β) (key : String) (value : Option String) :
    (f.setSome key value).vars = f.vars ∧ (f.setSome key value).dims = f.dims := by
  cases value <;> exact ⟨rfl, rfl⟩

theorem setAll_vars (f : DiskFile β) (l : List (String × String)) : (f.setAll l).vars = f.vars ∧ (f.setAll l).dims = f.dims := by
  unfold DiskFile.setAll
  induction l generalizing f with
  | nil => exact ⟨rfl, rfl⟩
  | cons kv l ih => rw [List.foldl_cons]; exact ih (f.set kv.1 kv.2)

theorem setAll_lookup (f : DiskFile β) (l : List (String × String)) (k : String) :
    (f.setAll l).globals.lookup k = (l.reverse.lookup k).or (f.globals.lookup k) := by
  unfold DiskFile.setAll
  induction l generalizing f with
  | nil => rfl
  | cons kv l ih =>
    obtain ⟨k', v⟩ := kv
    rw [List.foldl_cons, ih, set_lookup, List.reverse_cons, List.lookup_append, Option.or_assoc]
    congr 1
    by_cases hk : k = k'
    · subst hk
      simp
    · rw [if_neg hk, List.lookup_cons, show (k == k') = false by simpa using hk]
      rfl

theorem copyGlobals_vars (source f : DiskFile β) (l : List String) :
    (copyGlobals source f l).vars = f.vars ∧ (copyGlobals source f l).dims = f.dims := by
  unfold copyGlobals
  induction l generalizing f with
  | nil => exact ⟨rfl, rfl⟩
  | cons k l ih =>
    rw [List.foldl_cons]
    cases source.globals.lookup k with
    | none => exact ih f
    | some v => exact ih (f.set k v)

theorem copyGlobals_lookup (source f : DiskFile β) (l : List String) (k : String) :
    (copyGlobals source f l).globals.lookup k =
      if k ∈ l then (source.globals.lookup k).or (f.globals.lookup k) else f.globals.lookup k := by
  unfold copyGlobals
  induction l generalizing f with
  | nil => rfl
  | cons k' l ih =>
    rw [List.foldl_cons]
    refine (ih _).trans ?_
    by_cases hk : k = k'
    · subst hk
      cases hs : source.globals.lookup k with
      | none => simp
      | some v => simp [set_lookup]
    · cases hs : source.globals.lookup k' with
      | none => simp [hk]
      | some v => simp [set_lookup, hk]

/-! ## Variables -/

theorem sizes_of_mapM (dims : List (String × ℕ)) (names : List String) (sizes : List ℕ) :
    names.mapM (dims.lookup ·) = some sizes ↔ Spec.Sizes (fun d => dims.lookup d) names sizes :=
  mapM_option_iff _ _ _

theorem sizes_unique (dimension : String → Option ℕ) (names : List String) (a b : List ℕ) (ha : Spec.Sizes dimension names a)
    (hb : Spec.Sizes dimension names b) : a = b := by
  unfold Spec.Sizes at ha hb
  induction ha generalizing b with
  | nil => cases hb; rfl
  | cons h _ ih =>
    cases hb with
    | cons h' t' =>
      rw [h] at h'
      cases h'
      rw [ih _ t']

theorem writeVars_spec (fits : List ℕ → List ℕ → Bool) (as : List (CloudnetArray (FileArray β))) (f : DiskFile β)
    (hf : (f.vars.map DiskVar.name).Nodup) :
    (∃ new, writeVars fits f as = ({ f with vars := f.vars ++ new }, none) ∧
      List.Forall₂ (Spec.WrittenAs fits fun d => f.dims.lookup d) as new ∧
      (f.vars.map DiskVar.name ++ as.map (·.name)).Nodup) ∨
    (∃ done a rest new bad e, as = done ++ a :: rest ∧
      List.Forall₂ (Spec.WrittenAs fits fun d => f.dims.lookup d) done new ∧
      writeVars fits f as = ({ f with vars := f.vars ++ new ++ bad }, some e) ∧
      (bad.length ≤ 1 ∧ ∀ v ∈ bad, v.content = none ∧ ∀ k, v.attr k = none) ∧
      (a.name ∈ f.vars.map DiskVar.name ++ done.map (·.name) ∨
        ¬ ∃ sizes, Spec.Sizes (fun d => f.dims.lookup d) (a.dimensions.getD []) sizes ∧ fits a.data.shape sizes = true)) := by
  induction as generalizing f with
  | nil => exact Or.inl ⟨[], by simp [writeVars], .nil, by simpa using hf⟩
  | cons a as ih =>
    unfold writeVars
    by_cases hn : a.name ∈ f.vars.map DiskVar.name
    · rw [if_pos hn]
      exact Or.inr ⟨[], a, as, [], [], "RuntimeError", rfl, .nil, by simp, by simp, Or.inl (by simpa using hn)⟩
    · rw [if_neg hn]
      cases hm : (a.dimensions.getD []).mapM (f.dims.lookup ·) with
      | none =>
        refine Or.inr ⟨[], a, as, [], [], "KeyError", rfl, .nil, by simp, by simp, Or.inr ?_⟩
        rintro ⟨sizes, hs, _⟩
        rw [(sizes_of_mapM _ _ _).2 hs] at hm
        cases hm
      | some sizes =>
        dsimp only
        have hsz := (sizes_of_mapM _ _ _).1 hm
        by_cases hfit : fits a.data.shape sizes = true
        · rw [if_pos hfit]
          set v : DiskVar β := ⟨a.name, a.dataType, a.dimensions.getD [], sizes, a.data.masked, some a.data.content, a.written⟩ with hv
          have hw : Spec.WrittenAs fits (fun d => f.dims.lookup d) a v :=
            ⟨rfl, rfl, rfl, hsz, hfit, rfl, rfl, rfl⟩
          rcases ih { f with vars := f.vars ++ [v] } (by
              rw [List.map_append, List.map_cons, List.map_nil, ← List.concat_eq_append]
              exact hf.concat hn) with ⟨new, h1, h2, h3⟩ | ⟨done, b, rest, new, bad, e, h1, h2, h3, h4, h5⟩
          · refine Or.inl ⟨v :: new, ?_, .cons hw h2, ?_⟩
            · rw [h1]; simp
            · simpa [hv] using h3
          · refine Or.inr ⟨a :: done, b, rest, v :: new, bad, e, by rw [h1]; rfl, .cons hw h2, ?_, h4, ?_⟩
            · rw [h3]; simp
            · rcases h5 with h5 | h5
              · left
                simpa [hv] using h5
              · exact Or.inr h5
        · rw [if_neg hfit]
          refine Or.inr ⟨[], a, as, [], [_], "IndexError", rfl, .nil, by simp; rfl, by simp, Or.inr ?_⟩
          rintro ⟨sizes', hs', hfit'⟩
          rw [sizes_unique _ _ _ _ hs' hsz] at hfit'
          exact hfit hfit'

theorem forall₂_exists {A B : Type} {R : A → B → Prop} {l : List A} {m : List B} (h : List.Forall₂ R l m) (a : A) (ha : a ∈ l) :
    ∃ b ∈ m, R a b := by
  induction h with
  | nil => cases ha
  | cons h1 _ ih =>
    rcases List.mem_cons.1 ha with rfl | ha
    · exact ⟨_, by simp, h1⟩
    · obtain ⟨b, hb, hr⟩ := ih ha
      exact ⟨b, by simp [hb], hr⟩

/-- What `initFile` leaves on disk. -/
theorem initFile_spec (fits : List ℕ → List ℕ → Bool) (version : String) (dims : List (String × ℕ))
    (arrays : List (String × CloudnetArray (FileArray β))) (uuid : String) :
    ((initFile fits version dims arrays uuid).2 = none ↔ Spec.Writable fits (fun d => dims.lookup d) (arrays.map Prod.snd)) ∧
    ((initFile fits version dims arrays uuid).2 = none →
      (initFile fits version dims arrays uuid).1.dims = dims ∧
      List.Forall₂ (Spec.WrittenAs fits fun d => dims.lookup d) (arrays.map Prod.snd) (initFile fits version dims arrays uuid).1.vars ∧
      ∀ k, (initFile fits version dims arrays uuid).1.globals.lookup k =
        if k = "Conventions" then some "CF-1.8" else if k = "cloudnetpy_version" then some version
        else if k = "file_uuid" then some uuid else none) ∧
    ((initFile fits version dims arrays uuid).2 ≠ none →
      (initFile fits version dims arrays uuid).1.dims = dims ∧ (initFile fits version dims arrays uuid).1.globals = [] ∧
      ∃ done a rest new bad, arrays.map Prod.snd = done ++ a :: rest ∧
        List.Forall₂ (Spec.WrittenAs fits fun d => dims.lookup d) done new ∧
        (initFile fits version dims arrays uuid).1.vars = new ++ bad ∧ bad.length ≤ 1 ∧ ∀ v ∈ bad, v.content = none ∧ ∀ k, v.attr k = none) := by
  unfold initFile
  rcases writeVars_spec fits (arrays.map Prod.snd) (⟨dims, [], []⟩ : DiskFile β) (by simp) with
    ⟨new, h1, h2, h3⟩ | ⟨done, a, rest, new, bad, e, h1, h2, h3, h4, h5⟩
  · rw [h1, next_eq _ _ rfl]
    refine ⟨⟨fun _ => ⟨by simpa using h3, fun a ha => ?_⟩, fun _ => rfl⟩, fun _ => ⟨?_, ?_, fun k => ?_⟩, fun h => absurd rfl h⟩
    · obtain ⟨v, _, h⟩ := forall₂_exists h2 a ha
      exact ⟨v.shape, h.2.2.1 ▸ h.2.2.2.1, h.2.2.2.2.1⟩
    · exact (setAll_vars _ _).2
    · rw [(setAll_vars _ _).1]
      simpa using h2
    · rw [setAll_lookup]
      by_cases k1 : k = "Conventions"
      · subst k1; rfl
      · by_cases k2 : k = "cloudnetpy_version"
        · subst k2; rfl
        · by_cases k3 : k = "file_uuid"
          · subst k3; rfl
          · simp [List.lookup_cons, k1, k2, k3, show (k == "file_uuid") = false by simpa using k3,
              show (k == "cloudnetpy_version") = false by simpa using k2, show (k == "Conventions") = false by simpa using k1]
  · rw [h3, next_error _ _ e rfl]
    refine ⟨⟨fun h => by simp at h, fun ⟨w1, w2⟩ => ?_⟩, fun h => by simp at h, fun _ => ⟨rfl, rfl, done, a, rest, new, bad, h1, h2, by simp, h4⟩⟩
    rcases h5 with h5 | h5
    · rw [h1] at w1
      simp only [List.map_nil, List.nil_append] at h5
      rw [List.map_append, List.map_cons, List.nodup_append] at w1
      exact absurd rfl (w1.2.2 a.name h5 a.name (by simp))
    · exact absurd (w2 a (by rw [h1]; simp)) h5

end Cloudnet
