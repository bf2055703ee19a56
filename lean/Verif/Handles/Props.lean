import Verif.Handles.Model
import Mathlib.Tactic

namespace Cloudnet

namespace Spec

/-- The file can be opened and what the constructor or the first writing needs is there. -/
def Usable (w : FileWorld) (f : FileRole) : Prop := w (.opening f) = none ∧ w (.starting f) = none

/-- The file can be opened, but the rest of the constructor or of the first writing fails. -/
def Unusable (w : FileWorld) (f : FileRole) : Prop := w (.opening f) = none ∧ w (.starting f) ≠ none

end Spec

theorem dataSource_cases (w : FileWorld) (f : FileRole) (s : List FileRole) :
    (Spec.Usable w f ∧ dataSource w f s = (.ok (), f :: s)) ∨ (∃ e, w (.starting f) = some e ∧ Spec.Unusable w f ∧ dataSource w f s = (.error e, f :: s)) ∨
    (∃ e, w (.opening f) = some e ∧ dataSource w f s = (.error e, s)) := by
  unfold dataSource FileM.andThen openFile fileStep Spec.Usable Spec.Unusable
  cases h1 : w (.opening f) with
  | some e => exact Or.inr (Or.inr ⟨e, rfl, rfl⟩)
  | none =>
    cases h2 : w (.starting f) with
    | some e => exact Or.inr (Or.inl ⟨e, rfl, ⟨rfl, by simp⟩, by simp [h2]⟩)
    | none => exact Or.inl ⟨⟨rfl, rfl⟩, by simp [h2]⟩

theorem fileStep_open (w : FileWorld) (x : FileStep) (s : List FileRole) : (fileStep w x s).2 = s ∧ ((∃ u, (fileStep w x s).1 = .ok u) ↔ w x = none) := by
  unfold fileStep
  cases w x <;> simp

theorem mem_closeFile (f h : FileRole) (s : List FileRole) : h ∈ closeFile f s ↔ h ∈ s ∧ h ≠ f := by
  simp [closeFile]

/-- Open files after a block of `with`, and whether it succeeds. -/
theorem withDataSource_open {β : Type} (w : FileWorld) (f : FileRole) (body : FileM β) (s : List FileRole) (hf : f ∉ s) (h : FileRole) :
    (h ∈ (withDataSource w f body s).2 ↔ (Spec.Usable w f ∧ h ∈ (body (f :: s)).2 ∧ h ≠ f) ∨ (¬ Spec.Usable w f ∧ (h ∈ s ∨ (h = f ∧ Spec.Unusable w f)))) ∧
    ((∃ u, (withDataSource w f body s).1 = .ok u) ↔ Spec.Usable w f ∧ ∃ u, (body (f :: s)).1 = .ok u) := by
  unfold withDataSource FileM.andThen FileM.finally
  rcases dataSource_cases w f s with ⟨hu, e⟩ | ⟨x, hx, hu, e⟩ | ⟨x, hx, e⟩
  · simp only [e, mem_closeFile, hu, not_true, false_and, or_false, true_and]
  · have hn : ¬ Spec.Usable w f := fun h => hu.2 h.2
    simp only [e, hn, hu, false_and, false_or, not_false_iff, true_and, and_true, List.mem_cons, reduceCtorEq, exists_false]
    exact or_comm
  · have hn : ¬ Spec.Usable w f := fun h => by rw [h.1] at hx; cases hx
    have hn' : ¬ Spec.Unusable w f := fun h => by rw [h.1] at hx; cases hx
    simp only [e, hn, hn', false_and, false_or, not_false_iff, true_and, and_false, or_false, reduceCtorEq, exists_false]

theorem withDataset_open (w : FileWorld) (f : FileRole) (x : FileStep) (s : List FileRole) (hf : f ∉ s) :
    (∀ h, h ∈ (withDataset w f (fileStep w x) s).2 ↔ h ∈ s) ∧ ((∃ u, (withDataset w f (fileStep w x) s).1 = .ok u) ↔ w (.opening f) = none ∧ w x = none) := by
  unfold withDataset FileM.andThen FileM.finally openFile
  cases ho : w (.opening f) with
  | some e => simp
  | none =>
    simp only [(fileStep_open w x _).1, mem_closeFile, List.mem_cons, (fileStep_open w x _).2, true_and]
    refine ⟨fun h => ?_, trivial⟩
    constructor
    · rintro ⟨h | h, h'⟩
      · exact absurd h h'
      · exact h
    · intro h'
      exact ⟨Or.inr h', fun e => hf (e ▸ h')⟩

theorem andThen_open {β γ : Type} (a : FileM β) (b : FileM γ) (s : List FileRole) :
    (∀ u, (a s).1 = .ok u → (a.andThen b) s = b (a s).2) ∧ ((¬ ∃ u, (a s).1 = .ok u) → ((a.andThen b) s).2 = (a s).2 ∧ ¬ ∃ u, ((a.andThen b) s).1 = .ok u) := by
  unfold FileM.andThen
  rcases h : a s with ⟨r, s'⟩
  cases r <;> simp

theorem saveFile_open (w : FileWorld) (s : List FileRole) (hs : .output ∉ s) (h : FileRole) :
    (h ∈ (saveFile w s).2 ↔ h ∈ s ∨ (h = .output ∧ Spec.Unusable w .output)) ∧
    ((∃ u, (saveFile w s).1 = .ok u) ↔ Spec.Usable w .output ∧ w (.work "attributes") = none) := by
  obtain ⟨h1, h2⟩ := withDataSource_open w .output (fileStep w (.work "attributes")) s hs h
  unfold saveFile
  rw [h1, h2, (fileStep_open w _ _).1, (fileStep_open w _ _).2]
  refine ⟨?_, Iff.rfl⟩
  constructor
  · rintro (⟨-, h3, h4⟩ | ⟨-, h3⟩)
    · exact Or.inl ((List.mem_cons.1 h3).resolve_left h4)
    · exact h3
  · rintro (h3 | ⟨rfl, h4⟩)
    · by_cases hu : Spec.Usable w .output
      · exact Or.inl ⟨hu, List.mem_cons_of_mem _ h3, fun e => hs (e ▸ h3)⟩
      · exact Or.inr ⟨hu, Or.inl h3⟩
    · exact Or.inr ⟨fun hu => h4.2 hu.2, Or.inr ⟨rfl, h4⟩⟩

/-- Work and then saving. -/
theorem workSave_open (w : FileWorld) (name : String) (s : List FileRole) (hs : .output ∉ s) (h : FileRole) :
    (h ∈ (((fileStep w (.work name)).andThen (saveFile w)) s).2 ↔ h ∈ s ∨ (h = .output ∧ w (.work name) = none ∧ Spec.Unusable w .output)) ∧
    ((∃ u, (((fileStep w (.work name)).andThen (saveFile w)) s).1 = .ok u) ↔ w (.work name) = none ∧ Spec.Usable w .output ∧ w (.work "attributes") = none) := by
  obtain ⟨f1, f2⟩ := fileStep_open w (.work name) s
  obtain ⟨a1, a2⟩ := andThen_open (fileStep w (.work name)) (saveFile w) s
  by_cases hw : w (.work name) = none
  · obtain ⟨u, hu⟩ := f2.2 hw
    rw [a1 u hu, f1]
    obtain ⟨s1, s2⟩ := saveFile_open w s hs h
    rw [s1, s2]
    simp [hw]
  · have hno : ¬ ∃ u, (fileStep w (.work name) s).1 = .ok u := fun h => hw (f2.1 h)
    obtain ⟨b1, b2⟩ := a2 hno
    rw [b1, f1]
    simp only [hw, false_and, and_false, or_false, iff_false, true_and]
    exact b2

/-- **C163.** Products of a categorize file: all files are closed after success. After a failure at any point at most one is open: the categorize file if it could be opened
but not read, or the output if it could be opened but writing failed. -/
theorem C163_products (w : FileWorld) (h : FileRole) :
    (h ∈ (productCall w []).2 ↔ (h = .categorize ∧ Spec.Unusable w .categorize) ∨
      (h = .output ∧ Spec.Usable w .categorize ∧ w (.opening (.raw 0)) = none ∧ w (.work "bits") = none ∧ w (.work "retrieval") = none ∧ Spec.Unusable w .output)) ∧
    ((∃ u, (productCall w []).1 = .ok u) → h ∉ (productCall w []).2) := by
  unfold productCall
  set body := (withDataset w (.raw 0) (fileStep w (.work "bits"))).andThen ((fileStep w (.work "retrieval")).andThen (saveFile w)) with hb
  obtain ⟨h1, h2⟩ := withDataSource_open w .categorize body [] (by simp) h
  obtain ⟨d1, d2⟩ := withDataset_open w (.raw 0) (.work "bits") [.categorize] (by simp)
  obtain ⟨a1, a2⟩ := andThen_open (withDataset w (.raw 0) (fileStep w (.work "bits"))) ((fileStep w (.work "retrieval")).andThen (saveFile w)) [.categorize]
  have hout : FileRole.output ∉ (withDataset w (.raw 0) (fileStep w (.work "bits")) [.categorize]).2 := by rw [d1]; simp
  have hbody : (h ∈ (body [.categorize]).2 ↔ h = .categorize ∨ (h = .output ∧ w (.opening (.raw 0)) = none ∧ w (.work "bits") = none ∧ w (.work "retrieval") = none ∧
      Spec.Unusable w .output)) ∧ ((∃ u, (body [.categorize]).1 = .ok u) → Spec.Usable w .output) := by
    by_cases hd : w (.opening (.raw 0)) = none ∧ w (.work "bits") = none
    · obtain ⟨u, hu⟩ := d2.2 hd
      rw [hb, a1 u hu]
      obtain ⟨s1, s2⟩ := workSave_open w "retrieval" _ hout h
      rw [s1, s2, d1]
      refine ⟨?_, fun h => h.2.1⟩
      simp [hd.1, hd.2]
    · obtain ⟨b1, b2⟩ := a2 fun h => hd (d2.1 h)
      rw [hb, b1, d1]
      refine ⟨?_, fun h => absurd h b2⟩
      have : ¬ (w (.opening (.raw 0)) = none ∧ w (.work "bits") = none ∧ w (.work "retrieval") = none ∧ Spec.Unusable w .output) := fun h => hd ⟨h.1, h.2.1⟩
      simp [this]
  have hx : ¬ (Spec.Usable w .categorize ∧ Spec.Unusable w .categorize) := fun h => h.2.2 h.1.2
  have key : h ∈ (withDataSource w .categorize body []).2 ↔ (h = .categorize ∧ Spec.Unusable w .categorize) ∨
      (h = .output ∧ Spec.Usable w .categorize ∧ w (.opening (.raw 0)) = none ∧ w (.work "bits") = none ∧ w (.work "retrieval") = none ∧ Spec.Unusable w .output) := by
    rw [h1, hbody.1]
    constructor
    · rintro (⟨hu, h3 | ⟨rfl, h3⟩, h4⟩ | ⟨hu, h3 | h3⟩)
      · exact absurd h3 h4
      · exact Or.inr ⟨rfl, hu, h3⟩
      · simp at h3
      · exact Or.inl h3
    · rintro (⟨rfl, h3⟩ | ⟨rfl, h3, h4⟩)
      · exact Or.inr ⟨fun h => hx ⟨h, h3⟩, Or.inr ⟨rfl, h3⟩⟩
      · exact Or.inl ⟨h3, Or.inr ⟨rfl, h4⟩, by simp⟩
  refine ⟨key, fun hs hm => ?_⟩
  obtain ⟨hu, hs⟩ := h2.1 hs
  rcases key.1 hm with ⟨-, h3⟩ | ⟨-, -, -, -, -, h3⟩
  · exact hx ⟨hu, h3⟩
  · exact h3.2 (hbody.2 hs).2

/-- **C163.** Turbulence from radars: the same for two files of input. -/
theorem C163_epsilon (w : FileWorld) (h : FileRole) :
    (h ∈ (epsilonRadarCall w []).2 ↔ (h = .radar ∧ Spec.Unusable w .radar) ∨ (h = .model ∧ Spec.Usable w .radar ∧ Spec.Unusable w .model) ∨
      (h = .output ∧ Spec.Usable w .radar ∧ Spec.Usable w .model ∧ w (.work "retrieval") = none ∧ Spec.Unusable w .output)) ∧
    ((∃ u, (epsilonRadarCall w []).1 = .ok u) → h ∉ (epsilonRadarCall w []).2) := by
  unfold epsilonRadarCall
  obtain ⟨h1, h2⟩ := withDataSource_open w .radar (withDataSource w .model ((fileStep w (.work "retrieval")).andThen (saveFile w))) [] (by simp) h
  obtain ⟨m1, m2⟩ := withDataSource_open w .model ((fileStep w (.work "retrieval")).andThen (saveFile w)) [.radar] (by simp) h
  obtain ⟨s1, s2⟩ := workSave_open w "retrieval" [.model, .radar] (by simp) h
  have hx : ∀ f, Spec.Usable w f → ¬ Spec.Unusable w f := fun f h h' => h'.2 h.2
  have key : h ∈ (withDataSource w .radar (withDataSource w .model ((fileStep w (.work "retrieval")).andThen (saveFile w))) []).2 ↔
      (h = .radar ∧ Spec.Unusable w .radar) ∨ (h = .model ∧ Spec.Usable w .radar ∧ Spec.Unusable w .model) ∨
      (h = .output ∧ Spec.Usable w .radar ∧ Spec.Usable w .model ∧ w (.work "retrieval") = none ∧ Spec.Unusable w .output) := by
    rw [h1, m1, s1]
    have hr := hx .radar
    have hm := hx .model
    simp only [List.mem_cons, List.not_mem_nil, or_false, false_or]
    by_cases u1 : Spec.Usable w .radar <;> by_cases u2 : Spec.Usable w .model <;>
      simp only [u1, u2, true_and, false_and, not_true, not_false_iff, or_false, false_or, and_false, hr, hm] <;> cases h <;> simp [*]
  refine ⟨key, fun hs hm => ?_⟩
  obtain ⟨hu, hs⟩ := h2.1 hs
  obtain ⟨hu', hs⟩ := m2.1 hs
  obtain ⟨-, hu'', -⟩ := s2.1 hs
  rcases key.1 hm with ⟨-, h3⟩ | ⟨-, -, h3⟩ | ⟨-, -, -, -, h3⟩
  · exact hx _ hu h3
  · exact hx _ hu' h3
  · exact hx _ hu'' h3

/-- **C163.** Classification: as the other products, but the masks are read before. -/
theorem C163_classification (w : FileWorld) (h : FileRole) :
    (h ∈ (classificationCall w []).2 ↔ w (.opening (.raw 0)) = none ∧ w (.work "bits") = none ∧ ((h = .categorize ∧ Spec.Unusable w .categorize) ∨
      (h = .output ∧ Spec.Usable w .categorize ∧ w (.work "retrieval") = none ∧ Spec.Unusable w .output))) ∧
    ((∃ u, (classificationCall w []).1 = .ok u) → h ∉ (classificationCall w []).2) := by
  unfold classificationCall
  obtain ⟨d1, d2⟩ := withDataset_open w (.raw 0) (.work "bits") [] (by simp)
  obtain ⟨a1, a2⟩ := andThen_open (withDataset w (.raw 0) (fileStep w (.work "bits"))) (withDataSource w .categorize ((fileStep w (.work "retrieval")).andThen (saveFile w))) []
  have hnil : (withDataset w (.raw 0) (fileStep w (.work "bits")) []).2 = [] := List.eq_nil_iff_forall_not_mem.2 fun x hx => by simpa using (d1 x).1 hx
  by_cases hd : w (.opening (.raw 0)) = none ∧ w (.work "bits") = none
  · obtain ⟨u, hu⟩ := d2.2 hd
    rw [a1 u hu, hnil]
    obtain ⟨h1, h2⟩ := withDataSource_open w .categorize ((fileStep w (.work "retrieval")).andThen (saveFile w)) [] (by simp) h
    obtain ⟨s1, s2⟩ := workSave_open w "retrieval" [.categorize] (by simp) h
    have hx : ∀ f, Spec.Usable w f → ¬ Spec.Unusable w f := fun f h h' => h'.2 h.2
    have key : h ∈ (withDataSource w .categorize ((fileStep w (.work "retrieval")).andThen (saveFile w)) []).2 ↔ (h = .categorize ∧ Spec.Unusable w .categorize) ∨
        (h = .output ∧ Spec.Usable w .categorize ∧ w (.work "retrieval") = none ∧ Spec.Unusable w .output) := by
      rw [h1, s1]
      have hr := hx .categorize
      by_cases u1 : Spec.Usable w .categorize <;> simp only [u1, hr, true_and, false_and, not_true, not_false_iff, or_false, false_or, and_false] <;> cases h <;> simp [*]
    refine ⟨by rw [key]; simp [hd.1, hd.2], fun hs hm => ?_⟩
    obtain ⟨hu, hs⟩ := h2.1 hs
    obtain ⟨-, hu', -⟩ := s2.1 hs
    rcases key.1 hm with ⟨-, h3⟩ | ⟨-, -, -, h3⟩
    · exact hx _ hu h3
    · exact hx _ hu' h3
  · obtain ⟨b1, b2⟩ := a2 fun h => hd (d2.1 h)
    rw [b1, hnil]
    exact ⟨by simp only [List.not_mem_nil, false_iff]; exact fun h => hd ⟨h.1, h.2.1⟩, fun h => absurd h b2⟩

/-- **C163.** Downsampling to a model: the file of observations stays open if that of the model cannot be used. -/
theorem C163_level3 (w : FileWorld) (h : FileRole) :
    (h ∈ (level3Call w []).2 ↔ (h = .observations ∧ (Spec.Unusable w .observations ∨ (Spec.Usable w .observations ∧ ¬ Spec.Usable w .model))) ∨
      (h = .model ∧ Spec.Usable w .observations ∧ Spec.Unusable w .model) ∨
      (h = .output ∧ Spec.Usable w .observations ∧ Spec.Usable w .model ∧ w (.work "resampling") = none ∧ Spec.Unusable w .output)) ∧
    ((∃ u, (level3Call w []).1 = .ok u) → h ∉ (level3Call w []).2) := by
  have hx : ∀ f, Spec.Usable w f → ¬ Spec.Unusable w f := fun f h h' => h'.2 h.2
  have hn : ∀ f e, w (.opening f) = some e → ¬ Spec.Usable w f ∧ ¬ Spec.Unusable w f := fun f e he =>
    ⟨fun h => (by rw [h.1] at he; cases he), fun h => (by rw [h.1] at he; cases he)⟩
  unfold level3Call FileM.andThen FileM.finally
  dsimp only
  rcases dataSource_cases w .observations [] with ⟨hu, e⟩ | ⟨x, hx', hu, e⟩ | ⟨x, hx', e⟩
  · rw [e]
    dsimp only
    rcases dataSource_cases w .model [.observations] with ⟨hu', e'⟩ | ⟨x, hx', hu', e'⟩ | ⟨x, hx', e'⟩
    · rw [e']
      dsimp only
      obtain ⟨s1, s2⟩ := workSave_open w "resampling" [.model, .observations] (by simp) h
      unfold FileM.andThen at s1 s2
      simp only [mem_closeFile, s1, s2, hu, hu', hx _ hu, hx _ hu', true_and, not_true, and_false, or_false, false_or, List.mem_cons, List.not_mem_nil]
      constructor
      · constructor
        · rintro ⟨⟨(h | h) | h, h1⟩, h2⟩
          · exact absurd h h1
          · exact absurd h h2
          · exact h
        · intro h
          exact ⟨⟨Or.inr h, by rw [h.1]; simp⟩, by rw [h.1]; simp⟩
      · rintro ⟨-, h3, -⟩ ⟨⟨(h | h) | h, h1⟩, h2⟩
        · exact h1 h
        · exact h2 h
        · exact hx _ h3 h.2.2
    · have : ¬ Spec.Usable w .model := fun h => hx _ h hu'
      rw [e']
      simp only [hu, this, hu', true_and, not_false_iff, and_true, or_true, false_and, and_false, or_false, List.mem_cons, List.not_mem_nil, reduceCtorEq, exists_false, false_imp_iff]
      exact or_comm
    · obtain ⟨n1, n2⟩ := hn _ _ hx'
      rw [e']
      simp only [hu, n1, n2, true_and, not_false_iff, and_true, or_true, false_and, and_false, or_false, List.mem_cons, List.not_mem_nil, reduceCtorEq, exists_false, false_imp_iff]
  · have : ¬ Spec.Usable w .observations := fun h => hx _ h hu
    rw [e]
    simp only [hu, this, true_or, and_true, false_and, and_false, or_false, List.mem_cons, List.not_mem_nil, reduceCtorEq, exists_false, false_imp_iff]
  · obtain ⟨n1, n2⟩ := hn _ _ hx'
    rw [e]
    simp only [n1, n2, or_false, and_true, false_and, and_false, List.not_mem_nil, reduceCtorEq, exists_false, false_imp_iff]

theorem three_sources (w : FileWorld) :
    (Spec.Usable w .radar ∧ Spec.Usable w .lidar ∧ Spec.Usable w .model ∧
      ((dataSource w .radar).andThen ((dataSource w .lidar).andThen (dataSource w .model))) [] = (.ok (), [.model, .lidar, .radar])) ∨
    (¬ (Spec.Usable w .radar ∧ Spec.Usable w .lidar ∧ Spec.Usable w .model) ∧
      (∃ e s, ((dataSource w .radar).andThen ((dataSource w .lidar).andThen (dataSource w .model))) [] = (.error e, s) ∧ ∀ h, h ∈ s ↔
        (h = .radar ∧ w (.opening .radar) = none) ∨ (h = .lidar ∧ Spec.Usable w .radar ∧ w (.opening .lidar) = none) ∨
        (h = .model ∧ Spec.Usable w .radar ∧ Spec.Usable w .lidar ∧ w (.opening .model) = none))) := by
  have hx : ∀ f, Spec.Usable w f → ¬ Spec.Unusable w f := fun f h h' => h'.2 h.2
  have hn : ∀ f e, w (.opening f) = some e → ¬ Spec.Usable w f := fun f e he h => by rw [h.1] at he; cases he
  simp only [FileM.andThen]
  rcases dataSource_cases w .radar [] with ⟨hu, e⟩ | ⟨x, hx', hu, e⟩ | ⟨x, hx', e⟩ <;> rw [e] <;> dsimp only
  · rcases dataSource_cases w .lidar [.radar] with ⟨hu', e'⟩ | ⟨x, hx', hu', e'⟩ | ⟨x, hx', e'⟩ <;> rw [e'] <;> dsimp only
    · rcases dataSource_cases w .model [.lidar, .radar] with ⟨hu'', e''⟩ | ⟨x, hx', hu'', e''⟩ | ⟨x, hx', e''⟩ <;> rw [e'']
      · exact Or.inl ⟨hu, hu', hu'', rfl⟩
      · refine Or.inr ⟨fun h => hx _ h.2.2 hu'', _, _, rfl, fun h => ?_⟩
        simp only [hu, hu', hu.1, hu'.1, hu''.1, List.mem_cons, List.not_mem_nil, and_true]
        tauto
      · refine Or.inr ⟨fun h => hn _ _ hx' h.2.2, _, _, rfl, fun h => ?_⟩
        simp only [hu, hu', hu.1, hu'.1, hx', List.mem_cons, List.not_mem_nil, and_true, reduceCtorEq, and_false]
        tauto
    · have : ¬ Spec.Usable w .lidar := fun h => hx _ h hu'
      refine Or.inr ⟨fun h => this h.2.1, _, _, rfl, fun h => ?_⟩
      simp only [hu, this, hu.1, hu'.1, List.mem_cons, List.not_mem_nil, and_true, false_and, and_false]
      tauto
    · have := hn _ _ hx'
      refine Or.inr ⟨fun h => this h.2.1, _, _, rfl, fun h => ?_⟩
      simp only [hu, this, hu.1, hx', List.mem_cons, List.not_mem_nil, and_true, false_and, and_false, reduceCtorEq, or_false]
  · have : ¬ Spec.Usable w .radar := fun h => hx _ h hu
    refine Or.inr ⟨fun h => this h.1, _, _, rfl, fun h => ?_⟩
    simp only [this, hu.1, List.mem_cons, List.not_mem_nil, and_true, false_and, and_false, or_false]
  · have := hn _ _ hx'
    refine Or.inr ⟨fun h => this h.1, _, _, rfl, fun h => ?_⟩
    simp only [this, hx', List.not_mem_nil, false_and, and_false, reduceCtorEq, or_false]

theorem mem_closeBound (bound : List FileRole) (h : FileRole) (s : List FileRole) : h ∈ closeBound bound s ↔ h ∈ s ∧ h ∉ bound := by
  simp [closeBound]

/-- **C163.** Categorize, if radar, lidar and model can be used: these are closed however the call ends. Open stays a radiometer or disdrometer file that could be opened but not read, and the output if
writing failed. -/
theorem C163_categorize (w : FileWorld) (mwr disdrometer : Bool) (hr : Spec.Usable w .radar) (hl : Spec.Usable w .lidar) (hm : Spec.Usable w .model) (h : FileRole) :
    (h ∈ (categorizeCall' w mwr disdrometer []).2 → (h = .mwr ∧ mwr = true ∧ Spec.Unusable w .mwr) ∨ (h = .disdrometer ∧ disdrometer = true ∧ Spec.Unusable w .disdrometer) ∨
      (h = .output ∧ Spec.Unusable w .output)) ∧
    (mwr = true → Spec.Unusable w .mwr → .mwr ∈ (categorizeCall' w mwr disdrometer []).2) ∧
    (disdrometer = true → (mwr = true → Spec.Usable w .mwr) → Spec.Unusable w .disdrometer → .disdrometer ∈ (categorizeCall' w mwr disdrometer []).2) ∧
    ((∃ u, (categorizeCall' w mwr disdrometer []).1 = .ok u) →
      (h ∈ (categorizeCall' w mwr disdrometer []).2 ↔ h = .disdrometer ∧ disdrometer = true ∧ Spec.Unusable w .disdrometer)) := by
  have hx : ∀ f, Spec.Usable w f → ¬ Spec.Unusable w f := fun f h h' => h'.2 h.2
  have hn : ∀ f e, w (.opening f) = some e → ¬ Spec.Usable w f ∧ ¬ Spec.Unusable w f := fun f e he =>
    ⟨fun h => (by rw [h.1] at he; cases he), fun h => (by rw [h.1] at he; cases he)⟩
  rcases three_sources w with ⟨-, -, -, e⟩ | ⟨hno, -⟩
  swap
  · exact absurd ⟨hr, hl, hm⟩ hno
  -- the optional files
  have last : ∀ (bound s : List FileRole), .output ∉ s → .output ∉ bound →
      (∀ h, h ∈ (((fileStep w (.work "categorize")).andThen (saveFile w)).finally (closeBound bound) s).2 ↔
        (h ∈ s ∧ h ∉ bound) ∨ (h = .output ∧ w (.work "categorize") = none ∧ Spec.Unusable w .output)) ∧
      ((∃ u, (((fileStep w (.work "categorize")).andThen (saveFile w)).finally (closeBound bound) s).1 = .ok u) → Spec.Usable w .output) := by
    intro bound s hs hb
    refine ⟨fun h => ?_, fun hu => ?_⟩
    · show h ∈ closeBound bound (((fileStep w (.work "categorize")).andThen (saveFile w)) s).2 ↔ _
      rw [mem_closeBound, (workSave_open w "categorize" s hs h).1]
      constructor
      · rintro ⟨h1 | h1, h2⟩
        · exact Or.inl ⟨h1, h2⟩
        · exact Or.inr h1
      · rintro (⟨h1, h2⟩ | h1)
        · exact ⟨Or.inl h1, h2⟩
        · exact ⟨Or.inr h1, by rw [h1.1]; exact hb⟩
    · exact ((workSave_open w "categorize" s hs .output).2.1 hu).2.1
  -- the disdrometer, after the radiometer
  have dis : ∀ (bound s : List FileRole), .output ∉ s → .output ∉ bound → .disdrometer ∉ bound → .disdrometer ∉ s → (∀ x ∈ s, x ∈ bound) →
      let r := (match optionalSource w disdrometer .disdrometer (some "DisdrometerDataError") bound s with
        | (.error e, s) => (Except.error e, closeBound bound s)
        | (.ok bound, s) => ((fileStep w (.work "categorize")).andThen (saveFile w)).finally (closeBound bound) s : Except String Unit × List FileRole)
      (h ∈ r.2 → (h = .disdrometer ∧ disdrometer = true ∧ Spec.Unusable w .disdrometer) ∨ (h = .output ∧ Spec.Unusable w .output)) ∧
      (disdrometer = true → Spec.Unusable w .disdrometer → .disdrometer ∈ r.2) ∧
      ((∃ u, r.1 = .ok u) → (h ∈ r.2 ↔ h = .disdrometer ∧ disdrometer = true ∧ Spec.Unusable w .disdrometer)) := by
    intro bound s hs hb hdb hds hsub r
    cases disdrometer with
    | false =>
      have hr : r = ((fileStep w (.work "categorize")).andThen (saveFile w)).finally (closeBound bound) s := rfl
      obtain ⟨l1, l2⟩ := last bound s hs hb
      rw [hr]
      refine ⟨fun hh => ?_, by simp, fun hu => ?_⟩
      · rcases (l1 h).1 hh with ⟨h1, h2⟩ | ⟨h1, -, h2⟩
        · exact absurd (hsub h h1) h2
        · exact Or.inr ⟨h1, h2⟩
      · rw [l1]
        constructor
        · rintro (⟨h1, h2⟩ | ⟨-, -, h2⟩)
          · exact absurd (hsub h h1) h2
          · exact absurd h2 (hx _ (l2 hu))
        · simp
    | true =>
      rcases dataSource_cases w .disdrometer s with ⟨hu, e⟩ | ⟨x, hx', hu, e⟩ | ⟨x, hx', e⟩
      · have hr : r = ((fileStep w (.work "categorize")).andThen (saveFile w)).finally (closeBound (.disdrometer :: bound)) (.disdrometer :: s) := by
          show (match optionalSource w true .disdrometer (some "DisdrometerDataError") bound s with
            | (.error e, s) => (Except.error e, closeBound bound s)
            | (.ok bound, s) => ((fileStep w (.work "categorize")).andThen (saveFile w)).finally (closeBound bound) s : Except String Unit × List FileRole) = _
          unfold optionalSource
          simp [e]
        obtain ⟨l1, l2⟩ := last (.disdrometer :: bound) (.disdrometer :: s) (by simp [hs]) (by simp [hb])
        rw [hr]
        have hno := hx _ hu
        refine ⟨fun hh => ?_, fun _ h => absurd h hno, fun hu => ?_⟩
        · rcases (l1 h).1 hh with ⟨h1, h2⟩ | ⟨h1, -, h2⟩
          · rcases List.mem_cons.1 h1 with rfl | h1
            · simp at h2
            · exact absurd (List.mem_cons_of_mem _ (hsub h h1)) h2
          · exact Or.inr ⟨h1, h2⟩
        · rw [l1]
          constructor
          · rintro (⟨h1, h2⟩ | ⟨-, -, h2⟩)
            · rcases List.mem_cons.1 h1 with rfl | h1
              · simp at h2
              · exact absurd (List.mem_cons_of_mem _ (hsub h h1)) h2
            · exact absurd h2 (hx _ (l2 hu))
          · exact fun h => absurd h.2.2 hno
      · have hr : r = if x = "DisdrometerDataError" then ((fileStep w (.work "categorize")).andThen (saveFile w)).finally (closeBound bound) (.disdrometer :: s)
            else (Except.error x, closeBound bound (.disdrometer :: s)) := by
          show (match optionalSource w true .disdrometer (some "DisdrometerDataError") bound s with
            | (.error e, s) => (Except.error e, closeBound bound s)
            | (.ok bound, s) => ((fileStep w (.work "categorize")).andThen (saveFile w)).finally (closeBound bound) s : Except String Unit × List FileRole) = _
          unfold optionalSource
          by_cases hc : x = "DisdrometerDataError" <;> simp [e, hc]
        obtain ⟨l1, l2⟩ := last bound (.disdrometer :: s) (by simp [hs]) hb
        rw [hr]
        split_ifs with hc
        · refine ⟨fun hh => ?_, fun _ _ => (l1 _).2 (Or.inl ⟨by simp, hdb⟩), fun hu' => ?_⟩
          · rcases (l1 h).1 hh with ⟨h1, h2⟩ | ⟨h1, -, h2⟩
            · rcases List.mem_cons.1 h1 with rfl | h1
              · exact Or.inl ⟨rfl, rfl, hu⟩
              · exact absurd (hsub h h1) h2
            · exact Or.inr ⟨h1, h2⟩
          · rw [l1]
            constructor
            · rintro (⟨h1, h2⟩ | ⟨-, -, h2⟩)
              · rcases List.mem_cons.1 h1 with rfl | h1
                · exact ⟨rfl, rfl, hu⟩
                · exact absurd (hsub h h1) h2
              · exact absurd h2 (hx _ (l2 hu'))
            · rintro ⟨rfl, -⟩
              exact Or.inl ⟨by simp, hdb⟩
        · refine ⟨fun hh => ?_, fun _ _ => (mem_closeBound _ _ _).2 ⟨by simp, hdb⟩, fun ⟨u, hu⟩ => by cases hu⟩
          obtain ⟨h1, h2⟩ := (mem_closeBound _ _ _).1 hh
          rcases List.mem_cons.1 h1 with rfl | h1
          · exact Or.inl ⟨rfl, rfl, hu⟩
          · exact absurd (hsub h h1) h2
      · obtain ⟨-, n2⟩ := hn _ _ hx'
        have hr : r = if x = "DisdrometerDataError" then ((fileStep w (.work "categorize")).andThen (saveFile w)).finally (closeBound bound) s
            else (Except.error x, closeBound bound s) := by
          show (match optionalSource w true .disdrometer (some "DisdrometerDataError") bound s with
            | (.error e, s) => (Except.error e, closeBound bound s)
            | (.ok bound, s) => ((fileStep w (.work "categorize")).andThen (saveFile w)).finally (closeBound bound) s : Except String Unit × List FileRole) = _
          unfold optionalSource
          by_cases hc : x = "DisdrometerDataError" <;> simp [e, hc]
        obtain ⟨l1, l2⟩ := last bound s hs hb
        rw [hr]
        split_ifs with hc
        · refine ⟨fun hh => ?_, fun _ h => absurd h n2, fun hu' => ?_⟩
          · rcases (l1 h).1 hh with ⟨h1, h2⟩ | ⟨h1, -, h2⟩
            · exact absurd (hsub h h1) h2
            · exact Or.inr ⟨h1, h2⟩
          · rw [l1]
            constructor
            · rintro (⟨h1, h2⟩ | ⟨-, -, h2⟩)
              · exact absurd (hsub h h1) h2
              · exact absurd h2 (hx _ (l2 hu'))
            · exact fun h => absurd h.2.2 n2
        · refine ⟨fun hh => ?_, fun _ h => absurd h n2, fun ⟨u, hu⟩ => by cases hu⟩
          obtain ⟨h1, h2⟩ := (mem_closeBound _ _ _).1 hh
          exact absurd (hsub h h1) h2
  unfold categorizeCall'
  rw [e]
  dsimp only
  cases mwr with
  | false =>
    have ho : optionalSource w false .mwr none [.radar, .lidar, .model] [.model, .lidar, .radar] = (.ok [.radar, .lidar, .model], [.model, .lidar, .radar]) := rfl
    rw [ho]
    obtain ⟨d1, d2, d3⟩ := dis [.radar, .lidar, .model] [.model, .lidar, .radar] (by simp) (by simp) (by simp) (by simp) (by simp)
    exact ⟨fun hh => Or.inr (d1 hh), by simp, fun h1 _ h2 => d2 h1 h2, d3⟩
  | true =>
    rcases dataSource_cases w .mwr [.model, .lidar, .radar] with ⟨hu, e'⟩ | ⟨x, hx', hu, e'⟩ | ⟨x, hx', e'⟩
    · have ho : optionalSource w true .mwr none [.radar, .lidar, .model] [.model, .lidar, .radar] =
          (.ok [.mwr, .radar, .lidar, .model], [.mwr, .model, .lidar, .radar]) := by
        unfold optionalSource
        simp [e']
      rw [ho]
      obtain ⟨d1, d2, d3⟩ := dis [.mwr, .radar, .lidar, .model] [.mwr, .model, .lidar, .radar] (by simp) (by simp) (by simp) (by simp) (by simp)
      exact ⟨fun hh => Or.inr (d1 hh), fun _ h => absurd h (hx _ hu), fun h1 _ h2 => d2 h1 h2, d3⟩
    · have ho : optionalSource w true .mwr none [.radar, .lidar, .model] [.model, .lidar, .radar] = (.error x, [.mwr, .model, .lidar, .radar]) := by
        unfold optionalSource
        simp [e']
      rw [ho]
      have hno : ¬ Spec.Usable w .mwr := fun h => hx _ h hu
      refine ⟨fun hh => Or.inl ?_, fun _ _ => by simp [closeBound], fun _ h => absurd (h rfl) hno, fun ⟨u, hu⟩ => by cases hu⟩
      simp only [mem_closeBound, List.mem_cons, List.not_mem_nil, or_false, not_or] at hh
      exact ⟨by tauto, rfl, hu⟩
    · have ho : optionalSource w true .mwr none [.radar, .lidar, .model] [.model, .lidar, .radar] = (.error x, [.model, .lidar, .radar]) := by
        unfold optionalSource
        simp [e']
      rw [ho]
      obtain ⟨n1, n2⟩ := hn _ _ hx'
      refine ⟨fun hh => ?_, fun _ h => absurd h n2, fun _ h => absurd (h rfl) n1, fun ⟨u, hu⟩ => by cases hu⟩
      simp only [mem_closeBound, List.mem_cons, List.not_mem_nil, or_false, not_or] at hh
      tauto

/-- **C163, a finding.** Categorize, if radar, lidar or model cannot be used: the files opened up to then stay open, those that were read without a fault too. -/
theorem C163_categorize_early (w : FileWorld) (mwr disdrometer : Bool) (hno : ¬ (Spec.Usable w .radar ∧ Spec.Usable w .lidar ∧ Spec.Usable w .model)) (h : FileRole) :
    (h ∈ (categorizeCall' w mwr disdrometer []).2 ↔ (h = .radar ∧ w (.opening .radar) = none) ∨ (h = .lidar ∧ Spec.Usable w .radar ∧ w (.opening .lidar) = none) ∨
      (h = .model ∧ Spec.Usable w .radar ∧ Spec.Usable w .lidar ∧ w (.opening .model) = none)) ∧ ¬ ∃ u, (categorizeCall' w mwr disdrometer []).1 = .ok u := by
  rcases three_sources w with ⟨h1, h2, h3, -⟩ | ⟨-, e, s, he, hs⟩
  · exact absurd ⟨h1, h2, h3⟩ hno
  · unfold categorizeCall'
    rw [he]
    exact ⟨hs h, fun ⟨u, hu⟩ => by cases hu⟩

theorem validFiles_open (w : FileWorld) (files : List ℕ) (s : List FileRole) (hs : ∀ n, .raw n ∉ s) : ∀ h, h ∈ (validFiles w files s).2 ↔ h ∈ s := by
  induction files generalizing s with
  | nil => exact fun _ => Iff.rfl
  | cons n l ih =>
    intro h
    obtain ⟨d1, -⟩ := withDataset_open w (.raw n) (.work s!"valid {n}") s (hs n)
    obtain ⟨a1, a2⟩ := andThen_open (withDataset w (.raw n) (fileStep w (.work s!"valid {n}"))) (validFiles w l) s
    show h ∈ (((withDataset w (.raw n) (fileStep w (.work s!"valid {n}"))).andThen (validFiles w l)) s).2 ↔ _
    by_cases hok : ∃ u, (withDataset w (.raw n) (fileStep w (.work s!"valid {n}")) s).1 = .ok u
    · obtain ⟨u, hu⟩ := hok
      rw [a1 u hu, ih _ (fun m hm => hs m ((d1 _).1 hm)), d1]
    · rw [(a2 hok).1, d1]

theorem appendFiles_open (w : FileWorld) (files : List ℕ) (s : List FileRole) (hs : ∀ n, .raw n ∉ s) : ∀ h, h ∈ (appendFiles w files s).2 ↔ h ∈ s := by
  induction files generalizing s with
  | nil => exact fun _ => Iff.rfl
  | cons n l ih =>
    intro h
    obtain ⟨d1, -⟩ := withDataset_open w (.raw n) (.work s!"append {n}") s (hs n)
    unfold appendFiles
    rcases hd : withDataset w (.raw n) (fileStep w (.work s!"append {n}")) s with ⟨r, s'⟩
    rw [hd] at d1
    cases r with
    | ok u => exact (ih s' (fun m hm => hs m ((d1 _).1 hm)) h).trans (d1 h)
    | error e =>
      dsimp only
      split_ifs
      · exact (ih s' (fun m hm => hs m ((d1 _).1 hm)) h).trans (d1 h)
      · exact d1 h

/-- **C163.** Concatenating any number of files: after success, or a failure while the data are copied, all are closed. If the output cannot be opened or its dimensions cannot be made the first file stays open
(and the output in the second case). -/
theorem C163_concatenate (w : FileWorld) (files rest : List ℕ) (h : FileRole) :
    (h ∈ (concatenateCall w files rest []).2 ↔ (∃ u, (validFiles w files []).1 = .ok u) ∧ w (.opening .categorize) = none ∧ ¬ Spec.Usable w .output ∧
      (h = .categorize ∨ (h = .output ∧ Spec.Unusable w .output))) ∧
    ((∃ u, (concatenateCall w files rest []).1 = .ok u) → h ∉ (concatenateCall w files rest []).2) := by
  have hv := validFiles_open w files [] (by simp)
  have hnil : (validFiles w files []).2 = [] := List.eq_nil_iff_forall_not_mem.2 fun x hx => by simpa using (hv x).1 hx
  have hx : ∀ f, Spec.Usable w f → ¬ Spec.Unusable w f := fun f h h' => h'.2 h.2
  obtain ⟨a1, a2⟩ := andThen_open (validFiles w files) ((openFile w .categorize).andThen ((dataSource w .output).andThen
    (((fileStep w (.work "first")).andThen (appendFiles w rest)).finally fun s => closeFile .output (closeFile .categorize s)))) []
  unfold concatenateCall
  by_cases hok : ∃ u, (validFiles w files []).1 = .ok u
  swap
  · obtain ⟨b1, b2⟩ := a2 hok
    rw [b1, hnil]
    exact ⟨by simp only [List.not_mem_nil, false_iff]; exact fun h => hok h.1, fun h => absurd h b2⟩
  obtain ⟨u, hu⟩ := hok
  rw [a1 u hu, hnil]
  have hok : ∃ u, (validFiles w files []).1 = .ok u := ⟨u, hu⟩
  simp only [hok, true_and]
  unfold FileM.andThen FileM.finally openFile
  dsimp only
  cases ho : w (.opening .categorize) with
  | some e => simp
  | none =>
    dsimp only
    rcases dataSource_cases w .output [.categorize] with ⟨hu, e⟩ | ⟨x, hx', hu, e⟩ | ⟨x, hx', e⟩
    · rw [e]
      have hbody : ∀ x, x ∈ (((fileStep w (.work "first")).andThen (appendFiles w rest)) [.output, .categorize]).2 ↔ x = .output ∨ x = .categorize := by
        intro x
        obtain ⟨f1, -⟩ := fileStep_open w (.work "first") [.output, .categorize]
        obtain ⟨c1, c2⟩ := andThen_open (fileStep w (.work "first")) (appendFiles w rest) [.output, .categorize]
        by_cases hf : ∃ u, (fileStep w (.work "first") [.output, .categorize]).1 = .ok u
        · obtain ⟨u, hu⟩ := hf
          rw [c1 u hu, f1, appendFiles_open w rest _ (by simp)]
          simp
        · rw [(c2 hf).1, f1]
          simp
      have : h ∉ closeFile .output (closeFile .categorize (((fileStep w (.work "first")).andThen (appendFiles w rest)) [.output, .categorize]).2) := by
        rw [mem_closeFile, mem_closeFile, hbody]
        tauto
      unfold FileM.andThen at this
      dsimp only
      exact ⟨⟨fun h => absurd h this, fun h => absurd hu h.2.1⟩, fun _ => this⟩
    · have hno : ¬ Spec.Usable w .output := fun h => hx _ h hu
      rw [e]
      simp only [hno, hu, List.mem_cons, List.not_mem_nil, or_false, and_true, not_false_iff, true_and, reduceCtorEq, exists_false, false_imp_iff]
      exact or_comm
    · have hno : ¬ Spec.Usable w .output := fun h => by rw [h.1] at hx'; cases hx'
      have hno' : ¬ Spec.Unusable w .output := fun h => by rw [h.1] at hx'; cases hx'
      rw [e]
      simp only [hno, hno', List.mem_cons, List.not_mem_nil, or_false, and_true, not_false_iff, true_and, reduceCtorEq, exists_false, false_imp_iff, and_false]

theorem withDataset_result (w : FileWorld) (f : FileRole) (x : FileStep) (s : List FileRole) :
    (withDataset w f (fileStep w x) s).1 = match w (.opening f) with
      | some e => .error e
      | none => match w x with
        | some e => .error e
        | none => .ok () := by
  unfold withDataset FileM.andThen FileM.finally openFile
  cases w (.opening f) with
  | some e => rfl
  | none =>
    unfold fileStep
    cases w x <;> rfl

/-- What goes wrong with one of the files that are added. -/
def Spec.AppendFails (w : FileWorld) (n : ℕ) (e : String) : Prop :=
  w (.opening (.raw n)) = some e ∨ (w (.opening (.raw n)) = none ∧ w (.work s!"append {n}") = some e)

theorem validFiles_ok (w : FileWorld) (files : List ℕ) (s : List FileRole) :
    (∃ u, (validFiles w files s).1 = .ok u) ↔ ∀ n ∈ files, w (.opening (.raw n)) = none ∧ w (.work s!"valid {n}") = none := by
  induction files generalizing s with
  | nil => exact ⟨fun _ => by simp, fun _ => ⟨(), rfl⟩⟩
  | cons n l ih =>
    have hd := withDataset_result w (.raw n) (.work s!"valid {n}") s
    rw [List.forall_mem_cons]
    change (∃ u, (((withDataset w (.raw n) (fileStep w (.work s!"valid {n}"))).andThen (validFiles w l)) s).1 = .ok u) ↔ _
    unfold FileM.andThen
    rcases hr : withDataset w (.raw n) (fileStep w (.work s!"valid {n}")) s with ⟨r, s'⟩
    rw [hr] at hd
    dsimp only at hd ⊢
    cases h1 : w (.opening (.raw n)) with
    | some e => rw [h1] at hd; dsimp only at hd; rw [hd]; simp
    | none =>
      rw [h1] at hd
      dsimp only at hd
      cases h2 : w (.work s!"valid {n}") with
      | some e => rw [h2] at hd; dsimp only at hd; rw [hd]; simp
      | none => rw [h2] at hd; dsimp only at hd; rw [hd]; simp only [ih, true_and, and_self]

theorem appendFiles_ok (w : FileWorld) (files : List ℕ) (s : List FileRole) :
    (∃ u, (appendFiles w files s).1 = .ok u) ↔ ∀ n ∈ files, ∀ e, Spec.AppendFails w n e → e = "RuntimeError: NetCDF: HDF error" := by
  induction files generalizing s with
  | nil => exact ⟨fun _ => by simp, fun _ => ⟨(), rfl⟩⟩
  | cons n l ih =>
    have hd := withDataset_result w (.raw n) (.work s!"append {n}") s
    rw [List.forall_mem_cons]
    unfold appendFiles Spec.AppendFails
    rcases hr : withDataset w (.raw n) (fileStep w (.work s!"append {n}")) s with ⟨r, s'⟩
    rw [hr] at hd
    dsimp only at hd ⊢
    cases h1 : w (.opening (.raw n)) with
    | some e =>
      rw [h1] at hd
      dsimp only at hd
      rw [hd]
      dsimp only
      by_cases he : e = "RuntimeError: NetCDF: HDF error"
      · rw [if_pos he, ih]; simp [he, Spec.AppendFails]
      · rw [if_neg he]; simp [he]
    | none =>
      rw [h1] at hd
      dsimp only at hd
      cases h2 : w (.work s!"append {n}") with
      | some e =>
        rw [h2] at hd
        dsimp only at hd
        rw [hd]
        dsimp only
        by_cases he : e = "RuntimeError: NetCDF: HDF error"
        · rw [if_pos he, ih]; simp [he, Spec.AppendFails]
        · rw [if_neg he]; simp [he]
      | none =>
        rw [h2] at hd
        dsimp only at hd
        rw [hd]
        dsimp only
        rw [ih]
        simp [Spec.AppendFails]

/-- **C163.** Concatenating succeeds if and only if all files can be checked, the first file and the output can be used, and nothing but the error of the
HDF library happens with the other files: these are left out. Any other error ends the call. -/
theorem C163_concatenate_success (w : FileWorld) (files rest : List ℕ) :
    (∃ u, (concatenateCall w files rest []).1 = .ok u) ↔
      (∀ n ∈ files, w (.opening (.raw n)) = none ∧ w (.work s!"valid {n}") = none) ∧ w (.opening .categorize) = none ∧ Spec.Usable w .output ∧
      w (.work "first") = none ∧ ∀ n ∈ rest, ∀ e, Spec.AppendFails w n e → e = "RuntimeError: NetCDF: HDF error" := by
  rw [← validFiles_ok w files []]
  obtain ⟨a1, a2⟩ := andThen_open (validFiles w files) ((openFile w .categorize).andThen ((dataSource w .output).andThen
    (((fileStep w (.work "first")).andThen (appendFiles w rest)).finally fun s => closeFile .output (closeFile .categorize s)))) []
  unfold concatenateCall
  by_cases hok : ∃ u, (validFiles w files []).1 = .ok u
  swap
  · exact ⟨fun h => absurd h (a2 hok).2, fun h => absurd h.1 hok⟩
  obtain ⟨u, hu⟩ := hok
  rw [a1 u hu]
  have hok : ∃ u, (validFiles w files []).1 = .ok u := ⟨u, hu⟩
  simp only [hok, true_and]
  generalize (validFiles w files []).2 = s
  unfold FileM.andThen FileM.finally openFile
  dsimp only
  cases ho : w (.opening .categorize) with
  | some e => simp
  | none =>
    dsimp only
    rcases dataSource_cases w .output (.categorize :: s) with ⟨hu, e⟩ | ⟨x, hx', hu, e⟩ | ⟨x, hx', e⟩
    · rw [e]
      simp only [hu, true_and]
      unfold fileStep
      cases hf : w (.work "first") with
      | some e => simp
      | none =>
        dsimp only
        simp only [true_and]
        rw [← appendFiles_ok w rest (.output :: .categorize :: s)]
    · have hno : ¬ Spec.Usable w .output := fun h => hu.2 h.2
      rw [e]
      simp [hno]
    · have hno : ¬ Spec.Usable w .output := fun h => by rw [h.1] at hx'; cases hx'
      rw [e]
      simp [hno]

/-- A broken file is left out, a missing variable ends the call. -/
example : (∃ u, (concatenateCall (fun x => if x = .opening (.raw 2) then some "RuntimeError: NetCDF: HDF error" else none) [1] [2, 3] []).1 = .ok u) ∧
    ¬ ∃ u, (concatenateCall (fun x => if x = .work "append 3" then some "KeyError" else none) [1] [2, 3] []).1 = .ok u :=
  ⟨⟨(), by decide⟩, by
    rw [C163_concatenate_success]
    rintro ⟨-, -, -, -, h⟩
    have := h 3 (by simp) "KeyError" (Or.inr ⟨by simp, by decide⟩)
    revert this
    decide⟩

/-- A lidar file that cannot be opened: the radar file stays open. -/
example : (categorizeCall' (fun x => if x = .opening .lidar then some "FileNotFoundError" else none) true true []).2 = [.radar] := by decide

/-- A disdrometer file without a variable: the call succeeds and the file stays open. -/
example : (categorizeCall' (fun x => if x = .starting .disdrometer then some "DisdrometerDataError" else none) true true []).2 = [.disdrometer] := by decide

/-- A failure of the work: all files are closed. -/
example : (categorizeCall' (fun x => if x = .work "categorize" then some "ValidTimeStampError" else none) true true []).2 = [] ∧
    (productCall (fun x => if x = .starting .output then some "KeyError" else none) []).2 = [.output] := by decide

end Cloudnet
