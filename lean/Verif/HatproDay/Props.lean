import Verif.HatproDay.Combine
import Verif.Precip.Props
import Verif.Mrr.Props

namespace Cloudnet

namespace Spec

section
variable {α : Type} [Field α] [LinearOrder α] [FloorRing α]

/-- The file is used: it is usable and its stem is not rejected. -/
def HatproUsed (epoch : ℤ) (date : Option ℤ) (files : List (HatproFile α)) (f : HatproFile α) : Prop :=
  f ∈ files ∧ UsableHatpro epoch date f ∧ StemAgrees epoch date files f.stem

/-- The cell of a column is what a file of the stem says of the variable at time `t`, and it is masked if no file says anything. -/
def CellSays (epoch : ℤ) (date : Option ℤ) (used : List (HatproFile α)) (stem name : String) (t : ℤ) (cell : Option (Option α)) : Prop :=
  ∃ v, cell = some v ∧ (∀ f ∈ used, f.stem = stem → ∀ v' z, HatproSays epoch date f name t v' z → v = v') ∧
    ((∀ f ∈ used, f.stem = stem → ∀ v' z, ¬ HatproSays epoch date f name t v' z) → v = none)

end

end Spec

/-! ## Lists -/

/-- An element of a concatenation belongs to one of the parts, whatever the parts are made of. -/
theorem flatMap_index {β : Type} (l : List β) (len : β → ℕ) :
    (∀ k < (l.map len).sum, ∃ o ∈ l, ∃ j < len o, ∀ (γ : Type) (g : β → List γ), (∀ o ∈ l, (g o).length = len o) →
      (l.flatMap g)[k]? = (g o)[j]?) ∧
    ∀ o ∈ l, ∀ j < len o, ∃ k < (l.map len).sum, ∀ (γ : Type) (g : β → List γ), (∀ o ∈ l, (g o).length = len o) →
      (l.flatMap g)[k]? = (g o)[j]? := by
  induction l with
  | nil => simp
  | cons a l ih =>
    obtain ⟨i1, i2⟩ := ih
    constructor
    · intro k hk
      rw [List.map_cons, List.sum_cons] at hk
      by_cases h : k < len a
      · refine ⟨a, by simp, k, h, fun γ g hg => ?_⟩
        rw [List.flatMap_cons, List.getElem?_append_left (by rw [hg a (by simp)]; exact h)]
      · obtain ⟨o, ho, j, hj, e⟩ := i1 (k - len a) (by omega)
        refine ⟨o, List.mem_cons_of_mem _ ho, j, hj, fun γ g hg => ?_⟩
        rw [List.flatMap_cons, List.getElem?_append_right (by rw [hg a (by simp)]; omega), hg a (by simp)]
        exact e γ g fun o ho => hg o (List.mem_cons_of_mem _ ho)
    · intro o ho j hj
      rw [List.map_cons, List.sum_cons]
      rcases List.mem_cons.1 ho with rfl | ho
      · refine ⟨j, by omega, fun γ g hg => ?_⟩
        rw [List.flatMap_cons, List.getElem?_append_left (by rw [hg o (by simp)]; exact hj)]
      · obtain ⟨k, hk, e⟩ := i2 o ho j hj
        refine ⟨len a + k, by omega, fun γ g hg => ?_⟩
        rw [List.flatMap_cons, List.getElem?_append_right (by rw [hg a (by simp)]; omega), hg a (by simp), Nat.add_sub_cancel_left]
        exact e γ g fun o ho => hg o (List.mem_cons_of_mem _ ho)

theorem pickRows_get {β : Type} (ind : List ℕ) (l : List β) (h : ∀ i ∈ ind, i < l.length) (k : ℕ) :
    (pickRows ind l)[k]? = ind[k]?.bind fun i => l[i]? := by
  unfold pickRows
  induction ind generalizing k with
  | nil => simp
  | cons i ind ih =>
    have hi := h i (by simp)
    rw [List.filterMap_cons, List.getElem?_eq_getElem hi]
    cases k with
    | zero => simp [List.getElem?_eq_getElem hi]
    | succ k =>
      simp only [List.getElem?_cons_succ]
      exact ih (fun i hi => h i (List.mem_cons_of_mem _ hi)) k

theorem pickRows_length_of_lt {β : Type} (ind : List ℕ) (l : List β) (h : ∀ i ∈ ind, i < l.length) : (pickRows ind l).length = ind.length := by
  unfold pickRows
  induction ind with
  | nil => rfl
  | cons i ind ih =>
    have hi := h i (by simp)
    rw [List.filterMap_cons, List.getElem?_eq_getElem hi]
    simp only [List.length_cons, Nat.add_right_cancel_iff]
    exact ih fun i hi => h i (List.mem_cons_of_mem _ hi)

theorem pickRows_pickRows {β : Type} (u ind : List ℕ) (l : List β) (h : ∀ i ∈ ind, i < l.length) :
    pickRows u (pickRows ind l) = pickRows (pickRows u ind) l := by
  show u.filterMap _ = (u.filterMap _).filterMap _
  rw [List.filterMap_filterMap]
  apply List.filterMap_congr
  intro k _
  exact pickRows_get ind l h k

section
variable {α : Type} [Field α] [LinearOrder α] [IsStrictOrderedRing α] [FloorRing α]

omit [Field α] [LinearOrder α] [IsStrictOrderedRing α] [FloorRing α] in
theorem lookup_map_columns {β : Type} (f : List (Option α) → β) (l : List (String × List (Option α))) (name : String) :
    (l.map fun c => (c.1, f c.2)).lookup name = (l.lookup name).map f := by
  induction l with
  | nil => rfl
  | cons c l ih =>
    rw [List.map_cons, List.lookup_cons, List.lookup_cons, ih]
    split <;> rfl

/-- Sorting and removing duplicates: one selection of rows for all columns with the length of time. -/
theorem table_sorted (T : HatproTable α) (order : List ℕ) (ho : order.Perm (List.range T.hours.length)) :
    ∃ J : List ℕ, (∀ j ∈ J, j < T.hours.length) ∧ (J.Pairwise fun i j => vec T.hours i < vec T.hours j) ∧
      (∀ i < T.hours.length, ∃ j ∈ J, vec T.hours j = vec T.hours i) ∧
      ∀ out, out = (let sorted := T.take order
       sorted.take (uniqueIndex sorted.hours.length (vec sorted.hours))) →
        out.hours = J.map (vec T.hours) ∧ (∀ name, T.columns.lookup name = none → out.columns.lookup name = none) ∧
        ∀ name c, T.columns.lookup name = some c → c.length = T.hours.length → out.columns.lookup name = some (pickRows J c) := by
  have hlt : ∀ i ∈ order, i < T.hours.length := fun i hi => List.mem_range.1 (ho.mem_iff.1 hi)
  have hrange : pickRows order (List.range T.hours.length) = order := by
    unfold pickRows
    rw [List.filterMap_congr (g := some), List.filterMap_some]
    intro i hi
    rw [List.getElem?_range (hlt i hi)]
  obtain ⟨s1, s2, s3⟩ := sortUnique_spec (vec T.hours) order (List.range T.hours.length) (by rw [List.length_range]; exact ho)
  have hhours : ∀ ind : List ℕ, (∀ i ∈ ind, i < T.hours.length) → pickRows ind T.hours = ind.map (vec T.hours) := by
    intro ind hind
    unfold pickRows
    rw [← List.filterMap_eq_map]
    apply List.filterMap_congr
    intro i hi
    simp [vec, List.getElem?_eq_getElem (hind i hi)]
  have hJ : sortUnique (vec T.hours) order (List.range T.hours.length) =
      pickRows (uniqueIndex (pickRows order T.hours).length (vec (pickRows order T.hours))) order := by
    unfold sortUnique
    rw [hrange, hhours order hlt, List.length_map]
  have hJlt : ∀ j ∈ sortUnique (vec T.hours) order (List.range T.hours.length), j < T.hours.length := fun j hj => List.mem_range.1 (s2 j hj)
  refine ⟨_, hJlt, s1, fun i hi => s3 i (List.mem_range.2 hi), ?_⟩
  rintro out rfl
  rw [← hhours _ hJlt, hJ]
  have e1 : (T.take order).hours = pickRows order T.hours := rfl
  have e2 : ∀ name, (T.take order).columns.lookup name =
      (T.columns.lookup name).map fun c => if c.length = T.hours.length then pickRows order c else c :=
    fun name => lookup_map_columns (fun c => if c.length = T.hours.length then pickRows order c else c) T.columns name
  dsimp only
  rw [e1]
  generalize uniqueIndex (pickRows order T.hours).length (vec (pickRows order T.hours)) = u
  have e3 : ∀ name, ((T.take order).take u).columns.lookup name =
      ((T.take order).columns.lookup name).map fun c => if c.length = (T.take order).hours.length then pickRows u c else c :=
    fun name => lookup_map_columns (fun c => if c.length = (T.take order).hours.length then pickRows u c else c) _ name
  refine ⟨pickRows_pickRows u order T.hours hlt, fun name hn => by rw [e3, e2, hn]; rfl, fun name c hc hlen => ?_⟩
  have hltc : ∀ i ∈ order, i < c.length := fun i hi => by rw [hlen]; exact hlt i hi
  rw [e3, e2, hc]
  simp only [Option.map_some]
  rw [if_pos hlen, e1, if_pos (by rw [pickRows_length_of_lt order c hltc, pickRows_length_of_lt order T.hours hlt]), pickRows_pickRows u order c hltc]

/-! ## Objects -/

/-- What an object has, with or without the columns that are added. -/
structure ObjectData (mine : List (HatproRead α)) (o : HatproObject α) : Prop where
  nodup : (o.columns.map Prod.fst).Nodup
  len : ∀ name col, o.columns.lookup name = some col → col.length = o.times.length
  times : ∀ t, t ∈ o.times ↔ ∃ m ∈ mine, ∃ r ∈ m.records, r.time = t
  value : ∀ (k : ℕ) (t : ℤ), o.times[k]? = some t → ∀ name col, name = "lwp" ∨ name = "iwv" → o.columns.lookup name = some col →
    ∃ v, col[k]? = some v ∧ (∀ m ∈ mine, m.name = name → ∀ r ∈ m.records, r.time = t → v = r.value) ∧
      ((∀ m ∈ mine, m.name = name → ∀ r ∈ m.records, r.time ≠ t) → v = none)
  zenith : ∃ col, o.columns.lookup "zenith_angle" = some col ∧ ∀ (k : ℕ) (t : ℤ), o.times[k]? = some t →
    ∃ m ∈ mine, ∃ r ∈ m.records, r.time = t ∧ col[k]? = some (some r.zenith)

omit [IsStrictOrderedRing α] [FloorRing α] in
theorem addMissing_lookup (keys : List String) (n : ℕ) (name : String) (cols : List (String × List (Option α))) (h : (cols.map Prod.fst).Nodup) :
    ((keys.foldl (fun cols key => if cols.any fun p => p.1 == key then cols
        else dictSet cols key (List.replicate n none)) cols).map Prod.fst).Nodup ∧
    (keys.foldl (fun cols key => if cols.any fun p => p.1 == key then cols
        else dictSet cols key (List.replicate n none)) cols).lookup name =
      if name ∈ keys then some ((cols.lookup name).getD (List.replicate n none)) else cols.lookup name := by
  induction keys generalizing cols with
  | nil => exact ⟨h, by simp⟩
  | cons key keys ih =>
    rw [List.foldl_cons]
    by_cases ha : (cols.any fun p => p.1 == key) = true
    · rw [if_pos ha]
      obtain ⟨i1, i2⟩ := ih cols h
      refine ⟨i1, ?_⟩
      rw [i2]
      by_cases hk : name = key
      · rw [any_key_iff, ← hk] at ha
        obtain ⟨c, hc⟩ := Option.isSome_iff_exists.mp ha
        subst hk
        simp [hc]
      · simp [hk]
    · rw [if_neg ha]
      obtain ⟨i1, i2⟩ := ih (dictSet cols key (List.replicate n none)) (keys_dictSet _ _ _ h)
      refine ⟨i1, ?_⟩
      rw [i2, lookup_dictSet]
      by_cases hk : name = key
      · subst hk
        rw [any_key_iff] at ha
        have : cols.lookup name = none := Option.not_isSome_iff_eq_none.mp ha
        simp [this]
      · simp [hk]

omit [IsStrictOrderedRing α] in
theorem addMissing_object {mine : List (HatproRead α)} {o : HatproObject α} (h : ObjectOf mine o) :
    ObjectData mine (addMissingVariables ["lwp", "iwv"] o) ∧
    ∀ name, name = "lwp" ∨ name = "iwv" → ((addMissingVariables ["lwp", "iwv"] o).columns.lookup name).isSome := by
  have hl : ∀ name, (addMissingVariables ["lwp", "iwv"] o).columns.lookup name =
      if name ∈ ["lwp", "iwv"] then some ((o.columns.lookup name).getD (List.replicate o.times.length none)) else o.columns.lookup name :=
    fun name => (addMissing_lookup ["lwp", "iwv"] o.times.length name o.columns h.nodup).2
  refine ⟨⟨(addMissing_lookup ["lwp", "iwv"] o.times.length "" o.columns h.nodup).1, ?_, h.times, ?_, ?_⟩, ?_⟩
  · intro name col hc
    rw [hl] at hc
    show col.length = o.times.length
    split_ifs at hc
    · cases hlk : o.columns.lookup name with
      | none => rw [hlk] at hc; cases hc; simp
      | some c => rw [hlk] at hc; cases hc; exact h.len name c hlk
    · exact h.len name col hc
  · intro k t ht name col hname hc
    rw [hl, if_pos (by rcases hname with rfl | rfl <;> simp)] at hc
    cases hlk : o.columns.lookup name with
    | none =>
      rw [hlk] at hc
      cases hc
      have hno : ∀ m ∈ mine, m.name ≠ name := by
        intro m hm e
        have := (h.has name hname).2 ⟨m, hm, e⟩
        rw [hlk] at this
        cases this
      have hk : k < o.times.length := (List.getElem?_eq_some_iff.1 ht).1
      exact ⟨none, by simp [hk], fun m hm e => absurd e (hno m hm), fun _ => rfl⟩
    | some c =>
      rw [hlk] at hc
      cases hc
      exact h.value k t ht name c hname hlk
  · obtain ⟨col, hc, hz⟩ := h.zenith
    exact ⟨col, by rw [hl, if_neg (by decide), hc], hz⟩
  · intro name hname
    rw [hl, if_pos (by rcases hname with rfl | rfl <;> simp)]
    rfl

/-! ## The day -/

/-- `hatproDay` for objects whose columns are all as long as their times. -/
theorem hatproDay_spec (epoch : ℤ) (argsort : List α → List ℕ) (objects : List (HatproObject α)) (files : List (HatproFile α)) :
    ((∃ e, hatproDay epoch argsort objects files = .error e) ↔
      (¬ ∃ f ∈ files, f.suffix = ".LWP") ∨ ∀ o ∈ objects, o.times = []) ∧
    ∀ d table, hatproDay epoch argsort objects files = .ok (d, table) → ∃ objects' : List (HatproObject α),
      objects' = (if ∃ f ∈ files, f.suffix = ".IWV" then objects.map (addMissingVariables ["lwp", "iwv"]) else objects) ∧
      (∃ t rest, objects'.flatMap HatproObject.times = t :: rest ∧ d = (t + epoch) / 86400) ∧
      ∃ H : List α, H.length = (objects'.flatMap HatproObject.times).length ∧
        (∀ (k : ℕ) (t : ℤ), (objects'.flatMap HatproObject.times)[k]? = some t → Spec.HourOfDay t (vec H k)) ∧
        table = (let T : HatproTable α := ⟨H, combineFiles (objects'.map HatproObject.columns)⟩
          let sorted := T.take (argsort H)
          sorted.take (uniqueIndex sorted.hours.length (vec sorted.hours))) := by
  have hl : (files.any fun f => f.suffix == ".LWP") = true ↔ ∃ f ∈ files, f.suffix = ".LWP" := by simp
  have hi : (files.any fun f => f.suffix == ".IWV") = true ↔ ∃ f ∈ files, f.suffix = ".IWV" := by simp
  unfold hatproDay
  by_cases h : ∃ f ∈ files, f.suffix = ".LWP"
  swap
  · rw [if_pos (by rw [← Bool.not_eq_true, hl]; exact h)]
    exact ⟨⟨fun _ => Or.inl h, fun _ => ⟨_, rfl⟩⟩, fun d t ht => by cases ht⟩
  rw [if_neg (by rw [← Bool.not_eq_true, hl, not_not]; exact h)]
  have hO : (if (files.any fun f => f.suffix == ".IWV") = true then objects.map (addMissingVariables ["lwp", "iwv"]) else objects) =
      (if ∃ f ∈ files, f.suffix = ".IWV" then objects.map (addMissingVariables ["lwp", "iwv"]) else objects) := by
    by_cases hc : ∃ f ∈ files, f.suffix = ".IWV"
    · rw [if_pos hc, if_pos (hi.2 hc)]
    · rw [if_neg hc, if_neg (fun h => hc (hi.1 h))]
  have htimes : (if ∃ f ∈ files, f.suffix = ".IWV" then objects.map (addMissingVariables ["lwp", "iwv"]) else objects).flatMap HatproObject.times =
      objects.flatMap HatproObject.times := by
    split_ifs
    · rw [List.flatMap_map]; rfl
    · rfl
  simp only [pure_bind]
  rw [hO]
  set objects' := (if ∃ f ∈ files, f.suffix = ".IWV" then objects.map (addMissingVariables ["lwp", "iwv"]) else objects) with hobj
  have hst : (stackHatpro objects').times = objects'.flatMap HatproObject.times := rfl
  have hsc : (stackHatpro objects').columns = combineFiles (objects'.map HatproObject.columns) := rfl
  have hnil : (objects'.flatMap HatproObject.times = []) ↔ ∀ o ∈ objects, o.times = [] := by
    rw [htimes, List.flatMap_eq_nil_iff]
  rw [hst, hsc]
  cases ht : objects'.flatMap HatproObject.times with
  | nil =>
    refine ⟨⟨fun _ => Or.inr (hnil.1 ht), fun _ => ⟨_, rfl⟩⟩, fun d t ht => by cases ht⟩
  | cons t0 rest =>
    dsimp only
    obtain ⟨f, hf, hall⟩ := (C36_seconds2hours (t0 :: rest).length (vec ((t0 :: rest).map fun t : ℤ => (t : α)))).2 (by simp)
    rw [hf]
    refine ⟨⟨fun ⟨e, he⟩ => (by cases he), fun hc => ?_⟩, ?_⟩
    · rcases hc with hc | hc
      · exact absurd h hc
      · rw [← hnil, ht] at hc
        cases hc
    · intro d table he
      cases he
      refine ⟨objects', rfl, ⟨t0, rest, ht, rfl⟩, (List.range (t0 :: rest).length).map f, by rw [ht]; simp, ?_, rfl⟩
      intro k t hk
      rw [ht] at hk
      have hk' : k < (t0 :: rest).length := (List.getElem?_eq_some_iff.1 hk).1
      obtain ⟨⟨n, hn⟩, hr, -⟩ := hall k hk'
      have e1 : vec ((t0 :: rest).map fun t : ℤ => (t : α)) k = (t : α) := by
        simp only [vec, List.getD_eq_getElem?_getD, List.getElem?_map, hk]
        rfl
      have e2 : vec ((List.range (t0 :: rest).length).map f) k = f k := by
        simp only [vec, List.getD_eq_getElem?_getD, List.getElem?_map, List.getElem?_range hk']
        rfl
      rw [e2]
      refine ⟨?_, ?_, n, by rw [← e1]; exact hn⟩
      · rcases hr with hr | hr
        · exact hr.1
        · rw [hr.2]; norm_num
      · rcases hr with hr | hr
        · exact hr.2.le
        · rw [hr.2]

theorem says_name {epoch : ℤ} {date : Option ℤ} {f : HatproFile α} {name : String} {t : ℤ} {v : Option α} {z : α}
    (h : Spec.HatproSays epoch date f name t v z) : name = "lwp" ∧ f.suffix.toUpper = ".LWP" ∨ name = "iwv" ∧ f.suffix.toUpper = ".IWV" := by
  obtain ⟨r, code, ref, version, factor, az, -, hF, -⟩ := h
  revert hF
  generalize f.suffix.toUpper = s
  intro hF
  cases hF <;> simp

/-- What the reads have to do with what the files say. -/
theorem read_says {epoch : ℤ} {date : Option ℤ} {f : HatproFile α} {m : HatproRead α} (h : readHatpro epoch date f = .ok (some m))
    (name : String) (t : ℤ) (v : Option α) (z : α) :
    Spec.HatproSays epoch date f name t v z ↔ name = m.name ∧ ∃ r ∈ m.records, r.time = t ∧ r.value = v ∧ r.zenith = z := by
  obtain ⟨-, h2, -, h4⟩ := (C150_read epoch date f).2 m h
  constructor
  · intro hs
    have hn : name = m.name := by
      rcases says_name hs with ⟨a, b⟩ | ⟨a, b⟩ <;> rcases h2 with ⟨c, d⟩ | ⟨c, d⟩
      · rw [a, c]
      · rw [b] at d; exact absurd d (by decide)
      · rw [b] at d; exact absurd d (by decide)
      · rw [a, c]
    subst hn
    exact ⟨rfl, (h4 t v z).2 hs⟩
  · rintro ⟨rfl, h⟩
    exact (h4 t v z).1 h

/-- The objects and the files used. -/
theorem hatproObjects_spec (epoch : ℤ) (date : Option ℤ) (files : List (HatproFile α)) (hone : Spec.OneOfAKind files) :
    ((∃ e, hatproObjects epoch date files = .error e) ↔
      ∃ f ∈ files, f.header = none ∧ (f.suffix.toUpper = ".LWP" ∨ f.suffix.toUpper = ".IWV")) ∧
    ∀ objects used, hatproObjects epoch date files = .ok (objects, used) →
      (∀ f, f ∈ used ↔ Spec.HatproUsed epoch date files f) ∧
      (∀ o ∈ objects, ∃ stem mine, ObjectOf mine o ∧ mine ≠ [] ∧
        ∀ m, m ∈ mine ↔ ∃ f ∈ used, f.stem = stem ∧ readHatpro epoch date f = .ok (some m)) ∧
      ∀ f ∈ used, ∃ o ∈ objects, ∃ mine, ObjectOf mine o ∧
        ∀ m, m ∈ mine ↔ ∃ g ∈ used, g.stem = f.stem ∧ readHatpro epoch date g = .ok (some m) := by
  unfold hatproObjects
  cases hm : files.mapM (readHatpro epoch date) with
  | error e =>
    refine ⟨⟨fun _ => ?_, fun _ => ⟨_, rfl⟩⟩, fun o u h => by cases h⟩
    by_contra hc
    push Not at hc
    have : ∀ f ∈ files, ∃ x, readHatpro epoch date f = .ok x := by
      intro f hf
      cases hr : readHatpro epoch date f with
      | ok x => exact ⟨x, rfl⟩
      | error e =>
        obtain ⟨h1, h2⟩ := (C150_crash epoch date f).1 ⟨e, hr⟩
        have := hc f hf h1
        rcases h2 with h2 | h2
        · exact absurd h2 this.1
        · exact absurd h2 this.2
    choose! g hg using this
    have := mapM_ok (readHatpro epoch date) g files hg
    rw [hm] at this
    cases this
  | ok l =>
    obtain ⟨hmem, hgood⟩ := readAll epoch date files l hm
    have hg := hgood hone
    set objs := l.filterMap id with hobjs
    obtain ⟨os, fs, e, h1, h2⟩ := combineStems_spec objs hg ((objs.map fun o => o.file.stem).dedup.insertionSort (· ≤ ·))
    have hstem : ∀ s, s ∈ (objs.map fun o => o.file.stem).dedup.insertionSort (· ≤ ·) ↔ ∃ m ∈ objs, m.file.stem = s := by
      intro s
      rw [List.mem_insertionSort, List.mem_dedup, List.mem_map]
    have hfile : ∀ m ∈ objs, m.file ∈ files ∧ readHatpro epoch date m.file = .ok (some m) := by
      intro m hmm
      obtain ⟨f, hf, hr⟩ := (hmem m).1 hmm
      rw [((C150_read epoch date f).2 m hr).1]
      exact ⟨hf, hr⟩
    refine ⟨⟨fun ⟨e', he'⟩ => ?_, fun ⟨f, hf, h⟩ => ?_⟩, ?_⟩
    · simp only [bind, Except.bind] at he'
      rw [e] at he'
      cases he'
    · obtain ⟨e', he'⟩ := mapM_error (readHatpro epoch date) files f hf ((C150_crash epoch date f).2 h)
      rw [hm] at he'
      cases he'
    intro objects used he
    simp only [bind, Except.bind] at he
    rw [e] at he
    cases he
    -- the files of a stem and when they can be combined
    have hmine : ∀ stem, (∃ m ∈ objs, m.file.stem = stem) → ((∃ o, hatproCombined (hatproNames (objs.filter fun o => o.file.stem == stem)) = .ok o) ↔
        Spec.StemAgrees epoch date files stem) := by
      rintro stem ⟨m0, hm0, e0⟩
      rw [combined_ok_iff (fewFiles objs hg stem)
        (List.ne_nil_of_mem (List.mem_filter.2 ⟨hm0, by simp [e0]⟩)) (fun m hm => hg.sorted m (List.mem_filter.1 hm).1)]
      constructor
      · intro h f hf g hgf es es' hu hu' n n' t v v' z z' hs hs'
        obtain ⟨a, ha⟩ := (C150_read epoch date f).1.2 hu
        obtain ⟨b, hb⟩ := (C150_read epoch date g).1.2 hu'
        obtain ⟨-, r, hr, r1, -, r3⟩ := (read_says ha n t v z).1 hs
        obtain ⟨-, r', hr', r1', -, r3'⟩ := (read_says hb n' t v' z').1 hs'
        have ea := ((C150_read epoch date f).2 a ha).1
        have eb := ((C150_read epoch date g).2 b hb).1
        have := h a (List.mem_filter.2 ⟨(hmem a).2 ⟨f, hf, ha⟩, by simp [ea, es]⟩) b
          (List.mem_filter.2 ⟨(hmem b).2 ⟨g, hgf, hb⟩, by simp [eb, es']⟩) r hr r' hr' (by rw [r1, r1'])
        rw [← r3, ← r3', this]
      · intro h a ha b hb r hr r' hr' et
        obtain ⟨ha1, ha2⟩ := List.mem_filter.1 ha
        obtain ⟨hb1, hb2⟩ := List.mem_filter.1 hb
        simp only [beq_iff_eq] at ha2 hb2
        obtain ⟨fa, ra⟩ := hfile a ha1
        obtain ⟨fb, rb⟩ := hfile b hb1
        exact h a.file fa b.file fb ha2 hb2 ((C150_read epoch date _).1.1 ⟨a, ra⟩) ((C150_read epoch date _).1.1 ⟨b, rb⟩)
          a.name b.name r.time r.value r'.value r.zenith r'.zenith ((read_says ra _ _ _ _).2 ⟨rfl, r, hr, rfl, rfl, rfl⟩)
          ((read_says rb _ _ _ _).2 ⟨rfl, r', hr', et.symm, rfl, rfl⟩)
    have hused : ∀ f, f ∈ fs ↔ Spec.HatproUsed epoch date files f := by
      intro f
      rw [h2]
      constructor
      · rintro ⟨m, hm, rfl, -, ho⟩
        obtain ⟨f1, f2⟩ := hfile m hm
        exact ⟨f1, (C150_read epoch date _).1.1 ⟨m, f2⟩, (hmine _ ⟨m, hm, rfl⟩).1 ho⟩
      · rintro ⟨hf, hu, ha⟩
        obtain ⟨m, hr⟩ := (C150_read epoch date f).1.2 hu
        have em := ((C150_read epoch date f).2 m hr).1
        have hmo : m ∈ objs := (hmem m).2 ⟨f, hf, hr⟩
        exact ⟨m, hmo, em, (hstem _).2 ⟨m, hmo, by rw [em]⟩, (hmine _ ⟨m, hmo, by rw [em]⟩).2 ha⟩
    have hobject : ∀ stem o, hatproCombined (hatproNames (objs.filter fun o => o.file.stem == stem)) = .ok o →
        ObjectOf (objs.filter fun o => o.file.stem == stem) o ∧ (objs.filter fun o => o.file.stem == stem) ≠ [] ∧
        ∀ m, m ∈ (objs.filter fun o => o.file.stem == stem) ↔ ∃ f ∈ fs, f.stem = stem ∧ readHatpro epoch date f = .ok (some m) := by
      intro stem o ho
      refine ⟨object_spec (fewFiles objs hg stem) (fun m hm => hg.name m (List.mem_filter.1 hm).1)
        (fun m hm => hg.sorted m (List.mem_filter.1 hm).1) o ho, ?_, fun m => ?_⟩
      · intro hnil
        rw [hnil] at ho
        cases ho
      · rw [List.mem_filter, beq_iff_eq]
        constructor
        · rintro ⟨hm1, hm2⟩
          obtain ⟨f1, f2⟩ := hfile m hm1
          refine ⟨m.file, (h2 _).2 ⟨m, hm1, rfl, (hstem _).2 ⟨m, hm1, rfl⟩, o, by rw [hm2]; exact ho⟩, hm2, f2⟩
        · rintro ⟨f, hf, hs, hr⟩
          have em := ((C150_read epoch date f).2 m hr).1
          exact ⟨(hmem m).2 ⟨f, ((hused f).1 hf).1, hr⟩, by rw [em, hs]⟩
    refine ⟨hused, ?_, ?_⟩
    · intro o ho
      obtain ⟨stem, hs, hc⟩ := (h1 o).1 ho
      exact ⟨stem, _, hobject stem o hc⟩
    · intro f hf
      obtain ⟨m, hm, e1, e2, o, ho⟩ := (h2 f).1 hf
      exact ⟨o, (h1 o).2 ⟨f.stem, e2, ho⟩, _, (hobject f.stem o ho).1, (hobject f.stem o ho).2.2⟩

/-- **C150.** A day of HATPRO files is rejected exactly if one of them is too short to have a header, if no `.LWP` file can be used, or if the files used
have no records. Other files that cannot be used are ignored. -/
theorem C150_rejected (epoch : ℤ) (argsort : List α → List ℕ) (date : Option ℤ) (files : List (HatproFile α)) (hone : Spec.OneOfAKind files) :
    (∃ e, hatpro2nc epoch argsort date files = .error e) ↔
      (∃ f ∈ files, f.header = none ∧ (f.suffix.toUpper = ".LWP" ∨ f.suffix.toUpper = ".IWV")) ∨
      (¬ ∃ f, Spec.HatproUsed epoch date files f ∧ f.suffix = ".LWP") ∨
      ∀ f, Spec.HatproUsed epoch date files f → ∀ name t v z, ¬ Spec.HatproSays epoch date f name t v z := by
  obtain ⟨h1, h2⟩ := hatproObjects_spec epoch date files hone
  unfold hatpro2nc
  cases ho : hatproObjects epoch date files with
  | error e => exact ⟨fun _ => Or.inl (h1.1 ⟨e, ho⟩), fun _ => ⟨_, rfl⟩⟩
  | ok ou =>
    obtain ⟨objects, used⟩ := ou
    obtain ⟨k1, k2, k3⟩ := h2 objects used ho
    obtain ⟨d1, -⟩ := hatproDay_spec epoch argsort objects used
    have hno : ¬ ∃ f ∈ files, f.header = none ∧ (f.suffix.toUpper = ".LWP" ∨ f.suffix.toUpper = ".IWV") := by
      intro hc
      obtain ⟨e, he⟩ := h1.2 hc
      rw [ho] at he
      cases he
    have hex : (∃ f ∈ used, f.suffix = ".LWP") ↔ ∃ f, Spec.HatproUsed epoch date files f ∧ f.suffix = ".LWP" :=
      exists_congr fun f => and_congr_left fun _ => k1 f
    have hempty : (∀ o ∈ objects, o.times = []) ↔
        ∀ f, Spec.HatproUsed epoch date files f → ∀ name t v z, ¬ Spec.HatproSays epoch date f name t v z := by
      constructor
      · intro h f hf name t v z hs
        obtain ⟨o, hoo, mine, hO, hm⟩ := k3 f ((k1 f).2 hf)
        obtain ⟨m, hr⟩ := (C150_read epoch date f).1.2 hf.2.1
        obtain ⟨-, r, hr1, hr2, -⟩ := (read_says hr name t v z).1 hs
        have := (hO.times t).2 ⟨m, (hm m).2 ⟨f, (k1 f).2 hf, rfl, hr⟩, r, hr1, hr2⟩
        rw [h o hoo] at this
        cases this
      · intro h o hoo
        obtain ⟨stem, mine, hO, -, hm⟩ := k2 o hoo
        rw [List.eq_nil_iff_forall_not_mem]
        intro t ht
        obtain ⟨m, hmm, r, hr, -⟩ := (hO.times t).1 ht
        obtain ⟨f, hf, -, hrd⟩ := (hm m).1 hmm
        exact h f ((k1 f).1 hf) m.name r.time r.value r.zenith ((read_says hrd _ _ _ _).2 ⟨rfl, r, hr, rfl, rfl, rfl⟩)
    rw [← hex, ← hempty, ← d1]
    simp only [hno, false_or]
    simp only [bind, Except.bind]
    cases hatproDay epoch argsort objects used with
    | error e => simp
    | ok x => simp [pure, Except.pure]

/-- **C150.** The file of a day has one row for each time of the files used, in order of the time of day. The row for time `t` of a stem has what the files
of the stem say of liquid water path and water vapour at `t`, or nothing where they say nothing, and the zenith angle. -/
theorem C150_rows (epoch : ℤ) (argsort : List α → List ℕ) (hsort : ∀ ts, Spec.IsArgsort ts (argsort ts)) (date : Option ℤ)
    (files used : List (HatproFile α)) (hone : Spec.OneOfAKind files)
    (hcase : ∀ f ∈ files, (f.suffix.toUpper = ".LWP" → f.suffix = ".LWP") ∧ (f.suffix.toUpper = ".IWV" → f.suffix = ".IWV"))
    (d : ℤ) (table : HatproTable α) (h : hatpro2nc epoch argsort date files = .ok (d, table, used)) :
    (∀ f, f ∈ used ↔ Spec.HatproUsed epoch date files f) ∧
    table.hours.Pairwise (· < ·) ∧
    (∀ f ∈ used, ∀ name t v z, Spec.HatproSays epoch date f name t v z → ∃ h ∈ table.hours, Spec.HourOfDay t h) ∧
    (∃ f ∈ used, ∃ name t v z, Spec.HatproSays epoch date f name t v z ∧ d * 86400 ≤ t + epoch ∧ t + epoch < (d + 1) * 86400) ∧
    ((∃ f ∈ used, f.suffix = ".IWV") ↔ (table.columns.lookup "iwv").isSome) ∧
    (∀ name col, name = "lwp" ∨ name = "iwv" ∨ name = "zenith_angle" → table.columns.lookup name = some col → col.length = table.hours.length) ∧
    ∃ lwp zenith, table.columns.lookup "lwp" = some lwp ∧ table.columns.lookup "zenith_angle" = some zenith ∧
      ∀ (k : ℕ) (h : α), table.hours[k]? = some h → ∃ stem t, Spec.HourOfDay t h ∧
        (∃ f ∈ used, f.stem = stem ∧ ∃ name v z, Spec.HatproSays epoch date f name t v z ∧ zenith[k]? = some (some z)) ∧
        Spec.CellSays epoch date used stem "lwp" t lwp[k]? ∧
        ∀ iwv, table.columns.lookup "iwv" = some iwv → Spec.CellSays epoch date used stem "iwv" t iwv[k]? := by
  unfold hatpro2nc at h
  cases ho : hatproObjects epoch date files with
  | error e => rw [ho] at h; cases h
  | ok ou =>
    obtain ⟨objects, used⟩ := ou
    rw [ho] at h
    simp only [bind, Except.bind] at h
    cases hd : hatproDay epoch argsort objects used with
    | error e => rw [hd] at h; cases h
    | ok dt =>
      obtain ⟨d, table⟩ := dt
      rw [hd] at h
      cases h
      obtain ⟨k1, k2, k3⟩ := (hatproObjects_spec epoch date files hone).2 objects used ho
      obtain ⟨objects', hobj, ⟨t0, rest, ht0, hdate⟩, H, hHlen, hH, htab⟩ := (hatproDay_spec epoch argsort objects used).2 d table hd
      -- every object
      have hO : ∀ o ∈ objects', ∃ stem mine, ObjectData mine o ∧ (∀ m, m ∈ mine ↔ ∃ f ∈ used, f.stem = stem ∧ readHatpro epoch date f = .ok (some m)) ∧
          (o.columns.lookup "lwp").isSome ∧ ((o.columns.lookup "iwv").isSome ↔ ∃ f ∈ used, f.suffix = ".IWV") := by
        intro o hoo
        rw [hobj] at hoo
        by_cases hi : ∃ f ∈ used, f.suffix = ".IWV"
        · rw [if_pos hi] at hoo
          obtain ⟨o1, ho1, rfl⟩ := List.mem_map.1 hoo
          obtain ⟨stem, mine, h1, -, h3⟩ := k2 o1 ho1
          obtain ⟨a1, a2⟩ := addMissing_object h1
          exact ⟨stem, mine, a1, h3, a2 _ (Or.inl rfl), fun _ => hi, fun _ => a2 _ (Or.inr rfl)⟩
        · rw [if_neg hi] at hoo
          obtain ⟨stem, mine, h1, h2, h3⟩ := k2 o hoo
          have hlwp : ∀ m ∈ mine, m.name = "lwp" := by
            intro m hm
            obtain ⟨f, hf, -, hr⟩ := (h3 m).1 hm
            rcases ((C150_read epoch date f).2 m hr).2.1 with ⟨e, -⟩ | ⟨-, e⟩
            · exact e
            · exact absurd ⟨f, hf, (hcase f ((k1 f).1 hf).1).2 e⟩ hi
          refine ⟨stem, mine, ⟨h1.nodup, h1.len, h1.times, h1.value, h1.zenith⟩, h3, ?_, ?_⟩
          · obtain ⟨m, hm⟩ := List.exists_mem_of_ne_nil mine h2
            exact (h1.has _ (Or.inl rfl)).2 ⟨m, hm, hlwp m hm⟩
          · constructor
            · intro hs
              obtain ⟨m, hm, e⟩ := (h1.has _ (Or.inr rfl)).1 hs
              rw [hlwp m hm] at e
              exact absurd e (by decide)
            · exact fun h => absurd h hi
      have hO' : ∀ f ∈ used, ∃ o ∈ objects', ∃ mine, ObjectData mine o ∧
          ∀ m, m ∈ mine ↔ ∃ g ∈ used, g.stem = f.stem ∧ readHatpro epoch date g = .ok (some m) := by
        intro f hf
        obtain ⟨o, ho, mine, h1, h3⟩ := k3 f hf
        rw [hobj]
        by_cases hi : ∃ f ∈ used, f.suffix = ".IWV"
        · rw [if_pos hi]
          exact ⟨_, List.mem_map_of_mem ho, mine, (addMissing_object h1).1, h3⟩
        · rw [if_neg hi]
          exact ⟨o, ho, mine, ⟨h1.nodup, h1.len, h1.times, h1.value, h1.zenith⟩, h3⟩
      have hnd : ∀ c ∈ objects'.map HatproObject.columns, (c.map Prod.fst).Nodup := by
        intro c hc
        obtain ⟨o, ho, rfl⟩ := List.mem_map.1 hc
        obtain ⟨_, _, h1, -⟩ := hO o ho
        exact h1.nodup
      have hne : ∃ o, o ∈ objects' := by
        by_contra hc
        push Not at hc
        rw [List.eq_nil_iff_forall_not_mem.2 hc] at ht0
        cases ht0
      -- a column that all objects have
      have hcol : ∀ name, (∀ o ∈ objects', (o.columns.lookup name).isSome) →
          (combineFiles (objects'.map HatproObject.columns)).lookup name = some (objects'.flatMap fun o => (o.columns.lookup name).getD []) := by
        intro name hall
        obtain ⟨o, ho⟩ := hne
        rw [C54_files _ hnd, if_pos ⟨_, List.mem_map_of_mem ho, hall o ho⟩, List.flatMap_map]
      have hcollen : ∀ name, (∀ o ∈ objects', (o.columns.lookup name).isSome) → ∀ o ∈ objects',
          ((o.columns.lookup name).getD []).length = o.times.length := by
        intro name hall o ho
        obtain ⟨c, hc⟩ := Option.isSome_iff_exists.1 (hall o ho)
        obtain ⟨_, _, h1, -⟩ := hO o ho
        rw [hc]
        exact h1.len name c hc
      obtain ⟨f1, f2⟩ := flatMap_index objects' fun o => o.times.length
      have hsum : (objects'.map fun o => o.times.length).sum = H.length := by
        rw [hHlen, List.length_flatMap]
      have hcl : ∀ name, (∀ o ∈ objects', (o.columns.lookup name).isSome) →
          (objects'.flatMap fun o => (o.columns.lookup name).getD []).length = H.length := by
        intro name hall
        rw [← hsum, List.length_flatMap]
        congr 1
        exact List.map_congr_left fun o ho => hcollen name hall o ho
      have hord := hsort H
      obtain ⟨J, hJ1, hJ2, hJ3, hJ4⟩ := table_sorted ⟨H, combineFiles (objects'.map HatproObject.columns)⟩ (argsort H) hord.1
      obtain ⟨g1, g2, g3⟩ := hJ4 table htab
      dsimp only at hJ1 hJ2 hJ3 g1 g2 g3
      have htake : ∀ name, (∀ o ∈ objects', (o.columns.lookup name).isSome) →
          table.columns.lookup name = some (pickRows J (objects'.flatMap fun o => (o.columns.lookup name).getD [])) :=
        fun name hall => g3 name _ (hcol name hall) (hcl name hall)
      have htlen : ∀ name, (∀ o ∈ objects', (o.columns.lookup name).isSome) →
          (pickRows J (objects'.flatMap fun o => (o.columns.lookup name).getD [])).length = table.hours.length := by
        intro name hall
        rw [pickRows_length_of_lt _ _ (fun j hj => by rw [hcl name hall]; exact hJ1 j hj), g1, List.length_map]
      have hlwp : ∀ o ∈ objects', (o.columns.lookup "lwp").isSome := fun o ho => by
        obtain ⟨_, _, _, _, h4, _⟩ := hO o ho
        exact h4
      have hzen : ∀ o ∈ objects', (o.columns.lookup "zenith_angle").isSome := fun o ho => by
        obtain ⟨_, _, h1, _⟩ := hO o ho
        obtain ⟨c, hc, -⟩ := h1.zenith
        rw [hc]
        rfl
      have hiwv : (∃ f ∈ used, f.suffix = ".IWV") → ∀ o ∈ objects', (o.columns.lookup "iwv").isSome := fun hi o ho => by
        obtain ⟨_, _, _, _, _, h5⟩ := hO o ho
        exact h5.2 hi
      have hiwv' : (¬ ∃ f ∈ used, f.suffix = ".IWV") → table.columns.lookup "iwv" = none := by
        intro hi
        apply g2
        rw [C54_files _ hnd, if_neg]
        rintro ⟨c, hc, hs⟩
        obtain ⟨o, ho, rfl⟩ := List.mem_map.1 hc
        obtain ⟨_, _, _, _, _, h5⟩ := hO o ho
        exact hi (h5.1 hs)
      -- the cells of a row
      have hcell : ∀ (stem : String) (mine : List (HatproRead α)) (o : HatproObject α) (j : ℕ) (t : ℤ) (name : String), ObjectData mine o →
          (∀ m, m ∈ mine ↔ ∃ f ∈ used, f.stem = stem ∧ readHatpro epoch date f = .ok (some m)) → o.times[j]? = some t →
          name = "lwp" ∨ name = "iwv" → (o.columns.lookup name).isSome → Spec.CellSays epoch date used stem name t ((o.columns.lookup name).getD [])[j]? := by
        intro stem mine o j t name h1 h3 ht hname hs
        obtain ⟨c, hc⟩ := Option.isSome_iff_exists.1 hs
        obtain ⟨v, hv1, hv2, hv3⟩ := h1.value j t ht name c hname hc
        refine ⟨v, by rw [hc]; exact hv1, ?_, ?_⟩
        · intro f hf hfs v' z hsay
          obtain ⟨m, hr⟩ := (C150_read epoch date f).1.2 ((k1 f).1 hf).2.1
          obtain ⟨e1, r, r1, r2, r3, -⟩ := (read_says hr name t v' z).1 hsay
          rw [hv2 m ((h3 m).2 ⟨f, hf, hfs, hr⟩) e1.symm r r1 r2, r3]
        · intro hno
          apply hv3
          intro m hm e r hr et
          obtain ⟨f, hf, hfs, hrd⟩ := (h3 m).1 hm
          exact hno f hf hfs r.value r.zenith ((read_says hrd _ _ _ _).2 ⟨e.symm, r, hr, et, rfl, rfl⟩)
      refine ⟨k1, ?_, ?_, ?_, ?_, ?_, _, _, htake _ hlwp, htake _ hzen, ?_⟩
      · rw [g1, List.pairwise_map]
        exact hJ2
      · intro f hf name t v z hsay
        obtain ⟨o, ho, mine, h1, h3⟩ := hO' f hf
        obtain ⟨m, hr⟩ := (C150_read epoch date f).1.2 ((k1 f).1 hf).2.1
        obtain ⟨e1, r, r1, r2, -⟩ := (read_says hr name t v z).1 hsay
        obtain ⟨j, hj⟩ := List.mem_iff_getElem?.1 ((h1.times t).2 ⟨m, (h3 m).2 ⟨f, hf, rfl, hr⟩, r, r1, r2⟩)
        obtain ⟨i, hi, he⟩ := f2 o ho j (List.getElem?_eq_some_iff.1 hj).1
        have hti : (objects'.flatMap HatproObject.times)[i]? = some t := by
          rw [he ℤ HatproObject.times fun _ _ => rfl, hj]
        obtain ⟨q, hq, hqe⟩ := hJ3 i (by rw [← hsum]; exact hi)
        refine ⟨vec H i, ?_, hH i t hti⟩
        rw [g1, ← hqe]
        exact List.mem_map_of_mem hq
      · have hmem0 : t0 ∈ objects'.flatMap HatproObject.times := by rw [ht0]; simp
        obtain ⟨o, ho, hto⟩ := List.mem_flatMap.1 hmem0
        obtain ⟨stem, mine, h1, h3, -⟩ := hO o ho
        obtain ⟨m, hm, r, hr, et⟩ := (h1.times t0).1 hto
        obtain ⟨f, hf, -, hrd⟩ := (h3 m).1 hm
        refine ⟨f, hf, m.name, t0, r.value, r.zenith, (read_says hrd _ _ _ _).2 ⟨rfl, r, hr, et, rfl, rfl⟩, ?_, ?_⟩ <;> omega
      · constructor
        · intro hi
          rw [htake _ (hiwv hi)]
          rfl
        · intro hs
          by_contra hi
          rw [hiwv' hi] at hs
          cases hs
      · intro name col hname hc
        rcases hname with rfl | rfl | rfl
        · rw [htake _ hlwp] at hc
          cases hc
          exact htlen _ hlwp
        · by_cases hi : ∃ f ∈ used, f.suffix = ".IWV"
          · rw [htake _ (hiwv hi)] at hc
            cases hc
            exact htlen _ (hiwv hi)
          · rw [hiwv' hi] at hc
            cases hc
        · rw [htake _ hzen] at hc
          cases hc
          exact htlen _ hzen
      · intro k h hk
        rw [g1, List.getElem?_map, Option.map_eq_some_iff] at hk
        obtain ⟨i, hi, rfl⟩ := hk
        have hilt : i < H.length := hJ1 i (List.mem_of_getElem? hi)
        obtain ⟨o, ho, j, hj, he⟩ := f1 i (by rw [hsum]; exact hilt)
        obtain ⟨stem, mine, h1, h3, h4, h5⟩ := hO o ho
        have hto : o.times[j]? = some o.times[j] := List.getElem?_eq_getElem hj
        have hti : (objects'.flatMap HatproObject.times)[i]? = some o.times[j] := by
          rw [he ℤ HatproObject.times fun _ _ => rfl, hto]
        have hget : ∀ name, (∀ o ∈ objects', (o.columns.lookup name).isSome) →
            (pickRows J (objects'.flatMap fun o => (o.columns.lookup name).getD []))[k]? = ((o.columns.lookup name).getD [])[j]? := by
          intro name hall
          rw [pickRows_get _ _ (fun j hj => by rw [hcl name hall]; exact hJ1 j hj), hi]
          exact he _ (fun o => (o.columns.lookup name).getD []) (hcollen name hall)
        refine ⟨stem, o.times[j], hH i _ hti, ?_, ?_, ?_⟩
        · obtain ⟨c, hc, hz⟩ := h1.zenith
          obtain ⟨m, hm, r, hr, et, ez⟩ := hz j _ hto
          obtain ⟨f, hf, hfs, hrd⟩ := (h3 m).1 hm
          refine ⟨f, hf, hfs, m.name, r.value, r.zenith, (read_says hrd _ _ _ _).2 ⟨rfl, r, hr, et, rfl, rfl⟩, ?_⟩
          rw [hget _ hzen, hc]
          exact ez
        · rw [hget _ hlwp]
          exact hcell stem mine o j _ "lwp" h1 h3 hto (Or.inl rfl) h4
        · intro iwv hiw
          by_cases hi' : ∃ f ∈ used, f.suffix = ".IWV"
          · rw [htake _ (hiwv hi')] at hiw
            cases hiw
            rw [hget _ (hiwv hi')]
            exact hcell stem mine o j _ "iwv" h1 h3 hto (Or.inr rfl) (h5.2 hi')
          · rw [hiwv' hi'] at hiw
            cases hiw

/-- **C150.** With an expected date that is the date of the file, and all records are of that day. -/
theorem C150_date (epoch : ℤ) (argsort : List α → List ℕ) (hsort : ∀ ts, Spec.IsArgsort ts (argsort ts)) (day : ℤ)
    (files used : List (HatproFile α)) (hone : Spec.OneOfAKind files)
    (hcase : ∀ f ∈ files, (f.suffix.toUpper = ".LWP" → f.suffix = ".LWP") ∧ (f.suffix.toUpper = ".IWV" → f.suffix = ".IWV"))
    (d : ℤ) (table : HatproTable α) (h : hatpro2nc epoch argsort (some day) files = .ok (d, table, used)) : d = day := by
  obtain ⟨-, -, -, ⟨f, hf, name, t, v, z, hs, h1, h2⟩, -⟩ := C150_rows epoch argsort hsort (some day) files used hone hcase d table h
  obtain ⟨r, code, ref, version, factor, az, -, -, -, -, hd, -⟩ := hs
  have := hd day rfl
  omega

/-- **C150, a limit.** One file without content stops the conversion of the whole day, whatever the other files are. -/
theorem C150_empty_file (epoch : ℤ) (argsort : List α → List ℕ) (date : Option ℤ) (files : List (HatproFile α)) (hone : Spec.OneOfAKind files)
    (f : HatproFile α) (hf : f ∈ files) (hs : f.suffix = ".IWV") (he : f.header = none) : ∃ e, hatpro2nc epoch argsort date files = .error e :=
  (C150_rejected epoch argsort date files hone).2 (Or.inl ⟨f, hf, he, Or.inr (by rw [hs]; decide +kernel)⟩)

/-- **C150, a limit.** Files named `.lwp` are read and then not accepted: without a `.LWP` file there is no file of the day. -/
theorem C150_lower_case (epoch : ℤ) (argsort : List α → List ℕ) (date : Option ℤ) (files : List (HatproFile α)) (hone : Spec.OneOfAKind files)
    (h : ∀ f ∈ files, f.suffix ≠ ".LWP") : ∃ e, hatpro2nc epoch argsort date files = .error e :=
  (C150_rejected epoch argsort date files hone).2 (Or.inr (Or.inl fun ⟨f, hf, e⟩ => h f hf.1 e))

end

/-! ## Examples -/

/-- Two stems. The second has both kinds. -/
def hatproExample (lwp iwv : String) : List (HatproFile ℚ) :=
  [⟨"b", lwp, some (934501978, 1), [⟨7200, 0, 50, 90⟩, ⟨7260, 6, 60, 90⟩]⟩,
   ⟨"a", lwp, some (934501000, 1), [⟨3660, 0, 20, 900000000⟩, ⟨3600, 0, 10, 900000000⟩, ⟨3600, 0, 99, 900000000⟩]⟩,
   ⟨"b", iwv, some (594811068, 1), [⟨7260, 0, 9, 90⟩]⟩, ⟨"log", ".TXT", none, []⟩]

/-- The data of the example: values in kg m-2, the record of low quality masked, the second record at 3600 s left out. -/
example : (hatpro2nc 0 stableArgsort (some 0) (hatproExample ".LWP" ".IWV")).toOption.map (fun r => (r.1, r.2.1.hours, r.2.1.columns)) =
    some (0, [1, 61 / 60, 2, 121 / 60], [("lwp", [some (1 / 100), some (2 / 100), some (5 / 100), none]), ("zenith_angle", [some 0, some 0, some 0, some 0]),
      ("iwv", [none, none, none, some 9])]) := by decide +kernel

/-- **C150, a limit.** If the files of water vapour are named `.iwv` they are used, but the columns of stems that have none are not filled: there are two values
for four times. -/
theorem C150_lower_iwv_fails :
    (hatpro2nc 0 stableArgsort (some 0) (hatproExample ".LWP" ".iwv")).toOption.map (fun r => (r.2.1.hours.length, r.2.1.columns.lookup "iwv")) =
      some (4, some [none, some 9]) := by decide +kernel

/-- **C150, a limit.** Two files of one name whose suffixes differ in case only: both are used, for the times in either, but as variables `lwp1` and `lwp2`; there is no `lwp`. -/
theorem C150_same_kind :
    (hatpro2nc 0 stableArgsort (some 0) [⟨"b", ".LWP", some (934501978, 1), [⟨7200, 0, 50, 90⟩, ⟨7260, 0, 60, 90⟩]⟩,
      ⟨"b", ".lwp", some (934501978, 1), [⟨7260, 0, 61, 90⟩]⟩]).toOption.map (fun r => (r.2.1.columns.map Prod.fst, r.2.1.columns.lookup "lwp", r.2.1.columns.lookup "lwp2")) =
    some (["lwp1", "lwp2", "zenith_angle"], none, some [none, some (61 / 1000)]) := by decide +kernel

/-- The hypotheses of the theorems are met by the example. -/
example : Spec.OneOfAKind (hatproExample ".LWP" ".IWV") ∧ ∀ f ∈ hatproExample ".LWP" ".IWV",
    (f.suffix.toUpper = ".LWP" → f.suffix = ".LWP") ∧ (f.suffix.toUpper = ".IWV" → f.suffix = ".IWV") := by
  unfold Spec.OneOfAKind hatproExample
  decide +kernel

end Cloudnet
