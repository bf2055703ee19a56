import Verif.HatproDay.Read
import Verif.Station.Csv
import Verif.Lwc.Props

namespace Cloudnet

namespace Spec

/-- A stem has at most one file of each kind. -/
def OneOfAKind {α : Type} (files : List (HatproFile α)) : Prop :=
  files.Pairwise fun f g => f.stem = g.stem → f.suffix.toUpper ≠ g.suffix.toUpper

/-- The files of a stem agree about the zenith angle. -/
def StemAgrees {α : Type} [Field α] [LinearOrder α] [FloorRing α] (epoch : ℤ) (date : Option ℤ) (files : List (HatproFile α)) (stem : String) : Prop :=
  ∀ f ∈ files, ∀ g ∈ files, f.stem = stem → g.stem = stem → UsableHatpro epoch date f → UsableHatpro epoch date g →
    ∀ n n' t v v' z z', HatproSays epoch date f n t v z → HatproSays epoch date g n' t v' z' → z = z'

end Spec

section
variable {α : Type} [Field α] [LinearOrder α] [IsStrictOrderedRing α] [FloorRing α]

/-- What is known of the files that have been read. -/
structure GoodReads (objs : List (HatproRead α)) : Prop where
  name : ∀ o ∈ objs, o.name = "lwp" ∨ o.name = "iwv"
  sorted : ∀ o ∈ objs, o.records.Pairwise fun a b => a.time < b.time
  distinct : objs.Pairwise fun a b => a.file.stem = b.file.stem → a.name ≠ b.name

theorem readAll (epoch : ℤ) (date : Option ℤ) (files : List (HatproFile α)) (l : List (Option (HatproRead α)))
    (h : files.mapM (readHatpro epoch date) = .ok l) :
    (∀ o, o ∈ l.filterMap id ↔ ∃ f ∈ files, readHatpro epoch date f = .ok (some o)) ∧
    (Spec.OneOfAKind files → GoodReads (l.filterMap id)) := by
  rw [mapM_except] at h
  have hmem : ∀ o, o ∈ l.filterMap id ↔ ∃ f ∈ files, readHatpro epoch date f = .ok (some o) := by
    induction h with
    | nil => simp
    | @cons f x fs l h1 h2 ih =>
      intro o
      rw [List.filterMap_cons]
      cases x with
      | none =>
        show o ∈ List.filterMap id l ↔ _
        rw [ih]
        constructor
        · rintro ⟨g, hg, e⟩; exact ⟨g, List.mem_cons_of_mem _ hg, e⟩
        · rintro ⟨g, hg, e⟩
          rcases List.mem_cons.1 hg with rfl | hg
          · rw [h1] at e; cases e
          · exact ⟨g, hg, e⟩
      | some y =>
        show o ∈ y :: List.filterMap id l ↔ _
        rw [List.mem_cons, ih]
        simp only [List.mem_cons]
        constructor
        · rintro (rfl | ⟨g, hg, e⟩)
          · exact ⟨f, Or.inl rfl, h1⟩
          · exact ⟨g, Or.inr hg, e⟩
        · rintro ⟨g, rfl | hg, e⟩
          · rw [h1] at e; cases e; exact Or.inl rfl
          · exact Or.inr ⟨g, hg, e⟩
  refine ⟨hmem, fun hone => ⟨fun o ho => ?_, fun o ho => ?_, ?_⟩⟩
  · obtain ⟨f, -, hf⟩ := (hmem o).1 ho
    rcases ((C150_read epoch date f).2 o hf).2.1 with h | h
    · exact Or.inl h.1
    · exact Or.inr h.1
  · obtain ⟨f, -, hf⟩ := (hmem o).1 ho
    exact ((C150_read epoch date f).2 o hf).2.2.1
  · clear hmem
    induction h with
    | nil => simp
    | @cons f x fs l h1 h2 ih =>
      obtain ⟨hf, hrest⟩ := List.pairwise_cons.1 hone
      rw [List.filterMap_cons]
      cases x with
      | none => exact ih hrest
      | some y =>
        refine List.pairwise_cons.2 ⟨fun o ho hs hn => ?_, ih hrest⟩
        obtain ⟨g, hg, eg⟩ : ∃ g ∈ fs, readHatpro epoch date g = .ok (some o) := by
          obtain ⟨x, hx, e⟩ := List.mem_filterMap.1 ho
          simp only [id] at e
          subst e
          clear ih hrest hf hone
          induction h2 with
          | nil => simp at hx
          | @cons g y gs l h3 h4 ih2 =>
            rcases List.mem_cons.1 hx with rfl | hx
            · exact ⟨g, by simp, h3⟩
            · obtain ⟨g', hg', e⟩ := ih2 (List.mem_filterMap.2 ⟨_, hx, rfl⟩) hx
              exact ⟨g', List.mem_cons_of_mem _ hg', e⟩
        obtain ⟨p1, p2, -⟩ := (C150_read epoch date f).2 y h1
        obtain ⟨q1, q2, -⟩ := (C150_read epoch date g).2 o eg
        rw [p1, q1] at hs
        refine hf g hg hs ?_
        rcases p2 with ⟨a, b⟩ | ⟨a, b⟩ <;> rcases q2 with ⟨c, d⟩ | ⟨c, d⟩
        · rw [b, d]
        · rw [a, c] at hn; exact absurd hn (by decide)
        · rw [a, c] at hn; exact absurd hn (by decide)
        · rw [b, d]

/-- One file or two of different kind. -/
inductive FewFiles : List (HatproRead α) → Prop
  | none : FewFiles []
  | one (a) : FewFiles [a]
  | two (a b) (h : a.name ≠ b.name) : FewFiles [a, b]

theorem fewFiles (objs : List (HatproRead α)) (h : GoodReads objs) (stem : String) : FewFiles (objs.filter fun o => o.file.stem == stem) := by
  have hn : ∀ o ∈ objs.filter fun o => o.file.stem == stem, o.name = "lwp" ∨ o.name = "iwv" := fun o ho => h.name o (List.mem_filter.1 ho).1
  have hp : (objs.filter fun o => o.file.stem == stem).Pairwise fun a b => a.name ≠ b.name := by
    refine List.Pairwise.imp_of_mem ?_ (h.distinct.filter _)
    intro a b ha hb hab
    have h1 := (List.mem_filter.1 ha).2
    have h2 := (List.mem_filter.1 hb).2
    simp only [beq_iff_eq] at h1 h2
    exact hab (h1.trans h2.symm)
  generalize objs.filter (fun o => o.file.stem == stem) = l at hn hp
  match l, hn, hp with
  | [], _, _ => exact .none
  | [a], _, _ => exact .one a
  | [a, b], _, hp => exact .two a b (by simpa using hp)
  | a :: b :: c :: l, hn, hp =>
    exfalso
    simp only [List.pairwise_cons, List.mem_cons, forall_eq_or_imp] at hp hn
    obtain ⟨⟨p1, p2, -⟩, ⟨p3, -⟩, -⟩ := hp
    obtain ⟨n1, n2, n3, -⟩ := hn
    rcases n1 with n1 | n1 <;> rcases n2 with n2 | n2 <;> rcases n3 with n3 | n3 <;> simp_all

theorem hatproNames_few {l : List (HatproRead α)} (h : FewFiles l) : hatproNames l = l.map fun o => (o.name, o.records) := by
  cases h with
  | none => rfl
  | one a => rfl
  | two a b h => unfold hatproNames; simp [h]

/-- What an object made of the files of a stem has. -/
structure ObjectOf (mine : List (HatproRead α)) (o : HatproObject α) : Prop where
  nodup : (o.columns.map Prod.fst).Nodup
  len : ∀ name col, o.columns.lookup name = some col → col.length = o.times.length
  times : ∀ t, t ∈ o.times ↔ ∃ m ∈ mine, ∃ r ∈ m.records, r.time = t
  has : ∀ name, name = "lwp" ∨ name = "iwv" → ((o.columns.lookup name).isSome ↔ ∃ m ∈ mine, m.name = name)
  value : ∀ (k : ℕ) (t : ℤ), o.times[k]? = some t → ∀ name col, name = "lwp" ∨ name = "iwv" → o.columns.lookup name = some col →
    ∃ v, col[k]? = some v ∧ (∀ m ∈ mine, m.name = name → ∀ r ∈ m.records, r.time = t → v = r.value) ∧
      ((∀ m ∈ mine, m.name = name → ∀ r ∈ m.records, r.time ≠ t) → v = none)
  zenith : ∃ col, o.columns.lookup "zenith_angle" = some col ∧ ∀ (k : ℕ) (t : ℤ), o.times[k]? = some t →
    ∃ m ∈ mine, ∃ r ∈ m.records, r.time = t ∧ col[k]? = some (some r.zenith)

theorem time_unique {β : Type} {l : List (HatproRec α β)} (h : l.Pairwise fun a b => a.time < b.time) {a b : HatproRec α β} (ha : a ∈ l)
    (hb : b ∈ l) (e : a.time = b.time) : a = b := by
  obtain ⟨i, hi, rfl⟩ := List.mem_iff_getElem.1 ha
  obtain ⟨j, hj, rfl⟩ := List.mem_iff_getElem.1 hb
  rw [List.pairwise_iff_getElem] at h
  rcases lt_trichotomy i j with hij | rfl | hij
  · exact absurd e (ne_of_lt (h i j hi hj hij))
  · rfl
  · exact absurd e.symm (ne_of_lt (h j i hj hi hij))

theorem object_spec {mine : List (HatproRead α)} (hf : FewFiles mine) (hn : ∀ m ∈ mine, m.name = "lwp" ∨ m.name = "iwv")
    (hs : ∀ m ∈ mine, m.records.Pairwise fun a b => a.time < b.time) (o : HatproObject α)
    (h : hatproCombined (hatproNames mine) = .ok o) : ObjectOf mine o := by
  rw [hatproNames_few hf] at h
  cases hf with
  | none => cases h
  | one a =>
    have hsa := hs a (by simp)
    have hna := hn a (by simp)
    have hz : a.name ≠ "zenith_angle" := by rcases hna with e | e <;> rw [e] <;> decide
    cases h
    refine ⟨by simpa using hz, ?_, by simp, ?_, ?_, ?_⟩
    · intro name col hc
      simp only [List.lookup_cons, List.lookup_nil] at hc
      split at hc
      · cases hc; simp
      · split at hc
        · cases hc; simp
        · cases hc
    · intro name hname
      have hz' : name ≠ "zenith_angle" := by rcases hname with e | e <;> rw [e] <;> decide
      simp only [List.lookup_cons, List.lookup_nil]
      by_cases e : name = a.name
      · simp [e]
      · simp [e, hz', Ne.symm (show name ≠ a.name from e), beq_false_of_ne]
    · intro k t ht name col hname hc
      have hz' : name ≠ "zenith_angle" := by rcases hname with e | e <;> rw [e] <;> decide
      simp only [List.lookup_cons, List.lookup_nil] at hc
      by_cases e : name = a.name
      · simp only [e, beq_self_eq_true] at hc
        cases hc
        simp only [List.getElem?_map, Option.map_eq_some_iff] at ht
        obtain ⟨r, hr, rfl⟩ := ht
        refine ⟨r.value, by simp [hr], ?_, ?_⟩
        · intro m hm _ r' hr' e'
          obtain rfl := List.mem_singleton.1 hm
          rw [time_unique hsa hr' (List.mem_of_getElem? hr) e']
        · intro hno
          exact absurd rfl (hno a (by simp) e.symm r (List.mem_of_getElem? hr))
      · simp only [beq_false_of_ne e, beq_false_of_ne hz'] at hc
        cases hc
    · refine ⟨a.records.map fun r => some r.zenith, ?_, ?_⟩
      · simp [List.lookup_cons, beq_false_of_ne hz.symm]
      · intro k t ht
        simp only [List.getElem?_map, Option.map_eq_some_iff] at ht
        obtain ⟨r, hr, rfl⟩ := ht
        exact ⟨a, by simp, r, List.mem_of_getElem? hr, rfl, by simp [hr]⟩
  | two a b hab =>
    have hsa := hs a (by simp)
    have hsb := hs b (by simp)
    have hna := hn a (by simp)
    have hnb := hn b (by simp)
    have hz : a.name ≠ "zenith_angle" := by rcases hna with e | e <;> rw [e] <;> decide
    have hzb : b.name ≠ "zenith_angle" := by rcases hnb with e | e <;> rw [e] <;> decide
    have h' := h
    unfold hatproCombined at h
    simp only [List.map_cons, List.map_nil] at h h'
    cases hj : hatproJoin a.records b.records with
    | error e => rw [hj] at h; cases h
    | ok rows =>
      rw [hj] at h
      cases h
      obtain ⟨j1, j2, j3⟩ := (C57_join a.records b.records hsa hsb).1 rows hj
      refine ⟨by simp [hz, hzb, hab], ?_, ?_, ?_, ?_, ?_⟩
      · intro name col hc
        simp only [List.lookup_cons, List.lookup_nil] at hc
        split at hc
        · cases hc; simp
        · split at hc
          · cases hc; simp
          · split at hc
            · cases hc; simp
            · cases hc
      · intro t
        rw [j2]
        simp [List.mem_map]
      · intro name hname
        have hz' : name ≠ "zenith_angle" := by rcases hname with e | e <;> rw [e] <;> decide
        simp only [List.lookup_cons, List.lookup_nil]
        by_cases e : name = a.name
        · simp [e]
        · by_cases e2 : name = b.name
          · simp [e2, hab]
            cases hbn : (b.name == a.name) <;> simp
          · simp [e, e2, hz', Ne.symm (show name ≠ a.name from e), Ne.symm (show name ≠ b.name from e2), beq_false_of_ne]
      · intro k t ht name col hname hc
        have hz' : name ≠ "zenith_angle" := by rcases hname with e | e <;> rw [e] <;> decide
        simp only [List.lookup_cons, List.lookup_nil] at hc
        simp only [List.getElem?_map, Option.map_eq_some_iff] at ht
        obtain ⟨row, hrow, rfl⟩ := ht
        obtain ⟨a1, a2, a3, a4⟩ := j3 row (List.mem_of_getElem? hrow)
        by_cases e : name = a.name
        · simp only [e, beq_self_eq_true] at hc
          cases hc
          refine ⟨row.value1, by simp [hrow], ?_, ?_⟩
          · intro m hm em r hr er
            simp only [List.mem_cons, List.not_mem_nil, or_false] at hm
            rcases hm with rfl | rfl
            · exact (a1 r hr er).1
            · exact absurd (e.symm.trans em.symm) hab
          · intro hno
            apply a3
            intro hc
            obtain ⟨r, hr, er⟩ := List.mem_map.1 hc
            exact hno a (by simp) e.symm r hr er
        · by_cases e2 : name = b.name
          · rw [beq_false_of_ne e] at hc
            simp only [e2, beq_self_eq_true] at hc
            cases hc
            refine ⟨row.value2, by simp [hrow], ?_, ?_⟩
            · intro m hm em r hr er
              simp only [List.mem_cons, List.not_mem_nil, or_false] at hm
              rcases hm with rfl | rfl
              · exact absurd (em.trans e2) hab
              · exact (a2 r hr er).1
            · intro hno
              apply a4
              intro hc
              obtain ⟨r, hr, er⟩ := List.mem_map.1 hc
              exact hno b (by simp) e2.symm r hr er
          · simp only [beq_false_of_ne e, beq_false_of_ne e2, beq_false_of_ne hz'] at hc
            cases hc
      · refine ⟨rows.map HatproRow.zenith, ?_, ?_⟩
        · simp [List.lookup_cons, beq_false_of_ne hz.symm, beq_false_of_ne hzb.symm]
        · intro k t ht
          simp only [List.getElem?_map, Option.map_eq_some_iff] at ht
          obtain ⟨row, hrow, rfl⟩ := ht
          obtain ⟨a1, a2, a3, a4⟩ := j3 row (List.mem_of_getElem? hrow)
          by_cases ha : row.time ∈ a.records.map HatproRec.time
          · obtain ⟨r, hr, er⟩ := List.mem_map.1 ha
            exact ⟨a, by simp, r, hr, er, by simp [hrow, (a1 r hr er).2]⟩
          · have : row.time ∈ b.records.map HatproRec.time :=
              ((j2 row.time).1 (List.mem_map_of_mem (List.mem_of_getElem? hrow))).resolve_left ha
            obtain ⟨r, hr, er⟩ := List.mem_map.1 this
            exact ⟨b, by simp, r, hr, er, by simp [hrow, (a2 r hr er).2 ha]⟩

/-- The files of a stem can be combined unless they differ about the zenith angle. -/
theorem combined_ok_iff {mine : List (HatproRead α)} (hf : FewFiles mine) (hne : mine ≠ [])
    (hs : ∀ m ∈ mine, m.records.Pairwise fun a b => a.time < b.time) :
    (∃ o, hatproCombined (hatproNames mine) = .ok o) ↔
      ∀ a ∈ mine, ∀ b ∈ mine, ∀ r ∈ a.records, ∀ r' ∈ b.records, r.time = r'.time → r.zenith = r'.zenith := by
  rw [hatproNames_few hf]
  cases hf with
  | none => exact absurd rfl hne
  | one a =>
    refine ⟨fun _ => ?_, fun _ => ⟨_, rfl⟩⟩
    intro x hx y hy r hr r' hr' e
    obtain rfl := List.mem_singleton.1 hx
    obtain rfl := List.mem_singleton.1 hy
    rw [time_unique (hs _ (by simp)) hr hr' e]
  | two a b hab =>
    have hj := (C57_join a.records b.records (hs a (by simp)) (hs b (by simp))).2
    unfold hatproCombined
    simp only [List.map_cons, List.map_nil]
    cases hjj : hatproJoin a.records b.records with
    | error e =>
      refine ⟨fun ⟨o, ho⟩ => (by cases ho), fun h => ?_⟩
      obtain ⟨x, hx, y, hy, e1, e2⟩ := hj.1 ⟨e, hjj⟩
      exact absurd (h a (by simp) b (by simp) x hx y hy e1) e2
    | ok rows =>
      refine ⟨fun _ => ?_, fun _ => ⟨_, rfl⟩⟩
      have hno : ∀ x ∈ a.records, ∀ y ∈ b.records, x.time = y.time → x.zenith = y.zenith := by
        intro x hx y hy e
        by_contra hc
        obtain ⟨e', he⟩ := hj.2 ⟨x, hx, y, hy, e, hc⟩
        rw [hjj] at he
        cases he
      intro x hx y hy r hr r' hr' e
      simp only [List.mem_cons, List.not_mem_nil, or_false] at hx hy
      rcases hx with rfl | rfl <;> rcases hy with rfl | rfl
      · rw [time_unique (hs _ (by simp)) hr hr' e]
      · exact hno r hr r' hr' e
      · exact (hno r' hr' r hr e.symm).symm
      · rw [time_unique (hs _ (by simp)) hr hr' e]

/-- Combining the stems does not fail, and what is made of them. -/
theorem combineStems_spec (objs : List (HatproRead α)) (hg : GoodReads objs) (stems : List String) :
    ∃ os fs, combineStems objs stems = .ok (os, fs) ∧
      (∀ o, o ∈ os ↔ ∃ stem ∈ stems, hatproCombined (hatproNames (objs.filter fun o => o.file.stem == stem)) = .ok o) ∧
      ∀ f, f ∈ fs ↔ ∃ m ∈ objs, m.file = f ∧ f.stem ∈ stems ∧
        ∃ o, hatproCombined (hatproNames (objs.filter fun o => o.file.stem == f.stem)) = .ok o := by
  induction stems with
  | nil => exact ⟨[], [], rfl, by simp, by simp⟩
  | cons stem stems ih =>
    obtain ⟨os, fs, e, h1, h2⟩ := ih
    have hlen : ¬ 2 < (objs.filter fun o => o.file.stem == stem).length := by
      have := fewFiles objs hg stem
      generalize objs.filter (fun o => o.file.stem == stem) = l at this
      cases this <;> simp
    unfold combineStems
    rw [e]
    simp only [if_neg hlen]
    cases hc : hatproCombined (hatproNames (objs.filter fun o => o.file.stem == stem)) with
    | error err =>
      refine ⟨os, fs, rfl, fun o => ?_, fun f => ?_⟩
      · rw [h1]
        constructor
        · rintro ⟨s, hs, h⟩; exact ⟨s, List.mem_cons_of_mem _ hs, h⟩
        · rintro ⟨s, hs, h⟩
          rcases List.mem_cons.1 hs with rfl | hs
          · rw [hc] at h; cases h
          · exact ⟨s, hs, h⟩
      · rw [h2]
        constructor
        · rintro ⟨m, hm, e1, e2, h⟩; exact ⟨m, hm, e1, List.mem_cons_of_mem _ e2, h⟩
        · rintro ⟨m, hm, e1, e2, o, h⟩
          rcases List.mem_cons.1 e2 with e2 | e2
          · rw [e2, hc] at h; cases h
          · exact ⟨m, hm, e1, e2, o, h⟩
    | ok o1 =>
      refine ⟨o1 :: os, (objs.filter fun o => o.file.stem == stem).map HatproRead.file ++ fs, rfl, fun o => ?_, fun f => ?_⟩
      · rw [List.mem_cons, h1]
        constructor
        · rintro (rfl | ⟨s, hs, h⟩)
          · exact ⟨stem, by simp, hc⟩
          · exact ⟨s, List.mem_cons_of_mem _ hs, h⟩
        · rintro ⟨s, hs, h⟩
          rcases List.mem_cons.1 hs with rfl | hs
          · rw [hc] at h; cases h; exact Or.inl rfl
          · exact Or.inr ⟨s, hs, h⟩
      · rw [List.mem_append, h2, List.mem_map]
        constructor
        · rintro (⟨m, hm, rfl⟩ | ⟨m, hm, e1, e2, h⟩)
          · obtain ⟨hm1, hm2⟩ := List.mem_filter.1 hm
            simp only [beq_iff_eq] at hm2
            exact ⟨m, hm1, rfl, by rw [hm2]; simp, o1, by rw [hm2]; exact hc⟩
          · exact ⟨m, hm, e1, List.mem_cons_of_mem _ e2, h⟩
        · rintro ⟨m, hm, e1, e2, o, h⟩
          rcases List.mem_cons.1 e2 with e2 | e2
          · left
            exact ⟨m, List.mem_filter.2 ⟨hm, by rw [e1, e2]; simp⟩, e1⟩
          · exact Or.inr ⟨m, hm, e1, e2, o, h⟩

end

end Cloudnet
