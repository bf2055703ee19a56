import Verif.HatproDay.Spec
import Verif.Rpg.Props

namespace Cloudnet

section
variable {α : Type} [Field α] [LinearOrder α] [IsStrictOrderedRing α] [FloorRing α]

theorem hatproKind_spec (suffix : String) (code : ℤ) (name : String) (version : ℕ) (factor : α) :
    Spec.HatproFormat α suffix.toUpper code name version factor ↔
      ∃ code1 code2, hatproKind suffix = some (name, code1, code2, factor) ∧ (code = code1 ∨ code = code2) ∧
        version = if code = code1 then 1 else 2 := by
  unfold hatproKind
  generalize suffix.toUpper = s
  dsimp only
  constructor
  · rintro (_ | _ | _ | _)
    · exact ⟨_, _, rfl, Or.inl rfl, by decide⟩
    · exact ⟨_, _, rfl, Or.inr rfl, by decide⟩
    · exact ⟨_, _, rfl, Or.inl rfl, by decide⟩
    · exact ⟨_, _, rfl, Or.inr rfl, by decide⟩
  · rintro ⟨c1, c2, h, hc, rfl⟩
    split_ifs at h with h1 h2
    · subst h1
      simp only [Option.some.injEq, Prod.mk.injEq] at h
      obtain ⟨rfl, rfl, rfl, rfl⟩ := h
      rcases hc with rfl | rfl
      · exact .lwp1
      · exact .lwp2
    · subst h2
      simp only [Option.some.injEq, Prod.mk.injEq] at h
      obtain ⟨rfl, rfl, rfl, rfl⟩ := h
      rcases hc with rfl | rfl
      · exact .iwv1
      · exact .iwv2

theorem hatproKind_factor {suffix name : String} {c1 c2 : ℤ} {factor : α} (h : hatproKind suffix = some (name, c1, c2, factor)) : factor ≠ 0 := by
  unfold hatproKind at h
  dsimp only at h
  split_ifs at h
  · simp only [Option.some.injEq, Prod.mk.injEq] at h
    rw [← h.2.2.2]; norm_num
  · simp only [Option.some.injEq, Prod.mk.injEq] at h
    rw [← h.2.2.2]; norm_num

/-- The records kept are those that count. -/
theorem hatproUnique_mem (version : ℕ) (factor : α) (f : HatproFile α) (x : HatproRec α α) :
    x ∈ hatproUnique (f.records.map (hatproRecord version factor)) ↔ ∃ r, Spec.FirstInFile f r ∧ x = hatproRecord version factor r := by
  obtain ⟨h1, h2, h3⟩ := C57_unique (f.records.map (hatproRecord version factor))
  have key : ∀ x ∈ hatproUnique (f.records.map (hatproRecord version factor)),
      ∃ r, Spec.FirstInFile f r ∧ x = hatproRecord version factor r := by
    intro x hx
    obtain ⟨b, a, e, hb⟩ := h3 x hx
    obtain ⟨l1, l2, e1, e2, e3⟩ := List.map_eq_append_iff.1 e
    obtain ⟨r, l3, e4, e5, e6⟩ := List.map_eq_cons_iff.1 e3
    refine ⟨r, ⟨l1, l3, by rw [e1, e4], fun y hy hc => ?_⟩, e5.symm⟩
    refine hb (hatproRecord version factor y) (by rw [← e2]; exact List.mem_map_of_mem hy) ?_
    rw [← e5]
    exact hc
  refine ⟨key x, ?_⟩
  rintro ⟨r, ⟨b, a, e, hb⟩, rfl⟩
  have ht : r.time ∈ (f.records.map (hatproRecord version factor)).map HatproRec.time := by
    rw [e]
    simp [hatproRecord]
  obtain ⟨y, hy, hyt⟩ := List.mem_map.1 ((h2 _).2 ht)
  obtain ⟨r', ⟨b', a', e', hb'⟩, rfl⟩ := key y hy
  have hrt : r'.time = r.time := hyt
  have : r' = r := by
    rcases List.append_eq_append_iff.1 (e.symm.trans e') with ⟨c, hc1, hc2⟩ | ⟨c, hc1, hc2⟩
    · cases c with
      | nil => simp at hc2; exact hc2.1.symm
      | cons z c =>
        simp only [List.cons_append, List.cons.injEq] at hc2
        exact absurd hrt.symm (hb' r (by rw [hc1, hc2.1]; simp))
    · cases c with
      | nil => simp at hc2; exact hc2.1
      | cons z c =>
        simp only [List.cons_append, List.cons.injEq] at hc2
        exact absurd hrt (hb r' (by rw [hc1, hc2.1]; simp))
  rw [← this]
  exact hy

theorem hatproBad_iff (version : ℕ) (factor : α) (r : HatproRaw α) :
    hatproBad (hatproRecord version factor r) = true ↔ Spec.LowQuality r := C57_flag _

theorem allZero_iff (version : ℕ) (factor : α) (hf : factor ≠ 0) (f : HatproFile α) :
    (∀ x ∈ hatproUnique (f.records.map (hatproRecord version factor)), x.value = 0) ↔ Spec.AllZero f := by
  constructor
  · intro h r hr
    have := h _ ((hatproUnique_mem version factor f _).2 ⟨r, hr, rfl⟩)
    exact (mul_eq_zero.1 this).resolve_right hf
  · intro h x hx
    obtain ⟨r, hr, rfl⟩ := (hatproUnique_mem version factor f _).1 hx
    show r.value * factor = 0
    rw [h r hr, zero_mul]

/-- Screening of the records that count. -/
theorem screen_mem (version : ℕ) (factor : α) (hf : factor ≠ 0) (f : HatproFile α) :
    ((∃ e, screenHatpro (hatproUnique (f.records.map (hatproRecord version factor))) = .error e) ↔
      ¬ (Spec.AllZero f ∨ ∃ r, Spec.FirstInFile f r ∧ ¬ Spec.LowQuality r)) ∧
    ∀ out, screenHatpro (hatproUnique (f.records.map (hatproRecord version factor))) = .ok out →
      (out.Pairwise fun a b => a.time < b.time) ∧
      ∀ x, x ∈ out ↔ ∃ r, Spec.FirstInFile f r ∧ x.time = r.time ∧ x.flag = r.flag ∧ x.zenith = (hatproRecord version factor r).zenith ∧
        ((Spec.AllZero f ∨ Spec.LowQuality r) → x.value = none) ∧
        (¬ (Spec.AllZero f ∨ Spec.LowQuality r) → x.value = some (r.value * factor)) := by
  classical
  have hz := allZero_iff version factor hf f
  have hm := hatproUnique_mem version factor f
  have hs := (C57_unique (f.records.map (hatproRecord version factor))).1
  set us := hatproUnique (f.records.map (hatproRecord version factor)) with hus
  have hall : (us.all fun r => decide (r.value = 0)) = true ↔ Spec.AllZero f := by
    rw [← hz]; simp
  unfold screenHatpro
  by_cases h0 : Spec.AllZero f
  · rw [if_pos (hall.2 h0)]
    refine ⟨⟨fun ⟨e, he⟩ => (by cases he), fun h => absurd (Or.inl h0) h⟩, ?_⟩
    intro out he
    cases he
    refine ⟨by rw [List.pairwise_map]; exact hs, fun x => ?_⟩
    rw [List.mem_map]
    constructor
    · rintro ⟨y, hy, rfl⟩
      obtain ⟨r, hr, rfl⟩ := (hm y).1 hy
      exact ⟨r, hr, rfl, rfl, rfl, fun _ => rfl, fun h => absurd (Or.inl h0) h⟩
    · rintro ⟨r, hr, e1, e2, e3, e4, -⟩
      refine ⟨_, (hm _).2 ⟨r, hr, rfl⟩, ?_⟩
      obtain ⟨xt, xf, xv, xz⟩ := x
      simp only at e1 e2 e3
      subst e1 e2 e3
      have := e4 (Or.inl h0)
      simp only at this
      subst this
      rfl
  · rw [if_neg (fun h => h0 (hall.1 h))]
    have hbad : (us.filter hatproBad).length = us.length ↔ ¬ ∃ r, Spec.FirstInFile f r ∧ ¬ Spec.LowQuality r := by
      rw [List.length_filter_eq_length_iff]
      constructor
      · rintro h ⟨r, hr, hq⟩
        exact hq ((hatproBad_iff version factor r).1 (h _ ((hm _).2 ⟨r, hr, rfl⟩)))
      · intro h x hx
        obtain ⟨r, hr, rfl⟩ := (hm x).1 hx
        rw [hatproBad_iff]
        by_contra hq
        exact h ⟨r, hr, hq⟩
    by_cases hb : (us.filter hatproBad).length = us.length
    · rw [if_pos hb]
      refine ⟨⟨fun _ h => ?_, fun _ => ⟨_, rfl⟩⟩, fun out h => by cases h⟩
      rcases h with h | h
      · exact h0 h
      · exact hbad.1 hb h
    · rw [if_neg hb]
      refine ⟨⟨fun ⟨e, he⟩ => (by cases he), fun h => absurd ?_ h⟩, ?_⟩
      · right
        by_contra hc
        exact hb (hbad.2 hc)
      intro out he
      cases he
      refine ⟨by rw [List.pairwise_map]; exact hs, fun x => ?_⟩
      rw [List.mem_map]
      constructor
      · rintro ⟨y, hy, rfl⟩
        obtain ⟨r, hr, rfl⟩ := (hm y).1 hy
        refine ⟨r, hr, rfl, rfl, rfl, fun h => ?_, fun h => ?_⟩
        · rcases h with h | h
          · exact absurd h h0
          · show (if _ then _ else _) = _
            rw [if_pos ((hatproBad_iff version factor r).2 h)]
        · show (if _ then _ else _) = _
          rw [if_neg (fun hb => h (Or.inr ((hatproBad_iff version factor r).1 hb)))]
          rfl
      · rintro ⟨r, hr, e1, e2, e3, e4, e5⟩
        refine ⟨_, (hm _).2 ⟨r, hr, rfl⟩, ?_⟩
        obtain ⟨xt, xf, xv, xz⟩ := x
        simp only at e1 e2 e3 e4 e5
        subst e1 e2 e3
        by_cases hq : Spec.LowQuality r
        · rw [e4 (Or.inr hq), if_pos ((hatproBad_iff version factor r).2 hq)]
          rfl
        · rw [e5 (by simp [h0, hq]), if_neg (fun hb => hq ((hatproBad_iff version factor r).1 hb))]
          rfl

/-- **C150.** Reading a file fails outright exactly if its name is that of a HATPRO file and it is too short to have a header. -/
theorem C150_crash (epoch : ℤ) (date : Option ℤ) (f : HatproFile α) :
    (∃ e, readHatpro epoch date f = .error e) ↔ f.header = none ∧ (f.suffix.toUpper = ".LWP" ∨ f.suffix.toUpper = ".IWV") := by
  have hk : hatproKind (α := α) f.suffix = none ↔ ¬ (f.suffix.toUpper = ".LWP" ∨ f.suffix.toUpper = ".IWV") := by
    unfold hatproKind
    dsimp only
    split_ifs with h1 h2
    · simp [h1]
    · simp [h2]
    · simp [h1, h2]
  unfold readHatpro
  cases hkk : hatproKind (α := α) f.suffix with
  | none =>
    have := hk.1 hkk
    simp only [this, and_false, iff_false]
    rintro ⟨e, he⟩
    cases he
  | some k =>
    obtain ⟨name, c1, c2, factor⟩ := k
    have : f.suffix.toUpper = ".LWP" ∨ f.suffix.toUpper = ".IWV" := by
      by_contra hc
      rw [hk.2 hc] at hkk
      cases hkk
    simp only [this, and_true]
    cases f.header with
    | none => exact ⟨fun _ => rfl, fun _ => ⟨_, rfl⟩⟩
    | some hd =>
      obtain ⟨code, ref⟩ := hd
      refine ⟨fun ⟨e, he⟩ => ?_, fun h => by cases h⟩
      dsimp only at he
      split at he
      · split at he
        · cases he
        · split at he
          · cases he
          · split at he <;> cases he
      · cases he

theorem recordZenith_iff (version : ℕ) (factor : α) (r : HatproRaw α) (hv : version = 1 ∨ version = 2) (z : α) :
    (∃ az, decodeAngles version r.angles = .ok (90 - z, az)) ↔ z = (hatproRecord version factor r).zenith := by
  have : ∃ ele az, decodeAngles version r.angles = .ok (ele, az) := by
    unfold decodeAngles
    rcases hv with rfl | rfl
    · exact ⟨_, _, rfl⟩
    · exact ⟨_, _, rfl⟩
  obtain ⟨ele, az, h⟩ := this
  unfold hatproRecord
  rw [h]
  simp only [Except.ok.injEq, Prod.mk.injEq]
  constructor
  · rintro ⟨_, h, _⟩
    rw [h]; ring
  · rintro rfl
    exact ⟨az, by ring, rfl⟩

/-- **C150.** A file is used for its stem exactly if it is usable, and then its records are exactly what the file says, one for each time, in order. -/
theorem C150_read (epoch : ℤ) (date : Option ℤ) (f : HatproFile α) :
    ((∃ o, readHatpro epoch date f = .ok (some o)) ↔ Spec.UsableHatpro epoch date f) ∧
    ∀ o, readHatpro epoch date f = .ok (some o) → o.file = f ∧ (o.name = "lwp" ∧ f.suffix.toUpper = ".LWP" ∨ o.name = "iwv" ∧ f.suffix.toUpper = ".IWV") ∧
      (o.records.Pairwise fun a b => a.time < b.time) ∧
      ∀ t value zenith, (∃ r ∈ o.records, r.time = t ∧ r.value = value ∧ r.zenith = zenith) ↔ Spec.HatproSays epoch date f o.name t value zenith := by
  unfold readHatpro
  cases hkk : hatproKind (α := α) f.suffix with
  | none =>
    refine ⟨⟨fun ⟨o, ho⟩ => (by cases ho), ?_⟩, fun o ho => by cases ho⟩
    rintro ⟨code, ref, name, version, factor, -, hF, -⟩
    obtain ⟨_, _, h, -⟩ := (hatproKind_spec _ _ _ _ _).1 hF
    rw [hkk] at h
    cases h
  | some k =>
    obtain ⟨name, c1, c2, factor⟩ := k
    have hf0 := hatproKind_factor hkk
    dsimp only
    cases hh : f.header with
    | none =>
      refine ⟨⟨fun ⟨o, ho⟩ => (by cases ho), ?_⟩, fun o ho => by cases ho⟩
      rintro ⟨code, ref, name, version, factor, h, -⟩
      rw [hh] at h
      cases h
    | some hd =>
      obtain ⟨code, ref⟩ := hd
      dsimp only
      by_cases hc : code = c1 ∨ code = c2
      swap
      · rw [if_neg hc]
        refine ⟨⟨fun ⟨o, ho⟩ => (by cases ho), ?_⟩, fun o ho => by cases ho⟩
        rintro ⟨code', ref', name, version, factor, h, hF, -⟩
        obtain ⟨_, _, h2, h3, -⟩ := (hatproKind_spec _ _ _ _ _).1 hF
        rw [hkk] at h2
        rw [hh] at h
        cases h2
        cases h
        exact absurd h3 hc
      rw [if_pos hc]
      set version := if code = c1 then 1 else 2 with hver
      have hv : version = 1 ∨ version = 2 := by
        rw [hver]; split_ifs
        · exact Or.inl rfl
        · exact Or.inr rfl
      have hF : Spec.HatproFormat α f.suffix.toUpper code name version factor := (hatproKind_spec _ _ _ _ _).2 ⟨c1, c2, hkk, hc, hver⟩
      have huniq : ∀ {code' ref' name' version' factor'}, f.header = some (code', ref') →
          Spec.HatproFormat α f.suffix.toUpper code' name' version' factor' → code' = code ∧ ref' = ref ∧ name' = name ∧ version' = version ∧ factor' = factor := by
        intro code' ref' name' version' factor' h1 h2
        obtain ⟨_, _, h3, -, h5⟩ := (hatproKind_spec _ _ _ _ _).1 h2
        rw [hkk] at h3
        rw [hh] at h1
        cases h3
        cases h1
        exact ⟨rfl, rfl, rfl, h5, rfl⟩
      have hname : name = "lwp" ∧ f.suffix.toUpper = ".LWP" ∨ name = "iwv" ∧ f.suffix.toUpper = ".IWV" := by
        clear_value version
        revert hF
        generalize f.suffix.toUpper = s
        intro hF
        cases hF <;> simp
      obtain ⟨hs1, hs2⟩ := screen_mem version factor hf0 f
      have hus : Spec.UsableHatpro epoch date f ↔ (Spec.AllZero f ∨ ∃ r, Spec.FirstInFile f r ∧ ¬ Spec.LowQuality r) ∧
          (date ≠ none → ref = 1 ∧ ∃ r, Spec.FirstInFile f r ∧ Spec.OnExpectedDay epoch date r.time) := by
        constructor
        · rintro ⟨code', ref', name', version', factor', h1, h2, h3, h4⟩
          obtain ⟨-, rfl, -⟩ := huniq h1 h2
          exact ⟨h3, h4⟩
        · rintro ⟨h3, h4⟩
          exact ⟨_, _, _, _, _, hh, hF, h3, h4⟩
      have hsay : ∀ t value zenith, Spec.HatproSays epoch date f name t value zenith ↔
          ∃ r, Spec.FirstInFile f r ∧ r.time = t ∧ Spec.OnExpectedDay epoch date t ∧ zenith = (hatproRecord version factor r).zenith ∧
            ((Spec.AllZero f ∨ Spec.LowQuality r) → value = none) ∧ (¬ (Spec.AllZero f ∨ Spec.LowQuality r) → value = some (r.value * factor)) := by
        intro t value zenith
        constructor
        · rintro ⟨r, code', ref', version', factor', az, h1, h2, h3, h4, h5, h6, h7, h8⟩
          obtain ⟨-, -, -, rfl, rfl⟩ := huniq h1 h2
          exact ⟨r, h3, h4, h5, (recordZenith_iff _ factor' r hv zenith).1 ⟨az, h6⟩, h7, h8⟩
        · rintro ⟨r, h3, h4, h5, h6, h7, h8⟩
          obtain ⟨az, h6⟩ := (recordZenith_iff _ factor r hv zenith).2 h6
          exact ⟨r, _, _, _, _, az, hh, hF, h3, h4, h5, h6, h7, h8⟩
      cases hsc : screenHatpro (hatproUnique (f.records.map (hatproRecord version factor))) with
      | error e =>
        refine ⟨⟨fun ⟨o, ho⟩ => (by cases ho), fun h => ?_⟩, fun o ho => by cases ho⟩
        exact absurd (hus.1 h).1 (hs1.1 ⟨e, hsc⟩)
      | ok recs =>
        obtain ⟨hsorted, hmem⟩ := hs2 recs hsc
        have hq : Spec.AllZero f ∨ ∃ r, Spec.FirstInFile f r ∧ ¬ Spec.LowQuality r := by
          by_contra hcon
          obtain ⟨e, he⟩ := hs1.2 hcon
          rw [hsc] at he
          cases he
        cases date with
        | none =>
          refine ⟨⟨fun _ => hus.2 ⟨hq, fun h => absurd rfl h⟩, fun _ => ⟨_, rfl⟩⟩, ?_⟩
          intro o ho
          cases ho
          refine ⟨rfl, hname, hsorted, fun t value zenith => ?_⟩
          rw [hsay]
          constructor
          · rintro ⟨x, hx, rfl, rfl, rfl⟩
            obtain ⟨r, h1, h2, h3, h4, h5, h6⟩ := (hmem x).1 hx
            exact ⟨r, h1, h2.symm, fun day hd => (by cases hd), h4, h5, h6⟩
          · rintro ⟨r, h1, h2, -, h4, h5, h6⟩
            exact ⟨⟨t, r.flag, value, zenith⟩, (hmem _).2 ⟨r, h1, h2.symm, rfl, h4, h5, h6⟩, rfl, rfl, rfl⟩
        | some day =>
          obtain ⟨hd1, hd2⟩ := C57_date (ref == 1) epoch day recs
          dsimp only
          have hday : ∀ t, Spec.OnExpectedDay epoch (some day) t ↔ day * 86400 ≤ t + epoch ∧ t + epoch < (day + 1) * 86400 :=
            fun t => ⟨fun h => h day rfl, fun h d hd => by cases hd; exact h⟩
          cases hdd : hatproDate (ref == 1) epoch day recs with
          | error e =>
            refine ⟨⟨fun ⟨o, ho⟩ => (by cases ho), fun h => ?_⟩, fun o ho => by cases ho⟩
            obtain ⟨-, h2⟩ := hus.1 h
            obtain ⟨h3, r, hr, hr2⟩ := h2 (by simp)
            rcases hd2.1 ⟨e, hdd⟩ with h4 | h4
            · rw [h3] at h4
              simp at h4
            · rw [hday] at hr2
              obtain ⟨x, hx, hxt⟩ : ∃ x ∈ recs, x.time = r.time := by
                classical
                exact ⟨⟨r.time, r.flag, if Spec.AllZero f ∨ Spec.LowQuality r then none else some (r.value * factor), _⟩,
                  (hmem _).2 ⟨r, hr, rfl, rfl, rfl, fun h => if_pos h, fun h => if_neg h⟩, rfl⟩
              have := h4 x hx
              omega
          | ok out =>
            obtain ⟨u, hsub, hne, hin⟩ := hd1 out hdd
            refine ⟨⟨fun _ => hus.2 ⟨hq, fun _ => ⟨by simpa using u, ?_⟩⟩, fun _ => ⟨_, rfl⟩⟩, ?_⟩
            · obtain ⟨x, hx⟩ := List.exists_mem_of_ne_nil out hne
              obtain ⟨hx1, hx2⟩ := (hin x).1 hx
              obtain ⟨r, h1, h2, -⟩ := (hmem x).1 hx1
              exact ⟨r, h1, (hday _).2 (by rw [← h2]; exact hx2)⟩
            · intro o ho
              cases ho
              refine ⟨rfl, hname, hsorted.sublist hsub, fun t value zenith => ?_⟩
              rw [hsay]
              constructor
              · rintro ⟨x, hx, rfl, rfl, rfl⟩
                obtain ⟨hx1, hx2⟩ := (hin x).1 hx
                obtain ⟨r, h1, h2, h3, h4, h5, h6⟩ := (hmem x).1 hx1
                exact ⟨r, h1, h2.symm, (hday _).2 hx2, h4, h5, h6⟩
              · rintro ⟨r, h1, h2, h3, h4, h5, h6⟩
                exact ⟨⟨t, r.flag, value, zenith⟩, (hin _).2 ⟨(hmem _).2 ⟨r, h1, h2.symm, rfl, h4, h5, h6⟩, (hday _).1 h3⟩, rfl, rfl, rfl⟩

end

end Cloudnet
