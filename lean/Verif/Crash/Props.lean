import Mathlib.Tactic
import Verif.Crash.Model
import Verif.Concat.Props

namespace Cloudnet

/-! ## C158: interrupted updates of a file -/

section
variable {α : Type} [Field α] [LinearOrder α] [IsStrictOrderedRing α]

/-- The variable is written by an update: a time series in both files, in the new one of at most two dimensions. -/
def Spec.UpdateWrites (old new : NcFile α) (key : String) : Prop :=
  (∃ dims rows, old.vars.lookup key = some (.series dims rows)) ∧ ∃ rows, Spec.HasSeries new key rows

/-- The file after the variables `fields`, as an expression. -/
theorem updateFold_spec (old new : NcFile α) (ind : List ℕ) (hind : ind.Pairwise (· < ·)) (h0 : 0 < old.n) (fields : List String) :
    let f := fields.foldl (updateField old.n new ind) old
    f.vars.map Prod.fst = old.vars.map Prod.fst ∧ f.broken = old.broken ∧
    ((∀ key ∈ fields, ¬ Spec.UpdateWrites old new key) → f = old) ∧
    ((∃ key ∈ fields, Spec.UpdateWrites old new key) → f.n = old.n + ind.getLast?.getD 0 + 1) ∧
    ∀ key,
      (∀ dims value, old.vars.lookup key = some (.static dims value) → f.vars.lookup key = some (.static dims value)) ∧
      (old.vars.lookup key = none → f.vars.lookup key = none) ∧
      ∀ dims rows, old.vars.lookup key = some (.series dims rows) →
        ∃ rows', f.vars.lookup key = some (.series dims rows') ∧ (∀ i < old.n, rows' i = rows i) ∧
          (key ∈ fields → ∀ rowsNew, Spec.HasSeries new key rowsNew → ∀ i, rows' (old.n + i) =
            if i ∈ ind then rowsNew i else fillLike (rows 0)) ∧
          ((∃ k ∈ fields, Spec.UpdateWrites old new k) → (key ∉ fields ∨ ¬ ∃ rowsNew, Spec.HasSeries new key rowsNew) →
            ∀ i, rows' (old.n + i) = fillLike (rows 0)) := by
  induction fields using List.reverseRecOn with
  | nil =>
    refine ⟨rfl, rfl, fun _ => rfl, by simp, fun key => ⟨fun _ _ h => h, fun h => h, fun dims rows h => ⟨rows, h, fun _ _ => rfl, by simp, by simp⟩⟩⟩
  | append_singleton fields field ih =>
    obtain ⟨i1, i2, i3, i4, i5⟩ := ih
    simp only [List.foldl_append, List.foldl_cons, List.foldl_nil]
    set cur := fields.foldl (updateField old.n new ind) old with hcur
    by_cases hw : Spec.UpdateWrites old new field
    · obtain ⟨⟨dimsO, rowsO, hO⟩, rowsN, dimsN, hdN, hN⟩ := id hw
      obtain ⟨rowsC, hC, -⟩ := (i5 field).2.2 dimsO rowsO hO
      have hstep : updateField old.n new ind cur field =
          { cur with
            n := max cur.n (old.n + ind.getLast?.getD 0 + 1)
            vars := cur.vars.map fun kv => (kv.1, if kv.1 = field then appendedVar old.n ind rowsN kv.2 else grownVar cur.n kv.2) } := by
        unfold updateField
        rw [hC, hN]
        simp only
        rw [if_pos hdN]
      rw [hstep]
      have hn : max cur.n (old.n + ind.getLast?.getD 0 + 1) = old.n + ind.getLast?.getD 0 + 1 := by
        by_cases h : ∃ key ∈ fields, Spec.UpdateWrites old new key
        · rw [i4 h, max_self]
        · have : cur = old := i3 fun key hk hw => h ⟨key, hk, hw⟩
          rw [this]
          exact max_eq_right (by omega)
      have hle : old.n ≤ cur.n := by
        by_cases h : ∃ key ∈ fields, Spec.UpdateWrites old new key
        · rw [i4 h]; omega
        · have : cur = old := i3 fun key hk hw => h ⟨key, hk, hw⟩
          rw [this]
      refine ⟨?_, i2, fun hall => absurd hw (hall field (by simp)), fun _ => hn, fun key => ?_⟩
      · rw [← i1, List.map_map]; rfl
      have hlook : (cur.vars.map fun kv => (kv.1, if kv.1 = field then appendedVar old.n ind rowsN kv.2 else grownVar cur.n kv.2)).lookup key =
          (cur.vars.lookup key).map fun v => if key = field then appendedVar old.n ind rowsN v else grownVar cur.n v :=
        lookup_map_snd cur.vars (fun k v => if k = field then appendedVar old.n ind rowsN v else grownVar cur.n v) key
      refine ⟨fun dims value h => ?_, fun h => ?_, fun dims rows h => ?_⟩
      · rw [hlook, (i5 key).1 dims value h, Option.map_some]
        split <;> rfl
      · rw [hlook, (i5 key).2.1 h]; rfl
      · obtain ⟨rows', r1, r2, r3, r4⟩ := (i5 key).2.2 dims rows h
        have hr0 : rows' 0 = rows 0 := r2 0 h0
        rw [hlook, r1, Option.map_some]
        by_cases hk : key = field
        · rw [if_pos hk]
          refine ⟨_, rfl, fun i hi => ?_, ?_, ?_⟩
          · rw [if_pos hi, r2 i hi]
          · intro _ rowsNew hs i
            obtain ⟨d, _, hs⟩ := hs
            rw [hk, hN] at hs
            cases hs
            rw [if_neg (by omega), Nat.add_sub_cancel_left, hr0]
          · rintro _ (hf | hf) i
            · exact absurd (by simp [hk]) hf
            · exact absurd ⟨rowsN, dimsN, hdN, hk ▸ hN⟩ hf
        · rw [if_neg hk]
          refine ⟨_, rfl, fun i hi => ?_, ?_, ?_⟩
          · rw [if_pos (by omega), r2 i hi]
          · intro hf rowsNew hs i
            have hf : key ∈ fields := by
              rcases List.mem_append.1 hf with hf | hf
              · exact hf
              · simp at hf; exact absurd hf hk
            have hcn : cur.n = old.n + ind.getLast?.getD 0 + 1 := i4 ⟨key, hf, ⟨dims, rows, h⟩, rowsNew, hs⟩
            have := r3 hf rowsNew hs i
            by_cases hi : old.n + i < cur.n
            · rw [if_pos hi, this]
            · rw [if_neg hi, hr0, if_neg]
              intro hm
              exact absurd ((getLast_max ind hind (List.ne_nil_of_mem hm)).2 i hm) (by omega)
          · rintro _ hf i
            have hf : key ∉ fields ∨ ¬ ∃ rowsNew, Spec.HasSeries new key rowsNew := by
              rcases hf with hf | hf
              · left; intro hc; exact hf (by simp [hc])
              · exact Or.inr hf
            by_cases hi : old.n + i < cur.n
            · rw [if_pos hi]
              by_cases h : ∃ k ∈ fields, Spec.UpdateWrites old new k
              · exact r4 h hf i
              · have : cur = old := i3 fun key hk hw => h ⟨key, hk, hw⟩
                rw [this] at hi
                omega
            · rw [if_neg hi, hr0]
    · have hstep : updateField old.n new ind cur field = cur := by
        unfold updateField
        rcases hC : cur.vars.lookup field with _ | (⟨d, v⟩ | ⟨d, v⟩)
        · rfl
        · rfl
        · rcases hN : new.vars.lookup field with _ | (⟨d', v'⟩ | ⟨d', v'⟩)
          · rfl
          · rfl
          · simp only
            rw [if_neg]
            intro hd
            apply hw
            refine ⟨?_, v', d', hd, hN⟩
            rcases hO : old.vars.lookup field with _ | (⟨d2, v2⟩ | ⟨d2, v2⟩)
            · rw [(i5 field).2.1 hO] at hC; cases hC
            · rw [(i5 field).1 _ _ hO] at hC; cases hC
            · exact ⟨_, _, rfl⟩
      rw [hstep]
      have hmem : (∃ k ∈ fields ++ [field], Spec.UpdateWrites old new k) → ∃ k ∈ fields, Spec.UpdateWrites old new k := by
        rintro ⟨k, hk, hkw⟩
        rcases List.mem_append.1 hk with hk | hk
        · exact ⟨k, hk, hkw⟩
        · simp at hk; exact absurd (hk ▸ hkw) hw
      refine ⟨i1, i2, fun hall => i3 fun k hk => hall k (by simp [hk]), fun h => i4 (hmem h), fun key =>
        ⟨(i5 key).1, (i5 key).2.1, fun dims rows h => ?_⟩⟩
      obtain ⟨rows', r1, r2, r3, r4⟩ := (i5 key).2.2 dims rows h
      refine ⟨rows', r1, r2, fun hf rowsNew hs i => ?_, fun he hf i => ?_⟩
      · refine r3 ?_ rowsNew hs i
        rcases List.mem_append.1 hf with hf | hf
        · exact hf
        · simp at hf
          exact absurd ⟨⟨dims, rows, hf ▸ h⟩, rowsNew, hf ▸ hs⟩ hw
      · refine r4 (hmem he) ?_ i
        rcases hf with hf | hf
        · left; intro hc; exact hf (by simp [hc])
        · exact Or.inr hf

/-- What an update leaves if it stops after `done` variables of the new file, with `last` the last record that is later than the old ones. -/
theorem interrupted_spec (old new : NcFile α) (tOld tNew : ℕ → α) (ho : Spec.HasTimes old tOld) (hn : Spec.HasTimes new tNew) (h0 : 0 < old.n)
    (last : ℕ) (hlast : last < new.n) (hlt : tOld (old.n - 1) < tNew last) (hmax : ∀ i < new.n, tOld (old.n - 1) < tNew i → i ≤ last) (done : ℕ) :
    let f := updateInterrupted old new (findLaterIndices old new) done
    let written := (new.vars.map Prod.fst).take done
    f.vars.map Prod.fst = old.vars.map Prod.fst ∧ f.broken = old.broken ∧
    ((∀ key ∈ written, ¬ Spec.UpdateWrites old new key) → f = old) ∧
    ((∃ key ∈ written, Spec.UpdateWrites old new key) → f.n = old.n + last + 1) ∧
    ∀ key,
      (∀ dims value, old.vars.lookup key = some (.static dims value) → f.vars.lookup key = some (.static dims value)) ∧
      (old.vars.lookup key = none → f.vars.lookup key = none) ∧
      ∀ dims rows, old.vars.lookup key = some (.series dims rows) →
        ∃ rows', f.vars.lookup key = some (.series dims rows') ∧ (∀ i < old.n, rows' i = rows i) ∧
          (key ∈ written → ∀ rowsNew, Spec.HasSeries new key rowsNew → ∀ i, rows' (old.n + i) =
            if i < new.n ∧ tOld (old.n - 1) < tNew i then rowsNew i else (rows 0).map fun _ => none) ∧
          ((∃ k ∈ written, Spec.UpdateWrites old new k) → (key ∉ written ∨ ¬ ∃ rowsNew, Spec.HasSeries new key rowsNew) →
            ∀ i, rows' (old.n + i) = (rows 0).map fun _ => none) := by
  obtain ⟨f1, f2⟩ := findLaterIndices_spec ho hn h0
  have hmem : last ∈ findLaterIndices old new := (f1 last).2 ⟨hlast, hlt⟩
  obtain ⟨m1, m2⟩ := getLast_max _ f2 (List.ne_nil_of_mem hmem)
  have hl : (findLaterIndices old new).getLast?.getD 0 = last :=
    le_antisymm (hmax _ ((f1 _).1 m1).1 ((f1 _).1 m1).2) (m2 _ hmem)
  obtain ⟨a1, a2, a3, a4, a5⟩ := updateFold_spec old new (findLaterIndices old new) f2 h0 ((new.vars.map Prod.fst).take done)
  refine ⟨a1, a2, a3, fun h => by rw [← hl]; exact a4 h, fun key => ⟨(a5 key).1, (a5 key).2.1, fun dims rows h => ?_⟩⟩
  obtain ⟨rows', r1, r2, r3, r4⟩ := (a5 key).2.2 dims rows h
  refine ⟨rows', r1, r2, fun hk rowsNew hs i => ?_, r4⟩
  rw [r3 hk rowsNew hs i]
  by_cases hi : i ∈ findLaterIndices old new
  · rw [if_pos hi, if_pos ((f1 i).1 hi)]
  · rw [if_neg hi, if_neg fun hc => hi ((f1 i).2 hc)]; rfl

theorem mem_names {f : NcFile α} {key : String} {v : NcVar α} (h : f.vars.lookup key = some v) : key ∈ f.vars.map Prod.fst := by
  rw [List.lookup_eq_some_iff] at h
  obtain ⟨l1, l2, h, -⟩ := h
  rw [h]; simp

/-- With records that are later, the run goes through the variables of the new file. -/
theorem updateNcFaulty_eq (old new : NcFile α) (tOld tNew : ℕ → α) (ho : Spec.HasTimes old tOld) (hn : Spec.HasTimes new tNew) (h0 : 0 < old.n)
    (hlater : ∃ i < new.n, tOld (old.n - 1) < tNew i) (fault : Option (ℕ × WriteFault)) :
    updateNcFaulty old new fault =
      match fault with
      | none => (.returned 1, updateInterrupted old new (findLaterIndices old new) new.vars.length)
      | some (done, f) =>
        if done < new.vars.length then
          (match f with
            | .osError => .returned 0
            | .otherError => .raised "write error"
            | .killed => .killed, updateInterrupted old new (findLaterIndices old new) done)
        else (.returned 1, updateInterrupted old new (findLaterIndices old new) new.vars.length) := by
  obtain ⟨f1, f2⟩ := findLaterIndices_spec ho hn h0
  obtain ⟨i, hi, hlt⟩ := hlater
  unfold updateNcFaulty
  rw [if_neg (by omega)]
  simp only
  rw [if_pos (List.length_pos_iff.2 (List.ne_nil_of_mem ((f1 i).2 ⟨hi, hlt⟩)))]
  rcases fault with _ | ⟨done, f⟩ <;> rfl

/-- The last of the later records. -/
theorem exists_last (n : ℕ) (p : ℕ → Prop) (h : ∃ i < n, p i) : ∃ last < n, p last ∧ ∀ i < n, p i → i ≤ last := by
  classical
  obtain ⟨i0, h0, hp⟩ := h
  have hne : ((Finset.range n).filter p).Nonempty := ⟨i0, by simp [h0, hp]⟩
  obtain ⟨m, hm, hmax⟩ := Finset.exists_max_image _ id hne
  simp only [Finset.mem_filter, Finset.mem_range] at hm hmax
  exact ⟨m, hm.1, hm.2, fun i hi hpi => hmax i ⟨hi, hpi⟩⟩

/-- **C158.** Without a fault the variable by variable run does the same as the update of C40: same number and same variables. -/
theorem C158_without_fault (old new : NcFile α) (tOld tNew : ℕ → α) (ho : Spec.HasTimes old tOld) (hn : Spec.HasTimes new tNew) (h0 : 0 < old.n) :
    ∃ r f f', updateNcFaulty old new none = (.returned r, f) ∧ updateNc old (some new) = .ok (r, f') ∧ f.n = f'.n ∧
      f.vars.map Prod.fst = f'.vars.map Prod.fst ∧ ∀ key, f.vars.lookup key = f'.vars.lookup key := by
  by_cases hlater : ∃ i < new.n, tOld (old.n - 1) < tNew i
  · obtain ⟨last, hlast, f', hlt, hmax, hu, hn', hrows⟩ := (C40_update old new tOld tNew ho hn h0).2 hlater
    obtain ⟨s1, -, -, s4, s5⟩ := interrupted_spec old new tOld tNew ho hn h0 last hlast hlt hmax new.vars.length
    have hall : (new.vars.map Prod.fst).take new.vars.length = new.vars.map Prod.fst := List.take_of_length_le (by simp)
    rw [hall] at s4 s5
    obtain ⟨dT, rT, hdT, hT, -⟩ := id ho
    obtain ⟨dN, rN, hdN, hN, -⟩ := id hn
    have hex : ∃ key ∈ new.vars.map Prod.fst, Spec.UpdateWrites old new key :=
      ⟨"time", mem_names hN, ⟨dT, rT, hT⟩, rN, dN, hdN, hN⟩
    obtain ⟨-, hnames, hstat, -⟩ := C40_existing_unchanged old (some new) 1 f' hu
    refine ⟨1, _, f', updateNcFaulty_eq old new tOld tNew ho hn h0 hlater none, hu, ?_, ?_, fun key => ?_⟩
    · rw [s4 hex, hn']
    · rw [s1]; exact hnames.symm
    · rcases hO : old.vars.lookup key with _ | (⟨d, v⟩ | ⟨d, v⟩)
      · rw [(s5 key).2.1 hO]
        symm
        rw [List.lookup_eq_none_iff] at hO ⊢
        intro p hp
        have : p.1 ∈ old.vars.map Prod.fst := hnames ▸ List.mem_map_of_mem hp
        obtain ⟨q, hq, hqe⟩ := List.mem_map.1 this
        rw [← hqe]
        exact hO q hq
      · rw [(s5 key).1 _ _ hO, hstat key _ _ hO]
      · obtain ⟨ra, a1, a2, a3, a4⟩ := (s5 key).2.2 d v hO
        have hu' : updateNc old (some new) = .ok (1, updateFields old new (findLaterIndices old new)) := by
          unfold updateNc
          obtain ⟨f1, -⟩ := findLaterIndices_spec ho hn h0
          simp only
          rw [if_neg (by omega), if_pos (List.length_pos_iff.2 (List.ne_nil_of_mem ((f1 last).2 ⟨hlast, hlt⟩)))]
        rw [hu'] at hu
        have hf' := (Prod.mk.inj (Except.ok.inj hu)).2
        subst hf'
        obtain ⟨f1, -⟩ := findLaterIndices_spec ho hn h0
        rw [a1, updateFields_lookup, hO, Option.map_some]
        rcases hNk : new.vars.lookup key with _ | (⟨d', v'⟩ | ⟨d', v'⟩)
        · simp only
          congr 2
          funext i
          by_cases hi : i < old.n
          · rw [if_pos hi, a2 i hi]
          · obtain ⟨j, rfl⟩ := Nat.exists_eq_add_of_le (not_lt.1 hi)
            rw [if_neg hi, a4 hex (Or.inr (by rintro ⟨r, d2, _, h⟩; rw [hNk] at h; cases h)) j]; rfl
        · simp only
          congr 2
          funext i
          by_cases hi : i < old.n
          · rw [if_pos hi, a2 i hi]
          · obtain ⟨j, rfl⟩ := Nat.exists_eq_add_of_le (not_lt.1 hi)
            rw [if_neg hi, a4 hex (Or.inr (by rintro ⟨r, d2, _, h⟩; rw [hNk] at h; cases h)) j]; rfl
        · simp only
          congr 2
          funext i
          by_cases hi : i < old.n
          · rw [if_pos hi, a2 i hi]
          · obtain ⟨j, rfl⟩ := Nat.exists_eq_add_of_le (not_lt.1 hi)
            rw [if_neg hi, Nat.add_sub_cancel_left]
            by_cases hd : d'.length ≤ 1
            · rw [a3 (mem_names hNk) v' ⟨d', hd, hNk⟩ j]
              by_cases hj : j < new.n ∧ tOld (old.n - 1) < tNew j
              · rw [if_pos hj, if_pos ⟨hd, (f1 j).2 hj⟩]
              · rw [if_neg hj, if_neg fun hc => hj ((f1 j).1 hc.2)]; rfl
            · rw [a4 hex (Or.inr (by rintro ⟨r, d2, hd2, h⟩; rw [hNk] at h; cases h; exact hd hd2)) j, if_neg fun hc => hd hc.1]; rfl
  · have hall : ∀ i < new.n, tNew i ≤ tOld (old.n - 1) := fun i hi => not_lt.1 fun h => hlater ⟨i, hi, h⟩
    refine ⟨0, old, old, ?_, (C40_update old new tOld tNew ho hn h0).1 hall, rfl, rfl, fun _ => rfl⟩
    obtain ⟨f1, -⟩ := findLaterIndices_spec ho hn h0
    have hnil : findLaterIndices old new = [] := by
      rw [List.eq_nil_iff_forall_not_mem]
      intro i hi
      exact hlater ⟨i, (f1 i).1 hi⟩
    unfold updateNcFaulty
    rw [if_neg (by omega), hnil]
    rfl

/-- **C158.** What an update leaves in the file at every point where it can stop, in whatever way: no record that was there is changed and no
variable disappears; a variable is either passed already, then it has all later records of the new file, or not, then it has missing values in
their place; and before the first variable is written the file is as it was. -/
theorem C158_interrupted (old new : NcFile α) (tOld tNew : ℕ → α) (ho : Spec.HasTimes old tOld) (hn : Spec.HasTimes new tNew) (h0 : 0 < old.n)
    (last : ℕ) (hlast : last < new.n) (hlt : tOld (old.n - 1) < tNew last) (hmax : ∀ i < new.n, tOld (old.n - 1) < tNew i → i ≤ last)
    (done : ℕ) (hdone : done < new.vars.length) (fault : WriteFault) :
    let f := (updateNcFaulty old new (some (done, fault))).2
    let written := (new.vars.map Prod.fst).take done
    f.vars.map Prod.fst = old.vars.map Prod.fst ∧
    ((∀ key ∈ written, ¬ Spec.UpdateWrites old new key) → f = old) ∧
    ((∃ key ∈ written, Spec.UpdateWrites old new key) → f.n = old.n + last + 1) ∧
    ∀ key,
      (∀ dims value, old.vars.lookup key = some (.static dims value) → f.vars.lookup key = some (.static dims value)) ∧
      ∀ dims rows, old.vars.lookup key = some (.series dims rows) →
        ∃ rows', f.vars.lookup key = some (.series dims rows') ∧ (∀ i < old.n, rows' i = rows i) ∧
          (key ∈ written → ∀ rowsNew, Spec.HasSeries new key rowsNew → ∀ i ≤ last, rows' (old.n + i) =
            if tOld (old.n - 1) < tNew i then rowsNew i else (rows 0).map fun _ => none) ∧
          ((∃ k ∈ written, Spec.UpdateWrites old new k) → key ∉ written → ∀ i ≤ last, rows' (old.n + i) = (rows 0).map fun _ => none) := by
  have he : (updateNcFaulty old new (some (done, fault))).2 = updateInterrupted old new (findLaterIndices old new) done := by
    rw [updateNcFaulty_eq old new tOld tNew ho hn h0 ⟨last, hlast, hlt⟩]
    simp only
    rw [if_pos hdone]
  obtain ⟨s1, -, s3, s4, s5⟩ := interrupted_spec old new tOld tNew ho hn h0 last hlast hlt hmax done
  simp only [he]
  refine ⟨s1, s3, s4, fun key => ⟨(s5 key).1, fun dims rows h => ?_⟩⟩
  obtain ⟨rows', r1, r2, r3, r4⟩ := (s5 key).2.2 dims rows h
  refine ⟨rows', r1, r2, fun hk rowsNew hs i hi => ?_, fun hw hk i _ => r4 hw (Or.inl hk) i⟩
  rw [r3 hk rowsNew hs i]
  exact if_congr (and_iff_right (by omega)) rfl rfl

/-- **C158.** How an interrupted update ends. 1 is returned only if all variables were passed. With an `OSError` while writing it returns 0, as it
does when there is nothing to add, whatever has been written by then. -/
theorem C158_return (old new : NcFile α) (tOld tNew : ℕ → α) (ho : Spec.HasTimes old tOld) (hn : Spec.HasTimes new tNew) (h0 : 0 < old.n)
    (hlater : ∃ i < new.n, tOld (old.n - 1) < tNew i) (done : ℕ) (fault : WriteFault) :
    ((updateNcFaulty old new (some (done, fault))).1 = .returned 1 ↔ new.vars.length ≤ done) ∧
    ((updateNcFaulty old new (some (done, fault))).1 = .returned 0 ↔ done < new.vars.length ∧ fault = .osError) ∧
    (new.vars.length ≤ done → updateNcFaulty old new (some (done, fault)) = updateNcFaulty old new none) := by
  rw [updateNcFaulty_eq old new tOld tNew ho hn h0 hlater, updateNcFaulty_eq old new tOld tNew ho hn h0 hlater]
  simp only
  by_cases hd : done < new.vars.length
  · rw [if_pos hd]
    refine ⟨⟨fun h => ?_, fun h => by omega⟩, ⟨fun h => ⟨hd, ?_⟩, fun h => by rw [h.2]⟩, fun h => by omega⟩
    · cases fault <;> cases h
    · cases fault
      · rfl
      · cases h
      · cases h
  · rw [if_neg hd]
    exact ⟨⟨fun _ => by omega, fun _ => rfl⟩, ⟨fun h => (by cases h), fun h => by omega⟩, fun _ => rfl⟩

/-- **C158.** Running the update again after an interruption: if no variable had been written yet, it does all that the first run should have
done. -/
theorem C158_retry_clean (old new : NcFile α) (tOld tNew : ℕ → α) (ho : Spec.HasTimes old tOld) (hn : Spec.HasTimes new tNew) (h0 : 0 < old.n)
    (hlater : ∃ i < new.n, tOld (old.n - 1) < tNew i) (done : ℕ) (hdone : done < new.vars.length) (fault : WriteFault)
    (hnone : ∀ key ∈ (new.vars.map Prod.fst).take done, ¬ Spec.UpdateWrites old new key) :
    updateNcFaulty (updateNcFaulty old new (some (done, fault))).2 new none = updateNcFaulty old new none := by
  obtain ⟨last, hlast, hlt, hmax⟩ := exists_last new.n (fun i => tOld (old.n - 1) < tNew i) hlater
  rw [(C158_interrupted old new tOld tNew ho hn h0 last hlast hlt hmax done hdone fault).2.1 hnone]

/-- **C158, finding.** Once the times are written an interrupted update cannot be made up for: for every new file with increasing times and every
later point of the interruption, running the update again returns 0 and changes nothing, and the variables that had not been reached keep missing
values in place of the records of the new file. -/
theorem C158_retry_loses (old new : NcFile α) (tOld tNew : ℕ → α) (ho : Spec.HasTimes old tOld) (hn : Spec.HasTimes new tNew) (h0 : 0 < old.n)
    (hlater : ∃ i < new.n, tOld (old.n - 1) < tNew i) (hinc : ∀ i j, i < j → j < new.n → tNew i ≤ tNew j) (done : ℕ)
    (hdone : done < new.vars.length) (fault : WriteFault) (htime : "time" ∈ (new.vars.map Prod.fst).take done) :
    let f := (updateNcFaulty old new (some (done, fault))).2
    (∀ again, updateNcFaulty f new again = (.returned 0, f)) ∧
    ∀ key rows, Spec.HasSeries old key rows → key ∉ (new.vars.map Prod.fst).take done →
      ∃ rows', Spec.HasSeries f key rows' ∧ ∀ i, old.n ≤ i → i < f.n → rows' i = (rows 0).map fun _ => none := by
  obtain ⟨last, hlast, hlt, hmax⟩ := exists_last new.n (fun i => tOld (old.n - 1) < tNew i) hlater
  obtain ⟨-, -, s3, s4⟩ := C158_interrupted old new tOld tNew ho hn h0 last hlast hlt hmax done hdone fault
  obtain ⟨dT, rT, hdT, hT, hTv⟩ := id ho
  obtain ⟨dN, rN, hdN, hN, hNv⟩ := id hn
  have hw : ∃ key ∈ (new.vars.map Prod.fst).take done, Spec.UpdateWrites old new key := ⟨"time", htime, ⟨dT, rT, hT⟩, rN, dN, hdN, hN⟩
  intro f
  have hfn : f.n = old.n + last + 1 := s3 hw
  refine ⟨fun again => ?_, fun key rows hk hnot => ?_⟩
  · obtain ⟨rows', r1, -, r3, -⟩ := (s4 "time").2 dT rT hT
    have hlastTime : f.timeAt (f.n - 1) = some (tNew last) := by
      unfold NcFile.timeAt
      have : f.vars.lookup "time" = some (.series dT rows') := r1
      rw [this]
      have h2 := r3 htime rN ⟨dN, hdN, hN⟩ last le_rfl
      rw [if_pos hlt] at h2
      have : f.n - 1 = old.n + last := by omega
      simp only
      rw [this, h2, hNv last hlast]
      rfl
    have hnil : findLaterIndices f new = [] := by
      unfold findLaterIndices
      rw [List.filter_eq_nil_iff]
      intro i hi
      rw [List.mem_range] at hi
      rw [hlastTime, timeAt_of hn hi]
      simp only [later, decide_eq_true_eq, not_lt]
      rcases lt_trichotomy i last with h | h | h
      · exact hinc i last h hlast
      · rw [h]
      · have : tNew i ≤ tOld (old.n - 1) := not_lt.1 fun hc => absurd (hmax i hi hc) (by omega)
        exact this.trans hlt.le
    unfold updateNcFaulty
    rw [if_neg (by omega), hnil]
    rfl
  · obtain ⟨d, hd, hl⟩ := hk
    obtain ⟨rows', r1, r2, -, r4⟩ := (s4 key).2 d rows hl
    refine ⟨rows', ⟨d, hd, r1⟩, fun i hi hi2 => ?_⟩
    obtain ⟨j, rfl⟩ := Nat.exists_eq_add_of_le hi
    exact r4 hw hnot j (by omega)

end

/-! An interrupted update: the new file has a record at 7 with `Zh`, the process ends after the times, and the next run finds nothing to add. -/

example : (exampleFileB.vars.map Prod.fst).take 1 = ["time"] ∧ Spec.HasTimes exampleFileA (fun i => (i : ℚ)) ∧
    Spec.HasTimes exampleFileB (fun _ => (7 : ℚ)) ∧ 1 < exampleFileB.vars.length ∧
    listVar (updateNcFaulty exampleFileA exampleFileB (some (1, .killed))).2 "time" = [[some 0], [some 1], [some 7]] ∧
    listVar (updateNcFaulty exampleFileA exampleFileB (some (1, .killed))).2 "Zh" = [[some 10, some 20], [some 11, some 21], [none, none]] ∧
    listVar (updateNcFaulty exampleFileA exampleFileB none).2 "Zh" ≠ [[some 10, some 20], [some 11, some 21], [none, none]] := by
  refine ⟨rfl, ⟨_, _, by simp, rfl, fun _ _ => rfl⟩, ⟨_, _, by simp, rfl, fun _ _ => rfl⟩, by decide, ?_, ?_, ?_⟩ <;> decide +kernel

end Cloudnet
