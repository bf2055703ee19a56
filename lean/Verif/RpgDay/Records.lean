import Mathlib.Tactic
import Verif.RpgDay.Model
import Verif.Rpg.Props
import Verif.Times.Props
import Verif.Interp.Props
import Verif.Categorize.Props
import Verif.Radar.Props

/-!
Property C128: one day of RPG cloud radar files.
-/

set_option linter.unusedSectionVars false

namespace Cloudnet

section
variable {α : Type} [Field α] [LinearOrder α] [IsStrictOrderedRing α] [FloorRing α]

/-! ## Files -/

/-- All time stamps of the file (seconds after `epoch`) are on the expected day, if one is given. -/
def Spec.FileOfDay (epoch : α) (expected : Option ℤ) (o : RpgObject α) : Prop :=
  ∀ d, expected = some d → ∀ t ∈ o.times, ∃ s, t = some s ∧ ⌊(epoch + s) / 86400⌋ = d

theorem onDate_iff (epoch : α) (expected : Option ℤ) (o : RpgObject α) :
    (expected.all fun d => o.onDate epoch d) = true ↔ Spec.FileOfDay epoch expected o := by
  cases expected with
  | none => simp [Spec.FileOfDay]
  | some d =>
    simp only [Option.all_some, RpgObject.onDate, List.all_eq_true, Spec.FileOfDay, Option.some.injEq, forall_eq']
    refine forall₂_congr fun t _ => ?_
    cases t with
    | none => simp
    | some s =>
      show decide (dateOf epoch s = d) = true ↔ _
      rw [decide_eq_true_iff]
      simp [dateOf]

theorem rpgCollect_ok (read : String → Except String (RpgObject α)) (epoch : α) (expected : Option ℤ) (files : List String)
    (found : List (String × RpgObject α)) (h : rpgCollect read epoch expected files = .ok found) :
    (found.map Prod.fst).Sublist files ∧
    ∀ f o, (f, o) ∈ found ↔ f ∈ files ∧ read f = .ok o ∧ Spec.FileOfDay epoch expected o := by
  induction files generalizing found with
  | nil => cases h; simp
  | cons file files ih =>
    unfold rpgCollect at h
    cases hr : read file with
    | error e =>
      rw [hr] at h
      dsimp only at h
      split at h
      · obtain ⟨h1, h2⟩ := ih found h
        refine ⟨h1.trans (List.sublist_cons_self _ _), fun f o => ?_⟩
        rw [h2, List.mem_cons]
        constructor
        · rintro ⟨a, b⟩; exact ⟨Or.inr a, b⟩
        · rintro ⟨rfl | a, b⟩
          · rw [hr] at b; cases b.1
          · exact ⟨a, b⟩
      · cases h
    | ok o0 =>
      rw [hr] at h
      dsimp only at h
      split at h
      · next hd =>
        cases hrest : rpgCollect read epoch expected files with
        | error e => rw [hrest] at h; cases h
        | ok rest =>
          rw [hrest] at h
          cases h
          obtain ⟨h1, h2⟩ := ih rest hrest
          refine ⟨by simpa using h1, fun f o => ?_⟩
          rw [List.mem_cons, h2, List.mem_cons, Prod.mk.injEq]
          constructor
          · rintro (⟨rfl, rfl⟩ | ⟨a, b⟩)
            · exact ⟨Or.inl rfl, hr, (onDate_iff epoch expected _).1 hd⟩
            · exact ⟨Or.inr a, b⟩
          · rintro ⟨rfl | a, b⟩
            · left; rw [hr] at b; cases b.1; exact ⟨rfl, rfl⟩
            · exact Or.inr ⟨a, b⟩
      · next hd =>
        obtain ⟨h1, h2⟩ := ih found h
        refine ⟨h1.trans (List.sublist_cons_self _ _), fun f o => ?_⟩
        rw [h2, List.mem_cons]
        constructor
        · rintro ⟨a, b⟩; exact ⟨Or.inr a, b⟩
        · rintro ⟨rfl | a, b⟩
          · rw [hr] at b
            cases b.1
            exact absurd ((onDate_iff epoch expected _).2 b.2) hd
          · exact ⟨a, b⟩

theorem rpgCollect_error (read : String → Except String (RpgObject α)) (epoch : α) (expected : Option ℤ) (files : List String)
    (e : String) (h : rpgCollect read epoch expected files = .error e) :
    ∃ f ∈ files, read f = .error e ∧ rpgCaught e = false := by
  induction files with
  | nil => cases h
  | cons file files ih =>
    unfold rpgCollect at h
    cases hr : read file with
    | error e' =>
      rw [hr] at h
      dsimp only at h
      split at h
      · obtain ⟨f, hf, h1⟩ := ih h
        exact ⟨f, by simp [hf], h1⟩
      · next hc =>
        cases h
        exact ⟨file, by simp, hr, by simpa using hc⟩
    | ok o0 =>
      rw [hr] at h
      dsimp only at h
      split at h
      · cases hrest : rpgCollect read epoch expected files with
        | error e' =>
          rw [hrest] at h
          cases h
          obtain ⟨f, hf, h1⟩ := ih hrest
          exact ⟨f, by simp [hf], h1⟩
        | ok rest => rw [hrest] at h; cases h
      · obtain ⟨f, hf, h1⟩ := ih h
        exact ⟨f, by simp [hf], h1⟩

/-! ## Stacking -/

/-- Concatenation with what is there, if anything. -/
def concatOpt {β : Type} : Option (NdArray β) → NdArray β → Except String (Option (NdArray β))
  | none, a => .ok (some a)
  | some b, a => (concatArrays b a).map some

theorem stack_fold {β : Type} (l : List (String × NdArray β)) (d d' : List (String × NdArray β))
    (h : l.foldlM stackField d = .ok d') (name : String) (hn : name.startsWith "_" = false) :
    (l.filterMap fun kv => if kv.1 = name then some kv.2 else none).foldlM concatOpt (d.lookup name) =
      .ok (d'.lookup name) := by
  induction l generalizing d with
  | nil => cases h; rfl
  | cons kv l ih =>
    rw [List.foldlM_cons] at h
    cases hs : stackField d kv with
    | error e => rw [hs] at h; cases h
    | ok d1 =>
      rw [hs] at h
      have ih' := ih d1 h
      rw [List.filterMap_cons]
      by_cases hk : kv.1 = name
      · rw [if_pos hk]
        dsimp only
        rw [List.foldlM_cons]
        have hc : concatOpt (d.lookup name) kv.2 = .ok (d1.lookup name) := by
          unfold stackField at hs
          rw [hk, hn] at hs
          simp only [Bool.false_eq_true, if_false] at hs
          cases hl : d.lookup name with
          | none =>
            rw [hl] at hs
            simp only [Except.ok.injEq] at hs
            rw [← hs, lookup_dictSet, if_pos rfl]
            rfl
          | some a =>
            rw [hl] at hs
            unfold concatOpt
            dsimp only at hs ⊢
            cases hcc : concatArrays a kv.2 with
            | error e => rw [hcc] at hs; cases hs
            | ok b =>
              rw [hcc] at hs
              simp only [Except.map, Except.ok.injEq] at hs
              rw [← hs, lookup_dictSet, if_pos rfl]
              rfl
        rw [hc]
        exact ih'
      · rw [if_neg hk]
        have : d1.lookup name = d.lookup name := by
          unfold stackField at hs
          split at hs
          · cases hs; rfl
          · cases hl : d.lookup kv.1 with
            | none =>
              rw [hl] at hs
              simp only [Except.ok.injEq] at hs
              rw [← hs, lookup_dictSet, if_neg fun h => hk h.symm]
            | some a =>
              rw [hl] at hs
              dsimp only at hs
              cases hcc : concatArrays a kv.2 with
              | error e => rw [hcc] at hs; cases hs
              | ok b =>
                rw [hcc] at hs
                simp only [Except.map, Except.ok.injEq] at hs
                rw [← hs, lookup_dictSet, if_neg fun h => hk h.symm]
        rw [← this]
        exact ih'

theorem values_of_dict {β : Type} (l : List (String × β)) (name : String) (h : (l.map Prod.fst).Nodup) :
    (l.filterMap fun kv => if kv.1 = name then some kv.2 else none) = (l.lookup name).toList := by
  induction l with
  | nil => rfl
  | cons kv l ih =>
    obtain ⟨k, v⟩ := kv
    rw [List.map_cons, List.nodup_cons] at h
    rw [List.filterMap_cons, List.lookup_cons]
    by_cases hk : k = name
    · subst hk
      have hl : l.lookup k = none := by
        rw [List.lookup_eq_none_iff]
        intro p hp
        rw [bne_iff_ne]
        rintro rfl
        exact h.1 (List.mem_map.2 ⟨p, hp, rfl⟩)
      have ih' := ih h.2
      rw [hl] at ih'
      simp [ih']
    · rw [if_neg hk, show (name == k) = false by simpa using fun h => hk h.symm]
      exact ih h.2

theorem stackFields_lookup {β : Type} (files : List (List (String × NdArray β)))
    (hd : ∀ f ∈ files, (f.map Prod.fst).Nodup) (d : List (String × NdArray β)) (h : stackFields files = .ok d)
    (name : String) (hn : name.startsWith "_" = false) :
    (files.filterMap fun f => f.lookup name).foldlM concatOpt none = .ok (d.lookup name) := by
  have := stack_fold files.flatten [] d h name hn
  have e : (files.flatten.filterMap fun kv => if kv.1 = name then some kv.2 else none) =
      files.filterMap fun f => f.lookup name := by
    clear this h
    induction files with
    | nil => rfl
    | cons f files ih =>
      rw [List.flatten_cons, List.filterMap_append, ih fun g hg => hd g (by simp [hg]),
        values_of_dict f name (hd f (by simp)), List.filterMap_cons]
      cases f.lookup name <;> simp
  rw [e] at this
  exact this

theorem concat_d1 {β : Type} (xss : List (List β)) (acc : List β) :
    (xss.map NdArray.d1).foldlM concatOpt (some (.d1 acc)) = .ok (some (.d1 (acc ++ xss.flatten))) := by
  induction xss generalizing acc with
  | nil => simp; rfl
  | cons xs xss ih =>
    rw [List.map_cons, List.foldlM_cons]
    show (List.foldlM concatOpt (some (.d1 (acc ++ xs))) (xss.map NdArray.d1)) = _
    rw [ih, List.flatten_cons, List.append_assoc]

theorem concat_d2 {β : Type} (xss : List (List (List β))) (acc : List (List β)) (r : Option (NdArray β))
    (h : (xss.map NdArray.d2).foldlM concatOpt (some (.d2 acc)) = .ok r) : r = some (.d2 (acc ++ xss.flatten)) := by
  induction xss generalizing acc with
  | nil => cases h; simp
  | cons xs xss ih =>
    rw [List.map_cons, List.foldlM_cons] at h
    unfold concatOpt at h
    simp only [concatArrays] at h
    split at h
    · have := ih (acc ++ xs) h
      rw [this, List.flatten_cons, List.append_assoc]
    · cases h

theorem concat_all_d1 {β : Type} (xss : List (List β)) (hne : xss ≠ []) (r : Option (NdArray β))
    (h : (xss.map NdArray.d1).foldlM concatOpt none = .ok r) : r = some (.d1 xss.flatten) := by
  cases xss with
  | nil => exact absurd rfl hne
  | cons xs xss =>
    rw [List.map_cons, List.foldlM_cons] at h
    have := concat_d1 xss xs
    have h' : (xss.map NdArray.d1).foldlM concatOpt (some (.d1 xs)) = .ok r := h
    rw [this] at h'
    cases h'
    simp

theorem concat_all_d2 {β : Type} (xss : List (List (List β))) (hne : xss ≠ []) (r : Option (NdArray β))
    (h : (xss.map NdArray.d2).foldlM concatOpt none = .ok r) : r = some (.d2 xss.flatten) := by
  cases xss with
  | nil => exact absurd rfl hne
  | cons xs xss =>
    rw [List.map_cons, List.foldlM_cons] at h
    have h' : (xss.map NdArray.d2).foldlM concatOpt (some (.d2 xs)) = .ok r := h
    rw [concat_d2 xss xs r h']
    simp

/-! ## Common range -/

/-- The values `out` at the gates `target` are those of the nearest gates of `src`, of two equally near ones that of the lower
one; above and below there are none. -/
def Spec.OnRange (src : List α) (row : List (Option α)) (target : List α) (out : List (Option α)) : Prop :=
  out.length = target.length ∧ ∀ (j : ℕ) (v : α), target[j]? = some v →
    ((∀ x ∈ src, v < x) ∨ (∀ x ∈ src, x < v) → out[j]? = some none) ∧
    (¬ ((∀ x ∈ src, v < x) ∨ (∀ x ∈ src, x < v)) → ∃ (i : ℕ) (x : α), src[i]? = some x ∧
      (∀ (k : ℕ) (y : α), src[k]? = some y → |x - v| ≤ |y - v| ∧ (k < i → |x - v| < |y - v|)) ∧ out[j]? = row[i]?)

theorem vec_get (l : List α) (i : ℕ) (hi : i < l.length) : l[i]? = some (vec l i) := by
  rw [List.getElem?_eq_getElem hi, vec, List.getD_eq_getElem _ _ hi]

theorem increasing_vec (l : List α) (h : l.Pairwise (· < ·)) : Spec.Increasing l.length (vec l) := by
  intro i j hij hj
  rw [vec, vec, List.getD_eq_getElem _ _ (by omega), List.getD_eq_getElem _ _ hj]
  exact List.pairwise_iff_getElem.1 h i j (by omega) hj hij

theorem onRange_self (src : List α) (row : List (Option α)) (hinc : src.Pairwise (· < ·)) (hl : row.length = src.length) :
    Spec.OnRange src row src row := by
  refine ⟨hl, fun j v hv => ⟨?_, fun _ => ⟨j, v, hv, ?_, rfl⟩⟩⟩
  · have hm : v ∈ src := List.mem_of_getElem? hv
    rintro (h | h) <;> exact absurd (h v hm) (lt_irrefl _)
  · intro k y hk
    rw [sub_self, abs_zero]
    refine ⟨abs_nonneg _, fun hki => abs_pos.2 ?_⟩
    obtain ⟨hj1, hj2⟩ := List.getElem?_eq_some_iff.1 hv
    obtain ⟨hk1, hk2⟩ := List.getElem?_eq_some_iff.1 hk
    have := List.pairwise_iff_getElem.1 hinc k j hk1 hj1 hki
    rw [hj2, hk2] at this
    exact sub_ne_zero.2 this.ne

theorem onRange_interp (src target : List α) (row : List (Option α)) (hinc : src.Pairwise (· < ·)) (hne : src ≠ [])
    (hl : row.length = src.length) :
    Spec.OnRange src row target
      (target.map fun v => interpolateAlongY src.length (vec src) (fun _ j => row.getD j none) 0 v) := by
  have hpos : 1 ≤ src.length := List.length_pos_of_ne_nil hne
  have hiv := increasing_vec src hinc
  refine ⟨by simp, fun j v hv => ?_⟩
  obtain ⟨h1, h2⟩ := C32_nearest_gate src.length hpos (vec src) hiv (fun _ j => row.getD j none) v
  have hout : (target.map fun v => interpolateAlongY src.length (vec src) (fun _ j => row.getD j none) 0 v)[j]? =
      some (interpolateAlongY src.length (vec src) (fun _ j => row.getD j none) 0 v) := by
    rw [List.getElem?_map, hv]; rfl
  have hmem : ∀ x ∈ src, ∃ i < src.length, x = vec src i := by
    intro x hx
    obtain ⟨i, hi, rfl⟩ := List.getElem_of_mem hx
    exact ⟨i, hi, by rw [vec, List.getD_eq_getElem _ _ hi]⟩
  have hvm : ∀ i < src.length, vec src i ∈ src := fun i hi => List.mem_of_getElem? (vec_get src i hi)
  have hlow : (∀ x ∈ src, v < x) ↔ v < vec src 0 := by
    refine ⟨fun h => h _ (hvm 0 (by omega)), fun h x hx => ?_⟩
    obtain ⟨i, hi, rfl⟩ := hmem x hx
    exact lt_of_lt_of_le h (hiv.le (by omega) hi)
  have hhigh : (∀ x ∈ src, x < v) ↔ vec src (src.length - 1) < v := by
    refine ⟨fun h => h _ (hvm _ (by omega)), fun h x hx => ?_⟩
    obtain ⟨i, hi, rfl⟩ := hmem x hx
    exact lt_of_le_of_lt (hiv.le (by omega) (by omega)) h
  rw [hlow, hhigh, hout]
  constructor
  · intro h; rw [h2 h 0]
  · intro h
    push Not at h
    obtain ⟨i, hi, a, b, c⟩ := h1 h
    refine ⟨i, vec src i, vec_get src i hi, fun k y hk => ?_, ?_⟩
    · obtain ⟨hk1, hk2⟩ := List.getElem?_eq_some_iff.1 hk
      have hy : y = vec src k := by rw [vec, List.getD_eq_getElem _ _ hk1, hk2]
      rw [hy]
      exact ⟨a k hk1, fun hki => b k hki⟩
    · rw [c 0, List.getD_eq_getElem _ _ (by omega), List.getElem?_eq_getElem (by omega)]

theorem highestRange_spec (r : List α) (rs : List (List α)) :
    ∃ pre post, r :: rs = pre ++ highestRange (r :: rs) :: post ∧
      (∀ s ∈ pre, s.getLastD 0 < (highestRange (r :: rs)).getLastD 0) ∧
      ∀ s ∈ post, s.getLastD 0 ≤ (highestRange (r :: rs)).getLastD 0 := by
  have key : ∀ (rs pre mid : List (List α)) (best : List α), (∀ s ∈ pre, s.getLastD 0 < best.getLastD 0) →
      (∀ s ∈ mid, s.getLastD 0 ≤ best.getLastD 0) →
      ∃ pre' post, pre ++ best :: mid ++ rs = pre' ++
          (rs.foldl (fun best s => if best.getLastD 0 < s.getLastD 0 then s else best) best) :: post ∧
        (∀ s ∈ pre', s.getLastD 0 <
          (rs.foldl (fun best s => if best.getLastD 0 < s.getLastD 0 then s else best) best).getLastD 0) ∧
        ∀ s ∈ post, s.getLastD 0 ≤
          (rs.foldl (fun best s => if best.getLastD 0 < s.getLastD 0 then s else best) best).getLastD 0 := by
    intro rs
    induction rs with
    | nil => intro pre mid best h1 h2; exact ⟨pre, mid, by simp, h1, h2⟩
    | cons s rs ih =>
      intro pre mid best h1 h2
      rw [List.foldl_cons]
      by_cases hb : best.getLastD 0 < s.getLastD 0
      · rw [if_pos hb]
        have := ih (pre ++ best :: mid) [] s (by
          intro u hu
          rcases List.mem_append.1 hu with hu | hu
          · exact lt_trans (h1 u hu) hb
          · rcases List.mem_cons.1 hu with rfl | hu
            · exact hb
            · exact lt_of_le_of_lt (h2 u hu) hb) (by simp)
        simpa using this
      · rw [if_neg hb]
        have := ih pre (mid ++ [s]) best h1 (by
          intro u hu
          rcases List.mem_append.1 hu with hu | hu
          · exact h2 u hu
          · rw [List.mem_singleton.1 hu]; exact not_lt.1 hb)
        simpa using this
  have := key rs [] [] r (by simp) (by simp)
  simpa [highestRange] using this

/-- All objects on the same range. -/
theorem toCommonHeight_ok (objects out : List (RpgObject α)) (hne : objects ≠ []) (h : toCommonHeight objects = .ok out) :
    ∃ target, out = objects.map (RpgObject.resample target) ∧
      ∃ pre post o, objects = pre ++ o :: post ∧ o.range = target ∧
        (∀ s ∈ pre, s.range = target ∨ s.range.getLastD 0 < target.getLastD 0) ∧
        ∀ s ∈ post, s.range.getLastD 0 ≤ target.getLastD 0 := by
  unfold toCommonHeight at h
  dsimp only at h
  split at h
  · next hall =>
    cases h
    cases objects with
    | nil => exact absurd rfl hne
    | cons o l =>
      refine ⟨o.range, ?_, [], l, o, rfl, rfl, by simp, ?_⟩
      · simp only [List.all_eq_true, List.mem_map, forall_exists_index, and_imp, forall_apply_eq_imp_iff₂,
          decide_eq_true_eq, List.map_cons, List.headD_cons] at hall
        refine (List.map_id _).symm.trans (List.map_congr_left fun x hx => ?_)
        unfold RpgObject.resample
        rw [if_pos]
        · rfl
        · exact hall x.range (by
            rcases List.mem_cons.1 hx with rfl | hx
            · simp
            · simp only [List.mem_cons, List.mem_map]; exact Or.inr ⟨x, hx, rfl⟩)
      · intro s hs
        simp only [List.all_eq_true, decide_eq_true_eq, List.map_cons, List.headD_cons] at hall
        rw [hall s.range (by simp only [List.mem_cons, List.mem_map]; exact Or.inr ⟨s, hs, rfl⟩)]
  · split at h
    · cases h
    · cases h
      cases objects with
      | nil => exact absurd rfl hne
      | cons o l =>
        obtain ⟨pre, post, h1, h2, h3⟩ := highestRange_spec o.range (l.map RpgObject.range)
        refine ⟨_, rfl, ?_⟩
        rw [List.map_cons]
        generalize highestRange (o.range :: l.map RpgObject.range) = target at h1 h2 h3
        have h1' : (o :: l).map RpgObject.range = pre ++ target :: post := by rw [List.map_cons, h1]
        obtain ⟨l1, l2, e, e1, e2⟩ := List.map_eq_append_iff.1 h1'
        obtain ⟨o', l3, e3, e4, e5⟩ := List.map_eq_cons_iff.1 e2
        subst e3
        refine ⟨l1, l3, o', e, e4, ?_, ?_⟩
        · intro s hs
          right
          apply h2
          rw [← e1]
          exact List.mem_map_of_mem hs
        · intro s hs
          apply h3
          rw [← e5]
          exact List.mem_map_of_mem hs

/-! ## The day -/

theorem rpgDay_ok (read : String → Except String (RpgObject α)) (isInt : String → Bool) (epoch : α) (expected : Option ℤ)
    (files : List String) (day : RpgDay α) (h : rpgDay read isInt epoch expected files = .ok day) :
    ∃ found common data header0 header, rpgCollect read epoch expected files = .ok found ∧ found ≠ [] ∧
      toCommonHeight (found.map Prod.snd) = .ok common ∧
      stackFields ((padObjects common).map RpgObject.data) = .ok data ∧
      stackFields ((padObjects common).map RpgObject.expandedHeader) = .ok header0 ∧
      stackStarts ((padObjects common).map RpgObject.expandedStarts) = .ok day.starts ∧
      ((padObjects common).flatMap fun o => List.replicate o.times.length o.customer).dedup.length ≤ 1 ∧
      rpgConstant.foldlM constantField header0 = .ok header ∧
      day.files = found.map Prod.fst ∧ day.range = ((padObjects common).map RpgObject.range).headD [] ∧
      day.header = header ∧ day.data = data.map fun kv => (kv.1, maskArray (isInt kv.1) kv.1 kv.2) := by
  unfold rpgDay at h
  simp only [bind, Except.bind, pure, Except.pure] at h
  cases h1 : rpgCollect read epoch expected files with
  | error e => rw [h1] at h; cases h
  | ok found =>
  rw [h1] at h
  try dsimp only at h
  cases hf : found with
  | nil => rw [hf] at h; cases h
  | cons fo l =>
  rw [← hf]
  have hne : found ≠ [] := by rw [hf]; simp
  rw [if_neg (by simpa using hne)] at h
  try dsimp only at h
  cases h2 : toCommonHeight (found.map Prod.snd) with
  | error e => rw [h2] at h; cases h
  | ok common =>
  rw [h2] at h
  try dsimp only at h
  cases h3 : stackFields ((padObjects common).map RpgObject.data) with
  | error e => rw [h3] at h; cases h
  | ok data =>
  rw [h3] at h
  try dsimp only at h
  cases h4 : stackFields ((padObjects common).map RpgObject.expandedHeader) with
  | error e => rw [h4] at h; cases h
  | ok header0 =>
  rw [h4] at h
  try dsimp only at h
  cases h5 : stackStarts ((padObjects common).map RpgObject.expandedStarts) with
  | error e => rw [h5] at h; cases h
  | ok starts =>
  rw [h5] at h
  try dsimp only at h
  by_cases h6 : ((padObjects common).flatMap fun o => List.replicate o.times.length o.customer).dedup.length > 1
  · rw [if_pos h6] at h; cases h
  rw [if_neg h6] at h
  try dsimp only at h
  cases h7 : rpgConstant.foldlM constantField header0 with
  | error e => rw [h7] at h; cases h
  | ok header =>
  rw [h7] at h
  simp only [Except.ok.injEq] at h
  subst h
  exact ⟨found, common, data, header0, header, rfl, hne, h2, h3, h4, h5, by omega, h7, rfl, rfl, rfl, rfl⟩

/-- Names of variables are different (they are the keys of a dictionary). -/
def Spec.IsDict (o : RpgObject α) : Prop := (o.data.map Prod.fst).Nodup ∧ (o.header.map Prod.fst).Nodup

theorem padObjects_data (objects : List (RpgObject α)) : (padObjects objects).map RpgObject.data = objects.map RpgObject.data := by
  unfold padObjects
  rw [List.map_map]
  apply List.map_congr_left
  intro o _
  simp only [Function.comp]
  split <;> rfl

theorem padObjects_range (objects : List (RpgObject α)) :
    (padObjects objects).map RpgObject.range = objects.map RpgObject.range := by
  unfold padObjects
  rw [List.map_map]
  apply List.map_congr_left
  intro o _
  simp only [Function.comp]
  split <;> rfl

theorem resample_range (target : List α) (o : RpgObject α) : (o.resample target).range = target := by
  unfold RpgObject.resample
  split
  · next h => exact h
  · rfl

theorem resample_header (target : List α) (o : RpgObject α) : (o.resample target).header = o.header := by
  unfold RpgObject.resample
  split <;> rfl

theorem resample_lookup (target : List α) (o : RpgObject α) (name : String) :
    (o.resample target).data.lookup name =
      (o.data.lookup name).map fun a => if o.range = target then a else resampleArray o.range target a := by
  unfold RpgObject.resample
  by_cases h : o.range = target
  · simp only [if_pos h]
    cases o.data.lookup name <;> rfl
  · simp only [if_neg h]
    exact lookup_map (resampleArray o.range target) o.data name

theorem resample_times (target : List α) (o : RpgObject α) : (o.resample target).times = o.times := by
  unfold RpgObject.times
  rw [resample_lookup]
  cases o.data.lookup "time" with
  | none => rfl
  | some a =>
    simp only [Option.map_some]
    by_cases hr : o.range = target
    · rw [if_pos hr]
    · rw [if_neg hr]
      cases a with
      | d2 rows =>
        simp only [resampleArray]
        by_cases hc : (rows.all fun r => decide (r.length = o.range.length)) = true
        · rw [if_pos hc]
        · rw [if_neg hc]
      | _ => rfl

theorem resample_dict (target : List α) (o : RpgObject α) (h : Spec.IsDict o) : Spec.IsDict (o.resample target) := by
  refine ⟨?_, by rw [resample_header]; exact h.2⟩
  unfold RpgObject.resample
  split
  · exact h.1
  · simp only [List.map_map]
    exact h.1

/-- What is known of the objects after resampling. -/
theorem rpgDay_objects (read : String → Except String (RpgObject α)) (isInt : String → Bool) (epoch : α)
    (expected : Option ℤ) (files : List String) (day : RpgDay α) (h : rpgDay read isInt epoch expected files = .ok day) :
    ∃ (found : List (String × RpgObject α)) (data header0 header : List (String × NdArray (Option α))),
      rpgCollect read epoch expected files = .ok found ∧ found ≠ [] ∧ day.files = found.map Prod.fst ∧
      (∀ fo ∈ found, read fo.1 = .ok fo.2) ∧
      stackFields (found.map fun fo => (fo.2.resample day.range).data) = .ok data ∧
      stackFields ((padObjects (found.map fun fo => fo.2.resample day.range)).map RpgObject.expandedHeader) = .ok header0 ∧
      stackStarts ((padObjects (found.map fun fo => fo.2.resample day.range)).map RpgObject.expandedStarts) = .ok day.starts ∧
      rpgConstant.foldlM constantField header0 = .ok header ∧ day.header = header ∧
      day.data = (data.map fun kv => (kv.1, maskArray (isInt kv.1) kv.1 kv.2)) ∧
      ((padObjects (found.map fun fo => fo.2.resample day.range)).flatMap fun o =>
        List.replicate o.times.length o.customer).dedup.length ≤ 1 ∧
      ∃ pre post fo, found = pre ++ fo :: post ∧ fo.2.range = day.range ∧
        (∀ s ∈ pre, s.2.range = day.range ∨ s.2.range.getLastD 0 < day.range.getLastD 0) ∧
        ∀ s ∈ post, s.2.range.getLastD 0 ≤ day.range.getLastD 0 := by
  obtain ⟨found, common, data, header0, header, h1, h2, h3, h4, h5, h6, h7, h8, h9, h10, h11, h12⟩ :=
    rpgDay_ok read isInt epoch expected files day h
  obtain ⟨target, ht, pre, post, o, e1, e2, e3, e4⟩ := toCommonHeight_ok _ common (by simpa using h2) h3
  have hcommon : common = found.map fun fo => fo.2.resample target := by rw [ht, List.map_map]; rfl
  have hr : day.range = target := by
    rw [h10, padObjects_range, hcommon]
    cases found with
    | nil => exact absurd rfl h2
    | cons fo l => simp [resample_range]
  rw [← hr] at hcommon e2 e3 e4
  subst hcommon
  refine ⟨found, data, header0, header, h1, h2, h9, ?_, ?_, h5, h6, h8, h11, h12, h7, ?_⟩
  · intro fo hfo
    exact (((rpgCollect_ok read epoch expected files found h1).2 fo.1 fo.2).1 hfo).2.1
  · rw [padObjects_data, List.map_map] at h4
    exact h4
  · obtain ⟨l1, l2, f1, f2, f3⟩ := List.map_eq_append_iff.1 e1
    obtain ⟨fo, l3, f4, f5, f6⟩ := List.map_eq_cons_iff.1 f3
    subst f4
    refine ⟨l1, l3, fo, f1, by rw [f5]; exact e2, ?_, ?_⟩
    · intro s hs; exact e3 s.2 (by rw [← f2]; exact List.mem_map_of_mem hs)
    · intro s hs; exact e4 s.2 (by rw [← f6]; exact List.mem_map_of_mem hs)

/-- **C128.** The files that are used are the files that can be read, if a date is given only those in which all time stamps
are on that date, in the given order; there is at least one. -/
theorem C128_files (read : String → Except String (RpgObject α)) (isInt : String → Bool) (epoch : α) (expected : Option ℤ)
    (files : List String) (day : RpgDay α) (h : rpgDay read isInt epoch expected files = .ok day) :
    day.files ≠ [] ∧ day.files.Sublist files ∧
    ∀ f, f ∈ day.files ↔ f ∈ files ∧ ∃ o, read f = .ok o ∧ Spec.FileOfDay epoch expected o := by
  obtain ⟨found, _, _, _, h1, h2, h3, _⟩ := rpgDay_objects read isInt epoch expected files day h
  obtain ⟨a, b⟩ := rpgCollect_ok read epoch expected files found h1
  rw [h3]
  refine ⟨by simpa using h2, a, fun f => ?_⟩
  rw [List.mem_map]
  constructor
  · rintro ⟨⟨f', o⟩, hm, rfl⟩
    obtain ⟨c, d⟩ := (b f' o).1 hm
    exact ⟨c, o, d⟩
  · rintro ⟨c, o, d⟩
    exact ⟨(f, o), (b f o).2 ⟨c, d⟩, rfl⟩

/-- **C128.** Without any such file an error is raised. Errors of the four kinds that mean a file is broken do not matter, all
others are passed on. -/
theorem C128_no_files (read : String → Except String (RpgObject α)) (isInt : String → Bool) (epoch : α) (expected : Option ℤ)
    (files : List String) (hread : ∀ f ∈ files, ∀ e, read f = .error e →
      e ∈ ["RPGFileError", "TypeError", "ValueError", "IndexError"])
    (hnone : ∀ f ∈ files, ∀ o, read f = .ok o → ¬ Spec.FileOfDay epoch expected o) :
    rpgDay read isInt epoch expected files = .error "ValidTimeStampError: No valid files found" := by
  unfold rpgDay
  simp only [bind, Except.bind, pure, Except.pure]
  cases h1 : rpgCollect read epoch expected files with
  | error e =>
    obtain ⟨f, hf, he, hc⟩ := rpgCollect_error read epoch expected files e h1
    have := hread f hf e he
    exfalso
    simp only [List.mem_cons, List.not_mem_nil, or_false] at this
    rcases this with rfl | rfl | rfl | rfl <;> simp [rpgCaught] at hc
  | ok found =>
    obtain ⟨_, b⟩ := rpgCollect_ok read epoch expected files found h1
    cases found with
    | nil => rfl
    | cons fo l =>
      obtain ⟨c, d, e⟩ := (b fo.1 fo.2).1 (by simp)
      exact absurd e (hnone fo.1 c fo.2 d)

/-- **C128.** The ranges are those of the first of the files with the highest top gate. -/
theorem C128_range (read : String → Except String (RpgObject α)) (isInt : String → Bool) (epoch : α) (expected : Option ℤ)
    (files : List String) (day : RpgDay α) (h : rpgDay read isInt epoch expected files = .ok day) :
    ∃ pre post f o, day.files = pre ++ f :: post ∧ read f = .ok o ∧ o.range = day.range ∧
      (∀ g ∈ pre, ∀ p, read g = .ok p → p.range = day.range ∨ p.range.getLastD 0 < day.range.getLastD 0) ∧
      ∀ g ∈ post, ∀ p, read g = .ok p → p.range.getLastD 0 ≤ day.range.getLastD 0 := by
  obtain ⟨found, _, _, _, h1, h2, h3, hread, _, _, _, _, _, _, _, pre, post, fo, e1, e2, e3, e4⟩ :=
    rpgDay_objects read isInt epoch expected files day h
  refine ⟨pre.map Prod.fst, post.map Prod.fst, fo.1, fo.2, by rw [h3, e1]; simp, hread fo (by rw [e1]; simp), e2, ?_, ?_⟩
  · intro g hg p hp
    obtain ⟨s, hs, rfl⟩ := List.mem_map.1 hg
    have := hread s (by rw [e1]; simp [hs])
    rw [hp] at this
    cases this
    exact e3 s hs
  · intro g hg p hp
    obtain ⟨s, hs, rfl⟩ := List.mem_map.1 hg
    have := hread s (by rw [e1]; simp [hs])
    rw [hp] at this
    cases this
    exact e4 s hs

theorem filterMap_lookup_some {β γ : Type} (l : List β) (f : β → Option γ) (g : β → γ) (h : ∀ x ∈ l, f x = some (g x)) :
    l.filterMap f = l.map g := by
  induction l with
  | nil => rfl
  | cons x l ih => rw [List.filterMap_cons, h x (by simp), List.map_cons, ih fun y hy => h y (by simp [hy])]

theorem lookup_mask (isInt : String → Bool) (data : List (String × NdArray (Option α))) (name : String) :
    (data.map fun kv => (kv.1, maskArray (isInt kv.1) kv.1 kv.2)).lookup name =
      (data.lookup name).map (maskArray (isInt name) name) := by
  induction data with
  | nil => rfl
  | cons a l ih =>
    obtain ⟨k, x⟩ := a
    simp only [List.lookup_cons, List.map_cons]
    by_cases hb : name = k
    · subst hb; simp
    · rw [show (name == k) = false by simpa using hb]
      exact ih

/-- **C128.** A variable with time and range: there is one profile for each profile of the files, in this order, on the common
range. Zeros and other fill values are masked (property C92). -/
theorem C128_profiles (read : String → Except String (RpgObject α)) (isInt : String → Bool) (epoch : α) (expected : Option ℤ)
    (files : List String) (day : RpgDay α) (h : rpgDay read isInt epoch expected files = .ok day) (name : String)
    (hn : name.startsWith "_" = false) (hint : isInt name = false) (rows : String → List (List (Option α)))
    (hfile : ∀ f ∈ day.files, ∀ o, read f = .ok o → Spec.IsDict o ∧ o.data.lookup name = some (.d2 (rows f)) ∧
      (∀ r ∈ rows f, r.length = o.range.length) ∧ o.range ≠ [] ∧ o.range.Pairwise (· < ·)) :
    ∃ out, day.data.lookup name = some (.d2 (out.map fun r => r.map maskInvalid)) ∧
      List.Forall₂ (fun fr row => ∃ o, read fr.1 = .ok o ∧ Spec.OnRange o.range fr.2 day.range row)
        (day.files.flatMap fun f => (rows f).map fun r => (f, r)) out := by
  obtain ⟨found, data, _, _, h1, h2, h3, hread, h4, _, _, _, _, h5, _⟩ :=
    rpgDay_objects read isInt epoch expected files day h
  have hfo : ∀ fo ∈ found, Spec.IsDict fo.2 ∧ fo.2.data.lookup name = some (.d2 (rows fo.1)) ∧
      (∀ r ∈ rows fo.1, r.length = fo.2.range.length) ∧ fo.2.range ≠ [] ∧ fo.2.range.Pairwise (· < ·) := by
    intro fo hfo
    exact hfile fo.1 (by rw [h3]; exact List.mem_map_of_mem hfo) fo.2 (hread fo hfo)
  let new : String × RpgObject α → List (List (Option α)) := fun fo =>
    if fo.2.range = day.range then rows fo.1
    else (rows fo.1).map fun r => day.range.map fun v =>
      interpolateAlongY fo.2.range.length (vec fo.2.range) (fun _ j => r.getD j none) 0 v
  have hlook : ∀ fo ∈ found, (fo.2.resample day.range).data.lookup name = some (.d2 (new fo)) := by
    intro fo hm
    obtain ⟨_, hl, hlen, _, _⟩ := hfo fo hm
    rw [resample_lookup, hl]
    simp only [Option.map_some, new]
    split
    · rfl
    · simp only [resampleArray]
      rw [if_pos (by simpa using hlen)]
  have hst := stackFields_lookup _ (by
    intro f hf
    obtain ⟨fo, hm, rfl⟩ := List.mem_map.1 hf
    exact (resample_dict day.range fo.2 (hfo fo hm).1).1) data h4 name hn
  rw [List.filterMap_map, filterMap_lookup_some found
      ((fun f => List.lookup name f) ∘ fun fo => (RpgObject.resample day.range fo.2).data)
      (fun fo => NdArray.d2 (new fo)) hlook,
    show (found.map fun fo => NdArray.d2 (new fo)) = (found.map new).map NdArray.d2 by rw [List.map_map]; rfl] at hst
  have hd := concat_all_d2 _ (by simpa using h2) _ hst
  refine ⟨(found.map new).flatten, ?_, ?_⟩
  · rw [h5, lookup_mask, hd, hint]
    rfl
  · rw [h3, List.flatMap_map]
    have : ∀ l : List (String × RpgObject α), (∀ fo ∈ l, fo ∈ found) →
        List.Forall₂ (fun fr row => ∃ o, read fr.1 = .ok o ∧ Spec.OnRange o.range fr.2 day.range row)
          (l.flatMap fun fo => (rows fo.1).map fun r => (fo.1, r)) (l.map new).flatten := by
      intro l
      induction l with
      | nil => intro _; exact List.Forall₂.nil
      | cons fo l ih =>
        intro hl
        rw [List.flatMap_cons, List.map_cons, List.flatten_cons]
        refine List.rel_append ?_ (ih fun g hg => hl g (by simp [hg]))
        obtain ⟨_, _, hlen, hne, hinc⟩ := hfo fo (hl fo (by simp))
        have hr := hread fo (hl fo (by simp))
        simp only [new]
        split
        · next he =>
          rw [List.forall₂_map_left_iff]
          refine List.forall₂_same.2 fun r hr' => ⟨fo.2, hr, ?_⟩
          dsimp only
          rw [← he]
          exact onRange_self _ r hinc (hlen r hr')
        · rw [List.forall₂_map_left_iff, List.forall₂_map_right_iff]
          refine List.forall₂_same.2 fun r hr' => ⟨fo.2, hr, ?_⟩
          exact onRange_interp _ _ r hinc hne (hlen r hr')
    exact this found fun _ h => h

/-- **C128.** A variable with time, such as the times themselves: the values of the files follow each other, in the same order as
the profiles. -/
theorem C128_vectors (read : String → Except String (RpgObject α)) (isInt : String → Bool) (epoch : α) (expected : Option ℤ)
    (files : List String) (day : RpgDay α) (h : rpgDay read isInt epoch expected files = .ok day) (name : String)
    (hn : name.startsWith "_" = false) (xs : String → List (Option α))
    (hfile : ∀ f ∈ day.files, ∀ o, read f = .ok o → Spec.IsDict o ∧ o.data.lookup name = some (.d1 (xs f))) :
    day.data.lookup name = some (.d1 (if isInt name = false ∧ (name = "air_temperature" ∨ name = "air_pressure")
      then (day.files.flatMap xs).map maskInvalid else day.files.flatMap xs)) := by
  obtain ⟨found, data, _, _, h1, h2, h3, hread, h4, _, _, _, _, h5, _⟩ :=
    rpgDay_objects read isInt epoch expected files day h
  have hfo : ∀ fo ∈ found, Spec.IsDict fo.2 ∧ fo.2.data.lookup name = some (.d1 (xs fo.1)) := by
    intro fo hfo
    exact hfile fo.1 (by rw [h3]; exact List.mem_map_of_mem hfo) fo.2 (hread fo hfo)
  have hlook : ∀ fo ∈ found, (fo.2.resample day.range).data.lookup name = some (.d1 (xs fo.1)) := by
    intro fo hm
    rw [resample_lookup, (hfo fo hm).2]
    simp [resampleArray]
  have hst := stackFields_lookup _ (by
    intro f hf
    obtain ⟨fo, hm, rfl⟩ := List.mem_map.1 hf
    exact (resample_dict day.range fo.2 (hfo fo hm).1).1) data h4 name hn
  rw [List.filterMap_map, filterMap_lookup_some found
      ((fun f => List.lookup name f) ∘ fun fo => (RpgObject.resample day.range fo.2).data)
      (fun fo => NdArray.d1 (xs fo.1)) hlook,
    show (found.map fun fo => NdArray.d1 (xs fo.1)) = (found.map fun fo => xs fo.1).map NdArray.d1 by
      rw [List.map_map]; rfl] at hst
  have hd := concat_all_d1 _ (by simpa using h2) _ hst
  have hfl : (found.map fun fo => xs fo.1).flatten = day.files.flatMap xs := by
    rw [h3, List.flatMap_map]; rfl
  rw [h5, lookup_mask, hd, hfl]
  simp only [Option.map_some, maskArray]
  cases isInt name
  · simp only [Bool.false_eq_true, if_false, true_and]
    split <;> rfl
  · simp

end

end Cloudnet
