import Mathlib.Tactic
import Verif.RpgDay.Records

/-!
Property C128: headers of one day of RPG cloud radar files.
-/

set_option linter.unusedSectionVars false

namespace Cloudnet

section
variable {α : Type} [Field α] [LinearOrder α] [IsStrictOrderedRing α] [FloorRing α]

/-- `RpgObject.pad` if there is something to pad. -/
def RpgObject.padTo (m : ℕ) (o : RpgObject α) : RpgObject α := if o.starts.length = m then o else o.pad m

theorem padTo_times (m : ℕ) (o : RpgObject α) : (o.padTo m).times = o.times := by
  unfold RpgObject.padTo
  split <;> rfl

theorem padTo_customer (m : ℕ) (o : RpgObject α) : (o.padTo m).customer = o.customer := by
  unfold RpgObject.padTo
  split <;> rfl

theorem padTo_keys (m : ℕ) (o : RpgObject α) : (o.padTo m).header.map Prod.fst = o.header.map Prod.fst := by
  unfold RpgObject.padTo
  split
  · rfl
  · simp [RpgObject.pad]

theorem padTo_lookup (m : ℕ) (o : RpgObject α) (name : String) :
    (o.padTo m).header.lookup name =
      (o.header.lookup name).map fun a => if o.starts.length = m then a else padField o.starts.length m a := by
  unfold RpgObject.padTo
  by_cases h : o.starts.length = m
  · simp only [if_pos h]
    cases o.header.lookup name <;> rfl
  · simp only [if_neg h, RpgObject.pad]
    exact lookup_map (padField o.starts.length m) o.header name

theorem padTo_starts (m : ℕ) (o : RpgObject α) (h : o.starts.length ≤ m) :
    (o.padTo m).starts = o.starts ++ List.replicate (m - o.starts.length) none := by
  unfold RpgObject.padTo
  split
  · next he => rw [he]; simp
  · rfl

theorem padObjects_eq (objects : List (RpgObject α)) :
    padObjects objects = objects.map (RpgObject.padTo ((objects.map fun o => o.starts.length).foldl max 0)) := rfl

theorem expandedHeader_lookup (o : RpgObject α) (name : String) (hn : name.startsWith "_" = false) :
    o.expandedHeader.lookup name = (o.header.lookup name).map fun a =>
      expandField o.times.length (if name = "latitude" ∨ name = "longitude" then medianField a else a) := by
  unfold RpgObject.expandedHeader
  generalize o.times.length = n
  generalize o.header = l
  induction l with
  | nil => rfl
  | cons kv l ih =>
    obtain ⟨k, a⟩ := kv
    rw [List.map_cons]
    by_cases hk : name = k
    · subst hk
      simp [hn]
    · have hb : (name == k) = false := by simpa using hk
      rw [List.lookup_cons (b := a), hb]
      rw [List.lookup_cons, show (name == (if k.startsWith "_" = true then (k, a) else (k, expandField n
        (if k = "latitude" ∨ k = "longitude" then medianField a else a))).1) = false by split <;> exact hb]
      exact ih

theorem expandedHeader_keys (o : RpgObject α) : o.expandedHeader.map Prod.fst = o.header.map Prod.fst := by
  unfold RpgObject.expandedHeader
  rw [List.map_map]
  apply List.map_congr_left
  intro kv _
  simp only [Function.comp]
  split <;> rfl

/-! ## Constant fields -/

theorem constantField_lookup (header h' : List (String × NdArray (Option α))) (key name : String)
    (h : constantField header key = .ok h') :
    (name ≠ key → h'.lookup name = header.lookup name) ∧
    (name = key → ∀ a, header.lookup name = some a → ∃ x, a.elements.dedup = [x] ∧ h'.lookup name = some (.d0 x)) := by
  unfold constantField at h
  cases hl : header.lookup key with
  | none =>
    rw [hl] at h
    cases h
    exact ⟨fun _ => rfl, fun he a ha => by rw [he, hl] at ha; cases ha⟩
  | some a =>
    rw [hl] at h
    dsimp only at h
    split at h
    · cases h
    · next x hx =>
      cases h
      refine ⟨fun hne => by rw [lookup_dictSet, if_neg hne], fun he b hb => ?_⟩
      rw [he, hl] at hb
      cases hb
      exact ⟨x, hx, by rw [lookup_dictSet, if_pos he]⟩
    · cases h

theorem constants_other (keys : List String) (header h' : List (String × NdArray (Option α))) (name : String)
    (h : keys.foldlM constantField header = .ok h') (hk : name ∉ keys) : h'.lookup name = header.lookup name := by
  induction keys generalizing header with
  | nil => cases h; rfl
  | cons key keys ih =>
    rw [List.foldlM_cons] at h
    cases hc : constantField header key with
    | error e => rw [hc] at h; cases h
    | ok h1 =>
      rw [hc] at h
      rw [ih h1 h fun hm => hk (by simp [hm])]
      exact (constantField_lookup header h1 key name hc).1 fun he => hk (by simp [he])

theorem constants_value (keys : List String) (hnd : keys.Nodup) (header h' : List (String × NdArray (Option α))) (name : String)
    (h : keys.foldlM constantField header = .ok h') (hk : name ∈ keys) (a : NdArray (Option α))
    (ha : header.lookup name = some a) : ∃ x, a.elements.dedup = [x] ∧ h'.lookup name = some (.d0 x) := by
  induction keys generalizing header with
  | nil => cases hk
  | cons key keys ih =>
    rw [List.foldlM_cons] at h
    rw [List.nodup_cons] at hnd
    cases hc : constantField header key with
    | error e => rw [hc] at h; cases h
    | ok h1 =>
      rw [hc] at h
      by_cases he : name = key
      · obtain ⟨x, hx1, hx2⟩ := (constantField_lookup header h1 key name hc).2 he a ha
        refine ⟨x, hx1, ?_⟩
        rw [constants_other keys h1 h' name h (he ▸ hnd.1)]
        exact hx2
      · refine ih hnd.2 h1 h ((List.mem_cons.1 hk).resolve_left he) ?_
        rw [(constantField_lookup header h1 key name hc).1 he]
        exact ha

/-! ## C128 -/

/-- The stacked header before constants are looked at. -/
theorem header_stack (found : List (String × RpgObject α)) (target : List α) (header0 : List (String × NdArray (Option α)))
    (h : stackFields ((padObjects (found.map fun fo => fo.2.resample target)).map RpgObject.expandedHeader) = .ok header0)
    (hd : ∀ fo ∈ found, Spec.IsDict fo.2) (name : String) (hn : name.startsWith "_" = false) :
    (found.filterMap fun fo => (fo.2.header.lookup name).map fun a =>
      expandField fo.2.times.length (if name = "latitude" ∨ name = "longitude" then medianField
        (if (fo.2.resample target).starts.length = ((found.map fun fo => (fo.2.resample target).starts.length).foldl max 0)
          then a else padField (fo.2.resample target).starts.length
            ((found.map fun fo => (fo.2.resample target).starts.length).foldl max 0) a)
        else (if (fo.2.resample target).starts.length = ((found.map fun fo => (fo.2.resample target).starts.length).foldl max 0)
          then a else padField (fo.2.resample target).starts.length
            ((found.map fun fo => (fo.2.resample target).starts.length).foldl max 0) a))).foldlM concatOpt none =
      .ok (header0.lookup name) := by
  rw [padObjects_eq, List.map_map, List.map_map] at h
  have hst := stackFields_lookup _ (by
    intro f hf
    obtain ⟨fo, hm, rfl⟩ := List.mem_map.1 hf
    simp only [Function.comp]
    rw [expandedHeader_keys, padTo_keys, resample_header]
    exact (hd fo hm).2) header0 h name hn
  rw [List.filterMap_map] at hst
  rw [← hst]
  congr 1
  apply List.filterMap_congr
  intro fo _
  simp only [Function.comp]
  rw [expandedHeader_lookup _ _ hn, padTo_lookup, padTo_times, resample_times, resample_header, List.map_map]
  cases fo.2.header.lookup name with
  | none => rfl
  | some a => rfl

/-- Arrays with rows that could be concatenated have rows of the same length. -/
theorem concat_columns {β : Type} (xss : List (List (List β))) (hne : xss ≠ []) (acc : List (List β)) (r : Option (NdArray β))
    (h : (xss.map NdArray.d2).foldlM concatOpt (some (.d2 acc)) = .ok r) : ∃ m, ∀ x ∈ acc ++ xss.flatten, x.length = m := by
  induction xss generalizing acc with
  | nil => exact absurd rfl hne
  | cons xs xss ih =>
    rw [List.map_cons, List.foldlM_cons] at h
    unfold concatOpt at h
    simp only [concatArrays] at h
    split at h
    · next hall =>
      rw [List.flatten_cons, ← List.append_assoc]
      by_cases he : xss = []
      · subst he
        rw [List.all_eq_true] at hall
        refine ⟨((acc ++ xs).headD []).length, fun x hx => ?_⟩
        rw [List.flatten_nil, List.append_nil] at hx
        exact of_decide_eq_true (hall x hx)
      · exact ih he (acc ++ xs) h
    · cases h

/-- **C128.** If a day has at least two files with the same ranges, all their profiles of a variable have the same number of values; otherwise there is no record of the day. -/
theorem C128_columns (read : String → Except String (RpgObject α)) (isInt : String → Bool) (epoch : α) (expected : Option ℤ)
    (files : List String) (day : RpgDay α) (h : rpgDay read isInt epoch expected files = .ok day) (name : String)
    (hn : name.startsWith "_" = false) (rows : String → List (List (Option α)))
    (hfile : ∀ f ∈ day.files, ∀ o, read f = .ok o → Spec.IsDict o ∧ o.range = day.range ∧ o.data.lookup name = some (.d2 (rows f)))
    (h2 : 2 ≤ day.files.length) (f g : String) (hf : f ∈ day.files) (hg : g ∈ day.files) (x y : List (Option α)) (hx : x ∈ rows f) (hy : y ∈ rows g) :
    x.length = y.length := by
  obtain ⟨found, data, _, _, _, _, h3, hread, hstack, _⟩ := rpgDay_objects read isInt epoch expected files day h
  have hfo : ∀ fo ∈ found, Spec.IsDict fo.2 ∧ fo.2.range = day.range ∧ fo.2.data.lookup name = some (.d2 (rows fo.1)) := fun fo hm =>
    hfile fo.1 (by rw [h3]; exact List.mem_map_of_mem hm) fo.2 (hread fo hm)
  have hres : ∀ fo ∈ found, fo.2.resample day.range = fo.2 := fun fo hm => by
    unfold RpgObject.resample
    rw [if_pos (hfo fo hm).2.1]
  have hst := stackFields_lookup _ (by
    intro d hd
    obtain ⟨fo, hm, rfl⟩ := List.mem_map.1 hd
    rw [hres fo hm]
    exact (hfo fo hm).1.1) data hstack name hn
  have e : ((found.map fun fo => (fo.2.resample day.range).data).filterMap fun d => d.lookup name) = (day.files.map rows).map NdArray.d2 := by
    rw [h3, List.map_map, List.map_map, List.filterMap_map, ← List.filterMap_eq_map]
    apply List.filterMap_congr
    intro fo hm
    simp only [Function.comp]
    rw [hres fo hm, (hfo fo hm).2.2]
  rw [e] at hst
  have key : ∃ m, ∀ z ∈ (day.files.map rows).flatten, z.length = m := by
    cases hd : day.files with
    | nil => rw [hd] at hf; cases hf
    | cons a l =>
      rw [hd] at hst h2
      rw [List.map_cons, List.map_cons, List.foldlM_cons] at hst
      rw [List.map_cons, List.flatten_cons]
      refine concat_columns (l.map rows) (fun hl => ?_) (rows a) _ hst
      rw [List.map_eq_nil_iff] at hl
      subst hl
      simp at h2
  obtain ⟨m, hm⟩ := key
  rw [hm x (List.mem_flatten.2 ⟨_, List.mem_map_of_mem hf, hx⟩), hm y (List.mem_flatten.2 ⟨_, List.mem_map_of_mem hg, hy⟩)]

/-- **C128.** If the files of a day have different ranges, none of them has an empty range; otherwise there is no record of the day. -/
theorem C128_no_empty_range (read : String → Except String (RpgObject α)) (isInt : String → Bool) (epoch : α) (expected : Option ℤ)
    (files : List String) (day : RpgDay α) (h : rpgDay read isInt epoch expected files = .ok day) (f g : String) (hf : f ∈ day.files) (hg : g ∈ day.files)
    (o p : RpgObject α) (ho : read f = .ok o) (hp : read g = .ok p) (hne : o.range ≠ p.range) : o.range ≠ [] := by
  obtain ⟨found, common, _, _, _, h1, _, h3, _⟩ := rpgDay_ok read isInt epoch expected files day h
  obtain ⟨found', _, _, _, h1', _, hfiles, hread, _⟩ := rpgDay_objects read isInt epoch expected files day h
  rw [h1] at h1'
  cases h1'
  have hmem : ∀ k q, k ∈ day.files → read k = .ok q → q.range ∈ (found.map Prod.snd).map RpgObject.range := by
    intro k q hk hq
    rw [hfiles, List.mem_map] at hk
    obtain ⟨fo, hm, rfl⟩ := hk
    have e := hread fo hm
    rw [hq] at e
    cases e
    exact List.mem_map_of_mem (List.mem_map_of_mem hm)
  unfold toCommonHeight at h3
  dsimp only at h3
  split at h3
  · next hall =>
    rw [List.all_eq_true] at hall
    have a := of_decide_eq_true (hall _ (hmem f o hf ho))
    have b := of_decide_eq_true (hall _ (hmem g p hg hp))
    exact absurd (a.trans b.symm) hne
  · split at h3
    · cases h3
    · next hany =>
      intro he
      apply hany
      rw [List.any_eq_true]
      exact ⟨o.range, hmem f o hf ho, by rw [he]; rfl⟩

/-- **C128.** A number of the header that may change from file to file is repeated for each profile of its file. -/
theorem C128_numbers (read : String → Except String (RpgObject α)) (isInt : String → Bool) (epoch : α) (expected : Option ℤ)
    (files : List String) (day : RpgDay α) (h : rpgDay read isInt epoch expected files = .ok day) (name : String)
    (hn : name.startsWith "_" = false) (hc : name ∉ ["model_number", "dual_polarization", "antenna_separation",
      "antenna_diameter", "antenna_gain", "half_power_beam_width", "radar_frequency"])
    (x : String → Option α) (n : String → ℕ)
    (hfile : ∀ f ∈ day.files, ∀ o, read f = .ok o → Spec.IsDict o ∧ o.header.lookup name = some (.d0 (x f)) ∧
      o.times.length = n f) :
    day.header.lookup name = some (.d1 (day.files.flatMap fun f => List.replicate (n f) (x f))) := by
  obtain ⟨found, _, header0, header, h1, h2, h3, hread, _, h4, _, h5, h6, _⟩ :=
    rpgDay_objects read isInt epoch expected files day h
  have hfo : ∀ fo ∈ found, Spec.IsDict fo.2 ∧ fo.2.header.lookup name = some (.d0 (x fo.1)) ∧
      fo.2.times.length = n fo.1 := by
    intro fo hfo
    exact hfile fo.1 (by rw [h3]; exact List.mem_map_of_mem hfo) fo.2 (hread fo hfo)
  have hst := header_stack found day.range header0 h4 (fun fo hm => (hfo fo hm).1) name hn
  rw [filterMap_lookup_some found _ (fun fo => NdArray.d1 (List.replicate (n fo.1) (x fo.1))) (by
    intro fo hm
    obtain ⟨_, hl, hl2⟩ := hfo fo hm
    rw [hl, hl2]
    simp [padField, medianField, expandField]),
    show (found.map fun fo => NdArray.d1 (List.replicate (n fo.1) (x fo.1))) =
      (found.map fun fo => List.replicate (n fo.1) (x fo.1)).map NdArray.d1 by rw [List.map_map]; rfl] at hst
  have hd := concat_all_d1 _ (by simpa using h2) _ hst
  rw [h6, constants_other rpgConstant header0 header name h5 hc, hd, h3, List.flatMap_map]
  rfl

/-- **C128.** Properties of the radar, such as its frequency, are the same in all files that have profiles, and are given once.
Otherwise an error is raised. -/
theorem C128_constants (read : String → Except String (RpgObject α)) (isInt : String → Bool) (epoch : α) (expected : Option ℤ)
    (files : List String) (day : RpgDay α) (h : rpgDay read isInt epoch expected files = .ok day) (name : String)
    (hc : name ∈ ["model_number", "dual_polarization", "antenna_separation",
      "antenna_diameter", "antenna_gain", "half_power_beam_width", "radar_frequency"])
    (x : String → Option α)
    (hfile : ∀ f ∈ day.files, ∀ o, read f = .ok o → Spec.IsDict o ∧ o.header.lookup name = some (.d0 (x f))) :
    ∃ v, day.header.lookup name = some (.d0 v) ∧
      ∀ f ∈ day.files, ∀ o, read f = .ok o → o.times ≠ [] → x f = v := by
  obtain ⟨found, _, header0, header, h1, h2, h3, hread, _, h4, _, h5, h6, _⟩ :=
    rpgDay_objects read isInt epoch expected files day h
  have hn : name.startsWith "_" = false := by
    simp only [List.mem_cons, List.not_mem_nil, or_false] at hc
    rcases hc with rfl | rfl | rfl | rfl | rfl | rfl | rfl <;> decide +kernel
  have hfo : ∀ fo ∈ found, Spec.IsDict fo.2 ∧ fo.2.header.lookup name = some (.d0 (x fo.1)) := by
    intro fo hfo
    exact hfile fo.1 (by rw [h3]; exact List.mem_map_of_mem hfo) fo.2 (hread fo hfo)
  have hst := header_stack found day.range header0 h4 (fun fo hm => (hfo fo hm).1) name hn
  rw [filterMap_lookup_some found _ (fun fo => NdArray.d1 (List.replicate fo.2.times.length (x fo.1))) (by
    intro fo hm
    obtain ⟨_, hl⟩ := hfo fo hm
    rw [hl]
    simp [padField, medianField, expandField]),
    show (found.map fun fo => NdArray.d1 (List.replicate fo.2.times.length (x fo.1))) =
      (found.map fun fo => List.replicate fo.2.times.length (x fo.1)).map NdArray.d1 by rw [List.map_map]; rfl] at hst
  have hd := concat_all_d1 _ (by simpa using h2) _ hst
  obtain ⟨v, hv1, hv2⟩ := constants_value rpgConstant (by decide) header0 header name h5 hc _ hd
  refine ⟨v, by rw [h6]; exact hv2, fun f hf o ho ht => ?_⟩
  rw [h3, List.mem_map] at hf
  obtain ⟨fo, hm, rfl⟩ := hf
  have hr := hread fo hm
  rw [ho] at hr
  cases hr
  have hmem : x fo.1 ∈ (NdArray.d1 (found.map fun fo => List.replicate fo.2.times.length (x fo.1)).flatten).elements.dedup := by
    rw [List.mem_dedup]
    show x fo.1 ∈ (found.map fun fo => List.replicate fo.2.times.length (x fo.1)).flatten
    rw [List.mem_flatten]
    refine ⟨_, List.mem_map_of_mem hm, ?_⟩
    rw [List.mem_replicate]
    refine ⟨fun h0 => ht (List.length_eq_zero_iff.1 h0), rfl⟩
  rw [hv1] at hmem
  exact List.mem_singleton.1 hmem

/-- **C128.** All files with profiles are of the same customer. -/
theorem C128_customer (read : String → Except String (RpgObject α)) (isInt : String → Bool) (epoch : α) (expected : Option ℤ)
    (files : List String) (day : RpgDay α) (h : rpgDay read isInt epoch expected files = .ok day) (f g : String)
    (hf : f ∈ day.files) (hg : g ∈ day.files) (o p : RpgObject α) (ho : read f = .ok o) (hp : read g = .ok p)
    (h1 : o.times ≠ []) (h2 : p.times ≠ []) : o.customer = p.customer := by
  obtain ⟨found, _, _, _, _, _, h3, hread, _, _, _, _, _, _, hcust, _⟩ :=
    rpgDay_objects read isInt epoch expected files day h
  rw [h3, List.mem_map] at hf hg
  obtain ⟨fo, hm, rfl⟩ := hf
  obtain ⟨go, hm', rfl⟩ := hg
  have e1 := hread fo hm
  rw [ho] at e1
  have e2 := hread go hm'
  rw [hp] at e2
  cases e1
  cases e2
  have key : ∀ fo ∈ found, fo.2.times ≠ [] → fo.2.customer ∈
      ((padObjects (found.map fun fo => fo.2.resample day.range)).flatMap fun o =>
        List.replicate o.times.length o.customer).dedup := by
    intro fo hm ht
    rw [List.mem_dedup, padObjects_eq, List.mem_flatMap]
    refine ⟨_, List.mem_map_of_mem (List.mem_map_of_mem hm), ?_⟩
    rw [List.mem_replicate, padTo_times, resample_times, padTo_customer]
    refine ⟨fun h0 => ht (List.length_eq_zero_iff.1 h0), ?_⟩
    unfold RpgObject.resample
    split <;> rfl
  have k1 := key fo hm h1
  have k2 := key go hm' h2
  generalize ((padObjects (found.map fun fo => fo.2.resample day.range)).flatMap fun o =>
        List.replicate o.times.length o.customer).dedup = l at hcust k1 k2
  match l, hcust with
  | [], _ => cases k1
  | [c], _ => rw [List.mem_singleton.1 k1, List.mem_singleton.1 k2]
  | _ :: _ :: _, h => simp at h

/-! ### Chirps -/

theorem expandField_long {β : Type} (n : ℕ) (xs : List β) (h : 2 ≤ xs.length) :
    expandField n (.d1 xs) = .d2 (List.replicate n xs) := by
  match xs, h with
  | _ :: _ :: _, _ => rfl

theorem foldl_max_eq (l : List ℕ) (a m : ℕ) (h1 : a ≤ m) (h2 : ∀ x ∈ l, x ≤ m) (h3 : a = m ∨ m ∈ l) : l.foldl max a = m := by
  induction l generalizing a with
  | nil => simpa using h3
  | cons x l ih =>
    rw [List.foldl_cons]
    have hx := h2 x (by simp)
    refine ih (max a x) (max_le h1 hx) (fun y hy => h2 y (by simp [hy])) ?_
    rcases h3 with h | h
    · left; omega
    · rcases List.mem_cons.1 h with h | h
      · left; omega
      · exact Or.inr h

theorem resample_starts_length (target : List α) (o : RpgObject α) (s : List ℕ) (h : o.starts = s.map some) :
    (o.resample target).starts.length = s.length := by
  unfold RpgObject.resample
  split
  · rw [h, List.length_map]
  · rw [List.length_map, h]
    have : (s.map some).filterMap id = s := by induction s <;> simp_all
    rw [this]
    unfold interpolateStarts
    cases s <;> simp

/-- The first gates of chirps moved to other gates: as many, the first one at the first gate, the others at the gate nearest to the
old one (the lower one of two). -/
def Spec.MovedStarts (src : List α) (starts : List ℕ) (target : List α) (new : List ℕ) : Prop :=
  new.length = starts.length ∧ (∀ i ∈ new, i < target.length) ∧ (starts ≠ [] → new.head? = some 0) ∧
  ∀ k s i, 0 < k → starts[k]? = some s → new[k]? = some i →
    ∀ j < target.length, |vec target i - vec src s| ≤ |vec target j - vec src s| ∧
      (j < i → |vec target i - vec src s| < |vec target j - vec src s|)

theorem interpolateStarts_moved (src target : List α) (starts : List ℕ) (hne : target ≠ []) :
    Spec.MovedStarts src starts target (interpolateStarts (vec src) target.length (vec target) starts) := by
  have hpos : 0 < target.length := List.length_pos_of_ne_nil hne
  have hspec := fun s => argmin_spec (fun i => |vec target i - vec src s|) (target.length - 1)
  unfold interpolateStarts
  cases starts with
  | nil => exact ⟨rfl, by simp, by simp, by intro k s i _ h; simp at h⟩
  | cons s0 rest =>
    simp only [List.map_cons]
    refine ⟨by simp, ?_, fun _ => rfl, ?_⟩
    · intro i hi
      rcases List.mem_cons.1 hi with rfl | hi
      · exact hpos
      · obtain ⟨s, _, rfl⟩ := List.mem_map.1 hi
        have := (hspec s).1
        omega
    · intro k s i hk hs hi j hj
      obtain ⟨k, rfl⟩ : ∃ k', k = k' + 1 := ⟨k - 1, by omega⟩
      rw [List.getElem?_cons_succ] at hs hi
      rw [List.getElem?_map, hs] at hi
      cases hi
      obtain ⟨_, a2, a3⟩ := hspec s
      exact ⟨a2 j (by omega), a3 j⟩

theorem stackStarts_opt {β : Type} (l : List (NdArray β)) (r : NdArray β) (h : stackStarts l = .ok r) :
    l.foldlM concatOpt none = .ok (some r) := by
  cases l with
  | nil => cases h
  | cons a l =>
    have key : ∀ (l : List (NdArray β)) (a : NdArray β), l.foldlM concatArrays a = .ok r →
        l.foldlM concatOpt (some a) = .ok (some r) := by
      intro l
      induction l with
      | nil => intro a h; cases h; rfl
      | cons b l ih =>
        intro a h
        rw [List.foldlM_cons] at h ⊢
        cases hc : concatArrays a b with
        | error e => rw [hc] at h; cases h
        | ok c =>
          rw [hc] at h
          have : concatOpt (some a) b = .ok (some c) := by unfold concatOpt; simp [hc, Except.map]
          rw [this]
          exact ih c h
    exact key l a h

/-- **C128.** With at least two chirps in some file, each profile gets the first gates of the chirps of its file, moved to the common
range if that of the file is different, and its other fields with one number for each chirp; if another file has more chirps,
values are missing at the end. -/
theorem C128_chirps (read : String → Except String (RpgObject α)) (isInt : String → Bool) (epoch : α) (expected : Option ℤ)
    (files : List String) (day : RpgDay α) (h : rpgDay read isInt epoch expected files = .ok day) (name : String)
    (hn : name.startsWith "_" = false) (hname : name ∉ rpgConstant ∧ name ≠ "latitude" ∧ name ≠ "longitude")
    (s : String → List ℕ) (v : String → List (Option α)) (n : String → ℕ) (m : ℕ) (hm2 : 2 ≤ m)
    (hm : (∀ f ∈ day.files, (s f).length ≤ m) ∧ ∃ f ∈ day.files, (s f).length = m) (hrange : day.range ≠ [])
    (hfile : ∀ f ∈ day.files, ∀ o, read f = .ok o → Spec.IsDict o ∧ o.starts = (s f).map some ∧
      o.header.lookup name = some (.d1 (v f)) ∧ (v f).length = (s f).length ∧ o.times.length = n f) :
    day.header.lookup name = some (.d2 (day.files.flatMap fun f =>
      List.replicate (n f) (v f ++ List.replicate (m - (s f).length) none))) ∧
    ∃ new : List (String × List ℕ), new.map Prod.fst = day.files ∧
      day.starts = .d2 (new.flatMap fun fs =>
        List.replicate (n fs.1) (fs.2.map some ++ List.replicate (m - (s fs.1).length) none)) ∧
      ∀ fs ∈ new, ∀ o, read fs.1 = .ok o → (o.range = day.range → fs.2 = s fs.1) ∧
        (o.range ≠ day.range → Spec.MovedStarts o.range (s fs.1) day.range fs.2) := by
  obtain ⟨found, _, header0, header, h1, h2, h3, hread, _, h4, hstarts, h5, h6, _⟩ :=
    rpgDay_objects read isInt epoch expected files day h
  have hmem : ∀ fo ∈ found, fo.1 ∈ day.files := fun fo hfo => by rw [h3]; exact List.mem_map_of_mem hfo
  have hfo : ∀ fo ∈ found, Spec.IsDict fo.2 ∧ fo.2.starts = (s fo.1).map some ∧
      fo.2.header.lookup name = some (.d1 (v fo.1)) ∧ (v fo.1).length = (s fo.1).length ∧ fo.2.times.length = n fo.1 :=
    fun fo hfo => hfile fo.1 (hmem fo hfo) fo.2 (hread fo hfo)
  have hlen : ∀ fo ∈ found, (fo.2.resample day.range).starts.length = (s fo.1).length := fun fo hm =>
    resample_starts_length day.range fo.2 (s fo.1) (hfo fo hm).2.1
  have hmax : (found.map fun fo => (fo.2.resample day.range).starts.length).foldl max 0 = m := by
    apply foldl_max_eq _ _ _ (Nat.zero_le _)
    · intro x hx
      obtain ⟨fo, hm', rfl⟩ := List.mem_map.1 hx
      rw [hlen fo hm']
      exact hm.1 fo.1 (hmem fo hm')
    · right
      obtain ⟨f, hf, hfm⟩ := hm.2
      rw [h3, List.mem_map] at hf
      obtain ⟨fo, hm', rfl⟩ := hf
      rw [List.mem_map]
      exact ⟨fo, hm', by rw [hlen fo hm', hfm]⟩
  constructor
  · have hst := header_stack found day.range header0 h4 (fun fo hm => (hfo fo hm).1) name hn
    rw [hmax] at hst
    rw [filterMap_lookup_some found _ (fun fo => NdArray.d2 (List.replicate (n fo.1)
        (v fo.1 ++ List.replicate (m - (s fo.1).length) none))) (by
      intro fo hm'
      obtain ⟨_, _, hl, hvl, hl2⟩ := hfo fo hm'
      have hle := hm.1 fo.1 (hmem fo hm')
      rw [hl, hl2, hlen fo hm']
      simp only [Option.map_some, hname.2.1, hname.2.2, or_self, if_false, Option.some.injEq]
      by_cases he : (s fo.1).length = m
      · rw [if_pos he, expandField_long _ _ (by omega), he]
        simp
      · rw [if_neg he]
        simp only [padField, hvl, if_true, padChirps]
        rw [expandField_long _ _ (by simp; omega)]),
      show (found.map fun fo => NdArray.d2 (List.replicate (n fo.1)
          (v fo.1 ++ List.replicate (m - (s fo.1).length) none))) =
        (found.map fun fo => List.replicate (n fo.1)
          (v fo.1 ++ List.replicate (m - (s fo.1).length) none)).map NdArray.d2 by rw [List.map_map]; rfl] at hst
    have hd := concat_all_d2 _ (by simpa using h2) _ hst
    rw [h6, constants_other rpgConstant header0 header name h5 hname.1, hd, h3, List.flatMap_map]
    rfl
  · let nw : String × RpgObject α → List ℕ := fun fo =>
      if fo.2.range = day.range then s fo.1
      else interpolateStarts (vec fo.2.range) day.range.length (vec day.range) (s fo.1)
    have hnw : ∀ fo ∈ found, (fo.2.resample day.range).starts = (nw fo).map some := by
      intro fo hm'
      have hs := (hfo fo hm').2.1
      unfold RpgObject.resample
      simp only [nw]
      split
      · exact hs
      · simp only
        rw [hs]
        have : ((s fo.1).map some).filterMap id = s fo.1 := by induction s fo.1 <;> simp_all
        rw [this]
    refine ⟨found.map fun fo => (fo.1, nw fo), by rw [List.map_map, h3]; rfl, ?_, ?_⟩
    · have hso := stackStarts_opt _ _ hstarts
      rw [padObjects_eq, List.map_map, List.map_map,
        show ((found.map fun fo => fo.2.resample day.range).map fun o => o.starts.length) =
          found.map fun fo => (fo.2.resample day.range).starts.length by rw [List.map_map]; rfl, hmax] at hso
      rw [show (found.map ((RpgObject.expandedStarts ∘ RpgObject.padTo m) ∘ fun fo => fo.2.resample day.range)) =
          (found.map fun fo => List.replicate (n fo.1)
            ((nw fo).map some ++ List.replicate (m - (s fo.1).length) none)).map NdArray.d2 by
        rw [List.map_map]
        apply List.map_congr_left
        intro fo hm'
        have hle := hm.1 fo.1 (hmem fo hm')
        have hl := hlen fo hm'
        simp only [Function.comp, RpgObject.expandedStarts]
        rw [padTo_starts m _ (by omega), padTo_times, resample_times, hl, (hfo fo hm').2.2.2.2, hnw fo hm']
        rw [hnw fo hm'] at hl
        exact expandField_long _ _ (by simp at hl ⊢; omega)] at hso
      have hd := concat_all_d2 _ (by simpa using h2) _ hso
      rw [Option.some.injEq] at hd
      rw [hd, List.flatMap_map]
      rfl
    · intro fs hfs o ho
      obtain ⟨fo, hm', rfl⟩ := List.mem_map.1 hfs
      have hr := hread fo hm'
      rw [ho] at hr
      cases hr
      simp only [nw]
      constructor
      · intro he; rw [if_pos he]
      · intro he
        rw [if_neg he]
        exact interpolateStarts_moved _ _ _ hrange

/-- **C128**, a finding. If all files have a single chirp, the expansion of the Nyquist velocities fails. -/
theorem C128_single_chirp (read : String → Except String (RpgObject α)) (isInt : String → Bool) (epoch : α)
    (expected : Option ℤ) (files : List String) (day : RpgDay α) (h : rpgDay read isInt epoch expected files = .ok day)
    (s : String → ℕ) (hfile : ∀ f ∈ day.files, ∀ o, read f = .ok o → o.starts = [some (s f)])
    (nyquist : NdArray (Option α)) : expandNyquist day.range.length day.starts nyquist = .error "AttributeError" := by
  obtain ⟨found, _, header0, header, h1, h2, h3, hread, _, h4, hstarts, h5, h6, _⟩ :=
    rpgDay_objects read isInt epoch expected files day h
  have hmem : ∀ fo ∈ found, fo.1 ∈ day.files := fun fo hfo => by rw [h3]; exact List.mem_map_of_mem hfo
  have hfo : ∀ fo ∈ found, fo.2.starts = [s fo.1].map some := fun fo hfo => hfile fo.1 (hmem fo hfo) fo.2 (hread fo hfo)
  have hlen : ∀ fo ∈ found, (fo.2.resample day.range).starts.length = 1 := fun fo hm =>
    resample_starts_length day.range fo.2 [s fo.1] (hfo fo hm)
  have hso := stackStarts_opt _ _ hstarts
  have hmax : (found.map fun fo => (fo.2.resample day.range).starts.length).foldl max 0 = 1 := by
    apply foldl_max_eq _ _ _ (Nat.zero_le _)
    · intro x hx
      obtain ⟨fo, hm', rfl⟩ := List.mem_map.1 hx
      rw [hlen fo hm']
    · right
      obtain ⟨fo, hm'⟩ := List.exists_mem_of_ne_nil _ h2
      rw [List.mem_map]
      exact ⟨fo, hm', hlen fo hm'⟩
  rw [padObjects_eq, List.map_map, List.map_map,
    show ((found.map fun fo => fo.2.resample day.range).map fun o => o.starts.length) =
      found.map fun fo => (fo.2.resample day.range).starts.length by rw [List.map_map]; rfl, hmax] at hso
  rw [show (found.map ((RpgObject.expandedStarts ∘ RpgObject.padTo 1) ∘ fun fo => fo.2.resample day.range)) =
      (found.map fun fo => List.replicate fo.2.times.length ((fo.2.resample day.range).starts.headD none)).map NdArray.d1 by
    rw [List.map_map]
    apply List.map_congr_left
    intro fo hm'
    have hl := hlen fo hm'
    simp only [Function.comp, RpgObject.expandedStarts]
    rw [padTo_starts 1 _ (by omega), padTo_times, resample_times, hl]
    match (fo.2.resample day.range).starts, hl with
    | [x], _ => rfl] at hso
  have hd := concat_all_d1 _ (by simpa using h2) _ hso
  rw [Option.some.injEq] at hd
  rw [hd]
  rfl

/-! ### Radar and units -/

/-- **C128.** The radar is known by its frequency in GHz. -/
theorem C128_instrument (f : α) :
    (rpgInstrument f = .ok "FMCW35" ↔ 349 / 10 ≤ f ∧ f ≤ 351 / 10) ∧
    (rpgInstrument f = .ok "FMCW94" ↔ 939 / 10 ≤ f ∧ f ≤ 941 / 10) ∧
    ((∃ e, rpgInstrument f = .error e) ↔ ¬ (349 / 10 ≤ f ∧ f ≤ 351 / 10) ∧ ¬ (939 / 10 ≤ f ∧ f ≤ 941 / 10)) := by
  have key : ∀ b : α, 0 < b → b ≤ 100 → (mathIsClose f b = true ↔ b - 1 / 10 ≤ f ∧ f ≤ b + 1 / 10) := by
    intro b hb hb2
    unfold mathIsClose
    rw [decide_eq_true_iff, le_max_iff]
    constructor
    · rintro (h | h)
      · have hfb : |f| ≤ |f - b| + b := by
          have := abs_add_le (f - b) b
          rw [sub_add_cancel, abs_of_pos hb] at this
          exact this
        have hmax : max |f| |b| ≤ |f - b| + b := by
          rw [abs_of_pos hb]
          exact max_le hfb (by linarith [abs_nonneg (f - b)])
        have h' : |f - b| ≤ 1 / 1000000000 * (|f - b| + b) := le_trans h (by
          apply mul_le_mul_of_nonneg_left hmax; norm_num)
        have : |f - b| ≤ 1 / 10 := by linarith
        rw [abs_le] at this
        constructor <;> linarith [this.1, this.2]
      · rw [abs_le] at h
        constructor <;> linarith [h.1, h.2]
    · rintro ⟨h1, h2⟩
      right
      rw [abs_le]
      constructor <;> linarith
  have k35 := key 35 (by norm_num) (by norm_num)
  have k94 := key 94 (by norm_num) (by norm_num)
  rw [show (35 : α) - 1 / 10 = 349 / 10 by norm_num, show (35 : α) + 1 / 10 = 351 / 10 by norm_num] at k35
  rw [show (94 : α) - 1 / 10 = 939 / 10 by norm_num, show (94 : α) + 1 / 10 = 941 / 10 by norm_num] at k94
  have hex : ¬ ((349 / 10 ≤ f ∧ f ≤ 351 / 10) ∧ (939 / 10 ≤ f ∧ f ≤ 941 / 10)) := by
    rintro ⟨⟨_, a⟩, ⟨b, _⟩⟩
    have : (939 / 10 : α) ≤ 351 / 10 := le_trans b a
    norm_num at this
  have hok : ∀ s : String, ¬ ∃ e, (Except.ok s : Except String String) = .error e := by
    rintro s ⟨e, h⟩; cases h
  unfold rpgInstrument
  by_cases c1 : mathIsClose f 35 = true
  · have d1 := k35.1 c1
    rw [if_pos c1]
    refine ⟨⟨fun _ => d1, fun _ => rfl⟩, ⟨fun h => by simp at h, fun h => absurd ⟨d1, h⟩ hex⟩, ?_⟩
    exact iff_of_false (hok _) fun h => h.1 d1
  · have d1 := fun h => c1 (k35.2 h)
    rw [if_neg c1]
    by_cases c2 : mathIsClose f 94 = true
    · have d2 := k94.1 c2
      rw [if_pos c2]
      refine ⟨⟨fun h => by simp at h, fun h => absurd h d1⟩, ⟨fun _ => d2, fun _ => rfl⟩, ?_⟩
      exact iff_of_false (hok _) fun h => h.2 d2
    · have d2 := fun h => c2 (k94.2 h)
      rw [if_neg c2]
      exact ⟨iff_of_false (by simp) d1, iff_of_false (by simp) d2, iff_of_true ⟨_, rfl⟩ ⟨d1, d2⟩⟩

/-- **C128.** Conversion to SI units: millimetres per hour, grams, percent, hectopascals, kilometres per hour. -/
theorem C128_units (x : α) :
    (rpgUnit "rainfall_rate").map (· x) = some (x / 1000 / 3600) ∧ (rpgUnit "lwp").map (· x) = some (x / 1000) ∧
    (rpgUnit "relative_humidity").map (· x) = some (x / 100) ∧ (rpgUnit "air_pressure").map (· x) = some (100 * x) ∧
    (rpgUnit "wind_speed").map (· x) = some (1000 * x / 3600) ∧
    ∀ name, name ∉ ["rainfall_rate", "lwp", "relative_humidity", "air_pressure", "wind_speed"] →
      (rpgUnit name : Option (α → α)) = none := by
  refine ⟨?_, ?_, ?_, ?_, ?_, ?_⟩
  · show some (x * (1 / 1000 / 3600)) = _
    congr 1; ring
  · show some (x * (1 / 1000)) = _
    congr 1; ring
  · rfl
  · show some (x * 100) = _
    congr 1; ring
  · show some (x * (1000 / 3600)) = _
    congr 1; ring
  intro name h
  simp only [List.mem_cons, List.not_mem_nil, or_false, not_or] at h
  simp [rpgUnit, h]

end

/-! ## Examples -/

/-- Two files: the first with two chirps and three gates, the second with one chirp and other gates, and without `ldr`. -/
def rpgExample (file : String) : Except String (RpgObject ℚ) :=
  if file = "a" then
    .ok { range := [100, 200, 300], starts := [some 0, some 2], customer := "X"
          header := [("radar_frequency", .d0 (some 94)), ("nyquist_velocity", .d1 [some 8, some 4]), ("_v", .d0 (some 1))]
          data := [("time", .d1 [some 10, some 20]), ("Zh", .d2 [[some 1, some 2, some 3], [some 4, some 0, some 6]]),
            ("ldr", .d1 [some 1, some 2])] }
  else if file = "b" then
    .ok { range := [90, 250], starts := [some 0], customer := "X"
          header := [("radar_frequency", .d0 (some 94)), ("nyquist_velocity", .d1 [some 5]), ("_v", .d0 (some 2))]
          data := [("time", .d1 [some 30]), ("Zh", .d2 [[some 7, some 8]])] }
  else .error "RPGFileError"

/-- The day of these two files. The third file cannot be read. **C128**, a finding: the variable `ldr`, which is not in all files, has
fewer values than there are times. -/
theorem C128_example :
    (rpgDay rpgExample (fun _ => false) 0 (some 0) ["a", "b", "c"]).toOption.map (fun d => (d.files, d.range, d.starts)) =
      some (["a", "b"], [100, 200, 300], .d2 [[some 0, some 2], [some 0, some 2], [some 0, none]]) ∧
    (rpgDay rpgExample (fun _ => false) 0 (some 0) ["a", "b", "c"]).toOption.map (fun d => d.header) =
      some [("radar_frequency", .d0 (some 94)),
        ("nyquist_velocity", .d2 [[some 8, some 4], [some 8, some 4], [some 5, none]])] ∧
    (rpgDay rpgExample (fun _ => false) 0 (some 0) ["a", "b", "c"]).toOption.map (fun d => d.data) =
      some [("time", .d1 [some 10, some 20, some 30]),
        ("Zh", .d2 [[some 1, some 2, some 3], [some 4, none, some 6], [some 7, some 8, none]]),
        ("ldr", .d1 [some 1, some 2])] := by
  decide +kernel

/-- A file with the same ranges as the first one, whose profile has `row`. -/
def rpgExampleRow (row : List (Option ℚ)) (file : String) : Except String (RpgObject ℚ) :=
  if file = "d" then
    .ok { range := [100, 200, 300], starts := [some 0, some 2], customer := "X"
          header := [("radar_frequency", .d0 (some 94)), ("nyquist_velocity", .d1 [some 8, some 4])]
          data := [("time", .d1 [some 30]), ("Zh", .d2 [row])] }
  else rpgExample file

/-- Profiles with three values can be stacked; with two values there is no record of the day. -/
example : (rpgDay (rpgExampleRow [some 7, some 8, some 9]) (fun _ => false) 0 (some 0) ["a", "d"]).toOption.map (fun d => (d.files, d.range, d.data.lookup "Zh")) =
      some (["a", "d"], [100, 200, 300], some (.d2 [[some 1, some 2, some 3], [some 4, none, some 6], [some 7, some 8, some 9]])) ∧
    (rpgDay (rpgExampleRow [some 7, some 8]) (fun _ => false) 0 (some 0) ["a", "d"]).toOption.map (fun d => d.files) = none := by
  decide +kernel

end Cloudnet
