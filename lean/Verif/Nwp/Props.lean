import Verif.Nwp.Mask2d
import Verif.Save.Other

/-! Properties C137: the weather model of the categorize file. -/

set_option linter.unusedSectionVars false
set_option linter.unusedVariables false
set_option linter.unusedSimpArgs false

namespace Cloudnet

/-! ### Type of the model -/

theorem isBasename_unique (path a b : String) (ha : Spec.IsBasename path a) (hb : Spec.IsBasename path b) : a = b := by
  have key : ∀ c, Spec.IsBasename path c → c.toList.reverse = path.toList.reverse.takeWhile (· ≠ '/') := by
    rintro c ⟨hc, e | ⟨d, e⟩⟩
    · rw [e, List.takeWhile_eq_self_iff.2]
      intro x hx
      rw [List.mem_reverse] at hx
      simpa using fun h : x = '/' => hc (h ▸ hx)
    · rw [e, List.reverse_append, List.reverse_cons, List.append_assoc, List.takeWhile_append_of_pos]
      · simp
      · intro x hx
        rw [List.mem_reverse] at hx
        simpa using fun h : x = '/' => hc (h ▸ hx)
  have := (key a ha).trans (key b hb).symm
  rw [List.reverse_inj] at this
  exact String.ext this

theorem infix_iff (w name : String) : w.toList <:+: name.toList ↔ Spec.OccursIn w name := by
  constructor
  · rintro ⟨a, b, h⟩
    exact ⟨String.ofList a, String.ofList b, String.ext (by simpa using h.symm)⟩
  · rintro ⟨a, b, rfl⟩
    exact ⟨a.toList, b.toList, by simp⟩

/-- **C137.** The type of the model is the first of the known names that occurs in the file name (not in the directory). -/
theorem C137_type (path name : String) (hname : Spec.IsBasename path name) (key : String) :
    findModelType path = .ok key ↔ ∃ before after, ["gdas1", "icon", "ecmwf", "harmonie", "era5", "arpege"] = before ++ key :: after ∧
      Spec.OccursIn key name ∧ ∀ k ∈ before, ¬ Spec.OccursIn k name := by
  have hb : posixBasename path = name := isBasename_unique path _ _ (posixBasename_spec path) hname
  have := List.find?_eq_some_iff_append (p := fun key : String => decide (key.toList <:+: name.toList)) (xs := modelKeys) (b := key)
  have hp : ∀ k : String, decide (k.toList <:+: name.toList) = true ↔ Spec.OccursIn k name := fun k => by
    rw [decide_eq_true_eq]; exact infix_iff k name
  have hp' : ∀ k : String, (!decide (k.toList <:+: name.toList)) = true ↔ ¬ Spec.OccursIn k name := fun k => by
    rw [← hp]; simp
  simp only [hp, hp'] at this
  unfold findModelType
  rw [hb]
  constructor
  · intro h
    cases hf : modelKeys.find? fun key => decide (key.toList <:+: name.toList) with
    | none => rw [hf] at h; cases h
    | some k =>
      rw [hf] at h
      cases h
      obtain ⟨h1, b, a, h2, h3⟩ := this.1 hf
      exact ⟨b, a, h2, h1, h3⟩
  · rintro ⟨b, a, h2, h1, h3⟩
    rw [this.2 ⟨h1, b, a, h2, h3⟩]

/-- **C137.** Other file names raise `ValueError`. -/
theorem C137_unknown_type (path name : String) (hname : Spec.IsBasename path name) :
    (∃ e, findModelType path = .error e) ↔ ∀ key ∈ ["gdas1", "icon", "ecmwf", "harmonie", "era5", "arpege"], ¬ Spec.OccursIn key name := by
  have hb : posixBasename path = name := isBasename_unique path _ _ (posixBasename_spec path) hname
  have hp : ∀ k : String, decide (k.toList <:+: name.toList) = true ↔ Spec.OccursIn k name := fun k => by
    rw [decide_eq_true_eq]; exact infix_iff k name
  have := List.find?_eq_none (p := fun key : String => decide (key.toList <:+: name.toList)) (l := modelKeys)
  simp only [hp] at this
  unfold findModelType
  rw [hb]
  change _ ↔ ∀ key ∈ modelKeys, _
  rw [← this]
  cases modelKeys.find? fun key => decide (key.toList <:+: name.toList) <;> simp

example : findModelType "/data/icon/20240102_hyytiala_ecmwf.nc" = .ok "ecmwf" ∧
    findModelType "20240102_hyytiala_wrf.nc" = .error "ValueError: Unknown model type" := by decide +kernel

section
variable {α : Type} [Field α] [LinearOrder α] [IsStrictOrderedRing α]

/-! ### Heights -/

theorem modelSurface_iff (f : ModelFile α) (site : α) (i : ℕ) (s : α) :
    modelSurface f.sfcHeight f.sfcGeopotential site i = s ↔ Spec.Surface f site i s := by
  have h0 : (980665 / 100000 : α) ≠ 0 := by norm_num
  unfold modelSurface Spec.Surface
  cases f.sfcHeight with
  | some h => simpa using eq_comm
  | none =>
    cases f.sfcGeopotential with
    | some g =>
      simp only [reduceCtorEq, false_and, exists_false, false_or, true_and, Option.some.injEq, exists_eq_left', and_false, or_false]
      rw [div_eq_iff h0]
      exact eq_comm
    | none => simpa using eq_comm

/-- **C137.** Heights above sea level are the heights of the file in metres, above the surface of the model (the site if the model has
none). Without heights or with another unit they cannot be read. -/
theorem C137_heights (f : ModelFile α) (site : α) :
    (∀ H, modelHeights f site = .ok H ↔ ∃ units h, f.height = some (units, h) ∧
      ((units = "km" ∧ ∀ i k, Spec.Surface f site i (H i k - 1000 * h i k)) ∨
        ((units = "m" ∨ units = "meters") ∧ ∀ i k, Spec.Surface f site i (H i k - h i k)))) ∧
    (∀ e, modelHeights f site = .error e ↔
      (f.height = none ∧ e = "ModelDataError: No height variable in the model file") ∨
      (∃ units h, f.height = some (units, h) ∧ units ∉ ["km", "m", "meters"] ∧ e = "ValueError: Unexpected unit")) := by
  unfold modelHeights heightsToM
  cases hf : f.height with
  | none => simp [eq_comm]
  | some p =>
    obtain ⟨units, h⟩ := p
    simp only [Option.some.injEq, Prod.mk.injEq, reduceCtorEq, false_and, false_or, ← modelSurface_iff]
    by_cases h1 : units = "km"
    · subst h1
      refine ⟨fun H => ?_, fun e => ?_⟩
      · constructor
        · intro hh
          cases hh
          exact ⟨"km", h, ⟨rfl, rfl⟩, Or.inl ⟨rfl, fun i k => by ring⟩⟩
        · rintro ⟨_, _, ⟨rfl, rfl⟩, ⟨_, hs⟩ | ⟨hc, _⟩⟩
          · simp only [if_true, Except.map]
            congr 1
            funext i k
            rw [hs i k]; ring
          · simp at hc
      · constructor
        · intro hh; cases hh
        · rintro ⟨_, _, ⟨rfl, rfl⟩, hc, _⟩; simp at hc
    · by_cases h2 : units = "m" ∨ units = "meters"
      · refine ⟨fun H => ?_, fun e => ?_⟩
        · rw [if_neg h1, if_pos h2]
          constructor
          · intro hh
            cases hh
            exact ⟨units, h, ⟨rfl, rfl⟩, Or.inr ⟨h2, fun i k => by ring⟩⟩
          · rintro ⟨_, _, ⟨rfl, rfl⟩, ⟨hc, _⟩ | ⟨_, hs⟩⟩
            · exact absurd hc h1
            · simp only [Except.map]
              congr 1
              funext i k
              rw [hs i k]; ring
        · rw [if_neg h1, if_pos h2]
          constructor
          · intro hh; cases hh
          · rintro ⟨_, _, ⟨rfl, rfl⟩, hc, _⟩
            rcases h2 with rfl | rfl <;> simp at hc
      · refine ⟨fun H => ?_, fun e => ?_⟩
        · rw [if_neg h1, if_neg h2]
          constructor
          · intro hh; cases hh
          · rintro ⟨_, _, ⟨rfl, rfl⟩, ⟨hc, _⟩ | ⟨hc, _⟩⟩
            · exact absurd hc h1
            · exact absurd hc h2
        · rw [if_neg h1, if_neg h2]
          constructor
          · intro hh
            cases hh
            refine ⟨units, h, ⟨rfl, rfl⟩, ?_, rfl⟩
            simp only [List.mem_cons, List.not_mem_nil, or_false]
            tauto
          · rintro ⟨_, _, _, _, rfl⟩
            rfl

theorem meanHeight_mean (nT : ℕ) (hT : 1 ≤ nT) (H : Grid α) (k : ℕ) : Spec.MeanOver nT (fun i => H i k) (meanHeight nT H k) := by
  unfold Spec.MeanOver meanHeight
  have : (nT : α) ≠ 0 := by exact_mod_cast (by omega : nT ≠ 0)
  field_simp

theorem sum_lt_of (l : List ℕ) (hl : l ≠ []) (f g : ℕ → α) (h : ∀ i ∈ l, f i < g i) : (l.map f).sum < (l.map g).sum := by
  induction l with
  | nil => exact absurd rfl hl
  | cons a l ih =>
    simp only [List.map_cons, List.sum_cons]
    by_cases hl' : l = []
    · subst hl'; simpa using h a (by simp)
    · exact add_lt_add (h a (by simp)) (ih hl' fun i hi => h i (by simp [hi]))

/-- **C137.** The common heights are the mean heights of the levels; they increase if the heights of all profiles do, and are the
heights of the levels if these do not change with time. -/
theorem C137_common_heights (nT nH : ℕ) (hT : 1 ≤ nT) (H : Grid α) :
    (∀ k, Spec.MeanOver nT (fun i => H i k) (meanHeight nT H k)) ∧
    ((∀ i < nT, Spec.Increasing nH (H i)) → Spec.Increasing nH (meanHeight nT H)) ∧
    ∀ k c, (∀ i < nT, H i k = c) → meanHeight nT H k = c := by
  have h0 : (0 : α) < nT := by exact_mod_cast (by omega : 0 < nT)
  refine ⟨meanHeight_mean nT hT H, ?_, ?_⟩
  · intro h i j hij hj
    unfold meanHeight
    refine div_lt_div_of_pos_right (sum_lt_of _ ?_ _ _ fun k hk => h k (List.mem_range.1 hk) i j hij hj) h0
    intro hc
    have := congrArg List.length hc
    simp at this
    omega
  · intro k c h
    have hm := meanHeight_mean nT hT H k
    unfold Spec.MeanOver at hm
    have : ((List.range nT).map fun i => H i k) = List.replicate nT c := by
      rw [List.eq_replicate_iff]
      refine ⟨by simp, ?_⟩
      intro b hb
      obtain ⟨i, hi, rfl⟩ := List.mem_map.1 hb
      exact h i (List.mem_range.1 hi)
    rw [this, List.sum_replicate, nsmul_eq_mul] at hm
    exact (mul_left_cancel₀ h0.ne' hm).symm

/-! ### Common height grid -/

theorem lookup_mapM {γ : Type} (g : String → Except String γ) (keys : List String) (out : List (String × γ))
    (h : keys.mapM (fun k => (g k).map fun v => (k, v)) = .ok out) : ∀ key,
    (key ∈ keys → ∃ v, g key = .ok v ∧ out.lookup key = some v) ∧ (key ∉ keys → out.lookup key = none) := by
  induction keys generalizing out with
  | nil =>
    cases h
    simp
  | cons k l ih =>
    rw [List.mapM_cons] at h
    cases hg : g k with
    | error e => rw [hg] at h; cases h
    | ok v =>
      cases hl : l.mapM (fun k => (g k).map fun v => (k, v)) with
      | error e => rw [hg, hl] at h; cases h
      | ok o =>
        rw [hg, hl] at h
        cases h
        intro key
        obtain ⟨i1, i2⟩ := ih o hl key
        by_cases hk : key = k
        · subst hk
          exact ⟨fun _ => ⟨v, hg, by simp [List.lookup_cons]⟩, fun hc => absurd (List.mem_cons_self ..) hc⟩
        · have hb : (key == k) = false := by simpa using hk
          refine ⟨fun hm => ?_, fun hm => ?_⟩
          · obtain ⟨w, h1, h2⟩ := i1 ((List.mem_cons.1 hm).resolve_left hk)
            exact ⟨w, h1, by simpa [List.lookup_cons, hb] using h2⟩
          · have := i2 (fun hc => hm (List.mem_cons_of_mem _ hc))
            simpa [List.lookup_cons, hb] using this

theorem mapM_error_iff {γ : Type} (g : String → Except String γ) (keys : List String) :
    (∃ e, keys.mapM (fun k => (g k).map fun v => (k, v)) = .error e) ↔ ∃ k ∈ keys, ∃ e, g k = .error e := by
  induction keys with
  | nil => simp [pure, Except.pure]
  | cons k l ih =>
    rw [List.mapM_cons]
    cases hg : g k with
    | error e => exact iff_of_true ⟨e, rfl⟩ ⟨k, by simp, e, hg⟩
    | ok v =>
      cases hl : l.mapM (fun k => (g k).map fun v => (k, v)) with
      | error e =>
        rw [hl] at ih
        obtain ⟨k', hk', e', he'⟩ := ih.1 ⟨e, rfl⟩
        exact iff_of_true ⟨e, rfl⟩ ⟨k', by simp [hk'], e', he'⟩
      | ok o =>
        rw [hl] at ih
        refine iff_of_false (by rintro ⟨e, he⟩; cases he) ?_
        rintro ⟨k', hk', e, he⟩
        rcases List.mem_cons.1 hk' with rfl | hk'
        · rw [hg] at he; cases he
        · exact absurd (ih.2 ⟨k', hk', e, he⟩) (by simp)

theorem sparse_lookup (f : ModelFile α) (H : Grid α) (sparse : List (String × Grid (Option α)))
    (hs : interpolateToCommonHeight f H = .ok sparse) (key : String)
    (hk : key ∈ ["temperature", "pressure", "rh", "q", "uwind", "vwind"]) :
    ∃ v, f.field key = some v ∧ sparse.lookup key = some (commonHeight f.nH H (meanHeight f.nT H) v) := by
  obtain ⟨d, h1, h2⟩ := (lookup_mapM _ _ _ hs key).1 hk
  unfold sparseField at h1
  cases hf : f.field key with
  | none => rw [hf] at h1; cases h1
  | some v =>
    rw [hf] at h1
    cases h1
    exact ⟨v, rfl, h2⟩

/-- **C137.** The six variables are read, and `KeyError` is raised if one is missing. -/
theorem C137_variables (f : ModelFile α) (H : Grid α) :
    (∃ e, interpolateToCommonHeight f H = .error e) ↔
      ∃ key ∈ ["temperature", "pressure", "rh", "q", "uwind", "vwind"], f.field key = none := by
  unfold interpolateToCommonHeight
  rw [mapM_error_iff]
  change (∃ k ∈ ["temperature", "pressure", "rh", "q", "uwind", "vwind"], _) ↔ _
  refine exists_congr fun key => and_congr_right fun _ => ?_
  unfold sparseField
  cases f.field key <;> simp

/-- **C137.** On the common heights, a profile is masked as a whole if and only if all its values are masked; if the stored values are
a linear function of height in a profile, so are the results, below and above the levels too; values are kept where the common height is
the height of a level. -/
theorem C137_profile (f : ModelFile α) (H : Grid α) (sparse : List (String × Grid (Option α)))
    (hs : interpolateToCommonHeight f H = .ok sparse) (hH : 2 ≤ f.nH) (key : String)
    (hk : key ∈ ["temperature", "pressure", "rh", "q", "uwind", "vwind"]) (i : ℕ) (hi : Spec.Increasing f.nH (H i)) :
    ∃ v d, f.field key = some v ∧ sparse.lookup key = some d ∧
      (∀ k, d i k = none ↔ ∀ j < f.nH, v.masked i j = true) ∧
      (∀ a b, (∀ j < f.nH, v.stored i j = a + b * H i j) → ∀ k r, d i k = some r → r = a + b * meanHeight f.nT H k) ∧
      ∀ k j, j < f.nH → meanHeight f.nT H k = H i j → ∀ r, d i k = some r → r = v.stored i j := by
  obtain ⟨v, hf, hl⟩ := sparse_lookup f H sparse hs key hk
  have hall : ((List.range f.nH).all fun j => v.masked i j) = true ↔ ∀ j < f.nH, v.masked i j = true := by
    simp [List.all_eq_true]
  refine ⟨v, _, hf, hl, ?_, ?_, ?_⟩
  · intro k
    unfold commonHeight
    rw [← hall]
    split <;> simp_all
  · intro a b hlin k r hr
    unfold commonHeight at hr
    split at hr
    · cases hr
    · rw [← Option.some.inj hr]
      exact lineThrough_affine hH hi _ a b hlin _
  · intro k j hj he r hr
    unfold commonHeight at hr
    split at hr
    · cases hr
    · rw [← Option.some.inj hr, he]
      exact lineThrough_node hH hi _ hj

/-- **C137 (finding).** Masked values in a profile with some known value are not masked on the common heights, they are what is stored
under the mask: if the heights do not change with time, exactly that number. -/
theorem C137_hidden (f : ModelFile α) (H : Grid α) (sparse : List (String × Grid (Option α)))
    (hs : interpolateToCommonHeight f H = .ok sparse) (hH : 2 ≤ f.nH) (hT : 1 ≤ f.nT) (key : String)
    (hk : key ∈ ["temperature", "pressure", "rh", "q", "uwind", "vwind"]) (v : ModelField α) (hv : f.field key = some v)
    (hc : ∀ i i' k, H i k = H i' k) (i j k : ℕ) (hi : Spec.Increasing f.nH (H i)) (hj : j < f.nH) (hm : v.masked i j = false)
    (hk' : k < f.nH) (hmk : v.masked i k = true) :
    ∃ d, sparse.lookup key = some d ∧ d i k = some (v.stored i k) := by
  obtain ⟨v', d, h1, h2, h3, h4, h5⟩ := C137_profile f H sparse hs hH key hk i hi
  rw [hv] at h1
  cases h1
  refine ⟨d, h2, ?_⟩
  cases hd : d i k with
  | none =>
    have := (h3 k).1 hd j hj
    rw [hm] at this
    cases this
  | some r =>
    rw [h5 k k hk' ((C137_common_heights f.nT f.nH hT H).2.2 k _ fun i' _ => hc i' i k) r hd]

/-! ### Target grid -/

theorem validProfiles_iff (nT nH : ℕ) (a : Grid (Option α)) : 2 ≤ validProfiles nT nH a ↔ Spec.TwoProfiles nT nH a := by
  unfold validProfiles Spec.TwoProfiles
  set l := (List.range nT).filter fun i => (List.range nH).any fun k => (a i k).isSome with hl
  have hm : ∀ i, i ∈ l ↔ i < nT ∧ ∃ k < nH, a i k ≠ none := by
    intro i
    rw [hl, List.mem_filter, List.mem_range, List.any_eq_true]
    simp only [List.mem_range, Option.isSome_iff_ne_none]
  have hs : l.Pairwise (· < ·) := List.pairwise_lt_range.filter _
  constructor
  · intro h
    have h0 : 0 < l.length := by omega
    have h1 : 1 < l.length := by omega
    have m0 := (hm _).1 (List.getElem_mem h0)
    have m1 := (hm _).1 (List.getElem_mem h1)
    exact ⟨l[0], l[1], List.pairwise_iff_getElem.1 hs 0 1 h0 h1 (by omega), m1.1, m0.2, m1.2⟩
  · rintro ⟨p, q, hpq, hq, h1, h2⟩
    have hp' : p ∈ l := (hm p).2 ⟨by omega, h1⟩
    have hq' : q ∈ l := (hm q).2 ⟨hq, h2⟩
    match l, hp', hq' with
    | [a], ha, hb =>
      simp only [List.mem_singleton] at ha hb
      omega
    | a :: b :: t, _, _ => simp

variable (delaunay : (ℕ → ℕ → Bool) → Option (Triangulation α)) (nT : ℕ) (time : ℕ → α) (nH : ℕ) (mean : ℕ → α)
    (altSite : α) (sparse : List (String × Grid (Option α))) (nTime : ℕ) (timeGrid : ℕ → α) (nGrid : ℕ) (heightGrid : ℕ → α)

theorem denseField_iff (key : String) (a : Grid (Option α)) (ha : sparse.lookup key = some a) :
    (∀ d, denseField delaunay nT time nH mean altSite timeGrid nGrid heightGrid sparse key = .ok d ↔ Spec.TwoProfiles nT nH a ∧
      interpolate2dMask delaunay nT time nH mean a timeGrid nGrid
        (if key ∈ fieldsAtten then halfHeight altSite heightGrid else heightGrid) true = .ok d) ∧
    ((∃ e, denseField delaunay nT time nH mean altSite timeGrid nGrid heightGrid sparse key = .error e) ↔ ¬ Spec.TwoProfiles nT nH a ∨
      ∃ e, interpolate2dMask delaunay nT time nH mean a timeGrid nGrid
        (if key ∈ fieldsAtten then halfHeight altSite heightGrid else heightGrid) true = .error e) := by
  unfold denseField
  rw [ha]
  dsimp only
  rw [← validProfiles_iff]
  by_cases h : validProfiles nT nH a < 2
  · rw [if_pos h]
    exact ⟨fun d => iff_of_false (by simp) (by rintro ⟨hc, _⟩; omega), iff_of_true ⟨_, rfl⟩ (Or.inl (by omega))⟩
  · rw [if_neg h]
    have h2 : 2 ≤ validProfiles nT nH a := by omega
    simp [h2]

/-- **C137.** Fields that are missing, known in less than two profiles, or only at points on a line cannot be interpolated; otherwise the
interpolation succeeds. -/
theorem C137_raises (hd : Spec.Delaunay nT time nH mean delaunay) :
    (∃ e, interpolateToGrid delaunay nT time nH mean altSite sparse nTime timeGrid nGrid heightGrid = .error e) ↔
      ∃ key ∈ ["temperature", "pressure", "rh", "q", "specific_gas_atten", "specific_saturated_gas_atten", "specific_liquid_atten"],
        ∀ a, sparse.lookup key = some a → ¬ Spec.TwoProfiles nT nH a ∨ Spec.OnLine nT time nH mean a := by
  have h1 := mapM_error_iff (denseField delaunay nT time nH mean altSite timeGrid nGrid heightGrid sparse) (fieldsDense ++ fieldsAtten)
  have h2 : (∃ e, interpolateToGrid delaunay nT time nH mean altSite sparse nTime timeGrid nGrid heightGrid = .error e) ↔
      ∃ e, (fieldsDense ++ fieldsAtten).mapM (fun key =>
        (denseField delaunay nT time nH mean altSite timeGrid nGrid heightGrid sparse key).map fun d => (key, d)) = .error e := by
    unfold interpolateToGrid
    cases hm : (fieldsDense ++ fieldsAtten).mapM (fun key =>
        (denseField delaunay nT time nH mean altSite timeGrid nGrid heightGrid sparse key).map fun d => (key, d)) with
    | error e => exact iff_of_true ⟨e, rfl⟩ ⟨e, rfl⟩
    | ok dense =>
      obtain ⟨t, _, ht⟩ := (lookup_mapM _ _ _ hm "temperature").1 (by decide)
      refine iff_of_false ?_ (by simp)
      rintro ⟨e, he⟩
      simp only [Except.bind, ht] at he
      cases he
  rw [h2, h1]
  change (∃ k ∈ ["temperature", "pressure", "rh", "q", "specific_gas_atten", "specific_saturated_gas_atten", "specific_liquid_atten"], _) ↔ _
  refine exists_congr fun key => and_congr_right fun _ => ?_
  cases ha : sparse.lookup key with
  | none =>
    refine iff_of_true ⟨"KeyError", ?_⟩ (by simp)
    unfold denseField
    rw [ha]
  | some a =>
    rw [(denseField_iff delaunay nT time nH mean altSite sparse timeGrid nGrid heightGrid key a ha).2,
      C136_error delaunay nT time nH mean a timeGrid nGrid _ hd true]
    simp [Spec.OnLine]

/-- **C137.** If a field has less than two profiles, and all fields before it can be interpolated, `ModelDataError` is raised. -/
theorem C137_too_few (key : String) (a : Grid (Option α)) (ha : sparse.lookup key = some a) (h : ¬ Spec.TwoProfiles nT nH a) :
    denseField delaunay nT time nH mean altSite timeGrid nGrid heightGrid sparse key = .error "ModelDataError" := by
  unfold denseField
  rw [ha]
  dsimp only
  rw [if_pos]
  rw [← validProfiles_iff] at h
  omega

theorem dense_lookup (dense : List (String × Grid (Option α))) (gaps : List ℕ)
    (h : interpolateToGrid delaunay nT time nH mean altSite sparse nTime timeGrid nGrid heightGrid = .ok (dense, gaps)) :
    (∀ key ∈ ["temperature", "pressure", "rh", "q", "specific_gas_atten", "specific_saturated_gas_atten", "specific_liquid_atten"],
      ∃ a d, sparse.lookup key = some a ∧ dense.lookup key = some d ∧ Spec.TwoProfiles nT nH a ∧
        interpolate2dMask delaunay nT time nH mean a timeGrid nGrid
          (if key ∈ fieldsAtten then halfHeight altSite heightGrid else heightGrid) true = .ok d) ∧
    ∃ t, dense.lookup "temperature" = some t ∧ gaps = findMaskedProfiles nTime nGrid t := by
  unfold interpolateToGrid at h
  cases hm : (fieldsDense ++ fieldsAtten).mapM (fun key =>
      (denseField delaunay nT time nH mean altSite timeGrid nGrid heightGrid sparse key).map fun d => (key, d)) with
  | error e => rw [hm] at h; cases h
  | ok dense' =>
    rw [hm] at h
    simp only [Except.bind] at h
    cases ht : dense'.lookup "temperature" with
    | none => rw [ht] at h; cases h
    | some t =>
      rw [ht] at h
      cases h
      refine ⟨fun key hk => ?_, t, ht, rfl⟩
      obtain ⟨d, h1, h2⟩ := (lookup_mapM _ _ _ hm key).1 hk
      cases ha : sparse.lookup key with
      | none =>
        unfold denseField at h1
        rw [ha] at h1
        cases h1
      | some a =>
        obtain ⟨h3, h4⟩ := ((denseField_iff delaunay nT time nH mean altSite sparse timeGrid nGrid heightGrid key a ha).1 d).1 h1
        exact ⟨a, d, rfl, h2, h3, h4⟩

/-- **C137.** Fields are interpolated to the target heights, but attenuations to the middle of the gates: half way between the target
height and the one below, which is the altitude of the site for the first. -/
theorem C137_target_heights (dense : List (String × Grid (Option α))) (gaps : List ℕ)
    (h : interpolateToGrid delaunay nT time nH mean altSite sparse nTime timeGrid nGrid heightGrid = .ok (dense, gaps)) (key : String)
    (hk : key ∈ ["temperature", "pressure", "rh", "q", "specific_gas_atten", "specific_saturated_gas_atten", "specific_liquid_atten"]) :
    ∃ a d target, sparse.lookup key = some a ∧ dense.lookup key = some d ∧
      interpolate2dMask delaunay nT time nH mean a timeGrid nGrid target true = .ok d ∧
      (key ∈ ["temperature", "pressure", "rh", "q"] → target = heightGrid) ∧
      (key ∈ ["specific_gas_atten", "specific_saturated_gas_atten", "specific_liquid_atten"] →
        target 0 = (altSite + heightGrid 0) / 2 ∧ ∀ k, target (k + 1) = (heightGrid k + heightGrid (k + 1)) / 2) := by
  obtain ⟨a, d, h1, h2, h3, h4⟩ := (dense_lookup delaunay nT time nH mean altSite sparse nTime timeGrid nGrid heightGrid dense gaps h).1 key hk
  refine ⟨a, d, _, h1, h2, h4, ?_, ?_⟩
  · intro hk'
    rw [if_neg]
    revert hk'
    simp only [fieldsAtten, List.mem_cons, List.not_mem_nil, or_false]
    rintro (rfl | rfl | rfl | rfl) <;> decide
  · intro hk'
    rw [if_pos (show key ∈ fieldsAtten from hk')]
    refine ⟨?_, fun k => ?_⟩
    · unfold halfHeight
      simp only [if_true]
      ring
    · unfold halfHeight
      simp only [Nat.add_eq_zero_iff, one_ne_zero, and_false, if_false, Nat.add_sub_cancel]
      ring

/-- **C137.** The returned indices are those of the profiles where no temperature is known; all profiles before the first or after the
last model profile with a known temperature are among them. -/
theorem C137_gaps (hd : Spec.Delaunay nT time nH mean delaunay) (hT : Spec.Increasing nT time) (hM : Spec.Increasing nH mean)
    (hG : Spec.Increasing nGrid heightGrid) (hT2 : 2 ≤ nT) (hH2 : 2 ≤ nH) (dense : List (String × Grid (Option α))) (gaps : List ℕ)
    (h : interpolateToGrid delaunay nT time nH mean altSite sparse nTime timeGrid nGrid heightGrid = .ok (dense, gaps)) :
    ∃ a d, sparse.lookup "temperature" = some a ∧ dense.lookup "temperature" = some d ∧
      (∀ t, t ∈ gaps ↔ t < nTime ∧ ∀ k < nGrid, d t k = none) ∧
      ∀ t < nTime, ((∀ i < nT, ∀ j < nH, a i j ≠ none → timeGrid t < time i) ∨ (∀ i < nT, ∀ j < nH, a i j ≠ none → time i < timeGrid t)) →
        t ∈ gaps := by
  obtain ⟨hl, t, ht, hg⟩ := dense_lookup delaunay nT time nH mean altSite sparse nTime timeGrid nGrid heightGrid dense gaps h
  obtain ⟨a, d, h1, h2, h3, h4⟩ := hl "temperature" (by simp)
  rw [ht] at h2
  cases h2
  rw [if_neg (by decide)] at h4
  have hmem : ∀ s, s ∈ gaps ↔ s < nTime ∧ ∀ k < nGrid, t s k = none := by
    intro s
    rw [hg]
    unfold findMaskedProfiles
    rw [List.mem_filter, List.mem_range, decide_eq_true_eq, List.length_eq_zero_iff, List.filter_eq_nil_iff]
    simp only [List.mem_range, Option.not_isSome_iff_eq_none]
  refine ⟨a, t, h1, ht, hmem, ?_⟩
  intro s hs hout
  exact (hmem s).2 ⟨hs, C136_outside delaunay nT time nH mean a timeGrid nGrid heightGrid hd hG hT hM hT2 hH2 true t h4 s hout⟩

end

section
variable {α : Type} [Field α] [LinearOrder α] [IsStrictOrderedRing α]

/-- **C137.** The whole way of temperature, pressure and humidities to the target grid is exact for fields that are linear in time and
height: if the numbers in the file are `a + b · time + c · height`, with heights of the levels that may change with time, so are all known
values of the result. All values of profiles that are in the time range of the model are known if nothing is masked and two target heights
are between the lowest and highest mean level. -/
theorem C137_linear (delaunay : (ℕ → ℕ → Bool) → Option (Triangulation α)) (f : ModelFile α) (H : Grid α)
    (hd : Spec.Delaunay f.nT f.time f.nH (meanHeight f.nT H) delaunay)
    (hT : Spec.Increasing f.nT f.time) (hT2 : 2 ≤ f.nT) (hH2 : 2 ≤ f.nH) (hH : ∀ i < f.nT, Spec.Increasing f.nH (H i))
    (lib : AtmosLib α) (sparse : List (String × Grid (Option α))) (hs : sparseFields lib f H = .ok sparse)
    (altSite : α) (nTime : ℕ) (timeGrid : ℕ → α) (nGrid : ℕ) (heightGrid : ℕ → α) (hG : Spec.Increasing nGrid heightGrid)
    (dense : List (String × Grid (Option α))) (gaps : List ℕ)
    (h : interpolateToGrid delaunay f.nT f.time f.nH (meanHeight f.nT H) altSite sparse nTime timeGrid nGrid heightGrid = .ok (dense, gaps))
    (key : String) (hk : key ∈ ["temperature", "pressure", "rh", "q"]) (v : ModelField α) (hv : f.field key = some v) (a b c : α)
    (hlin : ∀ i < f.nT, ∀ j < f.nH, v.stored i j = a + b * f.time i + c * H i j) :
    ∃ d, dense.lookup key = some d ∧
      (∀ t, ∀ k < nGrid, ∀ r, d t k = some r → r = a + b * timeGrid t + c * heightGrid k) ∧
      ((∀ i j, v.masked i j = false) → ∀ t, f.time 0 ≤ timeGrid t ∧ timeGrid t ≤ f.time (f.nT - 1) → ∀ p q, p < q → q < nGrid →
        meanHeight f.nT H 0 ≤ heightGrid p → heightGrid p ≤ meanHeight f.nT H (f.nH - 1) → meanHeight f.nT H 0 ≤ heightGrid q →
        heightGrid q ≤ meanHeight f.nT H (f.nH - 1) → ∀ k < nGrid, ∃ r, d t k = some r) := by
  have hM := (C137_common_heights f.nT f.nH (by omega) H).2.1 hH
  unfold sparseFields at hs
  cases hA : calcAttenuations lib f with
  | error e => rw [hA] at hs; cases hs
  | ok att =>
    rw [hA] at hs
    cases hB : interpolateToCommonHeight f H with
    | error e => rw [hB] at hs; cases hs
    | ok com =>
      rw [hB] at hs
      cases hs
      have hna : att.lookup key = none := by
        unfold calcAttenuations at hA
        split at hA
        · cases hA
          simp only [List.mem_cons, List.not_mem_nil, or_false] at hk
          rcases hk with rfl | rfl | rfl | rfl <;> rfl
        · cases hA
      obtain ⟨v', hv', hl⟩ := sparse_lookup f H com hB key (by
        simp only [List.mem_cons, List.not_mem_nil, or_false] at hk ⊢
        tauto)
      rw [hv] at hv'
      cases hv'
      obtain ⟨a', d, h1, h2, h3, h4⟩ := (dense_lookup delaunay f.nT f.time f.nH _ altSite _ nTime timeGrid nGrid heightGrid dense gaps h).1 key
        (by
          simp only [List.mem_cons, List.not_mem_nil, or_false] at hk ⊢
          tauto)
      rw [List.lookup_append, hna, Option.none_or, hl] at h1
      cases h1
      rw [if_neg (by
        simp only [List.mem_cons, List.not_mem_nil, or_false] at hk
        rcases hk with rfl | rfl | rfl | rfl <;> decide)] at h4
      refine ⟨d, h2, ?_, ?_⟩
      · intro t k hk' r hr
        refine C136_affine _ _ _ _ _ _ _ _ _ hd hG true d h4 a b c ?_ t k hk' r hr
        intro i hi j hj s hs
        unfold commonHeight at hs
        split at hs
        · cases hs
        · rw [← Option.some.inj hs]
          exact lineThrough_affine hH2 (hH i hi) _ (a + b * f.time i) c (hlin i hi) _
      · intro hm t ht p q hpq hq p1 p2 q1 q2
        refine C136_complete _ _ _ _ _ _ _ _ _ hd hT hM hT2 hH2 hG d h4 ?_ t ht p q hpq hq ⟨p1, p2⟩ ⟨q1, q2⟩
        intro i hi j hj
        unfold commonHeight
        rw [if_neg]
        · simp
        · simp only [List.all_eq_true, List.mem_range, not_forall]
          exact ⟨0, by omega, by simp [hm]⟩

/-- **C137.** Attenuations are calculated on the levels of the model from temperature, pressure and humidity; they are masked where one
of the arguments is. -/
theorem C137_attenuations (lib : AtmosLib α) (f : ModelFile α) (H : Grid α) (sparse : List (String × Grid (Option α)))
    (hs : sparseFields lib f H = .ok sparse) : ∃ t p q, f.field "temperature" = some t ∧ f.field "pressure" = some p ∧ f.field "q" = some q ∧
    ∃ liquid gas saturated, sparse.lookup "specific_liquid_atten" = some liquid ∧ sparse.lookup "specific_gas_atten" = some gas ∧
      sparse.lookup "specific_saturated_gas_atten" = some saturated ∧ ∀ i k,
      (∀ r, liquid i k = some r ↔ t.masked i k = false ∧ r = lib.liquid (t.stored i k)) ∧
      (∀ r, gas i k = some r ↔ t.masked i k = false ∧ p.masked i k = false ∧ q.masked i k = false ∧
        r = lib.gas (t.stored i k) (p.stored i k) (lib.vaporPressure (p.stored i k) (q.stored i k))) ∧
      ∀ r, saturated i k = some r ↔ t.masked i k = false ∧ p.masked i k = false ∧
        r = lib.gas (t.stored i k) (p.stored i k) (lib.saturation (t.stored i k)) := by
  unfold sparseFields at hs
  cases hA : calcAttenuations lib f with
  | error e => rw [hA] at hs; cases hs
  | ok att =>
    rw [hA] at hs
    cases hB : interpolateToCommonHeight f H with
    | error e => rw [hB] at hs; cases hs
    | ok com =>
      rw [hB] at hs
      cases hs
      unfold calcAttenuations at hA
      split at hA
      · next t p q ht hp hq =>
        cases hA
        refine ⟨t, p, q, ht, hp, hq, _, _, _, rfl, rfl, rfl, fun i k => ⟨fun r => ?_, fun r => ?_, fun r => ?_⟩⟩
        all_goals
          unfold ModelField.value
          cases t.masked i k <;> cases p.masked i k <;> cases q.masked i k <;> simp [eq_comm]
      · cases hA

/-- **C137 (finding).** The attenuations of a profile are not interpolated to the common heights but are used as if its levels were
there: at the time of profile `i` and the mean height of level `k`, the result is the attenuation of level `k`, whatever its height in this
profile is. -/
theorem C137_attenuation_level (delaunay : (ℕ → ℕ → Bool) → Option (Triangulation α)) (f : ModelFile α) (H : Grid α)
    (hd : Spec.Delaunay f.nT f.time f.nH (meanHeight f.nT H) delaunay)
    (hT : Spec.Increasing f.nT f.time) (hT2 : 2 ≤ f.nT) (hH2 : 2 ≤ f.nH) (hH : ∀ i < f.nT, Spec.Increasing f.nH (H i))
    (lib : AtmosLib α) (sparse : List (String × Grid (Option α))) (hs : sparseFields lib f H = .ok sparse)
    (altSite : α) (nTime : ℕ) (timeGrid : ℕ → α) (nGrid : ℕ) (heightGrid : ℕ → α) (hG : Spec.Increasing nGrid (halfHeight altSite heightGrid))
    (dense : List (String × Grid (Option α))) (gaps : List ℕ)
    (h : interpolateToGrid delaunay f.nT f.time f.nH (meanHeight f.nT H) altSite sparse nTime timeGrid nGrid heightGrid = .ok (dense, gaps))
    (t : ModelField α) (ht : f.field "temperature" = some t) (i k s l : ℕ) (hi : i < f.nT) (hk : k < f.nH) (hl : l < nGrid)
    (hm : t.masked i k = false) (h1 : timeGrid s = f.time i) (h2 : halfHeight altSite heightGrid l = meanHeight f.nT H k) :
    ∃ d, dense.lookup "specific_liquid_atten" = some d ∧ d s l = some (lib.liquid (t.stored i k)) := by
  have hM := (C137_common_heights f.nT f.nH (by omega) H).2.1 hH
  obtain ⟨t', p, q, e1, e2, e3, liquid, gas, sat, l1, l2, l3, hval⟩ := C137_attenuations lib f H sparse hs
  rw [ht] at e1
  cases e1
  obtain ⟨a', d, g1, g2, g3, g4⟩ := (dense_lookup delaunay f.nT f.time f.nH _ altSite _ nTime timeGrid nGrid heightGrid dense gaps h).1
    "specific_liquid_atten" (by simp)
  rw [l1] at g1
  cases g1
  rw [if_pos (by decide)] at g4
  refine ⟨d, g2, ?_⟩
  rw [C136_node delaunay _ _ _ _ _ _ _ _ hd hT hM hG (by omega) (by omega) true d g4 s l hl i k hi hk h1 h2]
  exact ((hval i k).1 _).2 ⟨hm, rfl⟩

/-- **C137.** The wet-bulb temperature is known where temperature, pressure and humidity are; the offset of the options is added and, if
it is not zero, noted. -/
theorem C137_wet_bulb (wetBulb : α → α → α → α) (offset : Option α) (t p q : Grid (Option α)) :
    (∀ i k r, (calcWetBulb wetBulb offset t p q).1 i k = some r ↔ ∃ a b c, t i k = some a ∧ p i k = some b ∧ q i k = some c ∧
      r = wetBulb a b c + offset.getD 0) ∧
    (∀ o, (calcWetBulb wetBulb offset t p q).2 = some o ↔ offset = some o ∧ o ≠ 0) := by
  unfold calcWetBulb
  constructor
  · intro i k r
    dsimp only
    generalize t i k = a
    generalize p i k = b
    generalize q i k = c
    cases a <;> cases b <;> cases c <;> simp [eq_comm]
  · intro o
    cases offset with
    | none => simp
    | some x =>
      simp only [Option.getD_some, Option.some.injEq]
      by_cases hx : x = 0
      · rw [if_pos hx]
        refine iff_of_false (by simp) ?_
        rintro ⟨rfl, h⟩
        exact h hx
      · rw [if_neg hx, Option.some.injEq]
        exact ⟨fun h => ⟨h, h ▸ hx⟩, fun h => h.1⟩

end

/-- The gates start at 100 m, the site is at 40 m. -/
example : (List.range 3).map (halfHeight (40 : ℚ) fun k => 100 + 20 * k) = [70, 110, 130] := by decide +kernel

/-- A model whose heights change with time, with two profiles and levels. -/
def exampleModel : ModelFile ℚ where
  nT := 2
  nH := 2
  time := fun i => 12 * i
  height := some ("km", fun i k => k / 2 + i / 10)
  sfcHeight := none
  sfcGeopotential := none
  field := fun _ => some ⟨fun i k => 280 + i - k, fun _ _ => false⟩

example : ∃ H, modelHeights exampleModel 40 = .ok H ∧ meanHeight 2 H 0 = 90 ∧ meanHeight 2 H 1 = 590 ∧
    ((interpolateToCommonHeight exampleModel H).map fun l => (l.map Prod.fst, (l.lookup "q").map fun d => (d 0 0, d 1 1))) =
      .ok (["temperature", "pressure", "rh", "q", "uwind", "vwind"], some (some (2799 / 10), some (2801 / 10))) := by
  refine ⟨_, rfl, ?_, ?_, ?_⟩ <;> decide +kernel

/-- The hypotheses of `C137_linear` are met by this model with every triangulation. -/
example (delaunay : (ℕ → ℕ → Bool) → Option (Triangulation ℚ)) (H : Grid ℚ) (hH : modelHeights exampleModel 40 = .ok H)
    (hd : Spec.Delaunay 2 (fun i => 12 * (i : ℚ)) 2 (meanHeight 2 H) delaunay) :
    ∃ sparse dense gaps, sparseFields ⟨id, fun a _ _ => a, fun a _ => a, id⟩ exampleModel H = .ok sparse ∧
      interpolateToGrid delaunay 2 (fun i => 12 * (i : ℚ)) 2 (meanHeight 2 H) 40 sparse 2 (fun t => t) 3 (fun k => 100 + 20 * (k : ℚ)) =
        .ok (dense, gaps) := by
  cases hs : sparseFields ⟨id, fun a _ _ => a, fun a _ => a, id⟩ exampleModel H with
  | error e => cases hs
  | ok sparse =>
    cases hg : interpolateToGrid delaunay 2 (fun i => 12 * (i : ℚ)) 2 (meanHeight 2 H) 40 sparse 2 (fun t => t) 3
        (fun k => 100 + 20 * (k : ℚ)) with
    | ok r => exact ⟨sparse, r.1, r.2, rfl, hg⟩
    | error e =>
      exfalso
      obtain ⟨key, hk, ha⟩ := (C137_raises delaunay 2 _ 2 _ 40 sparse 2 _ 3 _ hd).1 ⟨e, hg⟩
      have hall : ∃ a, sparse.lookup key = some a ∧ ∀ i k, a i k ≠ none := by
        cases hs
        simp only [List.mem_cons, List.not_mem_nil, or_false] at hk
        rcases hk with rfl | rfl | rfl | rfl | rfl | rfl | rfl
        all_goals exact ⟨_, rfl, fun i k => by
          first
          | (intro hc; cases hc)
          | (unfold commonHeight; simp [exampleModel, List.range_succ])⟩
      obtain ⟨a, h1, h2⟩ := hall
      rcases ha a h1 with h | ⟨p, q, c, hpq, hl⟩
      · exact h ⟨0, 1, by omega, by omega, ⟨0, by omega, h2 0 0⟩, ⟨0, by omega, h2 1 0⟩⟩
      · have m0 : meanHeight 2 H 0 = 90 := by cases hH; decide +kernel
        have m1 : meanHeight 2 H 1 = 590 := by cases hH; decide +kernel
        have e00 := hl 0 (by omega) 0 (by omega) (h2 0 0)
        have e10 := hl 1 (by omega) 0 (by omega) (h2 1 0)
        have e01 := hl 0 (by omega) 1 (by omega) (h2 0 1)
        rw [m0] at e00 e10
        rw [m1] at e01
        norm_num at e00 e10 e01
        rcases hpq with hp | hq
        · exact hp (by linarith)
        · exact hq (by linarith)

end Cloudnet
