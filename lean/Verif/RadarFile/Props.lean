import Verif.RadarFile.Bowtie
import Verif.Source.Props
import Verif.Geo.Props
import Verif.Mrr.Props

/-! Property C152: BASTA and BOW-TIE radar files. -/

set_option linter.unusedSectionVars false
set_option linter.unusedSimpArgs false

namespace Cloudnet

theorem records_get {β : Type} (src : List ℕ) (xs : List β) (h : ∀ i ∈ src, i < xs.length) (k : ℕ) :
    (Spec.records src xs)[k]? = (src[k]?).bind fun i => xs[i]? := by
  unfold Spec.records
  induction src generalizing k with
  | nil => simp
  | cons i src ih =>
    have hi : i < xs.length := h i (by simp)
    rw [List.filterMap_cons, List.getElem?_eq_getElem hi]
    cases k with
    | zero => simp [List.getElem?_eq_getElem hi]
    | succ k => simpa using ih (fun j hj => h j (by simp [hj])) k

theorem cell_records {β : Type} (src : List ℕ) (xs : List (List β)) (h : ∀ i ∈ src, i < xs.length) (k i j : ℕ) (hk : src[k]? = some i) :
    Spec.cell (Spec.records src xs) k j = Spec.cell xs i j := by
  unfold Spec.cell
  rw [records_get src xs h k, hk]
  rfl

theorem cell_zip {β γ δ : Type} (g : β → γ → δ) (bs : List (List β)) (xs : List (List γ)) (i j : ℕ) :
    Spec.cell (List.zipWith (List.zipWith g) bs xs) i j = (Spec.cell bs i j).bind fun b => (Spec.cell xs i j).map fun x => g b x := by
  unfold Spec.cell
  rw [List.getElem?_zipWith]
  cases bs[i]? with
  | none => simp
  | some rb =>
    cases xs[i]? with
    | none => simp
    | some rx =>
      simp only [Option.bind_some]
      rw [List.getElem?_zipWith]
      cases rb[j]? <;> cases rx[j]? <;> rfl

theorem zip_matrix {β γ δ : Type} (g : β → γ → δ) (bs : List (List β)) (xs : List (List γ)) (n w : ℕ) (hb : Spec.IsMatrix n w bs)
    (hx : Spec.IsMatrix n w xs) : Spec.IsMatrix n w (List.zipWith (List.zipWith g) bs xs) := by
  refine ⟨by rw [List.length_zipWith, hb.1, hx.1]; simp, ?_⟩
  intro row hrow
  obtain ⟨i, hi, rfl⟩ := List.getElem_of_mem hrow
  rw [List.getElem_zipWith, List.length_zipWith, hb.2 _ (List.getElem_mem _), hx.2 _ (List.getElem_mem _)]
  simp

theorem records_matrix {β : Type} (src : List ℕ) (xs : List (List β)) (n w : ℕ) (hx : Spec.IsMatrix n w xs) (h : ∀ i ∈ src, i < n) :
    Spec.IsMatrix src.length w (Spec.records src xs) := by
  refine ⟨records_length src xs (by rw [hx.1]; exact h), ?_⟩
  intro row hrow
  unfold Spec.records at hrow
  obtain ⟨i, _, hi⟩ := List.mem_filterMap.1 hrow
  exact hx.2 row (List.mem_of_getElem? hi)

section
variable {α : Type} [Field α] [LinearOrder α] [IsStrictOrderedRing α] [FloorRing α]

theorem initNd_many (xs : List (List (RawPixel α))) (h : xs.length ≠ 1) : initNd (.d2 xs) = .d2 (xs.map fun r => r.map RawPixel.value) := by
  unfold initNd NdArray.isScalar
  simp [NdArray.len?, h, NdArray.mapAll]

theorem initNd_vector (xs : List (RawPixel α)) (h : xs.length ≠ 1) : initNd (.d1 xs) = .d1 (xs.map RawPixel.value) := by
  unfold initNd NdArray.isScalar
  simp [NdArray.len?, h, NdArray.mapAll]

theorem src_lt (times : List α) (src : List ℕ) (h : Spec.OnePerTime (vec times) (List.range times.length) src) : ∀ i ∈ src, i < times.length :=
  fun i hi => List.mem_range.1 (h.2.1 i hi)

/-- **C152.** The times of the new file: those in the file, or the hours of the day if some number is larger than 25 (then they are
seconds). -/
theorem C152_times (f : RadarFile α) (times : List α) (h : radarOpen f = .ok times) :
    ∃ stamps, f.stamps = some stamps ∧ stamps ≠ [] ∧ times.length = stamps.length ∧
      ((∀ t ∈ stamps, t ≤ 25) → times = stamps) ∧
      ((∃ t ∈ stamps, 25 < t) → ∀ (i : ℕ) (t hour : α), stamps[i]? = some t → times[i]? = some hour →
        0 ≤ hour ∧ hour ≤ 24 ∧ ∃ days : ℤ, t = 86400 * days + 3600 * hour) := by
  obtain ⟨stamps, hours, hs, hne, hi, rfl⟩ := radarOpen_spec f times h
  have hpos := List.length_pos_of_ne_nil hne
  have hv : ∀ i (hi : i < stamps.length), vec stamps i = stamps[i] := fun i hi => by simp [vec, List.getElem?_eq_getElem hi]
  refine ⟨stamps, hs, hne, by simp, ?_, ?_⟩
  · intro hall
    have := ((C98_time (α := α)).2.2 stamps.length (vec stamps) hpos).1 fun i hi => by
      rw [hv i hi]; exact hall _ (List.getElem_mem _)
    rw [this] at hi
    cases hi
    apply List.ext_getElem
    · simp
    · intro i h1 h2
      simp only [List.getElem_map, List.getElem_range]
      exact hv i h2
  · rintro ⟨t, ht, h25⟩ i t' hour h1 h2
    obtain ⟨k, hk, rfl⟩ := List.getElem_of_mem ht
    obtain ⟨f', hf', hspec⟩ := ((C98_time (α := α)).2.2 stamps.length (vec stamps) hpos).2 ⟨k, hk, by rw [hv k hk]; exact h25⟩
    rw [hf'] at hi
    cases hi
    obtain ⟨hil, hit⟩ := List.getElem?_eq_some_iff.1 h1
    rw [List.getElem?_map, List.getElem?_range hil] at h2
    cases Option.some.inj h2
    obtain ⟨⟨d, hd⟩, hr, _⟩ := hspec i hil
    rw [hv i hil, hit] at hd
    refine ⟨?_, ?_, d, hd⟩
    · rcases hr with hr | ⟨_, hr⟩
      · exact hr.1
      · rw [hr]; norm_num
    · rcases hr with hr | ⟨_, hr⟩
      · exact hr.2.le
      · rw [hr]

/-- **C152.** A BASTA file with two or more times: there is one profile for each time, in ascending order. Row `k` of time, reflectivity,
velocity and pointing angles comes from the same profile `src[k]`. A pixel has the value in the file if the file has one and the background
mask is known to be one, and no value otherwise. -/
theorem C152_basta_profiles (tools : RadarTools α) (site : RadarSite α) (date : Option CivilDate) (f : RadarFile α) (day : CivilDate)
    (out : List (String × NdArray (Option α))) (hsort : ∀ ts, Spec.IsArgsort ts (tools.argsort ts))
    (ho : basta2nc tools site date f = .ok (day, out)) :
    ∃ times src, radarOpen f = .ok times ∧ Spec.OnePerTime (vec times) (List.range times.length) src ∧
      out.lookup "time" = some (.d1 (src.map fun i => some (vec times i))) ∧
      (2 ≤ times.length → ∀ (bs : List (List (RawPixel α))) (w : ℕ), f.vars.lookup "background_mask" = some (.d2 bs) →
        Spec.IsMatrix times.length w bs →
        (∀ raw name xs, (raw, name) ∈ [("reflectivity", "Zh"), ("velocity", "v")] → f.vars.lookup raw = some (.d2 xs) →
          Spec.IsMatrix times.length w xs →
          ∃ rows, out.lookup name = some (.d2 rows) ∧ Spec.IsMatrix src.length w rows ∧
            ∀ (k i j : ℕ) (p b : RawPixel α) (v : α), src[k]? = some i → Spec.cell xs i j = some p → Spec.cell bs i j = some b →
              (Spec.cell rows k j = some (some v) ↔ Spec.Has p v ∧ Spec.Has b 1)) ∧
        (∀ name xs, name ∈ ["radar_pitch", "radar_yaw", "radar_roll"] → f.vars.lookup name = some (.d1 xs) → xs.length = times.length →
          ∃ ys, out.lookup name = some (.d1 ys) ∧ ys.length = src.length ∧
            ∀ (k i : ℕ) (p : RawPixel α) (v : α), src[k]? = some i → xs[i]? = some p → (ys[k]? = some (some v) ↔ Spec.Has p v))) ∧
      (∀ xs, f.vars.lookup "elevation" = some (.d1 xs) → xs.length = times.length →
          ∃ ys, out.lookup "zenith_angle" = some (.d1 ys) ∧ ys.length = src.length ∧
            ∀ (k i : ℕ) (p : RawPixel α) (v : α), src[k]? = some i → xs[i]? = some p → (ys[k]? = some (some (90 - v)) ↔ Spec.Has p v)) := by
  obtain ⟨times, b, e, r, g, h, src, a, q1, q2, q4, q5, q6, hsrc, _, _, hout⟩ := basta_rows tools site date f day out hsort ho
  have hlt := src_lt times src hsrc
  refine ⟨times, src, q1, hsrc, ?_, ?_, ?_⟩
  · rw [hout, bastaDict_time]
    simp only [Option.map_some, Spec.keepRows, List.length_map, if_true, Option.some.injEq, NdArray.d1.injEq]
    rw [records_map_fn, records_vec src times hlt, List.map_map]
    rfl
  · intro h2 bs w hbs hbm
    rw [hbs] at q4
    cases q4
    constructor
    · intro raw name xs hm hx hxm
      have hm' : (raw, name) ∈ bastaKeymap := by
        simp only [List.mem_cons, List.not_mem_nil, or_false] at hm
        rcases hm with hm | hm <;> rw [hm] <;> decide
      have hn1 : xs.length ≠ 1 := by rw [hxm.1]; omega
      have hxm' : Spec.IsMatrix times.length w (xs.map fun r => r.map RawPixel.value) := by
        refine ⟨by rw [List.length_map, hxm.1], ?_⟩
        intro row hrow
        obtain ⟨r', hr', rfl⟩ := List.mem_map.1 hrow
        rw [List.length_map, hxm.2 _ hr']
      have hpl : NdArray.isScalar (.d2 (xs.map fun r => r.map (RawPixel.value (α := α)))) = false := by
        simp [NdArray.isScalar, NdArray.len?, hn1]
      have hz := zip_matrix (bastaPixel (α := α) false) bs _ _ w hbm hxm'
      refine ⟨Spec.records src (List.zipWith (List.zipWith (bastaPixel false)) bs (xs.map fun r => r.map RawPixel.value)), ?_,
        records_matrix src _ _ w hz hlt, ?_⟩
      · rw [hout, bastaDict_var _ _ _ _ _ _ _ _ _ raw name hm', hx]
        simp only [Option.map_some]
        rw [initNd_many xs hn1]
        simp only [bastaArray, hpl, Spec.keepRows]
        rw [if_pos hz.1]
      · intro k i j p b' v hk hp hb'
        rw [cell_records src _ (by rw [hz.1]; exact hlt) k i j hk, cell_zip, hb']
        have hpv : Spec.cell (xs.map fun r => r.map RawPixel.value) i j = some p.value := by
          unfold Spec.cell at hp ⊢
          rw [List.getElem?_map]
          cases hxi : xs[i]? with
          | none => rw [hxi] at hp; cases hp
          | some row =>
            rw [hxi] at hp
            simp only [Option.bind_some] at hp
            simp [hp]
        rw [hpv]
        simp only [Option.bind_some, Option.map_some, Option.some.injEq]
        unfold bastaPixel
        rw [← value_has, ← value_has]
        by_cases hb1 : b'.value = some 1
        · rw [if_pos hb1]; simp [hb1]
        · rw [if_neg hb1]; simp [hb1]
    · intro name xs hm hx hxl
      have hm' : (name, name) ∈ bastaKeymap := by
        simp only [List.mem_cons, List.not_mem_nil, or_false] at hm
        rcases hm with rfl | rfl | rfl <;> decide
      have hn1 : xs.length ≠ 1 := by rw [hxl]; omega
      refine ⟨Spec.records src (xs.map RawPixel.value), ?_, records_length src _ (by rw [List.length_map, hxl]; exact hlt), ?_⟩
      · rw [hout, bastaDict_var _ _ _ _ _ _ _ _ _ name name hm', hx]
        simp only [Option.map_some]
        rw [initNd_vector xs hn1]
        simp only [bastaArray, Spec.keepRows, List.length_map]
        rw [if_pos hxl]
      · intro k i p v hk hp
        rw [records_get src _ (by rw [List.length_map, hxl]; exact hlt) k, hk, Option.bind_some, List.getElem?_map, hp]
        simp only [Option.map_some, Option.some.injEq]
        exact value_has p v
  · intro xs hx hxl
    rw [hx] at q6
    cases q6
    refine ⟨Spec.records src ((xs.map RawPixel.value).map (Option.map (90 - ·))), ?_,
      records_length src _ (by rw [List.length_map, List.length_map, hxl]; exact hlt), ?_⟩
    · rw [hout, bastaDict_zenith]
      simp only [Option.map_some, NdArray.mapAll, NdArray.mapNumbers, Spec.keepRows, List.length_map]
      rw [if_pos hxl]
    · intro k i p v hk hp
      rw [records_get src _ (by rw [List.length_map, List.length_map, hxl]; exact hlt) k, hk, Option.bind_some, List.getElem?_map,
        List.getElem?_map, hp]
      simp only [Option.map_some, Option.some.injEq, Option.map_eq_some_iff]
      rw [← value_has]
      constructor
      · rintro ⟨a, ha, hv⟩
        rw [ha]
        congr 1
        linarith
      · intro h; exact ⟨v, h, rfl⟩

/-- **C152**, a finding. A file with a single time: masks are lost. A pixel of the background gets the number zero, a masked one whatever is under
the mask. -/
theorem C152_basta_single (tools : RadarTools α) (site : RadarSite α) (date : Option CivilDate) (f : RadarFile α) (day : CivilDate)
    (out : List (String × NdArray (Option α))) (hsort : ∀ ts, Spec.IsArgsort ts (tools.argsort ts))
    (ho : basta2nc tools site date f = .ok (day, out)) (t : α) (ht : radarOpen f = .ok [t]) (raw name : String)
    (hm : (raw, name) ∈ [("reflectivity", "Zh"), ("velocity", "v")]) (xs bs : List (RawPixel α)) (hx : f.vars.lookup raw = some (.d2 [xs]))
    (hb : f.vars.lookup "background_mask" = some (.d2 [bs])) :
    ∃ row, out.lookup name = some (.d2 [row]) ∧ ∀ (j : ℕ) (p b : RawPixel α), xs[j]? = some p → bs[j]? = some b →
      (Spec.Has b 1 → row[j]? = some (some (p.number.getD 0))) ∧ (¬ Spec.Has b 1 → row[j]? = some (some 0)) := by
  obtain ⟨times, b, e, r, g, h, src, a, q1, q2, q4, q5, q6, hsrc, _, _, hout⟩ := basta_rows tools site date f day out hsort ho
  rw [ht] at q1
  cases q1
  rw [hb] at q4
  cases q4
  have hm' : (raw, name) ∈ bastaKeymap := by
    simp only [List.mem_cons, List.not_mem_nil, or_false] at hm
    rcases hm with hm | hm <;> rw [hm] <;> decide
  have hlt := src_lt [t] src hsrc
  have hnd : src.Nodup := by
    rw [List.nodup_iff_pairwise_ne]
    exact hsrc.1.imp fun h he => absurd (he ▸ h) (lt_irrefl _)
  have hne : src ≠ [] := by
    obtain ⟨r', hr', _⟩ := hsrc.2.2 0 (by simp)
    exact List.ne_nil_of_mem hr'
  refine ⟨List.zipWith (bastaPixel true) bs (xs.map fun p => some (p.number.getD 0)), ?_, ?_⟩
  · rw [hout, bastaDict_var _ _ _ _ _ _ _ _ _ raw name hm', hx]
    simp only [Option.map_some]
    rw [List.length_singleton, keepRows_single src _ hne hnd (by simpa using hlt)]
    rfl
  · intro j p b' hp hb'
    rw [List.getElem?_zipWith, List.getElem?_map, hp, hb']
    simp only [Option.map_some, Option.some.injEq]
    unfold bastaPixel
    rw [← value_has]
    constructor
    · intro h; rw [if_pos h]
    · intro h; rw [if_neg h]; rfl

/-! ## Height -/

theorem elements_mapNumbers (g : α → α) (a : NdArray (Option α)) : (a.mapNumbers g).elements = a.elements.map (Option.map g) := by
  cases a <;> simp [NdArray.mapNumbers, NdArray.elements, List.map_flatten, Function.comp_def]

theorem elements_mapAll {β γ : Type} (g : β → γ) (a : NdArray β) : (a.mapAll g).elements = a.elements.map g := by
  cases a <;> simp [NdArray.mapAll, NdArray.elements, List.map_flatten, Function.comp_def]

/-- `m` is the median of the values: the mean of the two in the middle of the sorted values. -/
def Spec.MedianOf (l : List α) (m : α) : Prop :=
  ∃ s : List α, s.Perm l ∧ s.Pairwise (· ≤ ·) ∧ ∃ a b, s[(l.length - 1) / 2]? = some a ∧ s[l.length / 2]? = some b ∧ m = (a + b) / 2

omit [FloorRing α] in
theorem median_medianOf (l : List α) (hl : l ≠ []) : Spec.MedianOf l (median l) := by
  have hlen : 0 < l.length := List.length_pos_iff.2 hl
  have hs := List.length_insertionSort (· ≤ ·) l
  refine ⟨l.insertionSort (· ≤ ·), List.perm_insertionSort _ _, List.pairwise_insertionSort _ _,
    (l.insertionSort (· ≤ ·)).getD ((l.length - 1) / 2) 0, (l.insertionSort (· ≤ ·)).getD (l.length / 2) 0, ?_, ?_, ?_⟩
  · rw [List.getD_eq_getElem _ _ (by omega), List.getElem?_eq_getElem]
  · rw [List.getD_eq_getElem _ _ (by omega), List.getElem?_eq_getElem]
  · unfold median
    simp only
    split
    · rw [show (l.length - 1) / 2 = l.length / 2 by omega]
      ring
    · rw [show (l.length - 1) / 2 = l.length / 2 - 1 by omega]

/-- The zenith angles: known elevation angles `e` give `90 - e`. -/
def Spec.zeniths (e : NdArray (RawPixel α)) : List α := (e.elements.filterMap fun p => if p.masked then none else p.number).map (90 - ·)

theorem radarZenith_basta (tools : RadarTools α) (f : RadarFile α) (site : RadarSite α) (times : List α) (b e r : NdArray (RawPixel α)) (g : GeoResult α)
    (h : NdArray (Option α)) :
    (Spec.zeniths e = [] → radarZenith (bastaDict tools f site times b e r g h) = 0) ∧
    (Spec.zeniths e ≠ [] → Spec.MedianOf (Spec.zeniths e) (radarZenith (bastaDict tools f site times b e r g h))) := by
  have he : ((e.mapAll RawPixel.value).mapNumbers (90 - ·)).elements.filterMap id = Spec.zeniths e := by
    rw [elements_mapNumbers, elements_mapAll, List.map_map, List.filterMap_map]
    unfold Spec.zeniths
    rw [List.map_filterMap]
    apply List.filterMap_congr
    intro p _
    rfl
  unfold radarZenith
  rw [bastaDict_zenith]
  simp only
  rw [he]
  constructor
  · intro h0; rw [if_pos h0]
  · intro h0; rw [if_neg h0]; exact median_medianOf _ h0

/-- The ranges of the file: the variable `range`, or else `height` (in old files). -/
def Spec.Ranges (f : RadarFile α) (xs : List α) : Prop :=
  ∃ rs : List (RawPixel α), rs.map RawPixel.number = xs.map some ∧
    (f.vars.lookup "range" = some (.d1 rs) ∨ f.vars.lookup "range" = none ∧ f.vars.lookup "height" = some (.d1 rs))

theorem getvar_ranges (f : RadarFile α) (xs : List α) (h : Spec.Ranges f xs) (r : NdArray (RawPixel α))
    (hr : getvar f.vars ["range", "height"] = .ok r) : r.mapAll RawPixel.number = .d1 (xs.map some) := by
  obtain ⟨rs, hrs, hv⟩ := h
  unfold getvar at hr
  rcases hv with hv | ⟨hv, hv2⟩
  · simp [List.find?_cons, hv] at hr
    rw [← hr, ← hrs]; rfl
  · simp [List.find?_cons, hv, hv2] at hr
    rw [← hr, ← hrs]; rfl

theorem scale_ranges (site : RadarSite α) (xs : List α) :
    scaleRange site (.d1 (xs.map some)) = .d1 ((xs.map fun x => x * site.rangeFactor.getD 1).map some) := by
  unfold scaleRange
  cases site.rangeFactor with
  | none => simp
  | some c => simp [NdArray.mapNumbers, Function.comp_def]

/-- **C152.** Range and height of a BASTA file: the range times the correction factor; altitude plus range times the cosine of the median of the known
zenith angles (zero if none is known). If there are as many times as gates (and more than one), both are put in the order of the times: a
finding. -/
theorem C152_basta_height (tools : RadarTools α) (site : RadarSite α) (date : Option CivilDate) (f : RadarFile α) (day : CivilDate)
    (out : List (String × NdArray (Option α))) (hsort : ∀ ts, Spec.IsArgsort ts (tools.argsort ts))
    (ho : basta2nc tools site date f = .ok (day, out)) (xs : List α) (hx : Spec.Ranges f xs) (altitude : α)
    (ha : out.lookup "altitude" = some (.d0 (some altitude))) :
    ∃ times src e tilt, radarOpen f = .ok times ∧ Spec.OnePerTime (vec times) (List.range times.length) src ∧
      f.vars.lookup "elevation" = some e ∧ (Spec.zeniths e = [] → tilt = 0) ∧ (Spec.zeniths e ≠ [] → Spec.MedianOf (Spec.zeniths e) tilt) ∧
      let range := xs.map fun x => x * site.rangeFactor.getD 1
      let height := range.map fun x => altitude + x * tools.cosd tilt
      (xs.length ≠ times.length → out.lookup "range" = some (.d1 (range.map some)) ∧ out.lookup "height" = some (.d1 (height.map some))) ∧
      (xs.length = times.length → out.lookup "range" = some (.d1 (Spec.records src (range.map some))) ∧
        out.lookup "height" = some (.d1 (Spec.records src (height.map some)))) := by
  obtain ⟨times, b, e, r, g, h, src, a, q1, q2, q4, q5, q6, hsrc, q9, q10, hout⟩ := basta_rows tools site date f day out hsort ho
  obtain ⟨z1, z2⟩ := radarZenith_basta tools f site times b e r g h
  refine ⟨times, src, e, _, q1, hsrc, q6, z1, z2, ?_⟩
  have hr := getvar_ranges f xs hx r q5
  have ha' : a = .d0 (some altitude) := by
    rw [hout, q9] at ha
    cases a <;> simp [Spec.keepRows] at ha
    rw [ha]
  subst ha'
  rw [hr, scale_ranges] at q10
  simp only [addAltitude, Except.ok.injEq] at q10
  have hh : h = .d1 (((xs.map fun x => x * site.rangeFactor.getD 1).map fun x => altitude + x * tools.cosd (radarZenith (bastaDict tools f site times b e r g h))).map some) := by
    conv_lhs => rw [← q10]
    simp [NdArray.mapNumbers, Function.comp_def, add_comm]
  have hor : out.lookup "range" = some (Spec.keepRows times.length src (.d1 ((xs.map fun x => x * site.rangeFactor.getD 1).map some))) := by
    rw [hout, bastaDict_range, hr, scale_ranges]; rfl
  have hoh : out.lookup "height" = some (Spec.keepRows times.length src h) := by
    rw [hout, bastaDict_height]; rfl
  dsimp only
  rw [hor, hoh]
  generalize radarZenith (bastaDict tools f site times b e r g h) = z at hh ⊢
  rw [hh]
  simp only [Spec.keepRows, List.length_map]
  constructor
  · intro hl
    rw [if_neg hl, if_neg hl]
    exact ⟨rfl, rfl⟩
  · intro hl
    rw [if_pos hl, if_pos hl]
    exact ⟨rfl, rfl⟩

/-! ## Which files are converted -/

/-- **C152.** A file can be opened if it has a time, and the altitude (if some is known), the height, and else the range (if an altitude is known)
are in metres or kilometres. -/
theorem C152_opened (f : RadarFile α) : (∃ times, radarOpen f = .ok times) ↔
    (∃ stamps, f.stamps = some stamps ∧ stamps ≠ []) ∧
    (∀ h, f.source "height" = some h → Spec.KnownUnit h) ∧
    (∀ a, f.source "altitude" = some a → (∃ v ∈ a.values, v ≠ none) →
      Spec.KnownUnit a ∧ ∀ r, f.source "height" = none → f.source "range" = some r → Spec.KnownUnit r) := by
  have halt : ∀ a : SrcVar α, (∃ v ∈ a.values, v ≠ none) → Spec.KnownUnit a → ∃ x, initAltitude (some a) = .ok (some x) := by
    rintro a ⟨v, hv, hne⟩ hk
    obtain ⟨m, hm⟩ : ∃ m, Spec.GivesMetres a m := by
      cases ht : toM a with
      | error e => exact absurd hk ((toM_error a).1 ⟨e, ht⟩)
      | ok m => exact ⟨m, (toM_spec a m).1 ht⟩
    exact ⟨_, ((C98_altitude.2 a).2 v hv hne).1 m hm⟩
  have hnone : ∀ a : SrcVar α, ¬ (∃ v ∈ a.values, v ≠ none) → initAltitude (some a) = .ok none := by
    intro a ha
    push Not at ha
    exact (C98_altitude.2 a).1 ha
  have hheight : ∀ (alt : Option α), (∃ h, initHeight (f.source "height") (f.source "range") alt = .ok h) ↔
      (∀ h, f.source "height" = some h → Spec.KnownUnit h) ∧
      (∀ r, f.source "height" = none → f.source "range" = some r → alt ≠ none → Spec.KnownUnit r) := by
    intro alt
    obtain ⟨c1, c2, c3⟩ := C98_height (f.source "height") (f.source "range") alt
    have key : ∀ {β : Type} (x : Except String β), (∃ h, x = .ok h) ↔ ¬ ∃ e, x = .error e := by
      intro β x; cases x <;> simp
    cases hh : f.source "height" with
    | some h =>
      rw [← hh, key, (c1 h hh).2, not_not, hh]
      simp
    | none =>
      cases hr : f.source "range" with
      | none => exact ⟨fun _ => by simp, fun _ => ⟨none, by have := c3 hh (Or.inl hr); rwa [hh, hr] at this⟩⟩
      | some r =>
        cases ha : alt with
        | none =>
          refine ⟨fun _ => by simp, fun _ => ⟨none, ?_⟩⟩
          have := c3 hh (Or.inr ha)
          rwa [hh, hr, ha] at this
        | some a =>
          have := (c2 r a hh hr ha).2
          rw [hh, hr, ha] at this
          rw [key, this, not_not]
          simp
  unfold radarOpen openSource
  cases hs : f.stamps with
  | none =>
    simp only [Option.map_none, reduceCtorEq, false_and, exists_false, iff_false]
    rintro ⟨t, ht⟩
    cases ht
  | some stamps =>
    simp only [Option.map_some, Option.some.injEq, exists_eq_left', bind, Except.bind, pure, Except.pure]
    by_cases hne : stamps = []
    · subst hne
      simp only [ne_eq, not_true_eq_false, false_and, iff_false]
      rintro ⟨t, ht⟩
      cases ht
    · have hpos := List.length_pos_of_ne_nil hne
      obtain ⟨hours, hi⟩ : ∃ hours, initTime (some (stamps.length, vec stamps)) = .ok hours := by
        by_cases h25 : ∃ i < stamps.length, 25 < vec stamps i
        · obtain ⟨f', hf', _⟩ := ((C98_time (α := α)).2.2 stamps.length (vec stamps) hpos).2 h25
          exact ⟨f', hf'⟩
        · push Not at h25
          exact ⟨_, ((C98_time (α := α)).2.2 stamps.length (vec stamps) hpos).1 h25⟩
      rw [hi]
      simp only [hne, ne_eq, not_false_eq_true, true_and]
      cases hsa : f.source "altitude" with
      | none =>
        have hk := hheight none
        rw [C98_altitude.1]
        simp only
        simp only [ne_eq, not_true_eq_false, IsEmpty.forall_iff, implies_true, and_true] at hk
        simp only [reduceCtorEq, IsEmpty.forall_iff, implies_true, and_true, true_and]
        rw [← hk]
        cases initHeight (f.source "height") (f.source "range") (none : Option α) <;> simp
      | some a =>
        by_cases hv : ∃ v ∈ a.values, v ≠ none
        · simp only [Option.some.injEq, forall_eq', hv, forall_const]
          by_cases hk : Spec.KnownUnit a
          · obtain ⟨x, hx⟩ := halt a hv hk
            have hh := hheight (some x)
            simp only [ne_eq, reduceCtorEq, not_false_eq_true, forall_const] at hh
            rw [hx]
            simp only [hk, true_and]
            rw [← hh]
            cases initHeight (f.source "height") (f.source "range") (some x) <;> simp
          · obtain ⟨v, hv1, hv2⟩ := hv
            obtain ⟨e, he⟩ := ((C98_altitude.2 a).2 v hv1 hv2).2.2 hk
            rw [he]
            simp [hk]
        · rw [hnone a hv]
          have hh := hheight none
          simp only [ne_eq, not_true_eq_false, IsEmpty.forall_iff, implies_true, and_true] at hh
          have hv' : ¬ ∃ v ∈ a.values, ¬ v = none := hv
          simp only [Option.some.injEq, forall_eq', hv', IsEmpty.forall_iff, implies_true, and_true, true_and]
          rw [← hh]
          cases initHeight (f.source "height") (f.source "range") (none : Option α) <;> simp

/-- **C152.** The date of the new file is that of the attributes `year`, `month` and `day`, which must be a date. -/
theorem C152_date (tools : RadarTools α) (f : RadarFile α) (day : CivilDate) : radarDate tools f = .ok day ↔
    Spec.IsDate day.year day.month day.day ∧ (f.attr "year").bind tools.int = some day.year ∧ (f.attr "month").bind tools.int = some day.month ∧
      (f.attr "day").bind tools.int = some day.day := by
  unfold radarDate
  cases hy : (f.attr "year").bind tools.int with
  | none => simp
  | some y =>
  cases hm : (f.attr "month").bind tools.int with
  | none => simp
  | some m =>
  cases hd : (f.attr "day").bind tools.int with
  | none => simp
  | some d =>
  simp only [Option.some.injEq]
  have := civilDate_iff y m d
  cases hc : civilDate y m d with
  | ok c =>
    obtain ⟨h1, h2⟩ := (this c).1 hc
    simp only [Except.ok.injEq]
    subst h2
    constructor
    · rintro rfl; exact ⟨h1, rfl, rfl, rfl⟩
    · rintro ⟨_, rfl, rfl, rfl⟩; rfl
  | error e =>
    simp only [reduceCtorEq, false_iff]
    rintro ⟨h1, rfl, rfl, rfl⟩
    have := (this day).2 ⟨h1, rfl⟩
    rw [hc] at this
    cases this

/-- The altitude can be added to `gates` heights: it is a number, or one number per gate. -/
def Spec.AltitudeFits (altitude : GeoValue α) (gates : ℕ) : Prop :=
  match altitude with
  | .number _ => True
  | .array as => as.length = gates ∨ ∃ x, as = [some x]

theorem addAltitude_ok (v : GeoValue α) (hs : List (Option α)) : (∃ h, addAltitude v.toNd (.d1 hs) = .ok h) ↔ Spec.AltitudeFits v hs.length := by
  cases v with
  | number x => simp [GeoValue.toNd, addAltitude, Spec.AltitudeFits]
  | array as =>
    simp only [GeoValue.toNd, Spec.AltitudeFits]
    by_cases h1 : ∃ x, as = [some x]
    · obtain ⟨x, rfl⟩ := h1
      simp [addAltitude]
    · have : addAltitude (.d1 as) (.d1 hs) = if as.length = hs.length then
          .ok (.d1 (List.zipWith (fun a h => h.bind fun h => a.map fun a => h + a) as hs)) else .error "ValueError" := by
        unfold addAltitude
        split
        · rename_i heq; cases heq
        · rename_i heq; cases heq; exact absurd ⟨_, rfl⟩ h1
        · rename_i heq1 heq2; cases heq1; cases heq2; rfl
        · rename_i h3; exact absurd rfl (h3 _ _ rfl)
      rw [this]
      by_cases hl : as.length = hs.length
      · rw [if_pos hl]; simp [hl]
      · rw [if_neg hl]; simp only [reduceCtorEq, exists_false, hl, false_or, false_iff]; exact h1

theorem ranges_found (f : RadarFile α) (rs : List α) (h : Spec.Ranges f rs) : ∃ r, getvar f.vars ["range", "height"] = .ok r := by
  obtain ⟨rs', _, hv'⟩ := h
  refine ⟨.d1 rs', ?_⟩
  unfold getvar
  rcases hv' with hv' | ⟨hv', hv''⟩
  · simp [List.find?_cons, hv']
  · simp [List.find?_cons, hv', hv'']

theorem elements_cell {β : Type} (m : List (List β)) (x : β) : x ∈ (NdArray.d2 m).elements ↔ ∃ i j, Spec.cell m i j = some x := by
  simp only [NdArray.elements, List.mem_flatten]
  constructor
  · rintro ⟨row, hr, hx⟩
    obtain ⟨i, hi⟩ := List.getElem?_of_mem hr
    obtain ⟨j, hj⟩ := List.getElem?_of_mem hx
    exact ⟨i, j, by unfold Spec.cell; rw [hi]; exact hj⟩
  · rintro ⟨i, j, h⟩
    unfold Spec.cell at h
    cases hr : m[i]? with
    | none => rw [hr] at h; cases h
    | some row =>
      rw [hr] at h
      exact ⟨row, List.mem_of_getElem? hr, List.mem_of_getElem? h⟩


/-- **C152.** Which BASTA files with two or more different times are converted: the date attributes are a date, the time units have the expected
date, there are elevation angles and an altitude that can be added to the heights, and some velocity is known where the background mask is
one. -/
theorem C152_basta_made (tools : RadarTools α) (site : RadarSite α) (date : Option CivilDate) (f : RadarFile α)
    (hsort : ∀ ts, Spec.IsArgsort ts (tools.argsort ts)) (times : List α) (hopen : radarOpen f = .ok times) (h2 : 2 ≤ times.length)
    (hnd : times.Nodup) (w : ℕ) (bs xs : List (List (RawPixel α))) (hbs : f.vars.lookup "background_mask" = some (.d2 bs))
    (hbm : Spec.IsMatrix times.length w bs) (hxs : f.vars.lookup "velocity" = some (.d2 xs)) (hxm : Spec.IsMatrix times.length w xs)
    (rs : List α) (hrs : Spec.Ranges f rs) :
    (∃ day out, basta2nc tools site date f = .ok (day, out)) ↔
      (∃ day, radarDate tools f = .ok day) ∧
      (∀ d, date = some d → ∃ word, (rmWords (f.units "time"))[2]? = some word ∧ tools.iso word = some d) ∧
      (∃ e, f.vars.lookup "elevation" = some e) ∧
      (∃ g altitude, Spec.radarCoordinates tools f site g ∧ g.altitude = some altitude ∧ Spec.AltitudeFits altitude.1 rs.length) ∧
      ∃ (i j : ℕ) (p b : RawPixel α) (v : α), Spec.cell xs i j = some p ∧ Spec.cell bs i j = some b ∧ Spec.Has p v ∧ Spec.Has b 1 := by
  have hvm : ("velocity", "v") ∈ bastaKeymap := by decide
  have hn1 : xs.length ≠ 1 := by rw [hxm.1]; omega
  have hxm' : Spec.IsMatrix times.length w (xs.map fun r => r.map RawPixel.value) := by
    refine ⟨by rw [List.length_map, hxm.1], ?_⟩
    intro row hrow
    obtain ⟨r', hr', rfl⟩ := List.mem_map.1 hrow
    rw [List.length_map, hxm.2 _ hr']
  have hpl : NdArray.isScalar (.d2 (xs.map fun r => r.map (RawPixel.value (α := α)))) = false := by
    simp [NdArray.isScalar, NdArray.len?, hn1]
  have hz := zip_matrix (bastaPixel (α := α) false) bs _ _ w hbm hxm'
  have hv : ∀ e r g h, (bastaDict tools f site times (.d2 bs) e r g h).lookup "v" =
      some (.d2 (List.zipWith (List.zipWith (bastaPixel false)) bs (xs.map fun r => r.map RawPixel.value))) := by
    intro e r g h
    rw [bastaDict_var _ _ _ _ _ _ _ _ _ "velocity" "v" hvm, hxs]
    simp only [Option.map_some]
    rw [initNd_many xs hn1]
    simp only [bastaArray, hpl]
  have hpix : ∀ src, Spec.OnePerTime (vec times) (List.range times.length) src →
      ((Spec.records src (List.zipWith (List.zipWith (bastaPixel false)) bs (xs.map fun r => r.map RawPixel.value))).flatten.all Option.isNone = false ↔
      ∃ (i j : ℕ) (p b : RawPixel α) (v : α), Spec.cell xs i j = some p ∧ Spec.cell bs i j = some b ∧ Spec.Has p v ∧ Spec.Has b 1) := by
    intro src hsrc
    have hlt := src_lt times src hsrc
    have hcell : ∀ i j v, Spec.cell (List.zipWith (List.zipWith (bastaPixel false)) bs (xs.map fun r => r.map RawPixel.value)) i j = some (some v) ↔
        ∃ p b : RawPixel α, Spec.cell xs i j = some p ∧ Spec.cell bs i j = some b ∧ Spec.Has p v ∧ Spec.Has b 1 := by
      intro i j v
      have hmap : Spec.cell (xs.map fun r => r.map RawPixel.value) i j = (Spec.cell xs i j).map RawPixel.value := by
        unfold Spec.cell
        rw [List.getElem?_map]
        cases xs[i]? <;> simp
      rw [cell_zip, hmap]
      cases hb : Spec.cell bs i j with
      | none => simp
      | some b =>
        cases hp : Spec.cell xs i j with
        | none => simp
        | some p =>
          simp only [Option.bind_some, Option.map_some, Option.some.injEq, exists_eq_left', ← value_has]
          unfold bastaPixel
          by_cases hb1 : b.value = some 1
          · rw [if_pos hb1]; simp [hb1]
          · rw [if_neg hb1]; simp [hb1]
    have hel := elements_cell (Spec.records src (List.zipWith (List.zipWith (bastaPixel false)) bs (xs.map fun r => r.map RawPixel.value)))
    rw [List.all_eq_false]
    constructor
    · rintro ⟨x, hx, hxn⟩
      obtain ⟨k, j, hkj⟩ := (hel x).1 hx
      cases x with
      | none => simp at hxn
      | some v =>
        have hk : ∃ i, src[k]? = some i := by
          cases hs : src[k]? with
          | some i => exact ⟨i, rfl⟩
          | none =>
            unfold Spec.cell at hkj
            rw [records_get src _ (by rw [hz.1]; exact hlt) k, hs] at hkj
            cases hkj
        obtain ⟨i, hi⟩ := hk
        rw [cell_records src _ (by rw [hz.1]; exact hlt) k i j hi] at hkj
        obtain ⟨p, b, hh⟩ := (hcell i j v).1 hkj
        exact ⟨i, j, p, b, v, hh⟩
    · rintro ⟨i, j, p, b, v, hp, hb, h1, h2'⟩
      have hil : i < times.length := by
        unfold Spec.cell at hp
        by_contra hc
        rw [List.getElem?_eq_none (by rw [hxm.1]; omega)] at hp
        cases hp
      obtain ⟨i', hi', hti⟩ := hsrc.2.2 i (List.mem_range.2 hil)
      have hii : i' = i := by
        have hl' := hlt i' hi'
        rw [vec, vec, List.getD_eq_getElem _ _ hl', List.getD_eq_getElem _ _ hil] at hti
        exact (List.Nodup.getElem_inj_iff hnd).1 hti
      subst hii
      obtain ⟨k, hk⟩ := List.getElem?_of_mem hi'
      refine ⟨some v, (hel (some v)).2 ⟨k, j, ?_⟩, by simp⟩
      rw [cell_records src _ (by rw [hz.1]; exact hlt) k i' j hk]
      exact (hcell i' j v).2 ⟨p, b, hp, hb, h1, h2'⟩
  have hv2 : ∀ e r g h src, (List.map (fun kv => (kv.1, Spec.keepRows times.length src kv.2)) (bastaDict tools f site times (.d2 bs) e r g h)).lookup "v" =
      some (.d2 (Spec.records src (List.zipWith (List.zipWith (bastaPixel false)) bs (xs.map fun r => r.map RawPixel.value)))) := by
    intro e r g h src
    rw [lookup_map (Spec.keepRows times.length src), hv]
    simp only [Option.map_some, Spec.keepRows]
    rw [if_pos hz.1]
  constructor
  · rintro ⟨day, out, ho⟩
    obtain ⟨times', b, e, r, g, rr, a, h, i, q1, q2, q3, q4, q5, q6, q7, q8, q9, q10, q11, q12, rfl⟩ := (basta2nc_eq tools site date f day out).1 ho
    rw [hopen] at q1
    cases q1
    rw [hbs] at q4
    cases q4
    refine ⟨⟨day, q2⟩, fun d hd => (bastaValidate_ok tools f d).1 (q3 d hd), ⟨e, q6⟩, ?_, ?_⟩
    · rw [bastaDict_altitude] at q9
      obtain ⟨v, hv1, rfl⟩ := Option.map_eq_some_iff.1 q9
      refine ⟨g, v, q7, hv1, ?_⟩
      rw [bastaDict_range, getvar_ranges f rs hrs r q5, scale_ranges] at q8
      cases q8
      have := (addAltitude_ok v.1 _).1 ⟨h, q10⟩
      simpa using this
    · obtain ⟨src, hsrc, hi⟩ := sortUniqueTimes_spec tools.argsort hsort _ times (radarOpen_ne f times hopen) (bastaDict_time tools f site times (.d2 bs) e r g h)
      rw [hi] at q11
      cases q11
      refine (hpix src hsrc).1 ?_
      unfold testAllMasked at q12
      simp only [hv2] at q12
      by_contra hc
      rw [Bool.not_eq_false] at hc
      simp only [NdArray.elements, hc, if_true] at q12
      cases q12
  · rintro ⟨⟨day, hday⟩, hdate, ⟨e, he⟩, ⟨g, a, hg, ha, hfit⟩, hp⟩
    obtain ⟨r, hr⟩ := ranges_found f rs hrs
    have hz0 : ∀ h h', radarZenith (bastaDict tools f site times (.d2 bs) e r g h) = radarZenith (bastaDict tools f site times (.d2 bs) e r g h') := by
      intro h h'
      unfold radarZenith
      rw [bastaDict_zenith, bastaDict_zenith]
    obtain ⟨h, hh⟩ := (addAltitude_ok a.1 ((rs.map fun x => x * site.rangeFactor.getD 1 * tools.cosd
      (radarZenith (bastaDict tools f site times (.d2 bs) e r g (.d1 [])))).map some)).2 (by simpa using hfit)
    obtain ⟨src, hsrc, hi⟩ := sortUniqueTimes_spec tools.argsort hsort _ times (radarOpen_ne f times hopen) (bastaDict_time tools f site times (.d2 bs) e r g h)
    refine ⟨day, _, (basta2nc_eq tools site date f day _).2 ⟨times, .d2 bs, e, r, g, _, a.1.toNd, h, _, hopen, hday,
      fun d hd => (bastaValidate_ok tools f d).2 (hdate d hd), hbs, hr, he, hg, bastaDict_range _ _ _ _ _ _ _ _ _, ?_, ?_, hi, ?_, rfl⟩⟩
    · rw [bastaDict_altitude, ha]; rfl
    · rw [← hh, getvar_ranges f rs hrs r hr, scale_ranges, hz0 h (.d1 [])]
      simp [NdArray.mapNumbers, Function.comp_def]
    · unfold testAllMasked
      simp only [hv2]
      rw [if_neg]
      intro hc
      have hc' := (hpix src hsrc).2 hp
      rw [show (Spec.records src _).flatten.all Option.isNone = true from hc] at hc'
      cases hc'

/-- **C152**, a finding. Two files with the same content give the same result, whatever the units of their ranges: a range in kilometres is taken
for metres. -/
theorem C152_basta_units (tools : RadarTools α) (site : RadarSite α) (date : Option CivilDate) (f f' : RadarFile α) (hv : f'.vars = f.vars)
    (ha : f'.attr = f.attr) (hu : f'.units "time" = f.units "time") (ho : ∃ times, radarOpen f = .ok times) (ho' : ∃ times, radarOpen f' = .ok times) :
    basta2nc tools site date f' = basta2nc tools site date f ∧ bowtie2nc tools site date f' = bowtie2nc tools site date f := by
  obtain ⟨times, h⟩ := ho
  obtain ⟨times', h'⟩ := ho'
  have ht : times' = times := by
    obtain ⟨s, hs, h1, h2, h3, h4⟩ := radarOpen_spec f times h
    obtain ⟨s', hs', h1', h2', h3', h4'⟩ := radarOpen_spec f' times' h'
    have : f'.stamps = f.stamps := by unfold RadarFile.stamps; rw [hv]
    rw [this, h1] at h1'
    cases h1'
    rw [h3] at h3'
    cases h3'
    rw [h4, h4']
  subst ht
  have e1 : radarDate tools f' = radarDate tools f := by unfold radarDate; rw [ha]
  have e2 : ∀ k, radarInit k f' = radarInit k f := by intro k; unfold radarInit; rw [hv]
  have e3 : bastaExpected tools f' date = bastaExpected tools f date := by
    unfold bastaExpected bastaValidate; rw [hu]
  have e4 : ∀ d, bastaBackground f' d = bastaBackground f d := by intro d; unfold bastaBackground; rw [hv]
  have e5 : ∀ t d, addTimeAndRange f' site t d = addTimeAndRange f site t d := by intro t d; unfold addTimeAndRange; rw [hv]
  have e6 : ∀ d, addCoordinates tools f' site d = addCoordinates tools f site d := by
    intro d; unfold addCoordinates radarGeoInput; rw [hv, ha]
  have e7 : ∀ d, bastaZenith f' d = bastaZenith f d := by intro d; unfold bastaZenith; rw [hv]
  have e8 : ∀ c d, addRadarSpecific c f' d = addRadarSpecific c f d := by intro c d; unfold addRadarSpecific; rw [hv]
  constructor
  · unfold basta2nc
    simp only [h, h', e1, e2, e3, e4, e5, e6, e7, e8]
  · unfold bowtie2nc
    simp only [h, h', e1, e2, e5, e6, e8]

/-! ## BOW-TIE -/

/-- **C152.** A BOW-TIE file: profiles stay in the order of the file. Liquid water path is converted from g m-2 to kg m-2, rainfall rate from
mm h-1 to m s-1, relative humidity from percent to a fraction; all other pixels are those of the file. The correction bit is one where the
velocity is known and missing elsewhere; chirp offsets lose their fractions. -/
theorem C152_bowtie_values (tools : RadarTools α) (site : RadarSite α) (date : Option CivilDate) (f : RadarFile α) (day : CivilDate)
    (out : List (String × NdArray (Option α))) (ho : bowtie2nc tools site date f = .ok (day, out)) :
    ∃ times, radarOpen f = .ok times ∧ out.lookup "time" = some (.d1 (times.map some)) ∧
      (∀ raw name xs, (raw, name) ∈ [("Zh", "Zh"), ("v", "v"), ("width", "width"), ("ldr", "ldr"), ("kurt", "kurtosis"), ("Skew", "skewness"), ("SNR", "SNR")] →
        f.vars.lookup raw = some (.d2 xs) → xs.length ≠ 1 →
        ∃ rows, out.lookup name = some (.d2 rows) ∧ rows.map List.length = xs.map List.length ∧
          ∀ (i j : ℕ) (p : RawPixel α) (v : α), Spec.cell xs i j = some p → (Spec.cell rows i j = some (some v) ↔ Spec.Has p v)) ∧
      (∀ raw name c xs, (raw, name, c) ∈ [("lwp", "lwp", 1 / 1000), ("rain", "rainfall_rate", 1 / 3600000), ("SurfRelHum", "relative_humidity", (1 / 100 : α))] →
        f.vars.lookup raw = some (.d1 xs) → xs.length ≠ 1 →
        ∃ ys, out.lookup name = some (.d1 ys) ∧ ys.length = xs.length ∧
          ∀ (i : ℕ) (p : RawPixel α) (v : α), xs[i]? = some p → (ys[i]? = some (some (c * v)) ↔ Spec.Has p v)) ∧
      (∀ xs, f.vars.lookup "v" = some (.d2 xs) →
        ∃ rows, out.lookup "correction_bits" = some (.d2 rows) ∧ rows.map List.length = xs.map List.length ∧
          ∀ (i j : ℕ) (p : RawPixel α) (y : Option α), Spec.cell xs i j = some p → Spec.cell rows i j = some y →
            ((∃ v, Spec.Has p v) → y = some 1) ∧ ((¬ ∃ v, Spec.Has p v) → y = none)) ∧
      (∀ xs, f.vars.lookup "range_offsets" = some (.d1 xs) → xs.length ≠ 1 →
        ∃ ys, out.lookup "chirp_start_indices" = some (.d1 ys) ∧ ys.length = xs.length ∧
          ∀ (i : ℕ) (p : RawPixel α) (v : α), xs[i]? = some p → Spec.Has p v →
            ∃ n : ℤ, ys[i]? = some (some (n : α)) ∧ |(n : α)| ≤ |v| ∧ |v - n| < 1 ∧ 0 ≤ v * n) := by
  obtain ⟨times, r, g, a, h, l1, l2, l3, chirps, v, q1, q2, q3, q4, q5, q6, q7, q8, q9, q10, q11, q12, q13, q14, rfl⟩ :=
    (bowtie2nc_eq f site tools date day out).1 ho
  have hcellmap : ∀ (xs : List (List (RawPixel α))) (k : RawPixel α → Option α) (i j : ℕ),
      Spec.cell (xs.map fun r => r.map k) i j = (Spec.cell xs i j).map k := by
    intro xs k i j
    unfold Spec.cell
    rw [List.getElem?_map]
    cases xs[i]? <;> simp
  refine ⟨times, q1, ?_, ?_, ?_, ?_, ?_⟩
  · rw [bowtieDict_keep _ _ _ _ _ _ _ _ _ (by decide) (by decide) (by decide), bowtieStart_time]
    simp only [Option.map_some]
    rw [bowtieUnit_id _ (by decide) (by decide) (by decide)]
  · intro raw name xs hm hx hx1
    have hall : (raw, name) ∈ bowtieKeymap ∧ name ≠ "time" ∧ name ≠ "range" ∧ name ≠ "nyquist_velocity" ∧ name ≠ "chirp_start_indices" ∧
        name ≠ "correction_bits" ∧ name ≠ "height" ∧ name ≠ "lwp" ∧ name ≠ "rainfall_rate" ∧ name ≠ "relative_humidity" := by
      simp only [List.mem_cons, List.not_mem_nil, or_false, Prod.mk.injEq] at hm
      rcases hm with ⟨rfl, rfl⟩ | ⟨rfl, rfl⟩ | ⟨rfl, rfl⟩ | ⟨rfl, rfl⟩ | ⟨rfl, rfl⟩ | ⟨rfl, rfl⟩ | ⟨rfl, rfl⟩ <;> decide
    obtain ⟨n0, n1, n2, n3, n4, n5, n6, n7, n8, n9⟩ := hall
    refine ⟨xs.map fun r => r.map RawPixel.value, ?_, ?_, ?_⟩
    · rw [bowtieDict_keep _ _ _ _ _ _ _ _ _ n4 n5 n6, bowtieStart_var f site times r g raw name n0 n1 n2 n3, hx]
      simp only [Option.map_some]
      rw [bowtieUnit_id _ n7 n8 n9, initNd_many xs hx1]
    · simp [Function.comp_def]
    · intro i j p v hp
      rw [hcellmap, hp]
      simp only [Option.map_some, Option.some.injEq]
      exact value_has p v
  · intro raw name c xs hm hx hx1
    have hall : (raw, name) ∈ bowtieKeymap ∧ name ≠ "time" ∧ name ≠ "range" ∧ name ≠ "nyquist_velocity" ∧ name ≠ "chirp_start_indices" ∧
        name ≠ "correction_bits" ∧ name ≠ "height" ∧ c ≠ 0 ∧ ∀ x, bowtieUnit name x = c * x := by
      simp only [List.mem_cons, List.not_mem_nil, or_false, Prod.mk.injEq] at hm
      rcases hm with ⟨rfl, rfl, rfl⟩ | ⟨rfl, rfl, rfl⟩ | ⟨rfl, rfl, rfl⟩
      · refine ⟨by decide, by decide, by decide, by decide, by decide, by decide, by decide, by norm_num, fun x => ?_⟩
        simp only [bowtieUnit, if_true]; ring
      · refine ⟨by decide, by decide, by decide, by decide, by decide, by decide, by decide, by norm_num, fun x => ?_⟩
        unfold bowtieUnit
        rw [if_neg (by decide), if_pos rfl]; ring
      · refine ⟨by decide, by decide, by decide, by decide, by decide, by decide, by decide, by norm_num, fun x => ?_⟩
        unfold bowtieUnit
        rw [if_neg (by decide), if_neg (by decide), if_pos rfl]; ring
    obtain ⟨n0, n1, n2, n3, n4, n5, n6, hc, hun⟩ := hall
    refine ⟨(xs.map RawPixel.value).map (Option.map (bowtieUnit name)), ?_, by simp, ?_⟩
    · rw [bowtieDict_keep _ _ _ _ _ _ _ _ _ n4 n5 n6, bowtieStart_var f site times r g raw name n0 n1 n2 n3, hx]
      simp only [Option.map_some]
      rw [initNd_vector xs hx1]
      rfl
    · intro i p v hp
      rw [List.getElem?_map, List.getElem?_map, hp]
      simp only [Option.map_some, Option.some.injEq, Option.map_eq_some_iff, hun]
      rw [← value_has]
      constructor
      · rintro ⟨y, hy, hyv⟩
        rw [hy, mul_left_cancel₀ hc hyv]
      · intro h; exact ⟨v, h, rfl⟩
  · intro xs hx
    rw [hx] at q12
    cases q12
    have hx1 : xs.length ≠ 1 := by
      intro h1
      simp [NdArray.isScalar, NdArray.len?, h1] at q13
    refine ⟨xs.map fun r => r.map fun p => (RawPixel.value p).map fun _ => 1, ?_, by simp [Function.comp_def], ?_⟩
    · rw [bowtieDict_bits, initNd_many xs hx1]
      simp [NdArray.mapNumbers, Function.comp_def]
    · intro i j p y hp hy
      rw [hcellmap, hp] at hy
      simp only [Option.map_some, Option.some.injEq] at hy
      subst hy
      constructor
      · rintro ⟨v, hv⟩
        rw [(value_has p v).2 hv]; rfl
      · intro hno
        cases hq : p.value with
        | none => rfl
        | some v => exact absurd ⟨v, (value_has p v).1 hq⟩ hno
  · intro xs hx hx1
    rw [hx] at q11
    cases q11
    refine ⟨(xs.map RawPixel.value).map (Option.map truncate), ?_, by simp, ?_⟩
    · rw [bowtieDict_chirps, initNd_vector xs hx1]
      rfl
    · intro i p v hp hv
      rw [List.getElem?_map, List.getElem?_map, hp]
      simp only [Option.map_some, (value_has p v).2 hv]
      unfold truncate
      by_cases h0 : 0 ≤ v
      · have hn : (0 : α) ≤ ⌊v⌋ := by exact_mod_cast Int.floor_nonneg.2 h0
        refine ⟨⌊v⌋, by rw [if_pos h0], ?_, ?_, mul_nonneg h0 hn⟩
        · rw [abs_of_nonneg h0, abs_of_nonneg hn]; exact Int.floor_le v
        · rw [abs_of_nonneg (sub_nonneg.2 (Int.floor_le v))]; linarith [Int.lt_floor_add_one v]
      · have hn : ((⌈v⌉ : ℤ) : α) ≤ 0 := by exact_mod_cast Int.ceil_le.2 (by push_cast; exact (not_le.1 h0).le)
        have hl := not_le.1 h0
        refine ⟨⌈v⌉, by rw [if_neg h0], ?_, ?_, mul_nonneg_of_nonpos_of_nonpos hl.le hn⟩
        · rw [abs_of_neg hl, abs_of_nonpos hn]; linarith [Int.le_ceil v]
        · rw [abs_of_nonpos (sub_nonpos.2 (Int.le_ceil v))]; linarith [Int.ceil_lt_add_one v]

/-- **C152.** Range and height of a BOW-TIE file: the range times the correction factor; altitude plus range (the radar points to the zenith). The
Nyquist velocity is that of the file, unless there is another variable for it. -/
theorem C152_bowtie_height (tools : RadarTools α) (hcos : tools.cosd 0 = 1) (site : RadarSite α) (date : Option CivilDate) (f : RadarFile α)
    (day : CivilDate) (out : List (String × NdArray (Option α))) (ho : bowtie2nc tools site date f = .ok (day, out)) (xs : List α)
    (hx : Spec.Ranges f xs) :
    out.lookup "range" = some (.d1 (xs.map fun x => some (x * site.rangeFactor.getD 1))) ∧
      (∀ altitude, out.lookup "altitude" = some (.d0 (some altitude)) →
        out.lookup "height" = some (.d1 (xs.map fun x => some (altitude + x * site.rangeFactor.getD 1)))) ∧
      (f.vars.lookup "ambiguous_velocity" = none → f.vars.lookup "NyquistVelocity" = none → ∀ rows, f.vars.lookup "Nyquist_velocity" = some (.d2 rows) →
        rows.length ≠ 1 → out.lookup "nyquist_velocity" = some (.d2 (rows.map fun r => r.map RawPixel.value))) := by
  obtain ⟨times, r, g, a, h, l1, l2, l3, chirps, v, q1, q2, q3, q4, q5, q6, q7, q8, q9, q10, q11, q12, q13, q14, rfl⟩ :=
    (bowtie2nc_eq f site tools date day out).1 ho
  have hr := getvar_ranges f xs hx r q4
  refine ⟨?_, ?_, ?_⟩
  · rw [bowtieDict_keep _ _ _ _ _ _ _ _ _ (by decide) (by decide) (by decide), bowtieStart_range, hr, scale_ranges]
    simp only [Option.map_some]
    rw [bowtieUnit_id _ (by decide) (by decide) (by decide)]
    simp [Function.comp_def]
  · intro altitude ha
    rw [bowtieDict_keep _ _ _ _ _ _ _ _ _ (by decide) (by decide) (by decide), bowtieStart_altitude, q6] at ha
    simp only [Option.map_some] at ha
    rw [bowtieUnit_id _ (by decide) (by decide) (by decide)] at ha
    rw [Option.some.inj ha, hr, scale_ranges, hcos] at q7
    simp only [addAltitude, Except.ok.injEq] at q7
    rw [bowtieDict_height, ← q7]
    simp [NdArray.mapNumbers, Function.comp_def, add_comm]
  · intro h1 h2 rows h3 h4
    rw [bowtieDict_keep _ _ _ _ _ _ _ _ _ (by decide) (by decide) (by decide), bowtieStart_nyquist]
    have : getvar f.vars ["ambiguous_velocity", "NyquistVelocity"] = .error "KeyError: Missing variable" := by
      unfold getvar
      simp [List.find?_cons, h1, h2]
    rw [this]
    simp only [h3, Option.map_some]
    rw [bowtieUnit_id _ (by decide) (by decide) (by decide), initNd_many rows h4]

/-- **C152.** Which BOW-TIE files are converted: the date attributes are a date, and the expected one if one is given; there are ranges, the liquid
water path, rainfall rate, relative humidity and chirp offsets, an altitude that can be added to the heights, and some velocity is known. -/
theorem C152_bowtie_made (tools : RadarTools α) (site : RadarSite α) (date : Option CivilDate) (f : RadarFile α)
    (times : List α) (hopen : radarOpen f = .ok times) (xs : List (List (RawPixel α))) (hxs : f.vars.lookup "v" = some (.d2 xs))
    (rs : List α) (hrs : Spec.Ranges f rs) :
    (∃ day out, bowtie2nc tools site date f = .ok (day, out)) ↔
      (∃ day, radarDate tools f = .ok day ∧ ∀ d, date = some d → d = day) ∧
      (∀ name ∈ ["lwp", "rain", "SurfRelHum", "range_offsets"], ∃ a, f.vars.lookup name = some a) ∧
      (∃ g altitude, Spec.radarCoordinates tools f site g ∧ g.altitude = some altitude ∧ Spec.AltitudeFits altitude.1 rs.length) ∧
      xs.length ≠ 1 ∧ ∃ (i j : ℕ) (p : RawPixel α) (v : α), Spec.cell xs i j = some p ∧ Spec.Has p v := by
  have hpix : (∃ x ∈ (NdArray.d2 xs).elements, x.value ≠ none) ↔ ∃ (i j : ℕ) (p : RawPixel α) (v : α), Spec.cell xs i j = some p ∧ Spec.Has p v := by
    constructor
    · rintro ⟨x, hx, hv⟩
      obtain ⟨i, j, hij⟩ := (elements_cell xs x).1 hx
      obtain ⟨v, hv⟩ := Option.ne_none_iff_exists'.1 hv
      exact ⟨i, j, x, v, hij, (value_has x v).1 hv⟩
    · rintro ⟨i, j, p, v, hp, hv⟩
      exact ⟨p, (elements_cell xs p).2 ⟨i, j, hp⟩, by rw [(value_has p v).2 hv]; simp⟩
  have hsc : (NdArray.d2 xs).isScalar = false ↔ xs.length ≠ 1 := by simp [NdArray.isScalar, NdArray.len?]
  constructor
  · rintro ⟨day, out, ho⟩
    obtain ⟨times', r, g, a, h, l1, l2, l3, chirps, v, q1, q2, q3, q4, q5, q6, q7, q8, q9, q10, q11, q12, q13, q14, rfl⟩ :=
      (bowtie2nc_eq f site tools date day out).1 ho
    rw [hxs] at q12
    cases q12
    refine ⟨⟨day, q2, fun d hd => (q3 d hd).symm⟩, ?_, ⟨g, a, q5, q6, ?_⟩, hsc.1 q13, hpix.1 q14⟩
    · intro name hn
      simp only [List.mem_cons, List.not_mem_nil, or_false] at hn
      rcases hn with rfl | rfl | rfl | rfl
      exacts [⟨_, q8⟩, ⟨_, q9⟩, ⟨_, q10⟩, ⟨_, q11⟩]
    · rw [getvar_ranges f rs hrs r q4, scale_ranges] at q7
      have := (addAltitude_ok a.1 _).1 ⟨h, q7⟩
      simpa using this
  · rintro ⟨⟨day, hday, hdate⟩, hn, ⟨g, a, hg, ha, hfit⟩, h1, hp⟩
    obtain ⟨r, hr⟩ := ranges_found f rs hrs
    obtain ⟨l1, h1'⟩ := hn "lwp" (by simp)
    obtain ⟨l2, h2'⟩ := hn "rain" (by simp)
    obtain ⟨l3, h3'⟩ := hn "SurfRelHum" (by simp)
    obtain ⟨l4, h4'⟩ := hn "range_offsets" (by simp)
    obtain ⟨h, hh⟩ := (addAltitude_ok a.1 ((rs.map fun x => x * site.rangeFactor.getD 1 * tools.cosd 0).map some)).2 (by simpa using hfit)
    refine ⟨day, _, (bowtie2nc_eq f site tools date day _).2 ⟨times, r, g, a, h, l1, l2, l3, l4, .d2 xs, hopen, hday,
      fun d hd => (hdate d hd).symm, hr, hg, ha, ?_, h1', h2', h3', h4', hxs, hsc.2 h1, hpix.2 hp, rfl⟩⟩
    rw [← hh, getvar_ranges f rs hrs r hr, scale_ranges]
    simp [NdArray.mapNumbers, Function.comp_def]

/-- **C152**, a finding. A BOW-TIE file with a single profile is never converted. -/
theorem C152_bowtie_single (tools : RadarTools α) (site : RadarSite α) (date : Option CivilDate) (f : RadarFile α) (row : List (RawPixel α))
    (hx : f.vars.lookup "v" = some (.d2 [row])) : ¬ ∃ day out, bowtie2nc tools site date f = .ok (day, out) := by
  rintro ⟨day, out, ho⟩
  obtain ⟨times', r, g, a, h, l1, l2, l3, chirps, v, q1, q2, q3, q4, q5, q6, q7, q8, q9, q10, q11, q12, q13, q14, rfl⟩ :=
    (bowtie2nc_eq f site tools date day out).1 ho
  rw [hx] at q12
  cases q12
  simp [NdArray.isScalar, NdArray.len?] at q13

end

/-! ## Cases that meet the hypotheses -/

/-- Numbers of a file. -/
def exPixels (xs : List ℚ) : List (RawPixel ℚ) := xs.map fun x => ⟨false, some x⟩

/-- Two profiles in the wrong order, one pixel of the first is background and one of the second is masked. The time units have another date than the
attributes. -/
def exBasta : RadarFile ℚ where
  vars := [("time", .d1 (exPixels [2, 1])), ("range", .d1 (exPixels [100, 200, 300])), ("elevation", .d1 (exPixels [90, 80])),
    ("altitude", .d0 ⟨false, some 10⟩), ("reflectivity", .d2 [exPixels [1, 2, 3], exPixels [4, 5, 6]]),
    ("velocity", .d2 [exPixels [7, 8, 9], [⟨true, some (-1)⟩, ⟨false, some (-2)⟩, ⟨false, none⟩]]),
    ("background_mask", .d2 [exPixels [1, 0, 1], exPixels [1, 1, 1]])]
  units := fun name => if name = "time" then "hours since 2020-01-02 00:00:00" else "m"
  attr := fun name => [("year", "2020"), ("month", "3"), ("day", "4")].lookup name

/-- The cosine is not computed. -/
def exRadarTools : RadarTools ℚ where
  cosd := fun _ => 1
  float := fun _ => none
  int := fun s => [("2020", 2020), ("3", 3), ("4", 4)].lookup s
  iso := fun s => if s = "2020-01-02" then some ⟨2020, 1, 2⟩ else none
  argsort := stableArgsort

def exRadarSite : RadarSite ℚ := ⟨fun _ => none, some (1 / 2)⟩

set_option synthInstance.maxSize 2000 in
set_option synthInstance.maxHeartbeats 400000 in
/-- **C152**, a finding. The expected date is compared with the time units only: the new file has the date of the attributes, another one. -/
theorem C152_basta_date : ∃ out, basta2nc exRadarTools exRadarSite (some ⟨2020, 1, 2⟩) exBasta = .ok (⟨2020, 3, 4⟩, out) ∧
    out.lookup "time" = some (.d1 [some 1, some 2]) ∧ out.lookup "Zh" = some (.d2 [[some 4, some 5, some 6], [some 1, none, some 3]]) ∧
    out.lookup "v" = some (.d2 [[none, some (-2), none], [some 7, none, some 9]]) ∧
    out.lookup "zenith_angle" = some (.d1 [some 10, some 0]) ∧ out.lookup "height" = some (.d1 [some 60, some 110, some 160]) := by
  have h : (basta2nc exRadarTools exRadarSite (some ⟨2020, 1, 2⟩) exBasta).toOption.map (fun r => (r.1, r.2.lookup "time", r.2.lookup "Zh", r.2.lookup "v",
      r.2.lookup "zenith_angle", r.2.lookup "height")) = some (⟨2020, 3, 4⟩, some (.d1 [some 1, some 2]),
        some (.d2 [[some 4, some 5, some 6], [some 1, none, some 3]]), some (.d2 [[none, some (-2), none], [some 7, none, some 9]]),
        some (.d1 [some 10, some 0]), some (.d1 [some 60, some 110, some 160])) := by decide +kernel
  cases hr : basta2nc exRadarTools exRadarSite (some ⟨2020, 1, 2⟩) exBasta with
  | error e => rw [hr] at h; cases h
  | ok r =>
    rw [hr] at h
    simp only [Except.toOption, Option.map_some, Option.some.injEq, Prod.mk.injEq] at h
    obtain ⟨h1, h2, h3, h4, h5, h6⟩ := h
    exact ⟨r.2, by rw [← h1], h2, h3, h4, h5, h6⟩

/-- The case meets the hypotheses of the theorems about BASTA files. -/
example : (∀ ts, Spec.IsArgsort ts (exRadarTools.argsort ts)) ∧ (∃ day out, basta2nc exRadarTools exRadarSite none exBasta = .ok (day, out)) ∧
    (radarOpen exBasta).toOption = some [2, 1] ∧ ([2, 1] : List ℚ).Nodup ∧ Spec.Ranges exBasta [100, 200, 300] ∧
    Spec.IsMatrix 2 3 [exPixels [1, 0, 1], exPixels [1, 1, 1]] ∧
    ((basta2nc exRadarTools exRadarSite none exBasta).toOption.bind fun r => r.2.lookup "altitude") = some (.d0 (some 10)) := by
  refine ⟨stableArgsort_spec, ?_, by decide +kernel, by decide +kernel, ⟨exPixels [100, 200, 300], by decide +kernel, Or.inl rfl⟩, ?_, by decide +kernel⟩
  · have h : (basta2nc exRadarTools exRadarSite none exBasta).toOption.isSome = true := by decide +kernel
    cases hr : basta2nc exRadarTools exRadarSite none exBasta with
    | error e => rw [hr] at h; cases h
    | ok r => exact ⟨r.1, r.2, rfl⟩
  · refine ⟨rfl, ?_⟩
    intro row hrow
    simp only [List.mem_cons, List.not_mem_nil, or_false] at hrow
    rcases hrow with rfl | rfl <;> rfl

/-- A single profile: the masked velocity becomes the number under the mask, background becomes zero. -/
def exBastaSingle : RadarFile ℚ :=
  { exBasta with vars := [("time", .d1 (exPixels [2])), ("range", .d1 (exPixels [100, 200, 300])), ("elevation", .d1 (exPixels [90])),
    ("altitude", .d0 ⟨false, some 10⟩), ("velocity", .d2 [[⟨true, some (-1)⟩, ⟨false, some 8⟩, ⟨false, some 9⟩]]),
    ("background_mask", .d2 [exPixels [1, 0, 1]])] }

example : ((basta2nc exRadarTools exRadarSite none exBastaSingle).toOption.bind fun r => r.2.lookup "v") = some (.d2 [[some (-1), some 0, some 9]]) ∧
    (radarOpen exBastaSingle).toOption = some [2] := by
  decide +kernel

/-- As many times as gates: the ranges are put in the order of the times. -/
def exBastaSquare : RadarFile ℚ :=
  { exBasta with vars := [("time", .d1 (exPixels [2, 1])), ("range", .d1 (exPixels [100, 200])), ("elevation", .d1 (exPixels [90, 90])),
    ("altitude", .d0 ⟨false, some 10⟩), ("velocity", .d2 [exPixels [1, 2], exPixels [3, 4]]), ("background_mask", .d2 [exPixels [1, 1], exPixels [1, 1]])] }

example : ((basta2nc exRadarTools ⟨fun _ => none, none⟩ none exBastaSquare).toOption.map fun r => (r.2.lookup "range", r.2.lookup "height", r.2.lookup "v")) =
    some (some (.d1 [some 200, some 100]), some (.d1 [some 210, some 110]), some (.d2 [[some 3, some 4], [some 1, some 2]])) := by
  decide +kernel

/-- A BOW-TIE file with its times in the wrong order. -/
def exBowtie : RadarFile ℚ where
  vars := [("time", .d1 (exPixels [2, 1])), ("range", .d1 (exPixels [100, 200, 300])), ("altitude", .d0 ⟨false, some 10⟩),
    ("Zh", .d2 [exPixels [1, 2, 3], exPixels [4, 5, 6]]), ("v", .d2 [exPixels [7, 8, 9], [⟨true, some (-1)⟩, ⟨false, some (-2)⟩, ⟨false, none⟩]]),
    ("lwp", .d1 (exPixels [500, 0])), ("rain", .d1 (exPixels [36, 0])), ("SurfRelHum", .d1 (exPixels [50, 100])),
    ("range_offsets", .d1 (exPixels [1, 7 / 2])), ("Nyquist_velocity", .d2 [exPixels [4, 5], exPixels [4, 5]])]
  units := fun _ => "m"
  attr := exBasta.attr

set_option synthInstance.maxSize 2000 in
set_option synthInstance.maxHeartbeats 400000 in
example : ((bowtie2nc exRadarTools exRadarSite (some ⟨2020, 3, 4⟩) exBowtie).toOption.map fun r => (r.2.lookup "time", r.2.lookup "v",
      r.2.lookup "correction_bits")) = some (some (.d1 [some 2, some 1]), some (.d2 [[some 7, some 8, some 9], [none, some (-2), none]]),
        some (.d2 [[some 1, some 1, some 1], [none, some 1, none]])) ∧
    ((bowtie2nc exRadarTools exRadarSite (some ⟨2020, 3, 4⟩) exBowtie).toOption.map fun r => (r.2.lookup "lwp", r.2.lookup "rainfall_rate",
      r.2.lookup "relative_humidity", r.2.lookup "chirp_start_indices", r.2.lookup "height", r.2.lookup "nyquist_velocity")) =
      some (some (.d1 [some (1 / 2), some 0]), some (.d1 [some (1 / 100000), some 0]), some (.d1 [some (1 / 2), some 1]), some (.d1 [some 1, some 3]),
        some (.d1 [some 60, some 110, some 160]), some (.d2 [[some 4, some 5], [some 4, some 5]])) ∧
    (bowtie2nc exRadarTools exRadarSite (some ⟨2020, 3, 5⟩) exBowtie).toOption.isNone := by
  decide +kernel

end Cloudnet
