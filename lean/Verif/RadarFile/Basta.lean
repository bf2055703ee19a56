import Verif.RadarFile.Lemmas

/-! Property C152, BASTA files. -/

set_option linter.unusedSectionVars false
set_option linter.unusedSimpArgs false

namespace Cloudnet

namespace Spec
variable {α : Type}

/-- The pixel is not masked and has the number `v`. -/
def Has (p : RawPixel α) (v : α) : Prop := p.masked = false ∧ p.number = some v

/-- The file has one of the variables. -/
def HasVar (f : RadarFile α) (names : List String) : Prop := ∃ n ∈ names, ∃ a, f.vars.lookup n = some a

end Spec

section
variable {α : Type} [Field α] [LinearOrder α] [IsStrictOrderedRing α] [FloorRing α]

theorem value_has (p : RawPixel α) (v : α) : p.value = some v ↔ Spec.Has p v := by
  unfold RawPixel.value Spec.Has
  cases p.masked <;> simp

/-- The dictionary before times are sorted. -/
def bastaDict (tools : RadarTools α) (f : RadarFile α) (site : RadarSite α) (times : List α) (b e r : NdArray (RawPixel α)) (g : GeoResult α)
    (h : NdArray (Option α)) : List (String × NdArray (Option α)) :=
  let d := (radarInit bastaKeymap f).map fun kv => (kv.1, if kv.1 ∈ bastaKeymap.map Prod.snd then bastaArray b kv.2 else kv.2)
  let d := dictSet (dictSet d "range" (scaleRange site (r.mapAll RawPixel.number))) "time" (.d1 (times.map some))
  let d := setCoordinate "altitude" g.altitude (setCoordinate "longitude" g.longitude (setCoordinate "latitude" g.latitude d))
  let d := dictSet d "zenith_angle" ((e.mapAll RawPixel.value).mapNumbers (90 - ·))
  let d := addRadarSpecific 95 f d
  dictSet d "height" h

/-- Coordinates of the site as seen by the converter: the file and the site, nothing else. -/
def Spec.radarCoordinates (tools : RadarTools α) (f : RadarFile α) (site : RadarSite α) (g : GeoResult α) : Prop :=
  addSiteGeolocation tools.cosd tools.float
    { gps := true, data := fun _ => none, site := some site.coordinate,
      dataset := some ⟨fun key => (f.vars.lookup key).map fun a => a.elements.map RawPixel.value, f.attr⟩ } = .ok g

theorem bastaValidate_ok (tools : RadarTools α) (f : RadarFile α) (e : CivilDate) :
    bastaValidate tools f e = .ok () ↔ ∃ w, (rmWords (f.units "time"))[2]? = some w ∧ tools.iso w = some e := by
  unfold bastaValidate
  cases hw : (rmWords (f.units "time"))[2]? with
  | none => simp
  | some w =>
    simp only [Option.some.injEq, exists_eq_left']
    cases hi : tools.iso w with
    | none => simp
    | some d =>
      simp only [Option.some.injEq]
      by_cases hd : e = d
      · simp [hd]
      · simp [hd, Ne.symm hd, eq_comm]

theorem lookup_keyed {β : Type} (g : String → β → β) (d : List (String × β)) (name : String) :
    (d.map fun kv => (kv.1, g kv.1 kv.2)).lookup name = (d.lookup name).map (g name) := by
  induction d with
  | nil => rfl
  | cons kv d ih =>
    obtain ⟨k, v⟩ := kv
    rw [List.map_cons, List.lookup_cons, List.lookup_cons]
    by_cases hk : (name == k) = true
    · rw [hk]
      simp [beq_iff_eq.1 hk]
    · rw [Bool.not_eq_true] at hk
      rw [hk]
      exact ih

theorem basta_init_none (f : RadarFile α) (name : String) (h : name ∉ bastaKeymap.map Prod.snd) : (radarInit bastaKeymap f).lookup name = none := by
  rw [radarInit_lookup]
  rw [List.filter_eq_nil_iff.2]
  · rfl
  · intro kn hkn hc
    exact h (List.mem_map.2 ⟨kn, hkn, beq_iff_eq.1 hc⟩)

theorem radarInit_single (keymap : List (String × String)) (f : RadarFile α) (raw name : String)
    (h : (keymap.filter fun kn => kn.2 == name) = [(raw, name)]) : (radarInit keymap f).lookup name = (f.vars.lookup raw).map initNd := by
  rw [radarInit_lookup, h]
  simp only [List.filterMap_cons, List.filterMap_nil]
  cases f.vars.lookup raw <;> rfl

/-- An opened file has times: those in the file or, if they are in seconds, the hours of the day. -/
theorem radarOpen_spec (f : RadarFile α) (times : List α) (h : radarOpen f = .ok times) :
    ∃ stamps hours, f.stamps = some stamps ∧ stamps ≠ [] ∧ initTime (some (stamps.length, vec stamps)) = .ok hours ∧
      times = (List.range stamps.length).map hours := by
  unfold radarOpen openSource at h
  cases hs : f.stamps with
  | none => rw [hs] at h; cases h
  | some stamps =>
    rw [hs] at h
    simp only [Option.map_some, Option.getD_some, bind, Except.bind, pure, Except.pure] at h
    cases ht : initTime (some (stamps.length, vec stamps)) with
    | error e => rw [ht] at h; cases h
    | ok hours =>
      rw [ht] at h
      simp only at h
      refine ⟨stamps, hours, rfl, ?_, ht, ?_⟩
      · intro h0
        rw [h0] at ht
        cases ht
      · cases ha : initAltitude (f.source "altitude") with
        | error e => rw [ha] at h; cases h
        | ok alt =>
          rw [ha] at h
          simp only at h
          cases hh : initHeight (f.source "height") (f.source "range") alt with
          | error e => rw [hh] at h; cases h
          | ok hh' => rw [hh] at h; cases h; rfl

theorem radarOpen_ne (f : RadarFile α) (times : List α) (h : radarOpen f = .ok times) : times ≠ [] := by
  obtain ⟨stamps, hours, _, hne, _, rfl⟩ := radarOpen_spec f times h
  intro h0
  rw [List.map_eq_nil_iff] at h0
  have := List.length_pos_of_ne_nil hne
  have h1 := congrArg List.length h0
  simp at h1
  exact hne h1

/-- Which files are converted, and to what. -/
theorem basta2nc_eq (tools : RadarTools α) (site : RadarSite α) (date : Option CivilDate) (f : RadarFile α) (day : CivilDate)
    (out : List (String × NdArray (Option α))) :
    basta2nc tools site date f = .ok (day, out) ↔
      ∃ times b e r g rr a h i, radarOpen f = .ok times ∧ radarDate tools f = .ok day ∧
        (∀ d, date = some d → bastaValidate tools f d = .ok ()) ∧
        f.vars.lookup "background_mask" = some b ∧ getvar f.vars ["range", "height"] = .ok r ∧ f.vars.lookup "elevation" = some e ∧
        Spec.radarCoordinates tools f site g ∧
        (bastaDict tools f site times b e r g h).lookup "range" = some rr ∧
        (bastaDict tools f site times b e r g h).lookup "altitude" = some a ∧
        addAltitude a (rr.mapNumbers (· * tools.cosd (radarZenith (bastaDict tools f site times b e r g h)))) = .ok h ∧
        sortUniqueTimes tools.argsort ⟨bastaDict tools f site times b e r g h, times.map some⟩ = .ok i ∧
        testAllMasked i.data = .ok () ∧ i.data = out := by
  unfold basta2nc
  cases hopen : radarOpen f with
  | error er => simp [bind, Except.bind]
  | ok times =>
  cases hday : radarDate tools f with
  | error er => simp [bind, Except.bind]
  | ok day' =>
  simp only [bind, Except.bind, pure, Except.pure]
  have hexp : bastaExpected tools f date = .ok () ↔ ∀ d, date = some d → bastaValidate tools f d = .ok () := by
    unfold bastaExpected
    cases date <;> simp
  rw [← hexp]
  cases hv : bastaExpected tools f date with
  | error er => simp
  | ok u =>
  simp only [true_and]
  unfold bastaBackground
  cases hb : getvar f.vars ["background_mask"] with
  | error er =>
    have : ∀ b, f.vars.lookup "background_mask" ≠ some b := fun b h => by rw [(getvar_one _ _ b).2 h] at hb; cases hb
    simp [bind, Except.bind, this]
  | ok b =>
  have hb' := (getvar_one _ _ b).1 hb
  simp only [bind, Except.bind, pure, Except.pure]
  unfold addTimeAndRange
  cases hr : getvar f.vars ["range", "height"] with
  | error er => simp [bind, Except.bind]
  | ok r =>
  simp only [bind, Except.bind, pure, Except.pure]
  set d2 := dictSet (dictSet ((radarInit bastaKeymap f).map fun kv => (kv.1, if kv.1 ∈ bastaKeymap.map Prod.snd then bastaArray b kv.2 else kv.2))
    "range" (scaleRange site (r.mapAll RawPixel.number))) "time" (.d1 (times.map some)) with hd2
  unfold addCoordinates
  have hgeo : addSiteGeolocation tools.cosd tools.float (radarGeoInput f site d2) = addSiteGeolocation tools.cosd tools.float
      { gps := true, data := fun _ => none, site := some site.coordinate,
        dataset := some ⟨fun key => (f.vars.lookup key).map fun a => a.elements.map RawPixel.value, f.attr⟩ } := by
    have hno : ∀ key, key ≠ "time" → key ≠ "range" → key ∉ bastaKeymap.map Prod.snd → d2.lookup key = none := by
      intro key h1 h2 h3
      rw [hd2, lookup_dictSet, if_neg h1, lookup_dictSet, if_neg h2,
        lookup_keyed (fun k a => if k ∈ bastaKeymap.map Prod.snd then bastaArray b a else a), basta_init_none f key h3]
      rfl
    refine addSiteGeolocation_data tools.cosd tools.float _ _ rfl rfl rfl ?_ ?_
    · simp only [radarGeoInput]; rw [hno "latitude" (by decide) (by decide) (by decide)]; rfl
    · simp only [radarGeoInput]; rw [hno "longitude" (by decide) (by decide) (by decide)]; rfl
  rw [hgeo]
  unfold Spec.radarCoordinates
  cases hg : addSiteGeolocation tools.cosd tools.float
      { gps := true, data := fun _ => none, site := some site.coordinate,
        dataset := some ⟨fun key => (f.vars.lookup key).map fun a => a.elements.map RawPixel.value, f.attr⟩ } with
  | error er => simp [bind, Except.bind]
  | ok g =>
  simp only [bind, Except.bind, pure, Except.pure]
  unfold bastaZenith
  cases he : getvar f.vars ["elevation"] with
  | error er =>
    have : ∀ b, f.vars.lookup "elevation" ≠ some b := fun b h => by rw [(getvar_one _ _ b).2 h] at he; cases he
    simp [bind, Except.bind, this]
  | ok e =>
  have he' := (getvar_one _ _ e).1 he
  simp only [bind, Except.bind, pure, Except.pure]
  unfold addHeightVar
  have hdict : ∀ h, bastaDict tools f site times b e r g h = dictSet (addRadarSpecific 95 f (dictSet (setCoordinate "altitude" g.altitude
      (setCoordinate "longitude" g.longitude (setCoordinate "latitude" g.latitude d2))) "zenith_angle"
      ((e.mapAll RawPixel.value).mapNumbers (90 - ·)))) "height" h := fun h => rfl
  set d5 := addRadarSpecific 95 f (dictSet (setCoordinate "altitude" g.altitude
      (setCoordinate "longitude" g.longitude (setCoordinate "latitude" g.latitude d2))) "zenith_angle"
      ((e.mapAll RawPixel.value).mapNumbers (90 - ·))) with hd5
  have hrange : ∀ h, (bastaDict tools f site times b e r g h).lookup "range" = d5.lookup "range" := by
    intro h; rw [hdict, lookup_dictSet, if_neg (by decide)]
  have halt : ∀ h, (bastaDict tools f site times b e r g h).lookup "altitude" = d5.lookup "altitude" := by
    intro h; rw [hdict, lookup_dictSet, if_neg (by decide)]
  have hzen : ∀ h, radarZenith (bastaDict tools f site times b e r g h) = radarZenith d5 := by
    intro h; unfold radarZenith; rw [hdict, lookup_dictSet, if_neg (by decide)]
  have hone : (∃ times' b' e' r' g' rr a h i, (.ok times : Except String (List α)) = .ok times' ∧ (.ok day' : Except String CivilDate) = .ok day ∧
        f.vars.lookup "background_mask" = some b' ∧ (.ok r : Except String (NdArray (RawPixel α))) = .ok r' ∧ f.vars.lookup "elevation" = some e' ∧
        (.ok g : Except String (GeoResult α)) = .ok g' ∧
        (bastaDict tools f site times' b' e' r' g' h).lookup "range" = some rr ∧
        (bastaDict tools f site times' b' e' r' g' h).lookup "altitude" = some a ∧
        addAltitude a (rr.mapNumbers (· * tools.cosd (radarZenith (bastaDict tools f site times' b' e' r' g' h)))) = .ok h ∧
        sortUniqueTimes tools.argsort ⟨bastaDict tools f site times' b' e' r' g' h, times'.map some⟩ = .ok i ∧
        testAllMasked i.data = .ok () ∧ i.data = out) ↔
      ∃ rr a h i, day' = day ∧ d5.lookup "range" = some rr ∧ d5.lookup "altitude" = some a ∧
        addAltitude a (rr.mapNumbers (· * tools.cosd (radarZenith d5))) = .ok h ∧
        sortUniqueTimes tools.argsort ⟨dictSet d5 "height" h, times.map some⟩ = .ok i ∧ testAllMasked i.data = .ok () ∧ i.data = out := by
    constructor
    · rintro ⟨times', b', e', r', g', rr', a', h', i', q1, q2, q4, q5, q6, q7, q8, q9, q10, q11, q12, q13⟩
      cases Except.ok.inj q1; cases Option.some.inj (hb'.symm.trans q4); cases Except.ok.inj q5; cases Option.some.inj (he'.symm.trans q6); cases Except.ok.inj q7
      rw [hrange] at q8
      rw [halt] at q9
      rw [hzen] at q10
      rw [hdict] at q11
      exact ⟨rr', a', h', i', Except.ok.inj q2, q8, q9, q10, q11, q12, q13⟩
    · rintro ⟨rr', a', h', i', q2, q8, q9, q10, q11, q12, q13⟩
      refine ⟨times, b, e, r, g, rr', a', h', i', rfl, by rw [q2], hb', rfl, he', rfl, ?_, ?_, ?_, ?_, q12, q13⟩
      · rw [hrange]; exact q8
      · rw [halt]; exact q9
      · rw [hzen]; exact q10
      · rw [hdict]; exact q11
  rw [hone]
  cases h1 : d5.lookup "range" with
  | none => simp [bind, Except.bind]
  | some rr =>
  cases h2 : d5.lookup "altitude" with
  | none => simp [bind, Except.bind]
  | some a =>
  simp only [bind, Except.bind, pure, Except.pure]
  constructor
  · intro hq
    cases h3 : addAltitude a (rr.mapNumbers fun x => x * tools.cosd (radarZenith d5)) with
    | error er => rw [h3] at hq; cases hq
    | ok h =>
      rw [h3] at hq
      simp only at hq
      cases h4 : sortUniqueTimes tools.argsort ⟨dictSet d5 "height" h, times.map some⟩ with
      | error er => rw [h4] at hq; cases hq
      | ok i =>
        rw [h4] at hq
        simp only at hq
        cases h5 : testAllMasked i.data with
        | error er => rw [h5] at hq; cases hq
        | ok u =>
          rw [h5] at hq
          simp only [Except.ok.injEq, Prod.mk.injEq] at hq
          exact ⟨rr, a, h, i, hq.1, rfl, rfl, h3, h4, h5, hq.2⟩
  · rintro ⟨rr', a', h', i', q2, q8, q9, q10, q11, q12, q13⟩
    cases q8
    cases q9
    rw [q10]
    simp only
    rw [q11]
    simp only
    rw [q12]
    simp only [Except.ok.injEq, Prod.mk.injEq]
    exact ⟨q2, q13⟩

/-! ## Variables -/

section
variable (tools : RadarTools α) (f : RadarFile α) (site : RadarSite α) (times : List α) (b e r : NdArray (RawPixel α)) (g : GeoResult α)
  (h : NdArray (Option α))

theorem bastaDict_time : (bastaDict tools f site times b e r g h).lookup "time" = some (.d1 (times.map some)) := by
  unfold bastaDict
  dsimp only
  rw [lookup_dictSet, if_neg (by decide), lookup_specific _ _ _ _ (by decide) (by decide) (by decide), lookup_dictSet, if_neg (by decide),
    lookup_setCoordinate _ _ _ _ (by decide), lookup_setCoordinate _ _ _ _ (by decide), lookup_setCoordinate _ _ _ _ (by decide),
    lookup_dictSet, if_pos rfl]

theorem bastaDict_range : (bastaDict tools f site times b e r g h).lookup "range" = some (scaleRange site (r.mapAll RawPixel.number)) := by
  unfold bastaDict
  dsimp only
  rw [lookup_dictSet, if_neg (by decide), lookup_specific _ _ _ _ (by decide) (by decide) (by decide), lookup_dictSet, if_neg (by decide),
    lookup_setCoordinate _ _ _ _ (by decide), lookup_setCoordinate _ _ _ _ (by decide), lookup_setCoordinate _ _ _ _ (by decide),
    lookup_dictSet, if_neg (by decide), lookup_dictSet, if_pos rfl]

theorem bastaDict_zenith : (bastaDict tools f site times b e r g h).lookup "zenith_angle" =
    some ((e.mapAll RawPixel.value).mapNumbers (90 - ·)) := by
  unfold bastaDict
  dsimp only
  rw [lookup_dictSet, if_neg (by decide), lookup_specific _ _ _ _ (by decide) (by decide) (by decide), lookup_dictSet, if_pos rfl]

theorem bastaDict_height : (bastaDict tools f site times b e r g h).lookup "height" = some h := by
  unfold bastaDict
  dsimp only
  rw [lookup_dictSet, if_pos rfl]

theorem bastaDict_altitude : (bastaDict tools f site times b e r g h).lookup "altitude" = g.altitude.map fun v => v.1.toNd := by
  unfold bastaDict
  dsimp only
  rw [lookup_dictSet, if_neg (by decide), lookup_specific _ _ _ _ (by decide) (by decide) (by decide), lookup_dictSet, if_neg (by decide)]
  unfold setCoordinate
  cases hg : g.altitude with
  | some v => simp only [Option.map_some]; rw [lookup_dictSet, if_pos rfl]
  | none =>
    simp only [Option.map_none]
    have hno : ((dictSet (dictSet ((radarInit bastaKeymap f).map fun kv => (kv.1, if kv.1 ∈ bastaKeymap.map Prod.snd then bastaArray b kv.2 else kv.2))
        "range" (scaleRange site (r.mapAll RawPixel.number))) "time" (.d1 (times.map some))).lookup "altitude") = none := by
      rw [lookup_dictSet, if_neg (by decide), lookup_dictSet, if_neg (by decide),
        lookup_keyed (fun k a => if k ∈ bastaKeymap.map Prod.snd then bastaArray b a else a), basta_init_none f "altitude" (by decide)]
      rfl
    cases g.longitude with
    | none =>
      cases g.latitude with
      | none => exact hno
      | some w => simp only; rw [lookup_dictSet, if_neg (by decide)]; exact hno
    | some v =>
      simp only
      rw [lookup_dictSet, if_neg (by decide)]
      cases g.latitude with
      | none => exact hno
      | some w => simp only; rw [lookup_dictSet, if_neg (by decide)]; exact hno

theorem bastaDict_var (raw name : String) (hm : (raw, name) ∈ bastaKeymap) :
    (bastaDict tools f site times b e r g h).lookup name = (f.vars.lookup raw).map fun a => bastaArray b (initNd a) := by
  have hin : name ∈ bastaKeymap.map Prod.snd := List.mem_map.2 ⟨_, hm, rfl⟩
  have hinit : (radarInit bastaKeymap f).lookup name = (f.vars.lookup raw).map initNd := by
    refine radarInit_single bastaKeymap f raw name ?_
    simp only [bastaKeymap, List.mem_cons, List.not_mem_nil, or_false, Prod.mk.injEq] at hm
    rcases hm with ⟨rfl, rfl⟩ | ⟨rfl, rfl⟩ | ⟨rfl, rfl⟩ | ⟨rfl, rfl⟩ | ⟨rfl, rfl⟩ <;> decide
  have hne : name ≠ "height" ∧ name ≠ "radar_frequency" ∧ name ≠ "nyquist_velocity" ∧ name ≠ "NyquistVelocity" ∧ name ≠ "zenith_angle" ∧
      name ≠ "altitude" ∧ name ≠ "longitude" ∧ name ≠ "latitude" ∧ name ≠ "time" ∧ name ≠ "range" := by
    simp only [bastaKeymap, List.mem_cons, List.not_mem_nil, or_false, Prod.mk.injEq] at hm
    rcases hm with ⟨rfl, rfl⟩ | ⟨rfl, rfl⟩ | ⟨rfl, rfl⟩ | ⟨rfl, rfl⟩ | ⟨rfl, rfl⟩ <;> decide
  obtain ⟨n1, n2, n3, n4, n5, n6, n7, n8, n9, n10⟩ := hne
  unfold bastaDict
  dsimp only
  rw [lookup_dictSet, if_neg n1, lookup_specific _ _ _ _ n2 n3 n4, lookup_dictSet, if_neg n5, lookup_setCoordinate _ _ _ _ n6,
    lookup_setCoordinate _ _ _ _ n7, lookup_setCoordinate _ _ _ _ n8, lookup_dictSet, if_neg n9, lookup_dictSet, if_neg n10,
    lookup_keyed (fun k a => if k ∈ bastaKeymap.map Prod.snd then bastaArray b a else a), hinit, Option.map_map]
  congr 1
  funext a
  simp only [Function.comp]
  rw [if_pos hin]

end

/-! ## C152: BASTA -/

/-- The conversion is a selection of rows of the variables made of the file. -/
theorem basta_rows (tools : RadarTools α) (site : RadarSite α) (date : Option CivilDate) (f : RadarFile α) (day : CivilDate)
    (out : List (String × NdArray (Option α))) (hsort : ∀ ts, Spec.IsArgsort ts (tools.argsort ts))
    (ho : basta2nc tools site date f = .ok (day, out)) :
    ∃ times b e r g h src a, radarOpen f = .ok times ∧ times ≠ [] ∧ f.vars.lookup "background_mask" = some b ∧
      getvar f.vars ["range", "height"] = .ok r ∧ f.vars.lookup "elevation" = some e ∧
      Spec.OnePerTime (vec times) (List.range times.length) src ∧
      (bastaDict tools f site times b e r g h).lookup "altitude" = some a ∧
      addAltitude a ((scaleRange site (r.mapAll RawPixel.number)).mapNumbers (· * tools.cosd (radarZenith (bastaDict tools f site times b e r g h)))) = .ok h ∧
      ∀ name, out.lookup name = ((bastaDict tools f site times b e r g h).lookup name).map (Spec.keepRows times.length src) := by
  obtain ⟨times, b, e, r, g, rr, a, h, i, q1, q2, q3, q4, q5, q6, q7, q8, q9, q10, q11, q12, rfl⟩ := (basta2nc_eq tools site date f day out).1 ho
  have hne : times ≠ [] := radarOpen_ne f times q1
  obtain ⟨src, hsrc, hi⟩ := sortUniqueTimes_spec tools.argsort hsort _ times hne (bastaDict_time tools f site times b e r g h)
  rw [hi] at q11
  cases q11
  rw [bastaDict_range] at q8
  cases q8
  exact ⟨times, b, e, r, g, h, src, a, q1, hne, q4, q5, q6, hsrc, q9, q10, fun name => lookup_map (Spec.keepRows times.length src) _ name⟩

end

end Cloudnet
