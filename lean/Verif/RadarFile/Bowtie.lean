import Verif.RadarFile.Basta

/-! BOW-TIE radar files: which are converted, and to what. -/

set_option linter.unusedSectionVars false
set_option linter.unusedSimpArgs false

namespace Cloudnet

section
variable {α : Type} [Field α] [LinearOrder α] [IsStrictOrderedRing α] [FloorRing α]

/-- The dictionary before the height is added. -/
def bowtieStart (f : RadarFile α) (site : RadarSite α) (times : List α) (r : NdArray (RawPixel α)) (g : GeoResult α) :
    List (String × NdArray (Option α)) :=
  let d := dictSet (dictSet (radarInit bowtieKeymap f) "range" (scaleRange site (r.mapAll RawPixel.number))) "time" (.d1 (times.map some))
  let d := addRadarSpecific 94 f d
  setCoordinate "altitude" g.altitude (setCoordinate "longitude" g.longitude (setCoordinate "latitude" g.latitude d))

theorem bowtie_init_none (f : RadarFile α) (name : String) (h : name ∉ bowtieKeymap.map Prod.snd) : (radarInit bowtieKeymap f).lookup name = none := by
  rw [radarInit_lookup]
  rw [List.filter_eq_nil_iff.2]
  · rfl
  · intro kn hkn hc
    exact h (List.mem_map.2 ⟨kn, hkn, beq_iff_eq.1 hc⟩)

variable (f : RadarFile α) (site : RadarSite α) (times : List α) (r : NdArray (RawPixel α)) (g : GeoResult α)

theorem bowtieStart_time : (bowtieStart f site times r g).lookup "time" = some (.d1 (times.map some)) := by
  unfold bowtieStart
  dsimp only
  rw [lookup_setCoordinate _ _ _ _ (by decide), lookup_setCoordinate _ _ _ _ (by decide), lookup_setCoordinate _ _ _ _ (by decide),
    lookup_specific _ _ _ _ (by decide) (by decide) (by decide), lookup_dictSet, if_pos rfl]

theorem bowtieStart_range : (bowtieStart f site times r g).lookup "range" = some (scaleRange site (r.mapAll RawPixel.number)) := by
  unfold bowtieStart
  dsimp only
  rw [lookup_setCoordinate _ _ _ _ (by decide), lookup_setCoordinate _ _ _ _ (by decide), lookup_setCoordinate _ _ _ _ (by decide),
    lookup_specific _ _ _ _ (by decide) (by decide) (by decide), lookup_dictSet, if_neg (by decide), lookup_dictSet, if_pos rfl]

theorem bowtieStart_zenith : (bowtieStart f site times r g).lookup "zenith_angle" = none := by
  unfold bowtieStart
  dsimp only
  rw [lookup_setCoordinate _ _ _ _ (by decide), lookup_setCoordinate _ _ _ _ (by decide), lookup_setCoordinate _ _ _ _ (by decide),
    lookup_specific _ _ _ _ (by decide) (by decide) (by decide), lookup_dictSet, if_neg (by decide), lookup_dictSet, if_neg (by decide),
    bowtie_init_none f _ (by decide)]

theorem bowtieStart_altitude : (bowtieStart f site times r g).lookup "altitude" = g.altitude.map fun v => v.1.toNd := by
  have hno : ((setCoordinate "longitude" g.longitude (setCoordinate "latitude" g.latitude (addRadarSpecific 94 f (dictSet (dictSet
      (radarInit bowtieKeymap f) "range" (scaleRange site (r.mapAll RawPixel.number))) "time" (.d1 (times.map some)))))).lookup "altitude") = none := by
    rw [lookup_setCoordinate _ _ _ _ (by decide), lookup_setCoordinate _ _ _ _ (by decide),
      lookup_specific _ _ _ _ (by decide) (by decide) (by decide), lookup_dictSet, if_neg (by decide), lookup_dictSet, if_neg (by decide),
      bowtie_init_none f _ (by decide)]
  unfold bowtieStart
  dsimp only
  cases hg : g.altitude with
  | none => exact hno
  | some v => simp only [setCoordinate, Option.map_some]; rw [lookup_dictSet, if_pos rfl]

theorem bowtieStart_var (raw name : String) (hm : (raw, name) ∈ bowtieKeymap) (h1 : name ≠ "time") (h2 : name ≠ "range")
    (h3 : name ≠ "nyquist_velocity") : (bowtieStart f site times r g).lookup name = (f.vars.lookup raw).map initNd := by
  have hinit : (radarInit bowtieKeymap f).lookup name = (f.vars.lookup raw).map initNd := by
    refine radarInit_single bowtieKeymap f raw name ?_
    simp only [bowtieKeymap, List.mem_cons, List.not_mem_nil, or_false, Prod.mk.injEq] at hm
    rcases hm with ⟨rfl, rfl⟩ | ⟨rfl, rfl⟩ | ⟨rfl, rfl⟩ | ⟨rfl, rfl⟩ | ⟨rfl, rfl⟩ | ⟨rfl, rfl⟩ | ⟨rfl, rfl⟩ | ⟨rfl, rfl⟩ | ⟨rfl, rfl⟩ |
      ⟨rfl, rfl⟩ | ⟨rfl, rfl⟩ | ⟨rfl, rfl⟩ | ⟨rfl, rfl⟩ | ⟨rfl, rfl⟩ <;> decide
  have hne : name ≠ "radar_frequency" ∧ name ≠ "NyquistVelocity" ∧ name ≠ "altitude" ∧ name ≠ "longitude" ∧ name ≠ "latitude" := by
    have hin : name ∈ bowtieKeymap.map Prod.snd := List.mem_map.2 ⟨_, hm, rfl⟩
    refine ⟨?_, ?_, ?_, ?_, ?_⟩ <;> (rintro rfl; revert hin; decide)
  obtain ⟨n1, n2, n3, n4, n5⟩ := hne
  unfold bowtieStart
  dsimp only
  rw [lookup_setCoordinate _ _ _ _ n3, lookup_setCoordinate _ _ _ _ n4, lookup_setCoordinate _ _ _ _ n5, lookup_specific _ _ _ _ n1 h3 n2,
    lookup_dictSet, if_neg h1, lookup_dictSet, if_neg h2, hinit]

theorem bowtieStart_nyquist : (bowtieStart f site times r g).lookup "nyquist_velocity" =
    match getvar f.vars ["ambiguous_velocity", "NyquistVelocity"] with
    | .ok a => some (.d0 (some (median (a.elements.filterMap RawPixel.number))))
    | .error _ => (f.vars.lookup "Nyquist_velocity").map initNd := by
  unfold bowtieStart
  dsimp only
  rw [lookup_setCoordinate _ _ _ _ (by decide), lookup_setCoordinate _ _ _ _ (by decide), lookup_setCoordinate _ _ _ _ (by decide)]
  unfold addRadarSpecific
  dsimp only
  cases getvar f.vars ["ambiguous_velocity", "NyquistVelocity"] with
  | ok a =>
    simp only
    rw [lookup_filter_key _ _ _ (by decide), lookup_dictSet, if_pos rfl]
  | error e =>
    simp only
    rw [lookup_dictSet, if_neg (by decide), lookup_dictSet, if_neg (by decide), lookup_dictSet, if_neg (by decide),
      radarInit_single bowtieKeymap f "Nyquist_velocity" "nyquist_velocity" (by decide)]

theorem bowtieStart_frequency : (bowtieStart f site times r g).lookup "radar_frequency" = some (.d0 (some 94)) := by
  unfold bowtieStart
  dsimp only
  rw [lookup_setCoordinate _ _ _ _ (by decide), lookup_setCoordinate _ _ _ _ (by decide), lookup_setCoordinate _ _ _ _ (by decide)]
  unfold addRadarSpecific
  dsimp only
  split
  · rw [lookup_filter_key _ _ _ (by decide), lookup_dictSet, if_neg (by decide), lookup_dictSet, if_pos rfl]
  · rw [lookup_dictSet, if_pos rfl]

/-- The variables of the new file. -/
def bowtieDict (h : NdArray (Option α)) (chirps v : NdArray (RawPixel α)) : List (String × NdArray (Option α)) :=
  dictSet (dictSet ((dictSet (bowtieStart f site times r g) "height" h).map fun kv => (kv.1, kv.2.mapNumbers (bowtieUnit kv.1)))
    "chirp_start_indices" ((initNd chirps).mapNumbers truncate)) "correction_bits" ((initNd v).mapNumbers fun _ => 1)

theorem mapNumbers_id (a : NdArray (Option α)) : a.mapNumbers (fun x => x) = a := by
  cases a <;> simp [NdArray.mapNumbers]

theorem bowtieUnit_id (name : String) (h1 : name ≠ "lwp") (h2 : name ≠ "rainfall_rate") (h3 : name ≠ "relative_humidity") (a : NdArray (Option α)) :
    a.mapNumbers (bowtieUnit name) = a := by
  have : bowtieUnit (α := α) name = fun x => x := by
    funext x
    unfold bowtieUnit
    rw [if_neg h1, if_neg h2, if_neg h3]
  rw [this, mapNumbers_id]

theorem initNd_scalar (a : NdArray (RawPixel α)) : (initNd a).isScalar = a.isScalar := by
  unfold initNd
  split <;> simp [NdArray.isScalar, mapAll_len]

/-- Which files are converted, and to what. -/
theorem bowtie2nc_eq (tools : RadarTools α) (date : Option CivilDate) (day : CivilDate) (out : List (String × NdArray (Option α))) :
    bowtie2nc tools site date f = .ok (day, out) ↔
      ∃ times r g a h l1 l2 l3 chirps v, radarOpen f = .ok times ∧ radarDate tools f = .ok day ∧
        (∀ d, date = some d → day = d) ∧ getvar f.vars ["range", "height"] = .ok r ∧ Spec.radarCoordinates tools f site g ∧
        g.altitude = some a ∧
        addAltitude a.1.toNd ((scaleRange site (r.mapAll RawPixel.number)).mapNumbers (· * tools.cosd 0)) = .ok h ∧
        f.vars.lookup "lwp" = some l1 ∧ f.vars.lookup "rain" = some l2 ∧ f.vars.lookup "SurfRelHum" = some l3 ∧
        f.vars.lookup "range_offsets" = some chirps ∧ f.vars.lookup "v" = some v ∧ v.isScalar = false ∧
        (∃ x ∈ v.elements, x.value ≠ none) ∧ bowtieDict f site times r g h chirps v = out := by
  unfold bowtie2nc
  cases hopen : radarOpen f with
  | error er => simp [bind, Except.bind]
  | ok times =>
  cases hday : radarDate tools f with
  | error er => simp [bind, Except.bind]
  | ok day' =>
  simp only [bind, Except.bind, pure, Except.pure]
  unfold addTimeAndRange
  cases hr : getvar f.vars ["range", "height"] with
  | error er => simp [bind, Except.bind]
  | ok r =>
  simp only [bind, Except.bind, pure, Except.pure]
  have hexp : bowtieExpected day' date = .ok () ↔ ∀ d, date = some d → day' = d := by
    unfold bowtieExpected
    cases date with
    | none => simp
    | some d => by_cases hd : day' = d <;> simp [hd]
  cases he : bowtieExpected day' date with
  | error er =>
    have : ¬ ∀ d, date = some d → day' = d := by rw [← hexp, he]; simp
    simp only [reduceCtorEq, false_iff]
    rintro ⟨times', r', g, a, h, l1, l2, l3, chirps, v, _, q2, q3, _⟩
    cases q2
    exact this q3
  | ok u =>
  have hdate : ∀ d, date = some d → day' = d := hexp.1 he
  simp only
  unfold addCoordinates
  have hgeo : addSiteGeolocation tools.cosd tools.float (radarGeoInput f site (addRadarSpecific 94 f (dictSet (dictSet (radarInit bowtieKeymap f) "range"
      (scaleRange site (r.mapAll RawPixel.number))) "time" (.d1 (times.map some))))) = addSiteGeolocation tools.cosd tools.float
      { gps := true, data := fun _ => none, site := some site.coordinate,
        dataset := some ⟨fun key => (f.vars.lookup key).map fun a => a.elements.map RawPixel.value, f.attr⟩ } := by
    apply addSiteGeolocation_data
    · rfl
    · rfl
    · rfl
    · simp only [radarGeoInput]
      rw [lookup_specific _ _ _ _ (by decide) (by decide) (by decide), lookup_dictSet, if_neg (by decide), lookup_dictSet, if_neg (by decide),
        bowtie_init_none f _ (by decide)]
      rfl
    · simp only [radarGeoInput]
      rw [lookup_specific _ _ _ _ (by decide) (by decide) (by decide), lookup_dictSet, if_neg (by decide), lookup_dictSet, if_neg (by decide),
        bowtie_init_none f _ (by decide)]
      rfl
  rw [hgeo]
  unfold Spec.radarCoordinates
  cases hg : addSiteGeolocation tools.cosd tools.float
      { gps := true, data := fun _ => none, site := some site.coordinate,
        dataset := some ⟨fun key => (f.vars.lookup key).map fun a => a.elements.map RawPixel.value, f.attr⟩ } with
  | error er => simp [bind, Except.bind]
  | ok g =>
  simp only [bind, Except.bind, pure, Except.pure]
  have hb : setCoordinate "altitude" g.altitude (setCoordinate "longitude" g.longitude (setCoordinate "latitude" g.latitude
      (addRadarSpecific 94 f (dictSet (dictSet (radarInit bowtieKeymap f) "range" (scaleRange site (r.mapAll RawPixel.number))) "time"
        (.d1 (times.map some)))))) = bowtieStart f site times r g := rfl
  rw [hb]
  unfold addHeightVar
  simp only [bind, Except.bind, pure, Except.pure]
  rw [bowtieStart_range, bowtieStart_altitude]
  have hz : radarZenith (bowtieStart f site times r g) = 0 := by
    unfold radarZenith
    rw [bowtieStart_zenith]
  rw [hz]
  cases ha : g.altitude with
  | none =>
    simp only [Option.map_none, reduceCtorEq, false_iff]
    rintro ⟨times', r', g', a, h, l1, l2, l3, chirps, v, _, _, _, _, q5, q6, _⟩
    cases q5
    rw [ha] at q6
    cases q6
  | some a =>
  simp only [Option.map_some]
  cases hh : addAltitude a.1.toNd ((scaleRange site (r.mapAll RawPixel.number)).mapNumbers (· * tools.cosd 0)) with
  | error er =>
    simp only [reduceCtorEq, false_iff]
    rintro ⟨times', r', g', a', h, l1, l2, l3, chirps, v, _, _, _, q4, q5, q6, q7, _⟩
    cases q4; cases q5
    rw [ha] at q6
    cases q6
    rw [hh] at q7
    cases q7
  | ok h =>
  simp only
  have hlk : ∀ raw name, (raw, name) ∈ bowtieKeymap → name ≠ "time" → name ≠ "range" → name ≠ "nyquist_velocity" →
      (dictSet (bowtieStart f site times r g) "height" h).lookup name = (f.vars.lookup raw).map initNd := by
    intro raw name hm h1 h2 h3
    have h4 : name ≠ "height" := by
      have hin : name ∈ bowtieKeymap.map Prod.snd := List.mem_map.2 ⟨_, hm, rfl⟩
      rintro rfl; revert hin; decide
    rw [lookup_dictSet, if_neg h4, bowtieStart_var f site times r g raw name hm h1 h2 h3]
  unfold bowtieUnits
  simp only [List.all_cons, List.all_nil, Bool.and_true]
  rw [hlk "lwp" "lwp" (by decide) (by decide) (by decide) (by decide), hlk "rain" "rainfall_rate" (by decide) (by decide) (by decide) (by decide),
    hlk "SurfRelHum" "relative_humidity" (by decide) (by decide) (by decide) (by decide)]
  cases h1 : f.vars.lookup "lwp" with
  | none => simp
  | some l1 =>
  cases h2 : f.vars.lookup "rain" with
  | none => simp
  | some l2 =>
  cases h3 : f.vars.lookup "SurfRelHum" with
  | none => simp
  | some l3 =>
  simp only [Option.map_some, Option.isSome_some, Bool.and_self, if_true]
  have hun : ∀ name, name ≠ "lwp" → name ≠ "rainfall_rate" → name ≠ "relative_humidity" →
      ((dictSet (bowtieStart f site times r g) "height" h).map fun kv => (kv.1, kv.2.mapNumbers (bowtieUnit kv.1))).lookup name =
        (dictSet (bowtieStart f site times r g) "height" h).lookup name := by
    intro name n1 n2 n3
    rw [lookup_keyed (fun k a => NdArray.mapNumbers (bowtieUnit k) a)]
    cases (dictSet (bowtieStart f site times r g) "height" h).lookup name with
    | none => rfl
    | some a => simp only [Option.map_some]; rw [bowtieUnit_id name n1 n2 n3]
  unfold bowtieChirps
  rw [hun _ (by decide) (by decide) (by decide), hlk "range_offsets" "chirp_start_indices" (by decide) (by decide) (by decide) (by decide)]
  cases h4 : f.vars.lookup "range_offsets" with
  | none => simp
  | some chirps =>
  simp only [Option.map_some]
  have hv : (dictSet ((dictSet (bowtieStart f site times r g) "height" h).map fun kv => (kv.1, kv.2.mapNumbers (bowtieUnit kv.1)))
      "chirp_start_indices" ((initNd chirps).mapNumbers truncate)).lookup "v" = (f.vars.lookup "v").map initNd := by
    rw [lookup_dictSet, if_neg (by decide), hun _ (by decide) (by decide) (by decide), hlk "v" "v" (by decide) (by decide) (by decide) (by decide)]
  unfold testAllMasked bowtieBits
  rw [hv]
  cases h5 : f.vars.lookup "v" with
  | none => simp
  | some v =>
  simp only [Option.map_some]
  cases hs : v.isScalar with
  | true =>
    have : (initNd v).isScalar = true := by rw [initNd_scalar, hs]
    constructor
    · intro hc
      split at hc
      · cases hc
      · rw [if_pos this] at hc; cases hc
    · rintro ⟨times', r', g', a', h', l1', l2', l3', chirps', v', _, _, _, _, _, _, _, _, _, _, _, q1, q2, _⟩
      cases q1
      rw [hs] at q2
      cases q2
  | false =>
  have hsv : (initNd v).isScalar = false := by rw [initNd_scalar, hs]
  have hel : (initNd v).elements = v.elements.map RawPixel.value := by
    unfold initNd
    rw [hs]
    cases v <;> simp [NdArray.mapAll, NdArray.elements, List.map_flatten, Function.comp_def]
  by_cases hx : ∃ x ∈ v.elements, x.value ≠ none
  · have hall : (initNd v).elements.all Option.isNone = false := by
      obtain ⟨x, hx, hxv⟩ := hx
      rw [hel, List.all_eq_false]
      refine ⟨x.value, List.mem_map_of_mem hx, ?_⟩
      cases hq : x.value with
      | none => exact absurd hq hxv
      | some y => simp
    simp only [hall, hsv, Bool.false_eq_true, if_false, Except.ok.injEq, Prod.mk.injEq]
    constructor
    · rintro ⟨rfl, rfl⟩
      exact ⟨times, r, g, a, h, l1, l2, l3, chirps, v, rfl, rfl, hdate, rfl, rfl, ha, hh, rfl, rfl, rfl, rfl, rfl, hs, hx, rfl⟩
    · rintro ⟨times', r', g', a', h', l1', l2', l3', chirps', v', q1, q2, _, q4, q5, q6, q7, _, _, _, q8, q10, _, _, q9⟩
      cases q1; cases q2; cases q4; cases q5; cases q8; cases q10
      rw [ha] at q6
      cases q6
      rw [hh] at q7
      cases q7
      exact ⟨rfl, q9⟩
  · have hall : (initNd v).elements.all Option.isNone = true := by
      push Not at hx
      rw [hel, List.all_eq_true]
      intro y hy
      obtain ⟨x, hxm, rfl⟩ := List.mem_map.1 hy
      rw [hx x hxm]; rfl
    simp only [hall, if_true, reduceCtorEq, false_iff]
    rintro ⟨times', r', g', a', h', l1', l2', l3', chirps', v', _, _, _, _, _, _, _, _, _, _, _, q1, _, q3, _⟩
    cases q1
    exact hx q3

theorem bowtieDict_keep (h : NdArray (Option α)) (chirps v : NdArray (RawPixel α)) (name : String) (h1 : name ≠ "chirp_start_indices")
    (h2 : name ≠ "correction_bits") (h3 : name ≠ "height") : (bowtieDict f site times r g h chirps v).lookup name =
      ((bowtieStart f site times r g).lookup name).map fun a => a.mapNumbers (bowtieUnit name) := by
  unfold bowtieDict
  rw [lookup_dictSet, if_neg h2, lookup_dictSet, if_neg h1, lookup_keyed (fun k a => NdArray.mapNumbers (bowtieUnit k) a), lookup_dictSet, if_neg h3]

theorem bowtieDict_height (h : NdArray (Option α)) (chirps v : NdArray (RawPixel α)) :
    (bowtieDict f site times r g h chirps v).lookup "height" = some h := by
  unfold bowtieDict
  rw [lookup_dictSet, if_neg (by decide), lookup_dictSet, if_neg (by decide), lookup_keyed (fun k a => NdArray.mapNumbers (bowtieUnit k) a),
    lookup_dictSet, if_pos rfl]
  simp only [Option.map_some]
  rw [bowtieUnit_id _ (by decide) (by decide) (by decide)]

theorem bowtieDict_chirps (h : NdArray (Option α)) (chirps v : NdArray (RawPixel α)) :
    (bowtieDict f site times r g h chirps v).lookup "chirp_start_indices" = some ((initNd chirps).mapNumbers truncate) := by
  unfold bowtieDict
  rw [lookup_dictSet, if_neg (by decide), lookup_dictSet, if_pos rfl]

theorem bowtieDict_bits (h : NdArray (Option α)) (chirps v : NdArray (RawPixel α)) :
    (bowtieDict f site times r g h chirps v).lookup "correction_bits" = some ((initNd v).mapNumbers fun _ => 1) := by
  unfold bowtieDict
  rw [lookup_dictSet, if_pos rfl]

end

end Cloudnet
