import Verif.RadarFile.Model
import Verif.Mrr.Props
import Verif.Precip.Props
import Verif.Geo.Props
import Verif.Source.Props
import Verif.CeiloDay.Props

/-! Steps of the conversion of BASTA and BOW-TIE files. -/

set_option linter.unusedSectionVars false
set_option linter.unusedSimpArgs false

namespace Cloudnet

theorem getvar_one {β : Type} (vars : List (String × β)) (name : String) (v : β) :
    getvar vars [name] = .ok v ↔ vars.lookup name = some v := by
  unfold getvar
  cases h : vars.lookup name with
  | none => simp [List.find?_cons, h]
  | some w => simp [List.find?_cons, h]

theorem keepRows_perm {β : Type} (n : ℕ) (p u : List ℕ) (a : NdArray β) (hp : p.length = n) (hlt : ∀ i ∈ p, i < n) :
    Spec.keepRows n u (Spec.keepRows n p a) = Spec.keepRows n (Spec.records u p) a := by
  cases a <;> simp only [Spec.keepRows]
  all_goals
    rename_i xs
    by_cases hx : xs.length = n
    · rw [if_pos hx, if_pos hx, if_pos (by rw [records_length p xs (by rw [hx]; exact hlt), hp]), records_records u p xs (by rw [hx]; exact hlt)]
    · rw [if_neg hx, if_neg hx, if_neg hx]

section
variable {α : Type} [Field α] [LinearOrder α] [IsStrictOrderedRing α] [FloorRing α]

theorem getTime_some (d : List (String × NdArray (Option α))) (ts : List α) (time : List (Option α))
    (h : d.lookup "time" = some (.d1 (ts.map some))) : (⟨d, time⟩ : Instrument (Option α)).getTime = ts.map some := by
  unfold Instrument.getTime
  rw [h]

/-- Sorting and removing duplicates. -/
theorem sortUniqueTimes_spec (argsort : List α → List ℕ) (hsort : ∀ ts, Spec.IsArgsort ts (argsort ts)) (d : List (String × NdArray (Option α)))
    (ts : List α) (hne : ts ≠ []) (h : d.lookup "time" = some (.d1 (ts.map some))) :
    ∃ src, Spec.OnePerTime (vec ts) (List.range ts.length) src ∧
      sortUniqueTimes argsort ⟨d, ts.map some⟩ =
        .ok ⟨d.map fun kv => (kv.1, Spec.keepRows ts.length src kv.2), src.map fun i => some (vec ts i)⟩ := by
  obtain ⟨hp, hs⟩ := hsort ts
  set p := argsort ts with hpdef
  have hlt : ∀ i ∈ p, i < ts.length := fun i hi => List.mem_range.1 (hp.mem_iff.1 hi)
  have hpl : p.length = ts.length := by rw [hp.length_eq, List.length_range]
  have hpos : 0 < ts.length := List.length_pos_of_ne_nil hne
  have hpne : p ≠ [] := by intro h0; rw [h0, List.length_nil] at hpl; omega
  set ts' := Spec.records p ts with hts'
  have hts'l : ts'.length = ts.length := by rw [hts', records_length p ts hlt, hpl]
  set u := uniqueIndex ts'.length (vec ts') with hu
  obtain ⟨u1, u2⟩ := uniqueIndex_spec ts'.length (vec ts')
  rw [← hu] at u1 u2
  have hult : ∀ i ∈ u, i < ts.length := fun i hi => hts'l ▸ ((u1 i).1 hi).1
  have hune : u ≠ [] := List.ne_nil_of_mem ((u1 0).2 ⟨by omega, fun j hj => by omega⟩)
  have hund : u.Nodup := by
    rw [List.nodup_iff_pairwise_ne]
    exact u2.imp fun h he => absurd (he ▸ h) (lt_irrefl _)
  have hv : ∀ i < ts.length, vec ts' i = vec ts (p.getD i 0) := by
    intro i hi
    have hip : i < p.length := by omega
    have := records_vec p ts hlt
    rw [hts']
    simp only [this]
    simp [vec, List.getElem?_eq_getElem hip]
  have hgetp : ∀ i < ts.length, p.getD i 0 ∈ p := by
    intro i hi
    have hip : i < p.length := by omega
    rw [List.getD_eq_getElem _ _ hip]
    exact List.getElem_mem _
  have hsrc : Spec.records u p = u.map fun i => p.getD i 0 := records_getD u p 0 (by rw [hpl]; exact hult)
  refine ⟨Spec.records u p, ⟨?_, ?_, ?_⟩, ?_⟩
  · rw [hsrc, List.pairwise_map]
    rw [List.pairwise_iff_getElem] at u2 ⊢
    intro i j hi hj hij
    have := u2 i j hi hj hij
    rwa [hv _ (hult _ (List.getElem_mem _)), hv _ (hult _ (List.getElem_mem _))] at this
  · intro r hr
    rw [hsrc, List.mem_map] at hr
    obtain ⟨i, hi, rfl⟩ := hr
    exact List.mem_range.2 (hlt _ (hgetp i (hult i hi)))
  · intro r hr
    have hrp : r ∈ p := hp.mem_iff.2 hr
    obtain ⟨k, hk, hkr⟩ := List.getElem_of_mem hrp
    have hk' : k < ts.length := by omega
    have hfirst : ∀ q, q < ts'.length → ∃ m ∈ u, vec ts' m = vec ts' q := by
      intro q
      induction q using Nat.strong_induction_on with
      | _ q ih =>
        intro hq
        by_cases hc : ∀ j < q, vec ts' j ≠ vec ts' q
        · exact ⟨q, (u1 q).2 ⟨hq, hc⟩, rfl⟩
        · push Not at hc
          obtain ⟨j, hj, he⟩ := hc
          obtain ⟨m, hm, h4⟩ := ih j hj (by omega)
          exact ⟨m, hm, h4.trans he⟩
    obtain ⟨m, hm, hme⟩ := hfirst k (by omega)
    refine ⟨p.getD m 0, ?_, ?_⟩
    · rw [hsrc, List.mem_map]; exact ⟨m, hm, rfl⟩
    · rw [← hv m (hult m hm), hme, hv k hk', List.getD_eq_getElem _ _ hk, hkr]
  · unfold sortUniqueTimes
    have ht := getTime_some d ts (ts.map some) h
    rw [ht, filterMap_id_map, ← hpdef]
    rw [screenTimeIndices_rows _ p ts.length (by rw [ht]; simp) (by simp) hpne (hp.nodup_iff.2 List.nodup_range) hlt]
    simp only [bind, Except.bind]
    have ht2 : (⟨d.map fun kv => (kv.1, Spec.keepRows ts.length p kv.2), Spec.records p (ts.map some)⟩ : Instrument (Option α)).getTime =
        ts'.map some := by
      refine getTime_some _ ts' _ ?_
      rw [lookup_map (Spec.keepRows ts.length p), h]
      simp only [Option.map_some, Spec.keepRows, List.length_map, if_true]
      rw [records_map_fn]
    rw [ht2, filterMap_id_map, ← hu]
    rw [screenTimeIndices_rows _ u ts.length (by rw [ht2]; simp [hts'l]) (by simp [records_map_fn, records_length p ts hlt, hpl]) hune hund hult]
    congr 1
    simp only [Instrument.mk.injEq]
    constructor
    · rw [List.map_map]
      apply List.map_congr_left
      rintro ⟨k, a⟩ _
      simp only [Function.comp, Prod.mk.injEq, true_and]
      exact keepRows_perm _ p u a hpl hlt
    · rw [records_map_fn, ← hts', records_map_fn, records_vec u ts' (by rw [hts'l]; exact hult), hsrc, List.map_map, List.map_map]
      apply List.map_congr_left
      intro i hi
      simp only [Function.comp, Option.some.injEq]
      exact hv i (hult i hi)

/-! ## Coordinates -/

theorem geoFind_data (float : String → Option α) (i j : GeoInput α) (key : String) (hg : i.gps = j.gps) (hs : i.site = j.site)
    (hd : i.dataset = j.dataset) (h : key ≠ "altitude" → i.data key = j.data key) : geoFind float i key = geoFind float j key := by
  have hv : i.gpsValues key = j.gpsValues key := by
    unfold GeoInput.gpsValues
    rw [hg, hd]
    by_cases hk : key = "altitude"
    · simp [hk]
    · rw [h hk]
  unfold geoFind
  rw [hv, hs, hd]

theorem addSiteGeolocation_data (cosd : α → α) (float : String → Option α) (i j : GeoInput α) (hg : i.gps = j.gps) (hs : i.site = j.site)
    (hd : i.dataset = j.dataset) (h1 : i.data "latitude" = j.data "latitude") (h2 : i.data "longitude" = j.data "longitude") :
    addSiteGeolocation cosd float i = addSiteGeolocation cosd float j := by
  unfold addSiteGeolocation
  rw [geoFind_data float i j "latitude" hg hs hd fun _ => h1, geoFind_data float i j "longitude" hg hs hd fun _ => h2,
    geoFind_data float i j "altitude" hg hs hd fun h => absurd rfl h]

theorem lookup_setCoordinate (key : String) (v : Option (GeoValue α × String)) (d : List (String × NdArray (Option α))) (name : String)
    (h : name ≠ key) : (setCoordinate key v d).lookup name = d.lookup name := by
  unfold setCoordinate
  cases v with
  | none => rfl
  | some v => simp only; rw [lookup_dictSet, if_neg h]

theorem lookup_filter_key (d : List (String × NdArray (Option α))) (key name : String) (h : name ≠ key) :
    (d.filter fun kv => kv.1 ≠ key).lookup name = d.lookup name := by
  induction d with
  | nil => rfl
  | cons kv d ih =>
    obtain ⟨k, v⟩ := kv
    by_cases hk : k = key
    · rw [List.filter_cons_of_neg (by simp [hk]), ih, List.lookup_cons]
      have : (name == k) = false := by rw [hk]; exact beq_eq_false_iff_ne.2 h
      rw [this]
    · rw [List.filter_cons_of_pos (by simp [hk]), List.lookup_cons, List.lookup_cons, ih]

theorem lookup_specific (frequency : α) (f : RadarFile α) (d : List (String × NdArray (Option α))) (name : String)
    (h1 : name ≠ "radar_frequency") (h2 : name ≠ "nyquist_velocity") (h3 : name ≠ "NyquistVelocity") :
    (addRadarSpecific frequency f d).lookup name = d.lookup name := by
  unfold addRadarSpecific
  dsimp only
  split
  · rw [lookup_filter_key _ _ _ h3, lookup_dictSet, if_neg h2, lookup_dictSet, if_neg h1]
  · rw [lookup_dictSet, if_neg h1]

theorem radarInit_lookup (keymap : List (String × String)) (f : RadarFile α) (name : String) :
    (radarInit keymap f).lookup name =
      ((keymap.filter fun kn => kn.2 == name).filterMap fun kn => (f.vars.lookup kn.1).map initNd).getLast? := by
  unfold radarInit
  rw [C107_last]
  congr 1
  apply List.filterMap_congr
  intro kn _
  exact lookup_map initNd f.vars kn.1

/-- The lengths of arrays stay. -/
theorem mapAll_len {β γ : Type} (g : β → γ) (a : NdArray β) : (a.mapAll g).len? = a.len? := by
  cases a <;> simp [NdArray.mapAll, NdArray.len?]

end

end Cloudnet
