import Mathlib.Tactic
import Verif.FmcwDay.Model
import Verif.Precip.Props
import Verif.RpgDay.Props
import Verif.Rpg.Props
import Verif.Mira.Props
import Verif.RadarFile.Props
import Verif.Mrr.Props

namespace Cloudnet

/-! ## C154: a day of an RPG cloud radar -/

section
variable {α : Type} [Field α] [LinearOrder α] [IsStrictOrderedRing α] [FloorRing α]

namespace Spec

/-- The times of day in hours of the profiles: below 24, but the last time of the files is at 24 instead of 0. -/
def IsRpgHours (ps : List (FmcwProfile α)) (hours : ℕ → α) : Prop :=
  ∀ (i : ℕ) (p : FmcwProfile α), ps[i]? = some p → ∃ day : ℤ, p.seconds + p.ms / 1000 = 86400 * day + 3600 * hours i ∧ 0 ≤ hours i ∧ hours i ≤ 24 ∧
    (i + 1 < ps.length → hours i < 24) ∧ (i + 1 = ps.length → 0 < hours i)

/-- The known zenith angles between -5 and 15 degrees. -/
def nearZenith (ps : List (FmcwProfile α)) : List α :=
  ((ps.filterMap FmcwProfile.elevation).map fun e => 90 - e).filter fun z => decide (-5 < z ∧ z < 15)

/-- The zenith angle of the profile is known and close to `m`. -/
def PointsTo (m : α) (p : FmcwProfile α) : Prop := ∃ e, p.elevation = some e ∧ |90 - e - m| ≤ 1 / 10 + |m| / 100000

/-- The spectral width of a gate is plausible (a masked one by the number under the mask). -/
def WideEnough (r : FmcwProfile α) (g : ℕ) : Prop := (∃ w, r.width g = some w ∧ 5 / 1000 ≤ w) ∨ (r.width g = none ∧ r.under g = false)

/-- The profile `p` is written for the profile `r` of the files. -/
structure IsRpgProfile (toDb : Option α → Option α) (r p : FmcwProfile α) : Prop where
  seconds : p.seconds = r.seconds
  hour : p.hour = r.hour
  zenith : p.elevation = r.elevation.map fun e => 90 - e
  zh : ∀ g, (WideEnough r g → p.zh g = toDb (r.zh g)) ∧ (¬ WideEnough r g → p.zh g = toDb none)
  v : ∀ g x, p.v g = some x ↔ r.v g = some x ∧ WideEnough r g
  width : ∀ g x, p.width g = some x ↔ r.width g = some x ∧ WideEnough r g
  ldr : ∀ g x, p.ldr g = some x ↔ r.ldr g = some x ∧ -35 < x ∧ WideEnough r g
  sldr : ∀ g x, p.sldr g = some x ↔ r.sldr g = some x ∧ -40 < x ∧ WideEnough r g
  rain : p.rain = r.rain.map (· / 3600000)
  lwp : p.lwp = r.lwp.map (· / 1000)
  humidity : p.humidity = r.humidity.map (· / 100)
  pressure : p.pressure = r.pressure.map (100 * ·)
  wind : p.wind = r.wind.map (· / (36 / 10))

end Spec

omit [FloorRing α] in
theorem medianOf_unique (l : List α) (m m' : α) (h : Spec.MedianOf l m) (h' : Spec.MedianOf l m') : m = m' := by
  obtain ⟨s, hp, hs, a, b, ha, hb, rfl⟩ := h
  obtain ⟨s', hp', hs', a', b', ha', hb', rfl⟩ := h'
  have : s = s' := List.Perm.eq_of_pairwise (fun _ _ _ _ h1 h2 => le_antisymm h1 h2) hs hs' (hp.trans hp'.symm)
  subst this
  rw [ha] at ha'; cases ha'
  rw [hb] at hb'; cases hb'
  rfl

omit [FloorRing α] in
theorem medianOf_ne_nil (l : List α) (m : α) (h : Spec.MedianOf l m) : l ≠ [] := by
  obtain ⟨s, hp, -, a, b, -, hb, -⟩ := h
  rintro rfl
  rw [hp.eq_nil] at hb
  simp at hb

/-- What becomes of a profile before pointing is looked at. -/
theorem isRpgProfile (toDb : Option α → Option α) (r : FmcwProfile α) :
    Spec.IsRpgProfile toDb r { (r.screen.convert toDb) with elevation := r.elevation.map fun e => 90 - e } := by
  have hw : ∀ g (x : Option α), (Spec.WideEnough r g → maskInvalidWidth (r.under g) (r.width g) x = x) ∧
      (¬ Spec.WideEnough r g → maskInvalidWidth (r.under g) (r.width g) x = none) := by
    intro g x
    unfold Spec.WideEnough maskInvalidWidth
    cases r.width g with
    | none => cases r.under g <;> simp
    | some w =>
      by_cases h : w < 5 / 1000
      · simp [h]
      · simp [h, not_lt.1 h]
  have hs : ∀ g (x : Option α) (y : α), maskInvalidWidth (r.under g) (r.width g) x = some y ↔ x = some y ∧ Spec.WideEnough r g := by
    intro g x y
    by_cases h : Spec.WideEnough r g
    · rw [(hw g x).1 h]; simp [h]
    · rw [(hw g x).2 h]; simp [h]
  have hl : ∀ (t : α) g (x : Option α) (y : α), maskInvalidWidth (r.under g) (r.width g) (maskInvalidLdr t x) = some y ↔
      x = some y ∧ t < y ∧ Spec.WideEnough r g := by
    intro t g x y
    rw [hs, (C92_outliers t x).1 y, and_assoc]
  refine ⟨rfl, rfl, rfl, ?_, fun g x => hs g _ x, fun g x => hs g _ x, fun g x => hl _ g _ x, fun g x => hl _ g _ x, ?_, ?_, ?_, ?_, ?_⟩
  · intro g
    exact ⟨fun h => congrArg toDb ((hw g _).1 h), fun h => congrArg toDb ((hw g _).2 h)⟩
  · show r.rain.map _ = r.rain.map _
    congr 1
    funext x
    show x * (1 / 1000 / 3600) = _
    ring
  · show r.lwp.map _ = r.lwp.map _
    congr 1
    funext x
    show x * (1 / 1000) = _
    ring
  · rfl
  · show r.pressure.map _ = r.pressure.map _
    congr 1
    funext x
    show x * 100 = _
    ring
  · show r.wind.map _ = r.wind.map _
    congr 1
    funext x
    show x * (1000 / 3600) = _
    ring

/-- Times of day. -/
theorem fmcwHours_ok (ps : List (FmcwProfile α)) : (ps = [] → ∃ e, fmcwHours ps = .error e) ∧
    (ps ≠ [] → ∃ hours, fmcwHours ps = .ok hours ∧ Spec.IsRpgHours ps hours) := by
  constructor
  · rintro rfl
    exact ⟨_, rfl⟩
  · intro hne
    have hn : 0 < ps.length := List.length_pos_iff.2 hne
    refine ⟨_, by unfold fmcwHours seconds2hours; rw [if_neg (by omega)], ?_⟩
    intro i p hp
    have hi : i < ps.length := by
      by_contra hc
      rw [List.getElem?_eq_none (not_lt.1 hc)] at hp
      cases hp
    have hv : vec (ps.map fun p => p.seconds + p.ms * (1 / 1000)) i = p.seconds + p.ms / 1000 := by
      rw [getElem?_vec (fun p : FmcwProfile α => p.seconds + p.ms * (1 / 1000)) ps i p hp]
      ring
    set t := p.seconds + p.ms / 1000 with ht
    have hfl := Int.floor_le (t / 86400)
    have hlt := Int.lt_floor_add_one (t / 86400)
    have h1 : 86400 * (⌊t / 86400⌋ : α) ≤ t := by
      have := mul_le_mul_of_nonneg_left hfl (by norm_num : (0 : α) ≤ 86400)
      rwa [mul_div_cancel₀ _ (by norm_num : (86400 : α) ≠ 0)] at this
    have h2 : t < 86400 * (⌊t / 86400⌋ : α) + 86400 := by
      have := mul_lt_mul_of_pos_left hlt (by norm_num : (0 : α) < 86400)
      rw [mul_div_cancel₀ _ (by norm_num : (86400 : α) ≠ 0)] at this
      linarith
    have hfrac : npMod (vec (ps.map fun p => p.seconds + p.ms * (1 / 1000)) i) 86400 / 3600 = (t - 86400 * (⌊t / 86400⌋ : α)) / 3600 := by
      rw [hv]; rfl
    by_cases hlast : i = ps.length - 1 ∧
        npMod (vec (ps.map fun p => p.seconds + p.ms * (1 / 1000)) (ps.length - 1)) 86400 / 3600 = 0
    · dsimp only
      rw [if_pos hlast]
      have h0 : (t - 86400 * (⌊t / 86400⌋ : α)) / 3600 = 0 := by
        rw [← hfrac, hlast.1]; exact hlast.2
      have h3 : t = 86400 * (⌊t / 86400⌋ : α) := by
        rw [div_eq_zero_iff] at h0
        rcases h0 with h0 | h0
        · linarith
        · norm_num at h0
      refine ⟨⌊t / 86400⌋ - 1, ?_, by norm_num, le_refl _, fun h => by omega, fun _ => by norm_num⟩
      push_cast
      linarith
    · dsimp only
      rw [if_neg hlast, hfrac]
      refine ⟨⌊t / 86400⌋, by ring, div_nonneg (by linarith) (by norm_num), ?_, fun _ => ?_, ?_⟩
      · rw [div_le_iff₀ (by norm_num)]; linarith
      · rw [div_lt_iff₀ (by norm_num)]; linarith
      · intro hend
        have hnz : (t - 86400 * (⌊t / 86400⌋ : α)) / 3600 ≠ 0 := by
          intro h0
          have hil : i = ps.length - 1 := by omega
          refine hlast ⟨hil, ?_⟩
          rw [← hil, hfrac]; exact h0
        exact lt_of_le_of_ne (div_nonneg (by linarith) (by norm_num)) (Ne.symm hnz)

theorem pickRows_map_rows {R S : Type} (F : R → S) (order : List ℕ) (rs : List R) : pickRows order (rs.map F) = (pickRows order rs).map F := by
  unfold pickRows
  rw [List.map_filterMap]
  congr 1
  funext i
  rw [List.getElem?_map]

theorem sortUnique_map {R S : Type} (F : R → S) (hours : S → α) (order : List ℕ) (rs : List R) :
    sortUnique hours order (rs.map F) = (sortUnique (fun r => hours (F r)) order rs).map F := by
  unfold sortUnique
  dsimp only
  rw [pickRows_map_rows, pickRows_map_rows, List.length_map, List.map_map]
  rfl

/-- The zenith angles of accepted profiles. -/
theorem fmcwFinish_ok (tools : FmcwTools α) (f : FmcwFiles α) (instrument : String) (date : ℤ) (ps : List (FmcwProfile α)) :
    (∀ out, fmcwFinish tools f instrument date ps = .ok out →
      ∃ (med : α) (kept : List ℕ), Spec.MedianOf (Spec.nearZenith ps) med ∧ kept.Pairwise (· < ·) ∧
        (∀ k, k ∈ kept ↔ ∃ p, ps[k]? = some p ∧ Spec.PointsTo med p) ∧
        List.Forall₂ (fun k p => ∃ r, ps[k]? = some r ∧ p = { r with elevation := r.elevation.map fun e => 90 - e }) kept out.profiles ∧
        out.nGates = f.nGates ∧ out.range = f.range ∧ out.instrument = instrument ∧ out.date = date ∧ kept ≠ [] ∧
        ∃ altitude z, f.altitude = some altitude ∧ Spec.MedianOf (out.profiles.filterMap FmcwProfile.elevation) z ∧
          ∀ k, out.height k = f.range k * tools.cosd z + altitude) ∧
    ((∃ out, fmcwFinish tools f instrument date ps = .ok out) ↔
      f.altitude ≠ none ∧ ∃ med, Spec.MedianOf (Spec.nearZenith ps) med ∧ ∃ p ∈ ps, Spec.PointsTo med p) := by
  set zen := (ps.map FmcwProfile.elevation).map fun e => e.map fun e => 90 - e with hzen
  have hclose : ((zen.filterMap id).filter fun v => decide (-5 < v) && decide (v < 15)) = Spec.nearZenith ps := by
    rw [hzen, Spec.nearZenith, List.map_map, List.filterMap_map, List.map_filterMap]
    simp only [Bool.decide_and]
    rfl
  have hcount : ∀ l : List Bool, l.length - l.count true = l.length ↔ true ∉ l := by
    intro l
    have h1 := List.count_le_length (a := true) (l := l)
    rw [← List.count_eq_zero]
    constructor
    · intro h
      by_contra hc
      have : 0 < l.length := by
        by_contra h0
        have : l.count true ≤ 0 := by omega
        omega
      omega
    · intro h; omega
  have hvalidlen : (filterZenith zen).length = zen.length := by
    unfold filterZenith
    dsimp only
    split_ifs <;> rw [List.length_map]
  have hzlen : zen.length = ps.length := by rw [hzen, List.length_map, List.length_map]
  by_cases hnil : Spec.nearZenith ps = []
  · have herr : fmcwFinish tools f instrument date ps = .error "ValidTimeStampError" := by
      unfold fmcwFinish addZenithAngle
      simp only [bind, Except.bind]
      rw [← hzen, if_pos]
      rw [← hvalidlen, hcount]
      unfold filterZenith
      dsimp only
      rw [hclose, if_pos hnil]
      simp
    rw [herr]
    refine ⟨fun _ h => (by cases h), ?_⟩
    constructor
    · rintro ⟨_, h⟩; cases h
    · rintro ⟨-, med, hm, -⟩
      exact absurd hnil (medianOf_ne_nil _ _ hm)
  set med := median (Spec.nearZenith ps) with hmed
  have hmedian : Spec.MedianOf (Spec.nearZenith ps) med := median_medianOf _ hnil
  have hfz : filterZenith zen = zen.map fun v => v.elim false fun v => isClose (1 / 10) v med := by
    unfold filterZenith
    dsimp only
    rw [hclose, if_neg hnil]
  have hget : ∀ (k : ℕ) (p : FmcwProfile α), ps[k]? = some p → ((filterZenith zen).getD k false = true ↔ Spec.PointsTo med p) := by
    intro k p hp
    rw [hfz, List.getD_eq_getElem?_getD, List.getElem?_map, hzen, List.getElem?_map, List.getElem?_map, hp]
    simp only [Option.map_some, Option.getD_some, Spec.PointsTo]
    cases p.elevation with
    | none => simp
    | some e =>
      simp only [Option.map_some, Option.elim_some, isClose, decide_eq_true_eq, Option.some.injEq, exists_eq_left']
      rw [show (1 / 100000 * |med| : α) = |med| / 100000 by ring]
  have htrue : true ∈ filterZenith zen ↔ ∃ p ∈ ps, Spec.PointsTo med p := by
    constructor
    · intro h
      obtain ⟨k, hk, hkt⟩ := List.mem_iff_getElem.1 h
      have hk' : k < ps.length := by omega
      have hp : ps[k]? = some ps[k] := List.getElem?_eq_getElem hk'
      refine ⟨ps[k], List.getElem_mem hk', (hget k _ hp).1 ?_⟩
      rw [List.getD_eq_getElem _ _ hk, hkt]
    · rintro ⟨p, hp, hpt⟩
      obtain ⟨k, hk, rfl⟩ := List.mem_iff_getElem.1 hp
      have hk' : k < (filterZenith zen).length := by omega
      have := (hget k _ (List.getElem?_eq_getElem hk)).2 hpt
      rw [List.getD_eq_getElem _ _ hk'] at this
      rw [← this]
      exact List.getElem_mem hk'
  by_cases hany : ∃ p ∈ ps, Spec.PointsTo med p
  swap
  · have herr : fmcwFinish tools f instrument date ps = .error "ValidTimeStampError" := by
      unfold fmcwFinish addZenithAngle
      simp only [bind, Except.bind]
      rw [← hzen, if_pos]
      rw [← hvalidlen, hcount, htrue]
      exact hany
    rw [herr]
    refine ⟨fun _ h => (by cases h), ?_⟩
    constructor
    · rintro ⟨_, h⟩; cases h
    · rintro ⟨-, med', hm, hp⟩
      rw [medianOf_unique _ _ _ hm hmedian] at hp
      exact absurd hp hany
  set all := ps.mapIdx fun i p => ({ p with elevation := (zen[i]?).getD none } : FmcwProfile α) with hall
  set final := ((all.zipIdx).filter fun pi => (filterZenith zen).getD pi.2 false).map Prod.fst with hfinal
  have hlen : all.length = ps.length := List.length_mapIdx
  have hf2 := forall₂_zipIdx_filter all fun k => (filterZenith zen).getD k false
  rw [hlen, ← hfinal] at hf2
  have hrows : List.Forall₂ (fun k p => ∃ r, ps[k]? = some r ∧ p = { r with elevation := r.elevation.map fun e => 90 - e })
      ((List.range ps.length).filter fun k => (filterZenith zen).getD k false) final := by
    refine hf2.imp ?_
    intro k p hp
    rw [hall, List.getElem?_mapIdx] at hp
    cases hr : ps[k]? with
    | none => rw [hr] at hp; cases hp
    | some r =>
      rw [hr] at hp
      simp only [Option.map_some, Option.some.injEq] at hp
      refine ⟨r, rfl, ?_⟩
      rw [← hp, hzen, List.getElem?_map, List.getElem?_map, hr]
      rfl
  have hkept : ∀ k, k ∈ ((List.range ps.length).filter fun k => (filterZenith zen).getD k false) ↔ ∃ p, ps[k]? = some p ∧ Spec.PointsTo med p := by
    intro k
    rw [List.mem_filter, List.mem_range]
    constructor
    · rintro ⟨hk, hs⟩
      exact ⟨ps[k], List.getElem?_eq_getElem hk, (hget k _ (List.getElem?_eq_getElem hk)).1 hs⟩
    · rintro ⟨p, hp, hs⟩
      refine ⟨?_, (hget k p hp).2 hs⟩
      by_contra hc
      rw [List.getElem?_eq_none (not_lt.1 hc)] at hp
      cases hp
  have hkne : ((List.range ps.length).filter fun k => (filterZenith zen).getD k false) ≠ [] := by
    obtain ⟨p, hp, hpt⟩ := hany
    obtain ⟨k, hk, rfl⟩ := List.mem_iff_getElem.1 hp
    exact List.ne_nil_of_mem ((hkept k).2 ⟨_, List.getElem?_eq_getElem hk, hpt⟩)
  have hne : final ≠ [] := by
    intro hc
    rw [hc] at hrows
    exact hkne (List.forall₂_nil_right_iff.1 hrows)
  have hz : final.filterMap FmcwProfile.elevation ≠ [] := by
    obtain ⟨k0, k1, kl⟩ : ∃ k l, ((List.range ps.length).filter fun k => (filterZenith zen).getD k false) = k :: l :=
      List.exists_cons_of_ne_nil hkne
    rw [kl] at hrows
    obtain ⟨p, rest, ⟨r, hr, hp⟩, -, hfin⟩ := List.forall₂_cons_left_iff.1 hrows
    obtain ⟨r', hr', e, he, -⟩ := (hkept k0).1 (by rw [kl]; simp)
    rw [hr] at hr'
    cases hr'
    rw [hfin]
    refine List.ne_nil_of_mem (List.mem_filterMap.2 ⟨p, by simp, show p.elevation = some (90 - e) by rw [hp]; simp [he]⟩)
  have hdef : fmcwFinish tools f instrument date ps =
      match f.altitude with
      | none => .error "KeyError: altitude"
      | some altitude => .ok ⟨final, f.nGates, f.range, fun k => f.range k * tools.cosd (fmcwZenith final) + altitude, instrument, date⟩ := by
    unfold fmcwFinish addZenithAngle
    simp only [bind, Except.bind, pure, Except.pure]
    rw [← hzen, if_neg (by rw [← hvalidlen, hcount, htrue]; simpa using hany)]
    dsimp only
    rw [← hall, ← hfinal, (keepProfiles_ok final final).2 ⟨hne, rfl⟩]
    cases f.altitude <;> rfl
  rw [hdef]
  cases f.altitude with
  | none => exact ⟨fun _ h => (by cases h), by simp⟩
  | some altitude =>
    refine ⟨?_, ⟨fun _ => ⟨by simp, med, hmedian, hany⟩, fun _ => ⟨_, rfl⟩⟩⟩
    intro out h
    cases h
    refine ⟨med, _, hmedian, List.pairwise_lt_range.filter _, hkept, hrows, rfl, rfl, rfl, rfl, hkne, altitude, _, rfl, median_medianOf _ hz, ?_⟩
    intro k
    show f.range k * tools.cosd (fmcwZenith final) + altitude = _
    unfold fmcwZenith
    dsimp only
    rw [if_neg hz]

namespace Spec

/-- `cand` are the profiles of the files with their times of day, one for each time, in order. -/
def IsRpgDay (f : FmcwFiles α) (cand : List (FmcwProfile α)) : Prop :=
  ∃ hours, IsRpgHours f.profiles hours ∧ OnePerTime FmcwProfile.hour (fmcwTimed hours f.profiles) cand

/-- The radar has a known frequency in GHz. -/
def IsRpgRadar (frequency : α) (name : String) : Prop :=
  (name = "FMCW35" ∧ 349 / 10 ≤ frequency ∧ frequency ≤ 351 / 10) ∨ (name = "FMCW94" ∧ 939 / 10 ≤ frequency ∧ frequency ≤ 941 / 10)

end Spec

theorem isRpgRadar_iff (frequency : α) (name : String) : rpgInstrument frequency = .ok name ↔ Spec.IsRpgRadar frequency name := by
  obtain ⟨h1, h2, h3⟩ := C128_instrument frequency
  unfold Spec.IsRpgRadar
  constructor
  · intro h
    by_cases ha : name = "FMCW35"
    · subst ha; exact Or.inl ⟨rfl, h1.1 h⟩
    by_cases hb : name = "FMCW94"
    · subst hb; exact Or.inr ⟨rfl, h2.1 h⟩
    exfalso
    unfold rpgInstrument at h
    split_ifs at h
    · cases h; exact ha rfl
    · cases h; exact hb rfl
  · rintro (⟨rfl, h⟩ | ⟨rfl, h⟩)
    · exact h1.2 h
    · exact h2.2 h

/-- The conversion up to the pointing. -/
theorem fmcw2nc_eq (tools : FmcwTools α) (f : FmcwFiles α) (hsort : ∀ l, (tools.argsort l).Perm (List.range l.length)) (first : FmcwProfile α)
    (rest : List (FmcwProfile α)) (hps : f.profiles = first :: rest) (name : String) (hname : rpgInstrument f.frequency = .ok name) :
    ∃ cand, Spec.IsRpgDay f cand ∧ fmcw2nc tools f =
      fmcwFinish tools f name ⌊(tools.epoch + first.seconds) / 86400⌋ (cand.map fun r => r.screen.convert tools.toDb) := by
  obtain ⟨hours, hh, hhours⟩ := (fmcwHours_ok f.profiles).2 (by rw [hps]; simp)
  refine ⟨sortUnique FmcwProfile.hour (tools.argsort ((fmcwTimed hours f.profiles).map FmcwProfile.hour)) (fmcwTimed hours f.profiles),
    ⟨hours, hhours, sortUnique_spec _ _ _ ?_⟩, ?_⟩
  · simpa using hsort ((fmcwTimed hours f.profiles).map FmcwProfile.hour)
  · unfold fmcw2nc
    simp only [bind, Except.bind]
    rw [hname, hh]
    have hd : fmcwDate tools f.profiles = .ok ⌊(tools.epoch + first.seconds) / 86400⌋ := by rw [hps]; rfl
    rw [hd]
    dsimp only
    rw [sortUnique_map, List.map_map, List.map_map]
    rfl

/-- **C154.** A day of an RPG cloud radar. The profiles of the files are taken one for each time of day, in order, and written if their zenith angle
is within a tenth of a degree of the median of the zenith angles between -5 and 15 degrees, and only those. Pixels are written where the width is
plausible, depolarisation ratios where they exceed the threshold as well, sensors in SI units, heights above sea level. The date is that of the first
time of the files. -/
theorem C154_day (tools : FmcwTools α) (f : FmcwFiles α) (out : FmcwDay α) (hsort : ∀ l, (tools.argsort l).Perm (List.range l.length))
    (h : fmcw2nc tools f = .ok out) :
    Spec.IsRpgRadar f.frequency out.instrument ∧ out.nGates = f.nGates ∧ out.range = f.range ∧
    (∃ first rest, f.profiles = first :: rest ∧
      86400 * (out.date : α) ≤ tools.epoch + first.seconds ∧ tools.epoch + first.seconds < 86400 * (out.date + 1)) ∧
    ∃ (cand : List (FmcwProfile α)) (med : α) (kept : List ℕ), Spec.IsRpgDay f cand ∧ Spec.MedianOf (Spec.nearZenith cand) med ∧
      kept.Pairwise (· < ·) ∧ kept ≠ [] ∧ (∀ k, k ∈ kept ↔ ∃ r, cand[k]? = some r ∧ Spec.PointsTo med r) ∧
      List.Forall₂ (fun k p => ∃ r, cand[k]? = some r ∧ Spec.IsRpgProfile tools.toDb r p) kept out.profiles ∧
      ∃ altitude z, f.altitude = some altitude ∧ Spec.MedianOf (out.profiles.filterMap FmcwProfile.elevation) z ∧
        ∀ k, out.height k = out.range k * tools.cosd z + altitude := by
  cases hps : f.profiles with
  | nil =>
    unfold fmcw2nc at h
    rw [hps] at h
    cases h
  | cons first rest =>
    cases hname : rpgInstrument f.frequency with
    | error e =>
      unfold fmcw2nc at h
      simp only [bind, Except.bind] at h
      rw [hname, hps] at h
      cases h
    | ok name =>
      obtain ⟨cand, hday, heq⟩ := fmcw2nc_eq tools f hsort first rest hps name hname
      rw [heq] at h
      obtain ⟨med, kept, k1, k2, k3, k4, k5, k6, k7, k8, k9, alt, z, k10, k11, k12⟩ := (fmcwFinish_ok tools f name _ _).1 out h
      have hnear : Spec.nearZenith (cand.map fun r => r.screen.convert tools.toDb) = Spec.nearZenith cand := by
        unfold Spec.nearZenith
        rw [List.filterMap_map]
        rfl
      have hget : ∀ (k : ℕ) (p : FmcwProfile α), (cand.map fun r => r.screen.convert tools.toDb)[k]? = some p →
          ∃ r, cand[k]? = some r ∧ p = r.screen.convert tools.toDb := by
        intro k p hp
        rw [List.getElem?_map] at hp
        cases hc : cand[k]? with
        | none => rw [hc] at hp; cases hp
        | some r => rw [hc] at hp; cases hp; exact ⟨r, rfl, rfl⟩
      rw [hnear] at k1
      refine ⟨by rw [k7]; exact (isRpgRadar_iff _ _).1 hname, k5, k6, ⟨first, rest, rfl, ?_⟩, cand, med, kept, hday, k1, k2, k9, ?_, ?_, alt, z, k10, k11, ?_⟩
      · rw [k8]
        have h1 := Int.floor_le ((tools.epoch + first.seconds) / 86400)
        have h2 := Int.lt_floor_add_one ((tools.epoch + first.seconds) / 86400)
        rw [le_div_iff₀ (by norm_num)] at h1
        rw [div_lt_iff₀ (by norm_num)] at h2
        constructor <;> linarith
      · intro k
        rw [k3 k]
        constructor
        · rintro ⟨p, hp, hpt⟩
          obtain ⟨r, hr, rfl⟩ := hget k p hp
          exact ⟨r, hr, hpt⟩
        · rintro ⟨r, hr, hpt⟩
          exact ⟨r.screen.convert tools.toDb, by rw [List.getElem?_map, hr]; rfl, hpt⟩
      · refine k4.imp ?_
        rintro k p ⟨q, hq, rfl⟩
        obtain ⟨r, hr, rfl⟩ := hget k q hq
        exact ⟨r, hr, isRpgProfile tools.toDb r⟩
      · rw [k6]; exact k12

/-- **C154.** A file is made exactly if there is a profile, the frequency is known, the altitude is known, and some profile points to the median
of the zenith angles near zenith. (No two profiles have the same time of day, else it depends on which one of them NumPy's sort puts first.) -/
theorem C154_made (tools : FmcwTools α) (f : FmcwFiles α) (hsort : ∀ l, (tools.argsort l).Perm (List.range l.length))
    (hdiff : ∀ hours, Spec.IsRpgHours f.profiles hours → ∀ i j, i < j → j < f.profiles.length → hours i ≠ hours j) :
    (∃ out, fmcw2nc tools f = .ok out) ↔
      f.profiles ≠ [] ∧ (∃ name, Spec.IsRpgRadar f.frequency name) ∧ f.altitude ≠ none ∧
      ∃ med, Spec.MedianOf (Spec.nearZenith f.profiles) med ∧ ∃ p ∈ f.profiles, Spec.PointsTo med p := by
  cases hps : f.profiles with
  | nil =>
    refine ⟨?_, by simp⟩
    rintro ⟨out, h⟩
    unfold fmcw2nc at h
    rw [hps] at h
    cases h
  | cons first rest =>
    cases hname : rpgInstrument f.frequency with
    | error e =>
      constructor
      · rintro ⟨out, h⟩
        unfold fmcw2nc at h
        simp only [bind, Except.bind] at h
        rw [hname, hps] at h
        cases h
      · rintro ⟨-, ⟨name, hn⟩, -⟩
        rw [← isRpgRadar_iff, hname] at hn
        cases hn
    | ok name =>
      obtain ⟨cand, ⟨hours, hh, h1, h2, h3⟩, heq⟩ := fmcw2nc_eq tools f hsort first rest hps name hname
      rw [heq, (fmcwFinish_ok tools f name _ _).2]
      have hnear : Spec.nearZenith (cand.map fun r => r.screen.convert tools.toDb) = Spec.nearZenith cand := by
        unfold Spec.nearZenith
        rw [List.filterMap_map]
        rfl
      have hperm : cand.Perm (fmcwTimed hours f.profiles) := by
        have hne : ∀ a b : FmcwProfile α, a.hour < b.hour → a ≠ b := fun a b h hc => by rw [hc] at h; exact lt_irrefl _ h
        have hnd : ((fmcwTimed hours f.profiles).map FmcwProfile.hour).Nodup := by
          rw [List.nodup_iff_pairwise_ne, List.pairwise_iff_getElem]
          intro i j hi hj hij
          simp only [fmcwTimed, List.length_map, List.length_mapIdx, List.getElem_map, List.getElem_mapIdx] at hi hj ⊢
          exact hdiff hours hh i j hij hj
        rw [List.perm_ext_iff_of_nodup (h1.imp (hne _ _)) hnd.of_map]
        intro p
        refine ⟨h2 p, fun hp => ?_⟩
        obtain ⟨q, hq, hqp⟩ := h3 p hp
        have := List.inj_on_of_nodup_map hnd (h2 q hq) hp hqp
        rw [← this]; exact hq
      have hel : (fmcwTimed hours f.profiles).map FmcwProfile.elevation = f.profiles.map FmcwProfile.elevation := by
        unfold fmcwTimed
        apply List.ext_getElem
        · simp
        · intro i h1 h2; simp
      have hnp : (Spec.nearZenith cand).Perm (Spec.nearZenith f.profiles) := by
        have e : Spec.nearZenith (fmcwTimed hours f.profiles) = Spec.nearZenith f.profiles := by
          have key : ∀ ps : List (FmcwProfile α), Spec.nearZenith ps =
              (((ps.map FmcwProfile.elevation).filterMap id).map fun e => 90 - e).filter fun z => decide (-5 < z ∧ z < 15) := by
            intro ps
            unfold Spec.nearZenith
            rw [List.filterMap_map]
            rfl
          rw [key, key, hel]
        rw [← e]
        exact ((hperm.filterMap _).map _).filter _
      have hmp : ∀ med, Spec.MedianOf (Spec.nearZenith cand) med ↔ Spec.MedianOf (Spec.nearZenith f.profiles) med := by
        intro med
        unfold Spec.MedianOf
        rw [hnp.length_eq]
        constructor
        · rintro ⟨s, hs, r⟩; exact ⟨s, hs.trans hnp, r⟩
        · rintro ⟨s, hs, r⟩; exact ⟨s, hs.trans hnp.symm, r⟩
      rw [hnear]
      have hpt : ∀ med, (∃ p ∈ cand.map fun r => r.screen.convert tools.toDb, Spec.PointsTo med p) ↔ ∃ p ∈ f.profiles, Spec.PointsTo med p := by
        intro med
        have e1 : ∀ ps : List (FmcwProfile α), (∃ p ∈ ps, Spec.PointsTo med p) ↔
            ∃ x ∈ ps.map FmcwProfile.elevation, ∃ e, x = some e ∧ |90 - e - med| ≤ 1 / 10 + |med| / 100000 := by
          intro ps
          simp only [List.mem_map, exists_exists_and_eq_and]
          rfl
        rw [e1 f.profiles, ← hel, ← e1]
        constructor
        · rintro ⟨p, hp, h⟩
          obtain ⟨r, hr, rfl⟩ := List.mem_map.1 hp
          exact ⟨r, hperm.mem_iff.1 hr, h⟩
        · rintro ⟨p, hp, h⟩
          exact ⟨_, List.mem_map_of_mem (hperm.mem_iff.2 hp), h⟩
      simp only [hmp, hpt, hps]
      constructor
      · rintro ⟨a, b⟩
        exact ⟨by simp, ⟨name, (isRpgRadar_iff _ _).1 hname⟩, a, b⟩
      · rintro ⟨-, -, a, b⟩
        exact ⟨a, b⟩

end

/-- A profile of three gates: one is fine, one is too narrow, one has a depolarisation ratio below the threshold. -/
def exFmcwProfile (seconds elevation : ℚ) : FmcwProfile ℚ :=
  ⟨seconds, 500, 0, some elevation, fun g => [some 3, some 4, some 5].getD g none, fun _ => some 2,
    fun g => [some 1, some (1 / 1000), some 1].getD g none, fun g => [some (-30), some (-30), some (-36)].getD g none, fun _ => some (-39),
    fun _ => false, some 36, none, some 80, some 1000, some 36⟩

def exFmcwFiles (stamps : List (ℚ × ℚ)) : FmcwFiles ℚ :=
  ⟨stamps.map fun s => exFmcwProfile s.1 s.2, 3, fun g => 100 * (g + 1), 94, some 10⟩

def exFmcwTools : FmcwTools ℚ := ⟨fun z => 1 - z / 100, stableArgsort, Option.map (10 * ·), 0⟩

example : ∀ l, (exFmcwTools.argsort l).Perm (List.range l.length) := fun l => (stableArgsort_spec l).1

/-- What is written of some file. -/
def exFmcwShown (d : FmcwDay ℚ) : List (ℚ × Option ℚ) × List ℚ × List (List (Option ℚ) × List (Option ℚ) × Option ℚ × Option ℚ) × String × ℤ :=
  (d.profiles.map fun p => (p.hour, p.elevation), (List.range d.nGates).map d.height,
    d.profiles.map fun p => ((List.range d.nGates).map p.zh, (List.range d.nGates).map p.ldr, p.humidity, p.wind), d.instrument, d.date)

set_option synthInstance.maxSize 2000 in
set_option synthInstance.maxHeartbeats 400000 in
/-- Profiles in the wrong order, one of them twice, and one that points to the side. -/
example : ((fmcw2nc exFmcwTools (exFmcwFiles [(86400 + 7199 + 1 / 2, 88), (86400 + 3599 + 1 / 2, 88), (86400 + 3599 + 1 / 2, 88),
      (86400 + 10800, 45)])).toOption.map exFmcwShown) =
    some ([(1, some 2), (2, some 2)], [108, 206, 304],
      [([some 30, none, some 50], [some (-30), none, none], some (4 / 5), some 10),
        ([some 30, none, some 50], [some (-30), none, none], some (4 / 5), some 10)], "FMCW94", 1) := by
  decide +kernel

/-- Two profiles at different times of day: the hypotheses of `C154_made` hold. -/
example : ∀ hours, Spec.IsRpgHours (exFmcwFiles [(3600, 90), (7200, 90)]).profiles hours →
    ∀ i j, i < j → j < (exFmcwFiles [(3600, 90), (7200, 90)]).profiles.length → hours i ≠ hours j := by
  intro hours h i j hij hj
  have hl : (exFmcwFiles [(3600, 90), (7200, 90)]).profiles.length = 2 := rfl
  rw [hl] at hj
  obtain ⟨rfl, rfl⟩ : i = 0 ∧ j = 1 := by omega
  obtain ⟨d, hd, -⟩ := h 0 _ rfl
  obtain ⟨e, he, -⟩ := h 1 _ rfl
  intro hc
  rw [hc] at hd
  simp only [exFmcwProfile] at hd he
  have h1 : ((24 * (e - d) : ℤ) : ℚ) = (1 : ℤ) := by push_cast; linarith
  have h2 : 24 * (e - d) = 1 := by exact_mod_cast h1
  omega

example : (exFmcwFiles [(3600, 90), (7200, 90)]).altitude ≠ none ∧ (exFmcwFiles [(3600, 90), (7200, 90)]).profiles ≠ [] :=
  ⟨by simp [exFmcwFiles], by simp [exFmcwFiles]⟩

example : Spec.IsRpgRadar (exFmcwFiles [(3600, 90), (7200, 90)]).frequency "FMCW94" :=
  Or.inr ⟨rfl, by norm_num [exFmcwFiles], by norm_num [exFmcwFiles]⟩

set_option synthInstance.maxSize 2000 in
set_option synthInstance.maxHeartbeats 400000 in
/-- **C154**, a finding: without an expected date, files of two days are written as one day, that of the first file. Profiles of the second day get
the times of day of the first, and one at the same time of day as another is lost. -/
theorem C154_two_days :
    ((fmcw2nc exFmcwTools (exFmcwFiles [(3600, 90), (10800, 90), (86400 + 3600, 90), (86400 + 7200, 90)])).toOption.map fun d =>
      (d.date, d.profiles.map fun p => p.seconds)) = some (0, [3600, 86400 + 7200, 10800]) := by
  decide +kernel

end Cloudnet
