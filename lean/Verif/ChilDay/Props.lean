import Mathlib.Tactic
import Verif.ChilDay.Model
import Verif.Chilbolton.Props
import Verif.Mira.Props
import Verif.Precip.Props
import Verif.RadarFile.Props
import Verif.Mrr.Props

namespace Cloudnet

/-! ## C153: a day of Copernicus or Galileo -/

section
variable {α : Type} [Field α] [LinearOrder α] [IsStrictOrderedRing α] [FloorRing α]

namespace Spec

/-- All profiles have an elevation, and all or none have an azimuth. -/
def KnownPointing (ps : List (ChilProfile α)) : Prop :=
  (∀ p ∈ ps, p.elevation ≠ none) ∧
    ((∀ p ∈ ps, p.azimuth = none) ∨ ∀ p ∈ ps, ∃ a, p.azimuth = some a ∧ 0 ≤ a ∧ a ≤ 360)

/-- Profile `k` points steadily to zenith (C51). -/
def SteadyProfile (elDiff : α) (ps : List (ChilProfile α)) (k : ℕ) : Prop :=
  SteadyZenith ps.length (11 / 10) elDiff (1 / 10) (fun i => (ps[i]?).bind ChilProfile.elevation)
    (fun i => (ps[i]?).bind ChilProfile.azimuth) k

/-- The echo of a gate of Copernicus counts: there is a reflectivity, a velocity of at most 9 m/s and a width of at most 3 m/s, the gate is not
one of the first 150 m of the file, and the SNR is 2 dB above the mean of the 50 highest gates. -/
def CopernicusEcho (f : ChilFile α) (r : ChilProfile α) (g : ℕ) : Prop :=
  r.zh g ≠ none ∧ (∃ v, r.v g = some v ∧ |v| ≤ 9) ∧ |(r.width g).getD (r.widthUnder g)| ≤ 3 ∧ 150 ≤ f.range g ∧
  ∀ s m, r.snr g = some s → IsMeanOf r.snr ((List.range f.nGates).filter fun k => decide (f.nGates ≤ k + 50)) m → m + 2 ≤ s

/-- The echo of a gate of Galileo counts, if it is number `k` of the gates written: there is a reflectivity and a velocity, the SNR is high
enough, and it is not clutter, which is an echo with a high depolarisation in the first 15 gates. (Masked values count with the number under
the mask.) -/
def GalileoEcho (limit : α) (r : ChilProfile α) (g k : ℕ) : Prop :=
  r.zh g ≠ none ∧ r.v g ≠ none ∧ limit ≤ (r.snr g).getD (r.snrUnder k) ∧ ¬ (k < 15 ∧ -5 < (r.ldr g).getD (r.ldrUnder k))

/-- The profile `p` is written for the profile `r` of the file: its gate `j` is the gate `gates[j]` of the file; where the echo counts the data
are those of the file, the reflectivity shifted by `offset`, and elsewhere everything is masked. -/
structure IsRadarProfile (gates : List ℕ) (echo : ℕ → ℕ → Prop) (offset : α) (r p : ChilProfile α) : Prop where
  stamp : p.stamp = r.stamp
  hour : p.hour = r.hour
  zenith : p.elevation = r.elevation.map fun e => 90 - e
  azimuth : p.azimuth = r.azimuth
  data : ∀ j g, gates[j]? = some g → echo g j →
    p.zh j = (r.zh g).map (· + offset) ∧ p.v j = r.v g ∧ p.width j = r.width g ∧ p.ldr j = r.ldr g ∧ p.snr j = r.snr g
  masked : ∀ j g, gates[j]? = some g → ¬ echo g j → p.zh j = none ∧ p.v j = none ∧ p.width j = none ∧ p.ldr j = none ∧ p.snr j = none

/-- The profiles `cand` are those of the file, one for each time of day, in order. -/
def IsDayOf (f : ChilFile α) (cand : List (ChilProfile α)) : Prop :=
  ∃ hours, initTime (some (f.profiles.length, vec (f.profiles.map ChilProfile.stamp))) = .ok hours ∧
    OnePerTime ChilProfile.hour (chilTimed hours f.profiles) cand

end Spec

theorem mem_chilTimed (hours : ℕ → α) (ps : List (ChilProfile α)) (p : ChilProfile α) (hp : p ∈ chilTimed hours ps) :
    ∃ q ∈ ps, ∃ x, p = { q with hour := x } := by
  obtain ⟨i, hi, rfl⟩ := List.mem_mapIdx.1 hp
  exact ⟨ps[i], List.getElem_mem hi, hours i, rfl⟩

/-- **C153.** Reading fails exactly if there is no profile (or a time that cannot be converted) or the date of the units is not the expected one.
The profiles are then those of the file, one for each time of day, in order. -/
theorem C153_read (tools : ChilTools α) (site : ChilSite α) (f : ChilFile α)
    (hsort : ∀ l, (tools.argsort l).Perm (List.range l.length)) :
    (∀ cand, chilRead tools site f = .ok cand → Spec.IsDayOf f cand ∧ ∀ d, site.date = some d → d = f.epoch) ∧
    ((∃ cand, chilRead tools site f = .ok cand) ↔
      (∃ hours, initTime (some (f.profiles.length, vec (f.profiles.map ChilProfile.stamp))) = .ok hours) ∧
        ∀ d, site.date = some d → d = f.epoch) := by
  unfold chilRead
  simp only [bind, Except.bind, pure, Except.pure]
  have hdate : (chilDate site f = .ok () ↔ ∀ d, site.date = some d → d = f.epoch) := by
    unfold chilDate
    cases site.date with
    | none => simp
    | some d =>
      dsimp only
      by_cases h : f.epoch = d
      · simp [h]
      · rw [if_pos h]
        simp [Ne.symm h]
  cases ht : initTime (some (f.profiles.length, vec (f.profiles.map ChilProfile.stamp))) with
  | error e => exact ⟨fun _ h => (by cases h), by simp⟩
  | ok hours =>
    dsimp only
    cases hd : chilDate site f with
    | error e =>
      rw [hd] at hdate
      refine ⟨fun _ h => (by cases h), ?_⟩
      constructor
      · rintro ⟨_, h⟩; cases h
      · rintro ⟨-, h⟩; exact absurd (hdate.2 h) (by simp)
    | ok u =>
      rw [hd] at hdate
      have hall := hdate.1 rfl
      refine ⟨fun cand h => ?_, ⟨fun _ => ⟨⟨hours, rfl⟩, hall⟩, fun _ => ⟨_, rfl⟩⟩⟩
      cases h
      refine ⟨⟨hours, ht, sortUnique_spec _ _ _ ?_⟩, hall⟩
      simpa using hsort ((chilTimed hours f.profiles).map ChilProfile.hour)

/-- The pointing of accepted profiles. -/
theorem chilFinish_ok (tools : ChilTools α) (elDiff : α) (f : ChilFile α) (nGates : ℕ) (range : ℕ → α) (scalars : List (String × α))
    (ps : List (ChilProfile α)) (hang : Spec.KnownPointing ps) :
    (∀ out, chilFinish tools elDiff f nGates range scalars ps = .ok out →
      ∃ kept : List ℕ, kept.Pairwise (· < ·) ∧ (∀ k, k ∈ kept ↔ k < ps.length ∧ Spec.SteadyProfile elDiff ps k) ∧
        List.Forall₂ (fun k p => ∃ r, ps[k]? = some r ∧ p = { r with elevation := r.elevation.map fun e => 90 - e }) kept out.profiles ∧
        out.nGates = nGates ∧ out.range = range ∧ f.folding = some out.nyquist ∧ out.scalars = scalars ∧ out.date = f.epoch ∧
        ∃ altitude z, f.altitude = some altitude ∧ Spec.MedianOf (out.profiles.filterMap ChilProfile.elevation) z ∧
          ∀ k, out.height k = range k * tools.cosd z + altitude) ∧
    ((∃ out, chilFinish tools elDiff f nGates range scalars ps = .ok out) ↔
      f.folding ≠ none ∧ f.altitude ≠ none ∧
      (∃ i j : ℕ, i < j ∧ j < ps.length ∧ Spec.SteadyProfile elDiff ps i ∧ Spec.SteadyProfile elDiff ps j) ∧
      ∃ (k : ℕ) (r : ChilProfile α), ps[k]? = some r ∧ Spec.SteadyProfile elDiff ps k ∧ ∃ h < nGates, r.v h ≠ none) := by
  have hdom : ∀ {β : Type} (k : ChilProfile α → Option β) (i : ℕ) (x : β), (ps[i]?).bind k = some x → i < ps.length := by
    intro β k i x hx
    by_contra hc
    rw [List.getElem?_eq_none (not_lt.1 hc)] at hx
    cases hx
  have haz0 : (fun i : ℕ => ((ps[i]?).bind ChilProfile.azimuth).map fun a => a + (none : Option α).getD 0) =
      fun i : ℕ => (ps[i]?).bind ChilProfile.azimuth := by
    funext i; simp
  have hel0 : (fun i : ℕ => ((ps[i]?).bind ChilProfile.elevation).map fun a => a - (none : Option α).getD 0) =
      fun i : ℕ => (ps[i]?).bind ChilProfile.elevation := by
    funext i; simp
  by_cases hn : ps.length < 2
  · have herr : ∃ e, addAngles ps.length (11 / 10) elDiff (1 / 10) tools.junk none none
        (fun i => (ps[i]?).bind ChilProfile.elevation) (fun i => (ps[i]?).bind ChilProfile.azimuth) = .error e := by
      unfold addAngles
      dsimp only
      rw [if_pos hn]
      exact ⟨_, rfl⟩
    obtain ⟨e, he⟩ := herr
    have hno : ∀ out, chilFinish tools elDiff f nGates range scalars ps ≠ .ok out := by
      intro out h
      unfold chilFinish at h
      simp only [bind, Except.bind, pure, Except.pure, he] at h
      cases hf : f.folding <;> rw [hf] at h <;> cases h
    refine ⟨fun out h => absurd h (hno out), ?_⟩
    constructor
    · rintro ⟨out, h⟩; exact absurd h (hno out)
    · rintro ⟨-, -, ⟨i, j, h1, h2, -⟩, -⟩; omega
  have key := C51_pointing ps.length (11 / 10) elDiff (1 / 10) tools.junk none none
    (fun i => (ps[i]?).bind ChilProfile.elevation) (fun i => (ps[i]?).bind ChilProfile.azimuth) (by norm_num)
    (by
      have h1 : 1 < ps.length := by omega
      simp only [List.getElem?_eq_getElem h1]
      exact hang.1 _ (List.getElem_mem h1))
    (by
      rintro ⟨k, hk, hne⟩
      have h1 : 1 < ps.length := by omega
      simp only [List.getElem?_eq_getElem h1]
      simp only [List.getElem?_eq_getElem hk] at hne
      rcases hang.2 with h | h
      · exact absurd (h _ (List.getElem_mem hk)) hne
      · obtain ⟨a, ha, -⟩ := h _ (List.getElem_mem h1)
        show ps[1].azimuth ≠ none
        rw [ha]; simp)
    (by
      intro i j a b ha hb
      have hi := hdom _ i a ha
      have hj := hdom _ j b hb
      simp only [List.getElem?_eq_getElem hi, Option.bind_some] at ha
      simp only [List.getElem?_eq_getElem hj, Option.bind_some] at hb
      rcases hang.2 with h | h
      · rw [h _ (List.getElem_mem hi)] at ha; cases ha
      · obtain ⟨a', ha', h1, h2⟩ := h _ (List.getElem_mem hi)
        obtain ⟨b', hb', h3, h4⟩ := h _ (List.getElem_mem hj)
        rw [ha'] at ha; cases ha
        rw [hb'] at hb; cases hb
        rw [abs_le]; constructor <;> linarith)
  dsimp only at key
  rw [haz0, hel0] at key
  obtain ⟨hok, herr⟩ := key
  change _ ↔ _ ∨ ∀ i < ps.length, ∀ j < ps.length, Spec.SteadyProfile elDiff ps i → Spec.SteadyProfile elDiff ps j → i = j at herr
  cases hadd : addAngles ps.length (11 / 10) elDiff (1 / 10) tools.junk none none
      (fun i => (ps[i]?).bind ChilProfile.elevation) (fun i => (ps[i]?).bind ChilProfile.azimuth) with
  | error e =>
    have hno : ∀ out, chilFinish tools elDiff f nGates range scalars ps ≠ .ok out := by
      intro out h
      unfold chilFinish at h
      simp only [bind, Except.bind, pure, Except.pure, hadd] at h
      cases hf : f.folding <;> rw [hf] at h <;> cases h
    refine ⟨fun out h => absurd h (hno out), ?_⟩
    constructor
    · rintro ⟨out, h⟩; exact absurd h (hno out)
    · rintro ⟨-, -, ⟨i, j, h1, h2, h3, h4⟩, -⟩
      rcases herr.1 ⟨e, hadd⟩ with h | h
      · omega
      · have := h i (by omega) j h2 h3 h4
        omega
  | ok angles =>
    obtain ⟨hz, ha, hst⟩ := hok angles hadd
    change ∀ i < ps.length, (angles.stable i = true ↔ Spec.SteadyProfile elDiff ps i) at hst
    have htwo : ∃ i j : ℕ, i < j ∧ j < ps.length ∧ Spec.SteadyProfile elDiff ps i ∧ Spec.SteadyProfile elDiff ps j := by
      have hnot : ¬ ∃ e, addAngles ps.length (11 / 10) elDiff (1 / 10) tools.junk none none
        (fun i => (ps[i]?).bind ChilProfile.elevation) (fun i => (ps[i]?).bind ChilProfile.azimuth) = .error e := by
        rw [hadd]; rintro ⟨e, he⟩; cases he
      rw [herr] at hnot
      push Not at hnot
      obtain ⟨-, i, hi, j, hj, h1, h2, hne⟩ := hnot
      rcases lt_or_gt_of_ne hne with hlt | hlt
      · exact ⟨i, j, hlt, hj, h1, h2⟩
      · exact ⟨j, i, hlt, hi, h2, h1⟩
    set all := ps.mapIdx fun i p => ({ p with elevation := angles.zenith i, azimuth := angles.azimuth i } : ChilProfile α) with hallps
    have hf2 := forall₂_zipIdx_filter all angles.stable
    have hlen : all.length = ps.length := List.length_mapIdx
    rw [hlen] at hf2
    set final := ((all.zipIdx).filter fun pi => angles.stable pi.2).map Prod.fst with hfinal
    have hkept : ∀ k, k ∈ (List.range ps.length).filter angles.stable ↔ k < ps.length ∧ Spec.SteadyProfile elDiff ps k := by
      intro k
      rw [List.mem_filter, List.mem_range]
      constructor
      · rintro ⟨hk, hs⟩; exact ⟨hk, (hst k hk).1 hs⟩
      · rintro ⟨hk, hs⟩; exact ⟨hk, (hst k hk).2 hs⟩
    have hrows : List.Forall₂ (fun k p => ∃ r, ps[k]? = some r ∧ p = { r with elevation := r.elevation.map fun e => 90 - e })
        ((List.range ps.length).filter angles.stable) final := by
      refine hf2.imp ?_
      intro k p hp
      rw [hallps, List.getElem?_mapIdx] at hp
      cases hr : ps[k]? with
      | none => rw [hr] at hp; cases hp
      | some r =>
        rw [hr] at hp
        simp only [Option.map_some, Option.some.injEq] at hp
        refine ⟨r, rfl, ?_⟩
        rw [← hp, hz k, ha]
        simp [hr]
    have hne : final ≠ [] := by
      obtain ⟨i, j, h1, h2, h3, h4⟩ := htwo
      have := (hkept j).2 ⟨h2, h4⟩
      intro hc
      rw [hc] at hrows
      rw [List.forall₂_nil_right_iff.1 hrows] at this
      cases this
    have hmemk : ∀ p ∈ final, ∃ k, k < ps.length ∧ Spec.SteadyProfile elDiff ps k ∧ ∃ r, ps[k]? = some r ∧
        p = { r with elevation := r.elevation.map fun e => 90 - e } := by
      intro p hp
      obtain ⟨i, hi, hpi⟩ := List.mem_iff_getElem.1 hp
      have hl := hrows.length_eq
      have := hrows.get (by omega) hi
      obtain ⟨r, hr, he⟩ := this
      have hk := (hkept _).1 (List.getElem_mem (by omega : i < ((List.range ps.length).filter angles.stable).length))
      refine ⟨_, hk.1, hk.2, r, hr, ?_⟩
      rw [← hpi]; exact he
    have hmemp : ∀ (k : ℕ) (r : ChilProfile α), ps[k]? = some r → Spec.SteadyProfile elDiff ps k →
        ({ r with elevation := r.elevation.map fun e => 90 - e } : ChilProfile α) ∈ final := by
      intro k r hr hs
      have hk : k < ps.length := by
        by_contra hc
        rw [List.getElem?_eq_none (not_lt.1 hc)] at hr
        cases hr
      obtain ⟨i, hi, hki⟩ := List.mem_iff_getElem.1 ((hkept k).2 ⟨hk, hs⟩)
      have hl := hrows.length_eq
      obtain ⟨r', hr', he⟩ := hrows.get hi (by omega)
      simp only [List.get_eq_getElem, hki] at hr' he
      rw [hr] at hr'
      cases hr'
      rw [← he]
      exact List.getElem_mem _
    have hzen : final.filterMap ChilProfile.elevation ≠ [] := by
      obtain ⟨p, hp⟩ := List.exists_mem_of_ne_nil _ hne
      obtain ⟨k, -, -, r, hr, he⟩ := hmemk p hp
      have := hang.1 r (List.mem_of_getElem? hr)
      obtain ⟨e, hee⟩ := Option.ne_none_iff_exists'.1 this
      intro hc
      have hm := List.mem_filterMap.2 ⟨p, hp, show p.elevation = some (90 - e) by rw [he]; simp [hee]⟩
      rw [hc] at hm
      cases hm
    have hkeep : keepProfiles final = .ok final := (keepProfiles_ok _ _).2 ⟨hne, rfl⟩
    have hall : ((final.all fun p => (List.range nGates).all fun h => (p.v h).isNone) = true) ↔
        ¬ ∃ (k : ℕ) (r : ChilProfile α), ps[k]? = some r ∧ Spec.SteadyProfile elDiff ps k ∧ ∃ h < nGates, r.v h ≠ none := by
      simp only [List.all_eq_true, List.mem_range, Option.isNone_iff_eq_none]
      constructor
      · rintro h ⟨k, r, hr, hs, g, hg, hv⟩
        exact hv (h _ (hmemp k r hr hs) g hg)
      · intro h p hp g hg
        obtain ⟨k, -, hs, r, hr, he⟩ := hmemk p hp
        by_contra hv
        exact h ⟨k, r, hr, hs, g, hg, by rw [he] at hv; exact hv⟩
    have hdef : chilFinish tools elDiff f nGates range scalars ps =
        match f.folding, f.altitude with
        | some folding, some altitude =>
          if (final.all fun p => (List.range nGates).all fun h => (p.v h).isNone) = true then .error "RadarDataError: All radar data are masked"
          else .ok ⟨final, nGates, range, fun k => range k * tools.cosd (chilZenith final) + altitude, folding, scalars, f.epoch⟩
        | none, _ => .error "AttributeError: folding_velocity"
        | some _, none => .error "KeyError: altitude" := by
      unfold chilFinish
      simp only [bind, Except.bind, pure, Except.pure, hadd]
      rw [← hallps, ← hfinal, hkeep]
      cases f.folding with
      | none => rfl
      | some folding =>
        cases f.altitude with
        | none => rfl
        | some altitude =>
          dsimp only
          split <;> rfl
    rw [hdef]
    cases f.folding with
    | none => exact ⟨fun _ h => (by cases h), by simp⟩
    | some folding =>
      cases f.altitude with
      | none => exact ⟨fun _ h => (by cases h), by simp⟩
      | some altitude =>
        dsimp only
        by_cases hc : (final.all fun p => (List.range nGates).all fun h => (p.v h).isNone) = true
        · rw [if_pos hc]
          refine ⟨fun _ h => (by cases h), ?_⟩
          constructor
          · rintro ⟨_, h⟩; cases h
          · rintro ⟨-, -, -, h⟩; exact absurd h (hall.1 hc)
        · rw [if_neg hc]
          constructor
          · intro out h
            cases h
            refine ⟨_, List.pairwise_lt_range.filter _, hkept, hrows, rfl, rfl, rfl, rfl, rfl, altitude, _, rfl, median_medianOf _ hzen, ?_⟩
            intro k
            show range k * tools.cosd (chilZenith final) + altitude = _
            unfold chilZenith
            dsimp only
            rw [if_neg hzen]
          · refine ⟨fun _ => ⟨by simp, by simp, htwo, ?_⟩, fun _ => ⟨_, rfl⟩⟩
            by_contra hx
            exact hc (hall.2 hx)

theorem isGates_unique (gates gates' : List ℕ) (P : ℕ → Prop) (n m m' : ℕ) (h : Spec.IsGates gates P n m) (h' : Spec.IsGates gates' P n m') :
    gates = gates' := by
  refine List.Perm.eq_of_pairwise (fun a b _ _ h1 h2 => (lt_asymm h1 h2).elim) h.1 h'.1 ?_
  rw [List.perm_ext_iff_of_nodup (h.1.imp ne_of_lt) (h'.1.imp ne_of_lt)]
  intro g
  rw [h.2.1 g, h'.2.1 g]

theorem steady_map (elDiff : α) (ps : List (ChilProfile α)) (F : ChilProfile α → ChilProfile α)
    (hF : ∀ p, (F p).elevation = p.elevation ∧ (F p).azimuth = p.azimuth) (k : ℕ) :
    Spec.SteadyProfile elDiff (ps.map F) k ↔ Spec.SteadyProfile elDiff ps k := by
  unfold Spec.SteadyProfile
  have h1 : (fun i : ℕ => ((ps.map F)[i]?).bind ChilProfile.elevation) = fun i : ℕ => (ps[i]?).bind ChilProfile.elevation := by
    funext i
    rw [List.getElem?_map]
    cases ps[i]? with
    | none => rfl
    | some p => exact (hF p).1
  have h2 : (fun i : ℕ => ((ps.map F)[i]?).bind ChilProfile.azimuth) = fun i : ℕ => (ps[i]?).bind ChilProfile.azimuth := by
    funext i
    rw [List.getElem?_map]
    cases ps[i]? with
    | none => rfl
    | some p => exact (hF p).2
  rw [h1, h2, List.length_map]

theorem known_map (ps : List (ChilProfile α)) (F : ChilProfile α → ChilProfile α)
    (hF : ∀ p, (F p).elevation = p.elevation ∧ (F p).azimuth = p.azimuth) (h : Spec.KnownPointing ps) : Spec.KnownPointing (ps.map F) := by
  refine ⟨?_, ?_⟩
  · intro p hp
    obtain ⟨q, hq, rfl⟩ := List.mem_map.1 hp
    rw [(hF q).1]; exact h.1 q hq
  · rcases h.2 with h | h
    · left
      intro p hp
      obtain ⟨q, hq, rfl⟩ := List.mem_map.1 hp
      rw [(hF q).2]; exact h q hq
    · right
      intro p hp
      obtain ⟨q, hq, rfl⟩ := List.mem_map.1 hp
      rw [(hF q).2]; exact h q hq

theorem known_day (f : ChilFile α) (cand : List (ChilProfile α)) (hd : Spec.IsDayOf f cand) (h : Spec.KnownPointing f.profiles) :
    Spec.KnownPointing cand := by
  obtain ⟨hours, -, -, hmem, -⟩ := hd
  refine ⟨?_, ?_⟩
  · intro p hp
    obtain ⟨q, hq, x, rfl⟩ := mem_chilTimed hours _ p (hmem p hp)
    exact h.1 q hq
  · rcases h.2 with h | h
    · left
      intro p hp
      obtain ⟨q, hq, x, rfl⟩ := mem_chilTimed hours _ p (hmem p hp)
      exact h q hq
    · right
      intro p hp
      obtain ⟨q, hq, x, rfl⟩ := mem_chilTimed hours _ p (hmem p hp)
      exact h q hq

/-- What one profile of Copernicus becomes. -/
def copernicusProfile (site : ChilSite α) (f : ChilFile α) (p : ChilProfile α) : ChilProfile α :=
  p.withGates (copernicusProcess (f.copernicus site p) (p.gates f))

/-- The gates of Copernicus. -/
theorem copernicus_gates (site : ChilSite α) (f : ChilFile α) :
    ∃ gates, Spec.IsGates gates (fun g => 0 ≤ f.range g - f.rangeApplied.getD 0 + site.rangeOffset.getD (-720)) f.nGates
        (copernicusProcess (f.copernicus site emptyProfile) (emptyProfile.gates f)).nGates ∧
      (∀ j g, gates[j]? = some g → (copernicusProcess (f.copernicus site emptyProfile) (emptyProfile.gates f)).range j =
        f.range g - f.rangeApplied.getD 0 + site.rangeOffset.getD (-720)) ∧
      ∀ r : ChilProfile α, (∀ h < f.nGates, r.snr h ≠ none) → ∀ j g, gates[j]? = some g →
        (Spec.CopernicusEcho f r g →
          (copernicusProfile site f r).zh j = (r.zh g).map (· + (site.zhOffset.getD (-(1495 / 10)) - f.zhApplied.getD 0)) ∧
          (copernicusProfile site f r).v j = r.v g ∧ (copernicusProfile site f r).width j = r.width g ∧
          (copernicusProfile site f r).ldr j = r.ldr g ∧ (copernicusProfile site f r).snr j = r.snr g) ∧
        (¬ Spec.CopernicusEcho f r g →
          (copernicusProfile site f r).zh j = none ∧ (copernicusProfile site f r).v j = none ∧
          (copernicusProfile site f r).width j = none ∧ (copernicusProfile site f r).ldr j = none ∧
          (copernicusProfile site f r).snr j = none) := by
  obtain ⟨gates, h1, h2⟩ := C109_copernicus (f.copernicus site emptyProfile)
    (({ (emptyProfile : ChilProfile α) with snr := fun _ => some 0 } : ChilProfile α).gates f) (fun _ _ _ => by simp [ChilProfile.gates])
  refine ⟨gates, h1, fun j g hj => (h2 j g hj).1, ?_⟩
  intro r hr j g hj
  obtain ⟨gates', h1', h2'⟩ := C109_copernicus (f.copernicus site r) (r.gates f) (fun _ h hh => hr h hh)
  have he : gates = gates' := isGates_unique _ _ _ _ _ _ h1 h1'
  subst he
  obtain ⟨-, h4⟩ := h2' j g hj
  obtain ⟨h5, h6⟩ := h4 0
  refine ⟨fun hp => ?_, h6⟩
  obtain ⟨a, b⟩ := h5 hp
  refine ⟨?_, b⟩
  show (copernicusProcess (f.copernicus site r) (r.gates f)).zh 0 j = _
  rw [a]
  show (r.zh g).map _ = (r.zh g).map _
  congr 1
  funext z
  show z - f.zhApplied.getD 0 + site.zhOffset.getD (-(1495 / 10)) = _
  ring

/-- **C153.** A day of Copernicus. The profiles of the file are taken one for each time of day, in order, and written if they point steadily to
zenith, and only those. The gates are those at a range that is not negative after the range offset of the file has been replaced by that of the
site. Echoes that count have their data, with the calibration of the file replaced by that of the site; everything else is masked. Heights are
above sea level. (The SNR is known.) -/
theorem C153_copernicus (tools : ChilTools α) (site : ChilSite α) (f : ChilFile α) (out : ChilDay α)
    (hsort : ∀ l, (tools.argsort l).Perm (List.range l.length)) (hang : Spec.KnownPointing f.profiles)
    (hsnr : ∀ p ∈ f.profiles, ∀ h < f.nGates, p.snr h ≠ none) (h : copernicus2nc tools site f = .ok out) :
    (∀ d, site.date = some d → d = f.epoch) ∧ out.date = f.epoch ∧ f.folding = some out.nyquist ∧
    out.scalars = [("Zh_offset", site.zhOffset.getD (-(1495 / 10))), ("range_offset", site.rangeOffset.getD (-720))] ∧
    ∃ (cand : List (ChilProfile α)) (kept gates : List ℕ), Spec.IsDayOf f cand ∧
      kept.Pairwise (· < ·) ∧ (∀ k, k ∈ kept ↔ k < cand.length ∧ Spec.SteadyProfile (1 / 2) cand k) ∧
      Spec.IsGates gates (fun g => 0 ≤ f.range g - f.rangeApplied.getD 0 + site.rangeOffset.getD (-720)) f.nGates out.nGates ∧
      (∀ j g, gates[j]? = some g → out.range j = f.range g - f.rangeApplied.getD 0 + site.rangeOffset.getD (-720)) ∧
      List.Forall₂ (fun k p => ∃ r, cand[k]? = some r ∧ Spec.IsRadarProfile gates (fun g _ => Spec.CopernicusEcho f r g)
        (site.zhOffset.getD (-(1495 / 10)) - f.zhApplied.getD 0) r p) kept out.profiles ∧
      ∃ altitude z, f.altitude = some altitude ∧ Spec.MedianOf (out.profiles.filterMap ChilProfile.elevation) z ∧
        ∀ k, out.height k = out.range k * tools.cosd z + altitude := by
  unfold copernicus2nc at h
  simp only [bind, Except.bind] at h
  cases hr : chilRead tools site f with
  | error e => rw [hr] at h; cases h
  | ok cand =>
    rw [hr] at h
    dsimp only at h
    obtain ⟨hday, hdate⟩ := (C153_read tools site f hsort).1 cand hr
    obtain ⟨gates, g1, g2, g3⟩ := copernicus_gates site f
    have hF : ∀ p : ChilProfile α, (copernicusProfile site f p).elevation = p.elevation ∧ (copernicusProfile site f p).azimuth = p.azimuth :=
      fun p => ⟨rfl, rfl⟩
    have hk := known_map cand (copernicusProfile site f) hF (known_day f cand hday hang)
    obtain ⟨kept, k1, k2, k3, k4, k5, k6, k7, k8, alt, z, k9, k10, k11⟩ := (chilFinish_ok tools (1 / 2) f _ _ _ _ hk).1 out h
    refine ⟨hdate, k8, k6, k7, cand, kept, gates, hday, k1, ?_, by rw [k4]; exact g1, by rw [k5]; exact g2, ?_, alt, z, k9, k10, by rw [k5]; exact k11⟩
    · intro k
      rw [k2 k, steady_map _ _ _ hF, List.length_map]
    · refine k3.imp ?_
      rintro k p ⟨q, hq, rfl⟩
      rw [List.getElem?_map] at hq
      cases hc : cand[k]? with
      | none => rw [hc] at hq; cases hq
      | some r =>
        rw [hc] at hq
        simp only [Option.map_some, Option.some.injEq] at hq
        subst hq
        have hs : ∀ h < f.nGates, r.snr h ≠ none := by
          obtain ⟨hours, -, -, hmem, -⟩ := hday
          obtain ⟨q, hq, x, rfl⟩ := mem_chilTimed hours _ r (hmem r (List.mem_of_getElem? hc))
          exact hsnr q hq
        exact ⟨r, rfl, rfl, rfl, rfl, rfl, fun j g hj => (g3 r hs j g hj).1, fun j g hj => (g3 r hs j g hj).2⟩

/-- **C153.** A file of Copernicus is made exactly if the date is the expected one, the velocity of folding and the altitude are known, at least two
profiles point steadily to zenith, and one of those has an echo that counts at a range that is not negative. -/
theorem C153_copernicus_made (tools : ChilTools α) (site : ChilSite α) (f : ChilFile α) (cand : List (ChilProfile α))
    (hsort : ∀ l, (tools.argsort l).Perm (List.range l.length)) (hang : Spec.KnownPointing f.profiles)
    (hsnr : ∀ p ∈ f.profiles, ∀ h < f.nGates, p.snr h ≠ none) (hr : chilRead tools site f = .ok cand) :
    (∃ out, copernicus2nc tools site f = .ok out) ↔
      f.folding ≠ none ∧ f.altitude ≠ none ∧
      (∃ i j : ℕ, i < j ∧ j < cand.length ∧ Spec.SteadyProfile (1 / 2) cand i ∧ Spec.SteadyProfile (1 / 2) cand j) ∧
      ∃ (k : ℕ) (r : ChilProfile α) (g : ℕ), cand[k]? = some r ∧ Spec.SteadyProfile (1 / 2) cand k ∧ g < f.nGates ∧
        0 ≤ f.range g - f.rangeApplied.getD 0 + site.rangeOffset.getD (-720) ∧ Spec.CopernicusEcho f r g := by
  obtain ⟨hday, hdate⟩ := (C153_read tools site f hsort).1 cand hr
  obtain ⟨gates, g1, g2, g3⟩ := copernicus_gates site f
  have hF : ∀ p : ChilProfile α, (copernicusProfile site f p).elevation = p.elevation ∧ (copernicusProfile site f p).azimuth = p.azimuth :=
    fun p => ⟨rfl, rfl⟩
  have hk := known_map cand (copernicusProfile site f) hF (known_day f cand hday hang)
  have hdef : copernicus2nc tools site f = chilFinish tools (1 / 2) f
      (copernicusProcess (f.copernicus site emptyProfile) (emptyProfile.gates f)).nGates
      (copernicusProcess (f.copernicus site emptyProfile) (emptyProfile.gates f)).range
      [("Zh_offset", site.zhOffset.getD (-(1495 / 10))), ("range_offset", site.rangeOffset.getD (-720))]
      (cand.map (copernicusProfile site f)) := by
    unfold copernicus2nc
    simp only [bind, Except.bind]
    rw [hr]
    rfl
  rw [hdef, (chilFinish_ok tools (1 / 2) f _ _ _ _ hk).2]
  have hs : ∀ r ∈ cand, ∀ h < f.nGates, r.snr h ≠ none := by
    intro r hrc
    obtain ⟨hours, -, -, hmem, -⟩ := hday
    obtain ⟨q, hq, x, rfl⟩ := mem_chilTimed hours _ r (hmem r hrc)
    exact hsnr q hq
  simp only [steady_map _ _ _ hF, List.length_map]
  refine and_congr_right fun _ => and_congr_right fun _ => and_congr_right fun _ => ?_
  constructor
  · rintro ⟨k, q, hq, hst, j, hj, hv⟩
    rw [List.getElem?_map] at hq
    cases hc : cand[k]? with
    | none => rw [hc] at hq; cases hq
    | some r =>
      rw [hc] at hq
      simp only [Option.map_some, Option.some.injEq] at hq
      subst hq
      rw [g1.2.2] at hj
      have hgj : gates[j]? = some gates[j] := List.getElem?_eq_getElem hj
      have hin := (g1.2.1 gates[j]).1 (List.getElem_mem hj)
      refine ⟨k, r, gates[j], hc, hst, hin.1, hin.2, ?_⟩
      by_contra hne
      exact hv ((g3 r (hs r (List.mem_of_getElem? hc)) j _ hgj).2 hne).2.1
  · rintro ⟨k, r, g, hc, hst, hg, hpos, he⟩
    obtain ⟨j, hj, hjg⟩ := List.mem_iff_getElem.1 ((g1.2.1 g).2 ⟨hg, hpos⟩)
    refine ⟨k, copernicusProfile site f r, by rw [List.getElem?_map, hc]; rfl, hst, j, by rw [g1.2.2]; exact hj, ?_⟩
    rw [((g3 r (hs r (List.mem_of_getElem? hc)) j g (by rw [List.getElem?_eq_getElem hj, hjg])).1 he).2.1]
    obtain ⟨v, hv, -⟩ := he.2.1
    rw [hv]; simp

/-- The gates and profiles of Galileo. -/
theorem galileo_gates (site : ChilSite α) (f : ChilFile α) :
    ((∃ e, galileoProcess site.snrLimit (fun _ _ => 0) (fun _ _ => 0) (emptyProfile.gates f) = .error e) ↔ ∀ g < f.nGates, f.range g ≤ 0) ∧
    ∀ G, galileoProcess site.snrLimit (fun _ _ => 0) (fun _ _ => 0) (emptyProfile.gates f) = .ok G →
      ∃ gates, Spec.IsGates gates (fun g => 0 < f.range g) f.nGates G.nGates ∧ (∀ j g, gates[j]? = some g → G.range j = f.range g) ∧
        ∀ r : ChilProfile α, ∃ d, galileoProcess site.snrLimit (fun _ => r.snrUnder) (fun _ => r.ldrUnder) (r.gates f) = .ok d ∧
          ∀ j g, gates[j]? = some g →
            (Spec.GalileoEcho (site.snrLimit.getD 3) r g j →
              d.zh 0 j = r.zh g ∧ d.v 0 j = r.v g ∧ d.width 0 j = r.width g ∧ d.ldr 0 j = r.ldr g ∧ d.snr 0 j = r.snr g) ∧
            (¬ Spec.GalileoEcho (site.snrLimit.getD 3) r g j →
              d.zh 0 j = none ∧ d.v 0 j = none ∧ d.width 0 j = none ∧ d.ldr 0 j = none ∧ d.snr 0 j = none) := by
  refine ⟨C109_galileo_error site.snrLimit _ _ (emptyProfile.gates f), ?_⟩
  intro G hG
  obtain ⟨gates, h1, -, h2⟩ := C109_galileo _ _ _ _ _ hG
  refine ⟨gates, h1, fun j g hj => (h2 j g hj).1, fun r => ?_⟩
  cases hd : galileoProcess site.snrLimit (fun _ => r.snrUnder) (fun _ => r.ldrUnder) (r.gates f) with
  | error e =>
    have h3 := (C109_galileo_error site.snrLimit _ _ (r.gates f)).1 ⟨e, hd⟩
    obtain ⟨e', he'⟩ := (C109_galileo_error site.snrLimit (fun _ _ => 0) (fun _ _ => 0) (emptyProfile.gates f)).2 h3
    rw [hG] at he'
    cases he'
  | ok d =>
    refine ⟨d, rfl, ?_⟩
    obtain ⟨gates', h1', -, h2'⟩ := C109_galileo _ _ _ _ _ hd
    have he : gates = gates' := isGates_unique _ _ _ _ _ _ h1 h1'
    subst he
    exact fun j g hj => (h2' j g hj).2 0

/-- **C153.** A day of Galileo, like Copernicus: the gates are those at a positive range, the echoes those with enough signal that are not
clutter, and nothing is calibrated. -/
theorem C153_galileo (tools : ChilTools α) (site : ChilSite α) (f : ChilFile α) (out : ChilDay α)
    (hsort : ∀ l, (tools.argsort l).Perm (List.range l.length)) (hang : Spec.KnownPointing f.profiles)
    (h : galileo2nc tools site f = .ok out) :
    (∀ d, site.date = some d → d = f.epoch) ∧ out.date = f.epoch ∧ f.folding = some out.nyquist ∧
    out.scalars = [("snr_limit", site.snrLimit.getD 3)] ∧
    ∃ (cand : List (ChilProfile α)) (kept gates : List ℕ), Spec.IsDayOf f cand ∧
      kept.Pairwise (· < ·) ∧ (∀ k, k ∈ kept ↔ k < cand.length ∧ Spec.SteadyProfile (1 / 10) cand k) ∧
      Spec.IsGates gates (fun g => 0 < f.range g) f.nGates out.nGates ∧
      (∀ j g, gates[j]? = some g → out.range j = f.range g) ∧
      List.Forall₂ (fun k p => ∃ r, cand[k]? = some r ∧
        Spec.IsRadarProfile gates (Spec.GalileoEcho (site.snrLimit.getD 3) r) 0 r p) kept out.profiles ∧
      ∃ altitude z, f.altitude = some altitude ∧ Spec.MedianOf (out.profiles.filterMap ChilProfile.elevation) z ∧
        ∀ k, out.height k = out.range k * tools.cosd z + altitude := by
  unfold galileo2nc at h
  simp only [bind, Except.bind] at h
  cases hr : chilRead tools site f with
  | error e => rw [hr] at h; cases h
  | ok cand =>
    rw [hr] at h
    dsimp only at h
    obtain ⟨hday, hdate⟩ := (C153_read tools site f hsort).1 cand hr
    cases hG : galileoProcess site.snrLimit (fun _ _ => 0) (fun _ _ => 0) ((emptyProfile : ChilProfile α).gates f) with
    | error e => rw [hG] at h; cases h
    | ok G =>
      rw [hG] at h
      dsimp only at h
      obtain ⟨gates, g1, g2, g3⟩ := (galileo_gates site f).2 G hG
      choose d hd1 hd2 using g3
      rw [mapM_ok _ (fun p => p.withGates (d p)) cand (fun p _ => by rw [hd1 p]; rfl)] at h
      dsimp only at h
      have hF : ∀ p : ChilProfile α, (p.withGates (d p)).elevation = p.elevation ∧ (p.withGates (d p)).azimuth = p.azimuth :=
        fun p => ⟨rfl, rfl⟩
      have hk := known_map cand (fun p => p.withGates (d p)) hF (known_day f cand hday hang)
      obtain ⟨kept, k1, k2, k3, k4, k5, k6, k7, k8, alt, z, k9, k10, k11⟩ := (chilFinish_ok tools (1 / 10) f _ _ _ _ hk).1 out h
      refine ⟨hdate, k8, k6, k7, cand, kept, gates, hday, k1, ?_, by rw [k4]; exact g1, by rw [k5]; exact g2, ?_, alt, z, k9, k10, by rw [k5]; exact k11⟩
      · intro k
        rw [k2 k, steady_map _ _ _ hF, List.length_map]
      · refine k3.imp ?_
        rintro k p ⟨q, hq, rfl⟩
        rw [List.getElem?_map] at hq
        cases hc : cand[k]? with
        | none => rw [hc] at hq; cases hq
        | some r =>
          rw [hc] at hq
          simp only [Option.map_some, Option.some.injEq] at hq
          subst hq
          refine ⟨r, rfl, rfl, rfl, rfl, rfl, ?_, fun j g hj => (hd2 r j g hj).2⟩
          intro j g hj he
          obtain ⟨a, b⟩ := (hd2 r j g hj).1 he
          refine ⟨?_, b⟩
          show (d r).zh 0 j = _
          rw [a]
          cases r.zh g <;> simp

/-- **C153.** A file of Galileo is made exactly if the velocity of folding and the altitude are known, some range is positive, at least two
profiles point steadily to zenith, and one of those has an echo that counts. -/
theorem C153_galileo_made (tools : ChilTools α) (site : ChilSite α) (f : ChilFile α) (cand : List (ChilProfile α))
    (hsort : ∀ l, (tools.argsort l).Perm (List.range l.length)) (hang : Spec.KnownPointing f.profiles)
    (hr : chilRead tools site f = .ok cand) :
    (∃ out, galileo2nc tools site f = .ok out) ↔
      f.folding ≠ none ∧ f.altitude ≠ none ∧
      (∃ i j : ℕ, i < j ∧ j < cand.length ∧ Spec.SteadyProfile (1 / 10) cand i ∧ Spec.SteadyProfile (1 / 10) cand j) ∧
      ∃ (k : ℕ) (r : ChilProfile α) (gates : List ℕ) (j g : ℕ), cand[k]? = some r ∧ Spec.SteadyProfile (1 / 10) cand k ∧
        Spec.IsGates gates (fun g => 0 < f.range g) f.nGates gates.length ∧ gates[j]? = some g ∧
        Spec.GalileoEcho (site.snrLimit.getD 3) r g j := by
  obtain ⟨hday, hdate⟩ := (C153_read tools site f hsort).1 cand hr
  cases hG : galileoProcess site.snrLimit (fun _ _ => 0) (fun _ _ => 0) ((emptyProfile : ChilProfile α).gates f) with
  | error e =>
    have hneg := (galileo_gates site f).1.1 ⟨e, hG⟩
    constructor
    · rintro ⟨out, h⟩
      unfold galileo2nc at h
      simp only [bind, Except.bind] at h
      rw [hr, hG] at h
      cases h
    · rintro ⟨-, -, -, k, r, gates, j, g, -, -, hg, hj, -⟩
      have := (hg.2.1 g).1 (List.mem_of_getElem? hj)
      exact absurd this.2 (not_lt.2 (hneg g this.1))
  | ok G =>
    obtain ⟨gates, g1, g2, g3⟩ := (galileo_gates site f).2 G hG
    choose d hd1 hd2 using g3
    have hF : ∀ p : ChilProfile α, (p.withGates (d p)).elevation = p.elevation ∧ (p.withGates (d p)).azimuth = p.azimuth :=
      fun p => ⟨rfl, rfl⟩
    have hk := known_map cand (fun p => p.withGates (d p)) hF (known_day f cand hday hang)
    have hdef : galileo2nc tools site f = chilFinish tools (1 / 10) f G.nGates G.range [("snr_limit", site.snrLimit.getD 3)]
        (cand.map fun p => p.withGates (d p)) := by
      unfold galileo2nc
      simp only [bind, Except.bind]
      rw [hr, hG]
      dsimp only
      rw [mapM_ok _ (fun p => p.withGates (d p)) cand (fun p _ => by rw [hd1 p]; rfl)]
    rw [hdef, (chilFinish_ok tools (1 / 10) f _ _ _ _ hk).2]
    simp only [steady_map _ _ _ hF, List.length_map]
    refine and_congr_right fun _ => and_congr_right fun _ => and_congr_right fun _ => ?_
    constructor
    · rintro ⟨k, q, hq, hst, j, hj, hv⟩
      rw [List.getElem?_map] at hq
      cases hc : cand[k]? with
      | none => rw [hc] at hq; cases hq
      | some r =>
        rw [hc] at hq
        simp only [Option.map_some, Option.some.injEq] at hq
        subst hq
        rw [g1.2.2] at hj
        have hgj : gates[j]? = some gates[j] := List.getElem?_eq_getElem hj
        refine ⟨k, r, gates, j, gates[j], hc, hst, ⟨g1.1, g1.2.1, rfl⟩, hgj, ?_⟩
        by_contra hne
        exact hv ((hd2 r j _ hgj).2 hne).2.1
    · rintro ⟨k, r, gates', j, g, hc, hst, hg, hj, he⟩
      have heq : gates = gates' := isGates_unique _ _ _ _ _ _ g1 hg
      subst heq
      refine ⟨k, r.withGates (d r), by rw [List.getElem?_map, hc]; rfl, hst, j, ?_, ?_⟩
      · rw [g1.2.2]
        by_contra hcc
        rw [List.getElem?_eq_none (not_lt.1 hcc)] at hj
        cases hj
      · show (d r).v 0 j ≠ none
        rw [((hd2 r j g hj).1 he).2.1]
        exact he.2.1

/-- **C153.** With increasing times of day, no profile of a file is lost by reading: sorting and removing duplicates change nothing. -/
theorem C153_in_order (f : ChilFile α) (hours : ℕ → α) (cand : List (ChilProfile α))
    (h : Spec.OnePerTime ChilProfile.hour (chilTimed hours f.profiles) cand)
    (hinc : ∀ i j, i < j → j < f.profiles.length → hours i < hours j) : cand = chilTimed hours f.profiles := by
  obtain ⟨h1, h2, h3⟩ := h
  have hpw : (chilTimed hours f.profiles).Pairwise fun r r' => r.hour < r'.hour := by
    rw [List.pairwise_iff_getElem]
    intro i j hi hj hij
    simp only [chilTimed, List.length_mapIdx, List.getElem_mapIdx] at hi hj ⊢
    exact hinc i j hij hj
  refine List.Perm.eq_of_pairwise (fun a b _ _ h1 h2 => (lt_asymm h1 h2).elim) h1 hpw ?_
  have hne : ∀ a b : ChilProfile α, a.hour < b.hour → a ≠ b := fun a b h hc => by rw [hc] at h; exact lt_irrefl _ h
  rw [List.perm_ext_iff_of_nodup (h1.imp (hne _ _)) (hpw.imp (hne _ _))]
  intro p
  refine ⟨h2 p, fun hp => ?_⟩
  obtain ⟨q, hq, hqp⟩ := h3 p hp
  obtain ⟨i, hi, hpi⟩ := List.mem_iff_getElem.1 hp
  obtain ⟨j, hj, hqj⟩ := List.mem_iff_getElem.1 (h2 q hq)
  rw [List.pairwise_iff_getElem] at hpw
  rcases lt_trichotomy i j with hlt | heq | hgt
  · have := hpw i j hi hj hlt
    rw [hpi, hqj, hqp] at this
    exact absurd this (lt_irrefl _)
  · subst heq
    rw [← hpi, hqj]; exact hq
  · have := hpw j i hj hi hgt
    rw [hpi, hqj, hqp] at this
    exact absurd this (lt_irrefl _)

end

/-! ### Examples -/

/-- A profile with two echoes in its three gates, one of them weak. -/
def exChilProfile (stamp elevation : ℚ) : ChilProfile ℚ :=
  ⟨stamp, 0, some elevation, some 10, fun _ => some 160, fun h => [some 1, some 1, some 2].getD h none, fun _ => some 1,
    fun h => some ([-20, -20, 0].getD h 0), fun h => some ([0, 20, 0].getD h 0), fun _ => 0, fun _ => 0, fun _ => 0, fun _ => false⟩

/-- A file of the fourth of March: profiles in the wrong order, one of them twice, and one that points to the side. -/
def exChilFile (stamps : List (ℚ × ℚ)) : ChilFile ℚ :=
  ⟨stamps.map fun s => exChilProfile s.1 s.2, 3, fun h => [700, 770, 830].getD h 0, ⟨2020, 3, 4⟩, some (-100), some (-10), some 5, some 84⟩

def exChilTools : ChilTools ℚ := ⟨fun _ => 1, stableArgsort, 0⟩

def exChilSite : ChilSite ℚ := ⟨some ⟨2020, 3, 4⟩, none, none, some 10⟩

example : ∀ l, (exChilTools.argsort l).Perm (List.range l.length) := fun l => (stableArgsort_spec l).1

theorem exChil_known (stamps : List (ℚ × ℚ)) : Spec.KnownPointing (exChilFile stamps).profiles := by
  constructor
  · intro p hp
    obtain ⟨q, -, rfl⟩ := List.mem_map.1 hp
    simp [exChilProfile]
  · right
    intro p hp
    obtain ⟨q, -, rfl⟩ := List.mem_map.1 hp
    exact ⟨10, rfl, by norm_num, by norm_num⟩

example (stamps : List (ℚ × ℚ)) : ∀ p ∈ (exChilFile stamps).profiles, ∀ h < (exChilFile stamps).nGates, p.snr h ≠ none := by
  intro p hp h hh
  obtain ⟨q, -, rfl⟩ := List.mem_map.1 hp
  simp [exChilProfile]

/-- What is written of some file: times, zenith angles, ranges, heights, reflectivities and velocities, and the constants. -/
def exChilShown (d : ChilDay ℚ) : List ℚ × List (Option ℚ) × List ℚ × List ℚ × List (List (Option ℚ)) × List (String × ℚ) :=
  (d.profiles.map ChilProfile.hour, d.profiles.map ChilProfile.elevation, (List.range d.nGates).map d.range,
    (List.range d.nGates).map d.height, d.profiles.map fun p => (List.range d.nGates).map p.zh, d.scalars)

set_option synthInstance.maxSize 2000 in
set_option synthInstance.maxHeartbeats 400000 in
example : ((copernicus2nc exChilTools exChilSite (exChilFile [(7200, 90), (3600, 90), (3600, 90), (10800, 45)])).toOption.map exChilShown) =
    some ([1, 2], [some 0, some 0], [60, 120], [144, 204], [[some (221 / 2), none], [some (221 / 2), none]],
      [("Zh_offset", -(1495 / 10)), ("range_offset", -720)]) := by
  decide +kernel

set_option synthInstance.maxSize 2000 in
set_option synthInstance.maxHeartbeats 400000 in
example : ((galileo2nc exChilTools exChilSite (exChilFile [(7200, 90), (3600, 90), (3600, 90), (10800, 45)])).toOption.map exChilShown) =
    some ([1, 2], [some 0, some 0], [700, 770, 830], [784, 854, 914], [[none, some 160, none], [none, some 160, none]],
      [("snr_limit", 10)]) := by
  decide +kernel

/-- The file of another date is refused. -/
example : copernicus2nc exChilTools { exChilSite with date := some ⟨2020, 3, 5⟩ } (exChilFile [(7200, 90), (3600, 90)]) =
    .error "ValidTimeStampError" := rfl

set_option synthInstance.maxSize 2000 in
set_option synthInstance.maxHeartbeats 400000 in
/-- **C153**, a finding: the date of the profiles is not checked, only that of the units of time. A profile of 25:00 hours in the file of a day is
written as one of 01:00 hours of that day, before the others. -/
theorem C153_next_day :
    ((copernicus2nc exChilTools exChilSite (exChilFile [(82800, 90), (90000, 90)])).toOption.map fun d =>
      (d.date, d.profiles.map fun p => (p.stamp, p.hour))) = some (⟨2020, 3, 4⟩, [(90000, 1), (82800, 23)]) ∧
    ((galileo2nc exChilTools exChilSite (exChilFile [(82800, 90), (90000, 90)])).toOption.map fun d =>
      (d.date, d.profiles.map fun p => (p.stamp, p.hour))) = some (⟨2020, 3, 4⟩, [(90000, 1), (82800, 23)]) := by
  decide +kernel

end Cloudnet
