import Verif.CeiloDay.Screen
import Verif.Lidar.VaisalaProps
import Verif.Mrr.Props
import Mathlib.Tactic

namespace Cloudnet

section
variable {α : Type} [Field α] [LinearOrder α] [IsStrictOrderedRing α] [FloorRing α]

/-- The steps of a conversion. -/
structure LidarSteps (nu : LidarNumerics α) (nn : α → α → α) (calibration altitude : Option α) (rangeCorrected : Bool) (date : Option ℤ)
    (f : NcLidarFile α) (out : NcLidarDay α) (d0 d : NcLidarData α) (ind : List ℕ) (day : ℤ) (full : NcLidarDay α) : Prop where
  read : ReadLidar nn calibration f d0
  time : LidarDayOf f date d0 ind day d
  screen : ScreenedLidar nu rangeCorrected (altitude.getD 0) day d full
  two : 2 ≤ ind.length
  out : out = full.pick (lidarKeep full)
  alt : altitude ≠ none

theorem depol_shape {nn : α → α → α} {calibration : Option α} {f : NcLidarFile α} {d0 : NcLidarData α} (h : ReadLidar nn calibration f d0) :
    ∀ p, d0.depol = some p → Spec.IsMatrix f.times.length f.range.length p := by
  intro p hp
  have := h.depol
  cases hk : f.kind with
  | cl61d a x y =>
    rw [hk] at this
    obtain ⟨m, hm, hmat, -⟩ := this
    rw [hm] at hp
    cases hp
    exact hmat
  | da10 a => rw [hk] at this; rw [this] at hp; cases hp
  | lufft a b c d => rw [hk] at this; rw [this] at hp; cases hp

theorem ncLidar_steps (nu : LidarNumerics α) (nn : α → α → α) (argsort : List α → List ℕ) (ha : ∀ l, Spec.IsArgsort l (argsort l))
    (calibration altitude : Option α) (rangeCorrected : Bool) (date : Option ℤ) (f : NcLidarFile α) (hs : Spec.LidarShape f)
    (hn : date = none ∨ f.range.length ≠ f.times.length) :
    ((∃ out, ncLidar2nc nu nn argsort calibration altitude rangeCorrected date f = .ok out) ↔
      Spec.LidarReadable f ∧ altitude ≠ none ∧ (date = none → 2 ≤ f.times.length) ∧
      ∀ dd, date = some dd → ∃ t ∈ f.times, ∃ t' ∈ f.times, t ≠ t' ∧ Spec.LidarOn f dd t ∧ Spec.LidarOn f dd t') ∧
    ∀ out, ncLidar2nc nu nn argsort calibration altitude rangeCorrected date f = .ok out →
      ∃ d0 d ind day full, LidarSteps nu nn calibration altitude rangeCorrected date f out d0 d ind day full := by
  obtain ⟨r1, r2⟩ := readNcLidar_spec nn calibration f hs
  unfold ncLidar2nc
  simp only [bind, Except.bind]
  cases hr : readNcLidar nn calibration f with
  | error e =>
    refine ⟨⟨fun ⟨o, ho⟩ => (by cases ho), fun h => ?_⟩, fun o ho => by cases ho⟩
    obtain ⟨d, hd⟩ := r1.2 h.1
    rw [hr] at hd
    cases hd
  | ok d0 =>
    have hread := r2 d0 hr
    have hreadable := r1.1 ⟨d0, hr⟩
    obtain ⟨t1, t2⟩ := lidarTime_spec argsort ha f date d0 hread.time (hn.imp id fun h => by rw [hread.gates]; exact h) hread.raw.1
      (fun p hp => (depol_shape hread p hp).1)
    dsimp only
    cases hti : lidarTime argsort f.epochDay date d0 with
    | error e =>
      refine ⟨⟨fun ⟨o, ho⟩ => (by cases ho), fun h => ?_⟩, fun o ho => by cases ho⟩
      obtain ⟨-, -, ha1, ha2⟩ := h
      have : ∃ t ∈ f.times, ∀ dd, date = some dd → Spec.LidarOn f dd t := by
        cases date with
        | none =>
          have := ha1 rfl
          exact ⟨f.times[0], List.getElem_mem (by omega), fun dd h => by cases h⟩
        | some dd =>
          obtain ⟨t, ht, -, -, -, hon, -⟩ := ha2 dd rfl
          exact ⟨t, ht, fun dd' h => by cases h; exact hon⟩
      obtain ⟨r, hrr⟩ := t1.2 this
      rw [hti] at hrr
      cases hrr
    | ok r =>
      obtain ⟨day, d⟩ := r
      obtain ⟨ind, hday⟩ := t2 day d hti
      dsimp only
      have hw : 2 ≤ d.range.length := by rw [hday.range, hread.gates]; exact hreadable.1
      have hmat : Spec.IsMatrix d.time.length d.range.length d.beta := by
        rw [hday.beta, hday.range, hread.gates, hday.len]
        exact pick_matrix hread.raw hday.exist
      have hdep : ∀ p, d.depol = some p → Spec.IsMatrix d.time.length d.range.length p := by
        intro p hp
        rw [hday.depol] at hp
        cases hq : d0.depol with
        | none => rw [hq] at hp; cases hp
        | some q =>
          rw [hq] at hp
          cases hp
          rw [hday.range, hread.gates, hday.len]
          exact pick_matrix (depol_shape hread q hq) hday.exist
      have hne : d.time ≠ [] := by
        intro h
        have := hday.len
        rw [h] at this
        exact hday.some (List.length_eq_zero_iff.1 this.symm)
      have h24 : ∀ h ∈ d.time, h ≤ 24 := by
        intro h hh
        obtain ⟨k, hk⟩ := List.mem_iff_getElem?.1 hh
        have hlt : k < ind.length := by rw [← hday.len]; exact (List.getElem?_eq_some_iff.1 hk).1
        obtain ⟨t, h', -, e, -, h24, -⟩ := hday.hour k _ (List.getElem?_eq_getElem hlt)
        rw [hk] at e
        cases e
        exact h24
      obtain ⟨s1, s2⟩ := lidarScreen_spec nu f.kind f.kind.old rangeCorrected (altitude.getD 0) day d hne hw hmat hdep h24
      have hcount : 2 ≤ ind.length ↔ ((date = none → 2 ≤ f.times.length) ∧
          ∀ dd, date = some dd → ∃ t ∈ f.times, ∃ t' ∈ f.times, t ≠ t' ∧ Spec.LidarOn f dd t ∧ Spec.LidarOn f dd t') := by
        cases date with
        | none => simp [hday.all rfl]
        | some dd =>
          obtain ⟨-, hp, hm, -⟩ := hday.onDay dd rfl
          have hl : (pickRows ind f.times).length = ind.length := pickRows_length_of_lt _ _ hday.exist
          constructor
          · intro h2
            refine ⟨fun h => (by cases h), fun dd' h => ?_⟩
            cases h
            have m0 := (hm _).1 (List.getElem_mem (l := pickRows ind f.times) (n := 0) (by omega))
            have m1 := (hm _).1 (List.getElem_mem (l := pickRows ind f.times) (n := 1) (by omega))
            exact ⟨_, m0.1, _, m1.1, ne_of_lt (List.pairwise_iff_getElem.1 hp 0 1 (by omega) (by omega) (by omega)), m0.2, m1.2⟩
          · rintro ⟨-, h⟩
            obtain ⟨t, ht, t', ht', hne, ho, ho'⟩ := h dd rfl
            have h1 := (hm t).2 ⟨ht, ho⟩
            have h2 := (hm t').2 ⟨ht', ho'⟩
            by_contra hc
            have : (pickRows ind f.times).length ≤ 1 := by omega
            match hpk : pickRows ind f.times with
            | [] => rw [hpk] at h1; simp at h1
            | [a] => rw [hpk] at h1 h2; simp at h1 h2; exact hne (h1.trans h2.symm)
            | a :: b :: l => rw [hpk] at this; simp at this
      rw [hday.len] at s1
      cases hsc : lidarScreen nu f.kind.model f.kind.old rangeCorrected (altitude.getD 0) day d with
      | error e =>
        refine ⟨⟨fun ⟨o, ho⟩ => (by cases ho), fun h => ?_⟩, fun o ho => by cases ho⟩
        obtain ⟨o, ho⟩ := s1.2 (hcount.2 h.2.2)
        rw [hsc] at ho
        cases ho
      | ok full =>
        dsimp only
        have h2 := s1.1 ⟨full, hsc⟩
        cases altitude with
        | none =>
          simp only [if_true]
          exact ⟨⟨fun ⟨o, ho⟩ => (by cases ho), fun h => absurd rfl h.2.1⟩, fun o ho => by cases ho⟩
        | some a =>
          simp only [reduceCtorEq, if_false]
          refine ⟨⟨fun _ => ⟨hreadable, by simp, hcount.1 h2⟩, fun _ => ⟨_, rfl⟩⟩, fun o ho => ?_⟩
          cases ho
          exact ⟨d0, d, ind, day, full, hread, hday, s2 full hsc, h2, rfl, by simp⟩

/-- The indices of the profiles kept. -/
theorem keep_lt (full : NcLidarDay α) : ∀ i ∈ lidarKeep full, i < full.beta.length := by
  intro i hi
  unfold lidarKeep at hi
  exact List.mem_range.1 (List.mem_filter.1 hi).1

theorem keep_sorted (full : NcLidarDay α) : (lidarKeep full).Pairwise (· < ·) := by
  unfold lidarKeep
  exact List.pairwise_lt_range.filter _

/-- The source of the rows that are written. -/
theorem steps_from {nu : LidarNumerics α} {nn : α → α → α} {calibration altitude : Option α} {rangeCorrected : Bool} {date : Option ℤ}
    {f : NcLidarFile α} {out : NcLidarDay α} {d0 d : NcLidarData α} {ind : List ℕ} {day : ℤ} {full : NcLidarDay α}
    (h : LidarSteps nu nn calibration altitude rangeCorrected date f out d0 d ind day full) (hs : Spec.LidarShape f) :
    Spec.FromProfiles nn calibration f (pickRows (lidarKeep full) ind) out ∧ LidarLaws rangeCorrected out := by
  obtain ⟨hr, ht, hsc, h2, rfl, halt⟩ := h
  have hbl : full.beta.length = ind.length := by rw [hsc.beta.1, ht.len]
  have hk : ∀ i ∈ lidarKeep full, i < ind.length := fun i hi => by rw [← hbl]; exact keep_lt full i hi
  have hlen : (pickRows (lidarKeep full) ind).length = (lidarKeep full).length := pickRows_length_of_lt _ _ hk
  have hgate : d.range.length = f.range.length := by rw [ht.range, hr.gates]
  have hraw : Spec.IsMatrix ind.length f.range.length full.betaRaw := by
    rw [hsc.raw, ht.beta]
    exact pick_matrix hr.raw ht.exist
  have hbm : Spec.IsMatrix ind.length f.range.length full.beta := by rw [← ht.len, ← hgate]; exact hsc.beta
  have hsm : Spec.IsMatrix ind.length f.range.length full.betaSmooth := by rw [← ht.len, ← hgate]; exact hsc.smooth
  have hdm : ∀ p, full.depol = some p → Spec.IsMatrix ind.length f.range.length p := by rw [← ht.len, ← hgate]; exact hsc.depol.1
  have hdr : ∀ p, full.depolRaw = some p → Spec.IsMatrix ind.length f.range.length p := by
    intro p hp
    rw [hsc.depolRaw, ht.depol] at hp
    cases hq : d0.depol with
    | none => rw [hq] at hp; cases hp
    | some q =>
      rw [hq] at hp
      cases hp
      exact isMatrix_map _ (pick_matrix (depol_shape hr q hq) ht.exist)
  have src : ∀ k i : ℕ, (pickRows (lidarKeep full) ind)[k]? = some i → ∃ k', (lidarKeep full)[k]? = some k' ∧ ind[k']? = some i := by
    intro k i h
    rw [pickRows_get _ _ hk] at h
    cases hkk : (lidarKeep full)[k]? with
    | none => rw [hkk] at h; cases h
    | some k' => rw [hkk] at h; exact ⟨k', rfl, h⟩
  refine ⟨⟨?_, ?_, ?_, ?_, ?_, ?_, ?_, ?_, ?_⟩, laws_pick hsc.laws hraw hbm hsm hdr hdm _ hk⟩
  · intro i hi
    obtain ⟨k, hk'⟩ := List.mem_iff_getElem?.1 hi
    obtain ⟨k', -, h2⟩ := src k i hk'
    exact ht.exist i (List.mem_of_getElem? h2)
  · show full.range.length = _
    rw [hsc.range, hgate]
  · show (pickRows (lidarKeep full) full.time).length = _
    rw [hlen, pickRows_length_of_lt]
    rw [hsc.time, ht.len]
    exact hk
  · rw [hlen]; exact pick_matrix hraw hk
  · rw [hlen]; exact pick_matrix hbm hk
  · rw [hlen]; exact pick_matrix hsm hk
  · intro k i hki
    obtain ⟨k', e1, e2⟩ := src k i hki
    obtain ⟨t, h, a1, a2, a3⟩ := ht.hour k' i e2
    refine ⟨t, h, a1, ?_, a3⟩
    show (pickRows (lidarKeep full) full.time)[k]? = _
    rw [pickRows_get _ _ (by rw [hsc.time, ht.len]; exact hk), e1, hsc.time]
    exact a2
  · intro k i j b hki hb
    obtain ⟨k', e1, e2⟩ := src k i hki
    obtain ⟨r, s, b1, b2, b3⟩ := hr.value i j b hb
    refine ⟨r, s, ?_, b2, ?_⟩
    · show full.range[j]? = _
      rw [hsc.range, ht.range]
      exact b1
    · show Spec.cell (pickRows (lidarKeep full) full.betaRaw) k j = _
      rw [cell_pick _ _ (by rw [hraw.1]; exact hk), e1, hsc.raw, ht.beta, Option.bind_some,
        cell_pick _ _ (by rw [hr.raw.1]; exact ht.exist), e2]
      exact b3
  · have hdep := hr.depol
    have hnone : d0.depol = none → (full.pick (lidarKeep full)).depolRaw = none ∧ (full.pick (lidarKeep full)).depol = none := by
      intro h
      have h1 : d.depol = none := by rw [ht.depol, h]; rfl
      have h3 : full.depol = none := hsc.depol.2.2 h1
      have h4 : full.depolRaw = none := by rw [hsc.depolRaw, h1]; rfl
      unfold NcLidarDay.pick
      dsimp only
      rw [h3, h4]
      exact ⟨rfl, rfl⟩
    cases hkind : f.kind with
    | cl61d a x p =>
      rw [hkind] at hdep
      obtain ⟨m, hm, hmat, hcell⟩ := hdep
      have h1 : d.depol = some (pickRows ind m) := by rw [ht.depol, hm]; rfl
      cases hfd : full.depol with
      | none => rw [hsc.depol.2.1 hfd] at h1; cases h1
      | some dep =>
        have h4 : full.depolRaw = some ((pickRows ind m).map fun row => row.map MaPixel.value) := by rw [hsc.depolRaw, h1]; rfl
        refine ⟨pickRows (lidarKeep full) ((pickRows ind m).map fun row => row.map MaPixel.value), pickRows (lidarKeep full) dep, ?_, ?_, ?_, ?_, ?_⟩
        · unfold NcLidarDay.pick; dsimp only; rw [h4]; rfl
        · unfold NcLidarDay.pick; dsimp only; rw [hfd]; rfl
        · rw [hlen]; exact pick_matrix (hdr _ h4) hk
        · rw [hlen]; exact pick_matrix (hdm _ hfd) hk
        · intro k i j a b hki hx hp
          obtain ⟨k', e1, e2⟩ := src k i hki
          rw [cell_pick _ _ (by rw [(hdr _ h4).1]; exact hk), e1, Option.bind_some, cell_map_map, cell_pick _ _ (by rw [hmat.1]; exact ht.exist),
            e2, Option.bind_some, hcell i j a b hx hp]
          unfold pixelDivide MaPixel.value
          split_ifs <;> simp_all
    | da10 a => rw [hkind] at hdep; exact hnone hdep
    | lufft a b c e => rw [hkind] at hdep; exact hnone hdep

/-- **C151.** A day of a CL61, DA10 or CHM 15k: each row of every variable is made of one and the same profile of the file. The time is its
time of day, the raw backscatter its backscatter times the scale of the instrument, the raw depolarisation the ratio of its polarisations. -/
theorem C151_profiles (nu : LidarNumerics α) (nn : α → α → α) (argsort : List α → List ℕ) (ha : ∀ l, Spec.IsArgsort l (argsort l))
    (calibration altitude : Option α) (rangeCorrected : Bool) (date : Option ℤ) (f : NcLidarFile α) (hs : Spec.LidarShape f)
    (hn : date = none ∨ f.range.length ≠ f.times.length) (out : NcLidarDay α)
    (h : ncLidar2nc nu nn argsort calibration altitude rangeCorrected date f = .ok out) :
    ∃ src, Spec.FromProfiles nn calibration f src out ∧
      (date = none → src.Pairwise (· < ·)) ∧
      ∀ dd, date = some dd → out.date = dd ∧ out.time.Pairwise (· < ·) ∧ (src.map (vec f.times)).Pairwise (· < ·) ∧
        ∀ (k i : ℕ) (t x : α), src[k]? = some i → f.times[i]? = some t → out.time[k]? = some x →
          Spec.LidarOn f dd t ∧ (f.epochDay : α) * 86400 + t = dd * 86400 + 3600 * x ∧ 0 ≤ x ∧ x < 24 := by
  obtain ⟨d0, d, ind, day, full, hst⟩ := (ncLidar_steps nu nn argsort ha calibration altitude rangeCorrected date f hs hn).2 out h
  have hfrom := (steps_from hst hs).1
  refine ⟨_, hfrom, ?_, ?_⟩
  · intro hd
    obtain ⟨hr, ht, hsc, h2, rfl, halt⟩ := hst
    have hbl : full.beta.length = ind.length := by rw [hsc.beta.1, ht.len]
    have hkk := keep_lt full
    rw [hbl] at hkk
    rw [ht.all hd] at hkk ⊢
    rw [pickRows_range _ _ (by simpa using hkk)]
    exact keep_sorted full
  · intro dd hdd
    obtain ⟨hr, ht, hsc, h2, rfl, halt⟩ := hst
    obtain ⟨hday, hp, hm, hhour⟩ := ht.onDay dd hdd
    have hbl : full.beta.length = ind.length := by rw [hsc.beta.1, ht.len]
    have hkk : ∀ i ∈ lidarKeep full, i < ind.length := by rw [← hbl]; exact keep_lt full
    have hT : (pickRows (lidarKeep full) ind).map (vec f.times) = pickRows (lidarKeep full) (pickRows ind f.times) := by
      rw [pickRows_pickRows _ _ _ ht.exist]
      apply List.ext_getElem?
      intro k
      rw [List.getElem?_map, pickRows_get (pickRows (lidarKeep full) ind) f.times hfrom.exist]
      cases hx : (pickRows (lidarKeep full) ind)[k]? with
      | none => rfl
      | some i =>
        have hi := hfrom.exist i (List.mem_of_getElem? hx)
        rw [Option.bind_some, Option.map_some, List.getElem?_eq_getElem hi]
        unfold vec
        rw [List.getD_eq_getElem?_getD, List.getElem?_eq_getElem hi]
        rfl
    have hpl : (pickRows ind f.times).length = ind.length := pickRows_length_of_lt _ _ ht.exist
    have hPT : (pickRows (lidarKeep full) (pickRows ind f.times)).Pairwise (· < ·) := by
      rw [List.pairwise_iff_getElem]
      intro a b hA hB hab
      have hL : (pickRows (lidarKeep full) (pickRows ind f.times)).length = (lidarKeep full).length :=
        pickRows_length_of_lt _ _ (by rw [hpl]; exact hkk)
      have key : ∀ c (hc : c < (lidarKeep full).length) (hc' : c < (pickRows (lidarKeep full) (pickRows ind f.times)).length)
          (hc'' : (lidarKeep full)[c] < (pickRows ind f.times).length),
          (pickRows (lidarKeep full) (pickRows ind f.times))[c] = (pickRows ind f.times)[(lidarKeep full)[c]] := by
        intro c hc hc' hc''
        have e := pickRows_get (lidarKeep full) (pickRows ind f.times) (by rw [hpl]; exact hkk) c
        rw [List.getElem?_eq_getElem hc, Option.bind_some, List.getElem?_eq_getElem hc', List.getElem?_eq_getElem hc''] at e
        exact Option.some.inj e
      have hA' : a < (lidarKeep full).length := by omega
      have hB' : b < (lidarKeep full).length := by omega
      have ka := hkk _ (List.getElem_mem hA')
      have kb := hkk _ (List.getElem_mem hB')
      rw [key a hA' hA (by omega), key b hB' hB (by omega)]
      exact List.pairwise_iff_getElem.1 hp _ _ (by omega) (by omega)
        (List.pairwise_iff_getElem.1 (keep_sorted full) a b hA' hB' hab)
    have hone : ∀ (k i : ℕ) (t x : α), (pickRows (lidarKeep full) ind)[k]? = some i → f.times[i]? = some t →
        (full.pick (lidarKeep full)).time[k]? = some x →
        Spec.LidarOn f dd t ∧ (f.epochDay : α) * 86400 + t = dd * 86400 + 3600 * x ∧ 0 ≤ x ∧ x < 24 := by
      intro k i t x hki hti hxk
      rw [pickRows_get _ _ hkk] at hki
      change (pickRows (lidarKeep full) full.time)[k]? = some x at hxk
      rw [pickRows_get _ _ (by rw [hsc.time, ht.len]; exact hkk)] at hxk
      cases hq : (lidarKeep full)[k]? with
      | none => rw [hq] at hki; cases hki
      | some k' =>
        rw [hq, Option.bind_some] at hki hxk
        rw [hsc.time] at hxk
        refine ⟨?_, hhour h2 k' i t x hki hti hxk⟩
        refine ((hm t).1 ?_).2
        refine List.mem_of_getElem? (i := k') ?_
        rw [pickRows_get _ _ ht.exist, hki]
        exact hti
    refine ⟨by show full.date = dd; rw [hsc.date]; exact hday, ?_, by rw [hT]; exact hPT, hone⟩
    rw [List.pairwise_iff_getElem]
    intro a b hA hB hab
    have hA' : a < (pickRows (lidarKeep full) ind).length := by rw [← hfrom.time]; exact hA
    have hB' : b < (pickRows (lidarKeep full) ind).length := by rw [← hfrom.time]; exact hB
    obtain ⟨ta, xa, a1, a2, -⟩ := hfrom.hour a _ (List.getElem?_eq_getElem hA')
    obtain ⟨tb, xb, b1, b2, -⟩ := hfrom.hour b _ (List.getElem?_eq_getElem hB')
    have ea := (hone a _ ta xa (List.getElem?_eq_getElem hA') a1 a2).2.1
    have eb := (hone b _ tb xb (List.getElem?_eq_getElem hB') b1 b2).2.1
    have hlt : ta < tb := by
      rw [← hT] at hPT
      have := List.pairwise_iff_getElem.1 hPT a b (by simpa using hA') (by simpa using hB') hab
      rw [List.getElem_map, List.getElem_map] at this
      unfold vec at this
      rw [List.getD_eq_getElem?_getD, List.getD_eq_getElem?_getD, a1, b1] at this
      exact this
    rw [List.getElem?_eq_getElem hA] at a2
    rw [List.getElem?_eq_getElem hB] at b2
    rw [Option.some.inj a2, Option.some.inj b2]
    linarith

/-- **C151.** The published backscatter is only what is above zero in the raw backscatter and valid in the smooth one, and is not changed. (If
the site says that the data are not range corrected, screening alone decides, and values are not changed either.) -/
theorem C151_backscatter (nu : LidarNumerics α) (nn : α → α → α) (argsort : List α → List ℕ) (ha : ∀ l, Spec.IsArgsort l (argsort l))
    (calibration altitude : Option α) (rangeCorrected : Bool) (date : Option ℤ) (f : NcLidarFile α) (hs : Spec.LidarShape f)
    (hn : date = none ∨ f.range.length ≠ f.times.length) (out : NcLidarDay α)
    (h : ncLidar2nc nu nn argsort calibration altitude rangeCorrected date f = .ok out) (k j : ℕ) (v : α) :
    (Spec.cell out.beta k j = some (some v) → Spec.cell out.betaRaw k j = some v) ∧
    (rangeCorrected = true → (Spec.cell out.beta k j = some (some v) ↔
      Spec.cell out.betaRaw k j = some v ∧ 0 < v ∧ Spec.Valid out.betaSmooth k j)) := by
  obtain ⟨d0, d, ind, day, full, hst⟩ := (ncLidar_steps nu nn argsort ha calibration altitude rangeCorrected date f hs hn).2 out h
  have := (steps_from hst hs).2
  exact ⟨this.unchanged k j v, fun hrc => this.beta hrc k j v⟩

/-- The number of negative values in a row above which noise is searched: 20 for CHM 15k with old firmware, whose data are not corrected for range, else 5. -/
def Spec.NegativeRun (f : NcLidarFile α) (n : ℕ) : Prop :=
  (∃ x version std nn1, f.kind = .lufft x version std nn1 ∧ lufftOld version = .ok true) ∧ n = 20 ∨
    (∀ x version std nn1, f.kind = .lufft x version std nn1 → lufftOld version ≠ .ok true) ∧ n = 5

theorem negativeRun_old (f : NcLidarFile α) : Spec.NegativeRun f (ceiloNegatives f.kind.old f.kind.model) := by
  unfold Spec.NegativeRun
  cases hk : f.kind with
  | cl61d a x p => exact Or.inr ⟨(fun _ _ _ _ h => by cases h), rfl⟩
  | da10 a => exact Or.inr ⟨(fun _ _ _ _ h => by cases h), rfl⟩
  | lufft x version std nn1 =>
    have hm : ∀ b, ceiloNegatives b (NcLidarKind.lufft x version std nn1 : NcLidarKind α).model = if b then 20 else 5 := by
      intro b
      cases x <;> cases b <;> rfl
    rw [hm]
    have ho : (NcLidarKind.lufft x version std nn1 : NcLidarKind α).old = match lufftOld version with
        | .ok b => b
        | .error _ => false := rfl
    rw [ho]
    clear ho
    cases hv : lufftOld version with
    | error e =>
      right
      refine ⟨fun _ _ _ _ h => ?_, rfl⟩
      cases h
      rw [hv]
      simp
    | ok b =>
      cases b with
      | true => exact Or.inl ⟨⟨_, _, _, _, rfl, hv⟩, rfl⟩
      | false =>
        right
        refine ⟨fun _ _ _ _ h => ?_, rfl⟩
        cases h
        rw [hv]
        simp

/-- **C151.** How a day is screened: each row is that of a profile of the whole day. The smooth backscatter, and the published one of data that are not corrected for
range, are the screened products of C52 with the limits of the code and the run of negative values of the instrument. -/
theorem C151_screened (nu : LidarNumerics α) (nn : α → α → α) (argsort : List α → List ℕ)
    (calibration altitude : Option α) (rangeCorrected : Bool) (date : Option ℤ) (f : NcLidarFile α) (out : NcLidarDay α)
    (h : ncLidar2nc nu nn argsort calibration altitude rangeCorrected date f = .ok out) :
    ∃ (raw : List (List α)) (keep : List ℕ) (sigma : α × α) (n : ℕ) (screened : Grid (Option α)), Spec.NegativeRun f n ∧ keep.Pairwise (· < ·) ∧
      out.betaRaw = pickRows keep raw ∧
      (∀ t, screened t = screenProfile nu.sqrt {} rangeCorrected (altLimit rangeCorrected (some f.kind.model)) (1 / 10 ^ 9) 5 out.range.length n (vec out.range)
        (rowsGrid raw t) (rowsGrid raw t)) ∧
      ∃ days, out.betaSmooth = pickRows keep ((List.range days).map fun t => (List.range out.range.length).map fun j =>
          betaSmooth nu.sqrt (nu.filter sigma) rangeCorrected (altLimit rangeCorrected (some f.kind.model)) (4 / 10 ^ 9) 5 out.range.length n (vec out.range)
            (rowsGrid raw) nu.under screened t j) ∧
        (rangeCorrected = false → out.beta = pickRows keep ((List.range days).map fun t => (List.range out.range.length).map (screened t))) := by
  unfold ncLidar2nc at h
  simp only [bind, Except.bind] at h
  cases hr : readNcLidar nn calibration f with
  | error e => rw [hr] at h; cases h
  | ok d0 =>
    rw [hr] at h
    dsimp only at h
    cases ht : lidarTime argsort f.epochDay date d0 with
    | error e => rw [ht] at h; cases h
    | ok r =>
      obtain ⟨day, d⟩ := r
      rw [ht] at h
      dsimp only at h
      cases hsc : lidarScreen nu f.kind.model f.kind.old rangeCorrected (altitude.getD 0) day d with
      | error e => rw [hsc] at h; cases h
      | ok full =>
        rw [hsc] at h
        dsimp only at h
        cases altitude with
        | none => simp [throw, throwThe, MonadExceptOf.throw] at h
        | some a =>
          simp only [reduceCtorEq, if_false, pure, Except.pure] at h
          cases h
          unfold lidarScreen at hsc
          dsimp only at hsc
          split at hsc
          · cases hsc
          split at hsc
          · cases hsc
          simp only [bind, Except.bind, pure, Except.pure] at hsc
          cases hsig : calcSigmaUnits 1 10 d.time.length (vec d.time) d.range.length (vec d.range) with
          | error e => rw [hsig] at hsc; cases hsc
          | ok sigma =>
            rw [hsig] at hsc
            have hsc := Except.ok.inj hsc
            have e1 : full.range = d.range := by rw [← hsc]
            have e2 : full.betaRaw = d.beta := by rw [← hsc]
            have e3 : (full.pick (lidarKeep full)).range = d.range := e1
            rw [e3]
            refine ⟨d.beta, lidarKeep full, sigma, _, _, negativeRun_old f, keep_sorted full, ?_, fun t => rfl, d.time.length, ?_, ?_⟩
            · show pickRows _ full.betaRaw = _
              rw [e2]
            · show pickRows _ full.betaSmooth = _
              congr 1
              rw [← hsc]
            · rintro rfl
              show pickRows _ full.beta = _
              congr 1
              rw [← hsc]
              apply List.map_congr_left
              intro t _
              apply List.map_congr_left
              intro j _
              exact (C125_beta _ _ _).2.2 _

/-- **C151.** Depolarisation of a CL61 is published only between zero (excluded) and one and where backscatter is. If the raw one is known,
it is published there without a change. -/
theorem C151_depolarisation (nu : LidarNumerics α) (nn : α → α → α) (argsort : List α → List ℕ) (ha : ∀ l, Spec.IsArgsort l (argsort l))
    (calibration altitude : Option α) (date : Option ℤ) (f : NcLidarFile α) (hs : Spec.LidarShape f)
    (hn : date = none ∨ f.range.length ≠ f.times.length) (out : NcLidarDay α)
    (h : ncLidar2nc nu nn argsort calibration altitude true date f = .ok out) (raw dep : List (List (Option α)))
    (hr : out.depolRaw = some raw) (hd : out.depol = some dep) (k j : ℕ) (v : α) :
    (Spec.cell dep k j = some (some v) → 0 < v ∧ v ≤ 1 ∧ Spec.Valid out.beta k j) ∧
    ∀ x, Spec.cell raw k j = some (some x) → (Spec.cell dep k j = some (some v) ↔ v = x ∧ 0 < v ∧ v ≤ 1 ∧ Spec.Valid out.beta k j) := by
  obtain ⟨d0, d, ind, day, full, hst⟩ := (ncLidar_steps nu nn argsort ha calibration altitude true date f hs hn).2 out h
  obtain ⟨h1, h2, -⟩ := (steps_from hst hs).2.depol raw dep hr hd k j v
  exact ⟨h1 rfl, h2 rfl⟩

/-- **C151.** There is a file exactly if there are two gates, the backscatter can be read, the altitude of the site is known, and there are two
profiles (with different times of the expected day, if there is one). -/
theorem C151_made (nu : LidarNumerics α) (nn : α → α → α) (argsort : List α → List ℕ) (ha : ∀ l, Spec.IsArgsort l (argsort l))
    (calibration altitude : Option α) (rangeCorrected : Bool) (date : Option ℤ) (f : NcLidarFile α) (hs : Spec.LidarShape f)
    (hn : date = none ∨ f.range.length ≠ f.times.length) :
    (∃ out, ncLidar2nc nu nn argsort calibration altitude rangeCorrected date f = .ok out) ↔
      Spec.LidarReadable f ∧ altitude ≠ none ∧ (date = none → 2 ≤ f.times.length) ∧
      ∀ dd, date = some dd → ∃ t ∈ f.times, ∃ t' ∈ f.times, t ≠ t' ∧ Spec.LidarOn f dd t ∧ Spec.LidarOn f dd t' :=
  (ncLidar_steps nu nn argsort ha calibration altitude rangeCorrected date f hs hn).1

/-- **C151.** Range and height: the range is half a gate above the range of the file, half a gate below it for a CHM 15k; the height is the
altitude of the site and the range times the cosine of the zenith angle. That is the median of all angles in the file that are not masked,
three degrees if there is no angle in the file, and zero if all are masked. -/
theorem C151_height (nu : LidarNumerics α) (nn : α → α → α) (argsort : List α → List ℕ) (ha : ∀ l, Spec.IsArgsort l (argsort l))
    (calibration : Option α) (altitude : α) (rangeCorrected : Bool) (date : Option ℤ) (f : NcLidarFile α) (hs : Spec.LidarShape f)
    (hn : date = none ∨ f.range.length ≠ f.times.length) (out : NcLidarDay α)
    (h : ncLidar2nc nu nn argsort calibration (some altitude) rangeCorrected date f = .ok out) :
    out.height = out.range.map (fun r => altitude + r * nu.cos out.zenith) ∧
    (∀ j, j + 1 < f.range.length → (∀ kx v s n, f.kind ≠ .lufft kx v s n) → out.range[j]? = some ((vec f.range j + vec f.range (j + 1)) / 2)) ∧
    (∀ j, 0 < j → j < f.range.length → (∃ kx v s n, f.kind = .lufft kx v s n) → out.range[j]? = some ((vec f.range (j - 1) + vec f.range j) / 2)) ∧
    (f.tilt = none → out.zenith = 3) ∧
    ∀ l, f.tilt = some l → (l.filterMap id = [] → out.zenith = 0) ∧ (l.filterMap id ≠ [] → out.zenith = median (l.filterMap id)) := by
  obtain ⟨d0, d, ind, day, full, hst⟩ := (ncLidar_steps nu nn argsort ha calibration (some altitude) rangeCorrected date f hs hn).2 out h
  obtain ⟨hr, ht, hsc, h2, rfl, halt⟩ := hst
  have hz : (full.pick (lidarKeep full)).zenith = lidarZenith f.tilt := by
    show full.zenith = _
    rw [hsc.zenith, ht.zenith, hr.zenith]
  have hrange : (full.pick (lidarKeep full)).range = d0.range := by
    show full.range = _
    rw [hsc.range, ht.range]
  have hh : (full.pick (lidarKeep full)).height = d.range.map fun r => altitude + r * nu.cos d.zenith := hsc.height
  have hget : ∀ (g : ℕ → α) (j : ℕ), j < f.range.length → ((List.range f.range.length).map g)[j]? = some (g j) := by
    intro g j hj
    rw [List.getElem?_map, List.getElem?_range hj]
    rfl
  have hlr := hr.range
  have h75 := C75_edges2mid f.range.length (vec f.range)
  rw [hz, hrange]
  refine ⟨?_, ?_, ?_, ?_, ?_⟩
  · rw [hh, ht.range, ht.zenith, hr.zenith]
  · intro j hj hk
    obtain ⟨⟨g, hg, hmid, -⟩, -⟩ := h75.2 (by omega)
    unfold lidarRange at hlr
    cases hkind : f.kind with
    | lufft a b c e => exact absurd hkind (hk a b c e)
    | cl61d a b c =>
      rw [hkind] at hlr
      dsimp only at hlr
      rw [hg] at hlr
      rw [← Except.ok.inj hlr, hget g j (by omega), hmid j hj]
    | da10 a =>
      rw [hkind] at hlr
      dsimp only at hlr
      rw [hg] at hlr
      rw [← Except.ok.inj hlr, hget g j (by omega), hmid j hj]
  · rintro j h0 hj ⟨kx, v, s, n, hk⟩
    obtain ⟨-, g, hg, hmid, -⟩ := h75.2 (by omega)
    unfold lidarRange at hlr
    rw [hk] at hlr
    dsimp only at hlr
    rw [hg] at hlr
    rw [← Except.ok.inj hlr, hget g j hj, hmid j h0 hj]
  · intro h; rw [h]; rfl
  · intro l hl
    rw [hl]
    unfold lidarZenith
    dsimp only
    exact ⟨fun h => by rw [if_pos h], fun h => by rw [if_neg h]⟩

open Classical in
/-- **C151.** Sunbeams: if the gates from `g` on are those above 10 km, they make 20 bins of equal size. Each profile in the file has data in less
than 15 of them. A time of the day is missing only if a profile of the file with this time has raw backscatter (above zero, if range
corrected) in at least 15 of them. -/
theorem C151_sunbeams (nu : LidarNumerics α) (nn : α → α → α) (argsort : List α → List ℕ) (ha : ∀ l, Spec.IsArgsort l (argsort l))
    (calibration altitude : Option α) (rangeCorrected : Bool) (dd : ℤ) (f : NcLidarFile α) (hs : Spec.LidarShape f)
    (hn : f.range.length ≠ f.times.length) (out : NcLidarDay α)
    (h : ncLidar2nc nu nn argsort calibration altitude rangeCorrected (some dd) f = .ok out) (g : ℕ) (hg : g ≤ out.range.length)
    (h0 : ∀ j < g, vec out.range j ≤ 10000) (h1 : ∀ j < out.range.length, g ≤ j → 10000 < vec out.range j) :
    let size := (out.range.length - g) / 20
    (∀ k < out.time.length, ((Finset.range 20).filter fun b => ∃ j, g + b * size ≤ j ∧ j < g + (b + 1) * size ∧ Spec.Valid out.beta k j).card < 15) ∧
    ∀ t ∈ f.times, Spec.LidarOn f dd t →
      (∃ x ∈ out.time, (f.epochDay : α) * 86400 + t = dd * 86400 + 3600 * x) ∨
      ∃ i : ℕ, f.times[i]? = some t ∧ 15 ≤ ((Finset.range 20).filter fun b => ∃ j, g + b * size ≤ j ∧ j < g + (b + 1) * size ∧
        ∃ b r s, Spec.cell f.beta i j = some b ∧ out.range[j]? = some r ∧ Spec.LidarScale nn calibration f i r s ∧
          (rangeCorrected = true → 0 < b * s)).card := by
  intro size
  obtain ⟨d0, d, ind, day, full, hst⟩ := (ncLidar_steps nu nn argsort ha calibration altitude rangeCorrected (some dd) f hs (.inr hn)).2 out h
  have hfrom := (steps_from hst hs).1
  obtain ⟨hr, ht, hsc, h2, rfl, halt⟩ := hst
  have hbl : full.beta.length = ind.length := by rw [hsc.beta.1, ht.len]
  have hkk : ∀ i ∈ lidarKeep full, i < ind.length := by rw [← hbl]; exact keep_lt full
  have hgd : d.range.length = f.range.length := by rw [ht.range, hr.gates]
  have hbm : Spec.IsMatrix ind.length f.range.length full.beta := by rw [← ht.len, ← hgd]; exact hsc.beta
  change g ≤ full.range.length at hg
  change ∀ j < g, vec full.range j ≤ 10000 at h0
  change ∀ j < full.range.length, g ≤ j → 10000 < vec full.range j at h1
  have hval : ∀ k' j, ((full.beta.getD k' []).getD j none).isSome = true ↔ Spec.Valid full.beta k' j := by
    intro k' j
    unfold Spec.Valid Spec.cell
    rw [List.getD_eq_getElem?_getD, List.getD_eq_getElem?_getD]
    cases full.beta[k']? with
    | none => simp
    | some row =>
      rw [Option.getD_some, Option.bind_some]
      cases row[j]? with
      | none => simp
      | some o => cases o <;> simp
  have hsun : ∀ k', keepSunbeam full.range.length (vec full.range) (fun h => (full.beta.getD k' []).getD h none) = false ↔
      15 ≤ ((Finset.range 20).filter fun b => ∃ j, g + b * size ≤ j ∧ j < g + (b + 1) * size ∧ Spec.Valid full.beta k' j).card := by
    intro k'
    have := C95_sunbeam full.range.length g hg (vec full.range) (fun h => (full.beta.getD k' []).getD h none) h0 h1
    dsimp only at this
    rw [this]
    simp only [hval]
    exact Iff.rfl
  have hmemk : ∀ k', k' ∈ lidarKeep full ↔ k' < ind.length ∧ keepSunbeam full.range.length (vec full.range) (fun h => (full.beta.getD k' []).getD h none) = true := by
    intro k'
    unfold lidarKeep
    rw [List.mem_filter, List.mem_range, hbl]
  constructor
  · intro k hk
    have hk' : k < (lidarKeep full).length := by
      have := hfrom.time
      rw [pickRows_length_of_lt _ _ hkk] at this
      omega
    have e1 := List.getElem?_eq_getElem hk'
    have hm := (hmemk _).1 (List.getElem_mem hk')
    have hc : ∀ j, Spec.Valid (full.pick (lidarKeep full)).beta k j ↔ Spec.Valid full.beta (lidarKeep full)[k] j := by
      intro j
      show (∃ v, Spec.cell (pickRows (lidarKeep full) full.beta) k j = some (some v)) ↔ _
      rw [cell_pick _ _ (keep_lt full), e1]
      exact Iff.rfl
    simp only [hc]
    by_contra hcon
    have := (hsun _).2 (not_lt.1 hcon)
    rw [hm.2] at this
    cases this
  · intro t htm hon
    obtain ⟨hday, hp, hm, hhour⟩ := ht.onDay dd rfl
    obtain ⟨k', hk'⟩ := List.mem_iff_getElem?.1 ((hm t).2 ⟨htm, hon⟩)
    rw [pickRows_get _ _ ht.exist] at hk'
    cases hi : ind[k']? with
    | none => rw [hi] at hk'; cases hk'
    | some i =>
      rw [hi, Option.bind_some] at hk'
      have hlt : k' < ind.length := (List.getElem?_eq_some_iff.1 hi).1
      cases hks : keepSunbeam full.range.length (vec full.range) (fun h => (full.beta.getD k' []).getD h none) with
      | true =>
        left
        obtain ⟨k, hk⟩ := List.mem_iff_getElem?.1 ((hmemk k').2 ⟨hlt, hks⟩)
        obtain ⟨t', x, a1, a2, -⟩ := ht.hour k' i hi
        rw [hk'] at a1
        cases a1
        refine ⟨x, ?_, (hhour h2 k' i t x hi hk' a2).1⟩
        refine List.mem_of_getElem? (i := k) ?_
        show (pickRows (lidarKeep full) full.time)[k]? = _
        rw [pickRows_get _ _ (by rw [hsc.time, ht.len]; exact hkk), hk, hsc.time]
        exact a2
      | false =>
        right
        refine ⟨i, hk', le_trans ((hsun k').1 hks) (Finset.card_le_card ?_)⟩
        intro b hb
        rw [Finset.mem_filter] at hb ⊢
        refine ⟨hb.1, ?_⟩
        obtain ⟨j, j1, j2, v, hv⟩ := hb.2
        refine ⟨j, j1, j2, ?_⟩
        have hj : j < f.range.length := (cell_col_lt hbm hv).2
        have hii := ht.exist i (List.mem_of_getElem? hi)
        have hcell : Spec.cell f.beta i j = some (rowsGrid f.beta i j) := by rw [cell_grid hs.1, if_pos ⟨hii, hj⟩]
        obtain ⟨r, s, b1, b2, b3⟩ := hr.value i j _ hcell
        refine ⟨_, r, s, hcell, ?_, b2, fun hrc => ?_⟩
        · show full.range[j]? = _
          rw [hsc.range, ht.range]
          exact b1
        · have := (hsc.laws.beta hrc k' j v).1 hv
          have hraw := this.1
          rw [hsc.raw, ht.beta, cell_pick _ _ (by rw [hr.raw.1]; exact ht.exist), hi, Option.bind_some, b3] at hraw
          rw [Option.some.inj hraw]
          exact this.2.1

/-- **C151.** Finding: if there are as many times as gates and a day is expected, the range is taken for a variable that depends on time. It
is put into the order of the times, so each gate gets the range of another one. -/
theorem C151_square (nn : α → α → α) (argsort : List α → List ℕ) (ha : ∀ l, Spec.IsArgsort l (argsort l)) (calibration : Option α) (dd : ℤ)
    (f : NcLidarFile α) (hn : f.range.length = f.times.length) (d0 d : NcLidarData α) (day : ℤ) (hs : Spec.LidarShape f)
    (h0 : readNcLidar nn calibration f = .ok d0) (h : lidarTime argsort f.epochDay (some dd) d0 = .ok (day, d)) :
    ∃ ind : List ℕ, (∀ i ∈ ind, i < f.times.length) ∧ (ind.map (vec f.times)).Pairwise (· < ·) ∧
      (∀ t, t ∈ ind.map (vec f.times) ↔ t ∈ f.times ∧ Spec.LidarOn f dd t) ∧ d.range = ind.map (vec d0.range) ∧ d.beta = pickRows ind d0.beta := by
  have hread := (readNcLidar_spec nn calibration f hs).2 d0 h0
  obtain ⟨c1, c2⟩ := C37_valid_indices d0.time (argsort d0.time) (ha _) ((f.epochDay : α) * 86400) dd
  unfold lidarTime at h
  simp only [bind, Except.bind, pure, Except.pure] at h
  cases hv : findValidTimeIndices (vec d0.time) (argsort d0.time) ((f.epochDay : α) * 86400) dd with
  | error e => rw [hv] at h; cases h
  | ok ind =>
    rw [hv] at h
    obtain ⟨k1, k2, k3⟩ := c2 ind hv
    have hv2 := records_vec ind d0.time k1
    rw [hv2, hread.time] at k2 k3
    rw [hread.time] at k1
    have hr2 := records_vec ind d0.range (by rw [hread.gates, hn]; exact k1)
    dsimp only at h
    cases hsec : seconds2hours (d0.pick ind).time.length (vec (d0.pick ind).time) with
    | error e => rw [hsec] at h; cases h
    | ok g =>
      rw [hsec] at h
      dsimp only at h
      cases h
      refine ⟨ind, k1, k2, fun t => ?_, ?_, ?_⟩
      · rw [k3, lidarOn_iff]
      · show (d0.pick ind).range = _
        unfold NcLidarData.pick
        dsimp only
        rw [if_pos (by rw [hread.gates, hread.time, hn]), ← hr2]
        rfl
      · show (d0.pick ind).beta = _
        unfold NcLidarData.pick
        dsimp only
        rw [if_pos (by rw [hread.raw.1, hread.time])]

end

/-! Examples. -/

/-- No smoothing; a square root is not needed. -/
def exNumerics : LidarNumerics ℚ := ⟨id, fun _ => 1, fun _ g => g, fun _ _ => 0⟩

/-- Three profiles of a DA10, the last of the day before; the second comes before the first. -/
def exLidar : NcLidarFile ℚ := ⟨.da10 false, [3600, 1800, -7200], 20000, [0, 10], none, [[1, 2], [3, -4], [5, 6]]⟩

theorem exSort (l : List ℚ) : Spec.IsArgsort l (stableArgsort l) := stableArgsort_spec l

example : (match ncLidar2nc exNumerics (fun _ _ => 1) stableArgsort (some 2) (some 100) true (some 20000) exLidar with
    | .ok d => decide (d.time = [1 / 2, 1]) && decide (d.range = [5, 15]) && decide (d.height = [105, 115]) &&
        decide (d.betaRaw = [[6, -8], [2, 4]]) && decide (d.beta = [[some 6, none], [some 2, some 4]]) && decide (d.date = 20000)
    | .error _ => false) = true := by decide +kernel

example : Spec.LidarShape exLidar ∧ exLidar.range.length ≠ exLidar.times.length ∧ Spec.LidarReadable exLidar := by
  refine ⟨⟨⟨rfl, by decide⟩, trivial⟩, by decide, by decide, rfl⟩

/-- Two profiles and two gates: the profiles are put in order, and so is the range, so the lower gate gets the range of the upper one. -/
example : (match ncLidar2nc exNumerics (fun _ _ => 1) stableArgsort none (some 100) true (some 20000)
      (⟨.da10 false, [3600, 1800], 20000, [0, 10], none, [[1, 2], [3, 4]]⟩ : NcLidarFile ℚ) with
    | .ok d => decide (d.range = [15, 5]) && decide (d.betaRaw = [[3, 4], [1, 2]])
    | .error _ => false) = true := by decide +kernel

/-- One profile of the day is not enough, an angle that is always masked is zero. -/
example : (match ncLidar2nc exNumerics (fun _ _ => 1) stableArgsort none (some 100) true (some 19999) exLidar with
    | .ok _ => false
    | .error e => decide (e = "ValidTimeStampError: Invalid beta_raw shape")) = true ∧
    (match ncLidar2nc exNumerics (fun _ _ => 1) stableArgsort none (some 100) true none { exLidar with tilt := some [none, none, none] } with
    | .ok d => decide (d.zenith = 0) && decide (d.time = [1, 1 / 2, 22])
    | .error _ => false) = true := by constructor <;> decide +kernel

end Cloudnet
