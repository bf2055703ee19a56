import Verif.Rain.Model
import Verif.Droplet.Props

namespace Cloudnet

/-! C67 (rain detection and clutter). -/

namespace Spec

section
variable {α : Type} [Field α] [LinearOrder α]

/-- Gate `g` is the lowest one with radar data in some profile. -/
def LowestGate (o : RainInput α) (g : ℕ) : Prop :=
  g < o.nH ∧ (∃ t < o.nT, o.z.get t g ≠ none) ∧ ∀ h < g, ∀ t < o.nT, o.z.get t h = none

/-- The radar sees rain at gate `g` of profile `t`: reflectivity above 3 dBZ, falling, depolarisation (if measured)
below -15 dB. -/
def RainyEcho (o : RainInput α) (t g : ℕ) : Prop :=
  (∃ z, o.z.get t g = some z ∧ 3 < z) ∧ o.v.data t g < 0 ∧
    (∀ l, o.ldr = some l → l.data t g < -15) ∧ (∀ l, o.ldr = none → o.sldr = some l → l.data t g < -15)

/-- The disdrometer sees rain: more than 0.25 mm in an hour (in metres per second) and more than 30 particles. -/
def RainyDisdrometer (rate n : α) : Prop := 1 / 14400000 < rate ∧ 30 < n

/-- The surface precipitation is liquid: the weather code if there is one, otherwise the wet bulb temperature of the
lowest gate known in every profile, more than five degrees above zero. -/
def LiquidPrecipitation (o : RainInput α) (t : ℕ) : Prop :=
  (∀ d code, o.disdrometer = some d → d.synop = some code → ∃ w, code t = some w ∧ 57 ≤ w ∧ w ≤ 68) ∧
  ((∀ d, o.disdrometer = some d → d.synop = none) → ∃ g < o.nH, (∀ t < o.nT, o.tw t g ≠ none) ∧
    (∀ h < g, ∃ t < o.nT, o.tw t h = none) ∧ ∃ x, o.tw t g = some x ∧ 27816 / 100 < x)

end

end Spec

section
variable {α : Type} [Field α] [LinearOrder α] [IsStrictOrderedRing α]

theorem masked_get_some (a : Masked α) (t h : ℕ) (x : α) :
    a.get t h = some x ↔ a.mask t h = false ∧ a.data t h = x := by
  unfold Masked.get
  cases a.mask t h <;> simp

theorem masked_get_none (a : Masked α) (t h : ℕ) : a.get t h = none ↔ a.mask t h = true := by
  unfold Masked.get
  cases a.mask t h <;> simp

theorem firstGate_lowest (o : RainInput α) (g : ℕ) (hg : Spec.LowestGate o g) : o.firstGateWithData = g := by
  obtain ⟨h1, ⟨t, ht, htz⟩, h3⟩ := hg
  unfold RainInput.firstGateWithData
  have : (List.range o.nH).find? (fun h => !(List.range o.nT).all fun t => o.z.mask t h) = some g := by
    rw [find_range_some]
    refine ⟨?_, h1, ?_⟩
    · simp only [Bool.not_eq_true', List.all_eq_false, List.mem_range, Bool.not_eq_true]
      refine ⟨t, ht, ?_⟩
      rw [ne_eq, masked_get_none, Bool.not_eq_true] at htz
      exact htz
    · intro i hi
      simp only [Bool.not_eq_false', List.all_eq_true, List.mem_range]
      intro t ht
      exact (masked_get_none _ _ _).1 (h3 i hi t ht)
  rw [this]
  rfl

theorem rainFromRadarEcho_iff (o : RainInput α) (g : ℕ) (hg : Spec.LowestGate o g) (hn : g + 3 < o.nH) :
    ∃ r, o.rainFromRadarEcho = .ok r ∧
      ∀ t, (Spec.RainyEcho o t (g + 3) → r t = 1) ∧ (¬ Spec.RainyEcho o t (g + 3) → r t = 0) := by
  unfold RainInput.rainFromRadarEcho
  rw [firstGate_lowest o g hg]
  simp only
  rw [if_neg (by omega)]
  refine ⟨_, rfl, fun t => ?_⟩
  have key : (!o.z.mask t (g + 3) && decide (3 < o.z.data t (g + 3)) && decide (o.v.data t (g + 3) < 0) &&
      decide ((o.ldr.or o.sldr).elim (-15 - 1) (fun a => a.data t (g + 3)) < -15)) = true ↔ Spec.RainyEcho o t (g + 3) := by
    unfold Spec.RainyEcho
    simp only [Bool.and_eq_true, Bool.not_eq_true', decide_eq_true_eq, masked_get_some]
    constructor
    · rintro ⟨⟨⟨h1, h2⟩, h3⟩, h4⟩
      refine ⟨⟨_, ⟨h1, rfl⟩, h2⟩, h3, ?_, ?_⟩
      · intro l hl
        rw [hl] at h4
        exact h4
      · intro l hl hs
        rw [hl, hs] at h4
        exact h4
    · rintro ⟨⟨z, ⟨h1, h1'⟩, h2⟩, h3, h4, h5⟩
      refine ⟨⟨⟨h1, h1'.symm ▸ h2⟩, h3⟩, ?_⟩
      rcases hl : o.ldr with _ | a
      · rcases hs : o.sldr with _ | b
        · simp only [Option.or_none, Option.elim_none]
          linarith
        · exact h5 b hl hs
      · exact h4 a hl
  constructor
  · intro h
    rw [if_pos (key.2 h)]
  · intro h
    rw [if_neg (fun hc => h (key.1 hc))]

/-- C67. With radar data four gates from the top or lower and a temperature known in some gate all day, the rain flag
of a profile is 1 exactly if the precipitation is liquid and rain is seen: by the disdrometer if its data are
available in that profile, otherwise by the radar three gates above its lowest gate with data. It is masked only
where the weather code is, and 0 otherwise. -/
theorem C67_rain (o : RainInput α) (g : ℕ) (hg : Spec.LowestGate o g) (hn : g + 3 < o.nH)
    (htw : ∃ h < o.nH, ∀ t < o.nT, o.tw t h ≠ none) :
    ∃ rain, o.profilesWithRain = .ok rain ∧ ∀ t < o.nT,
      (rain t = none ↔ ∃ d code, o.disdrometer = some d ∧ d.synop = some code ∧ code t = none) ∧
      (rain t = some 1 ↔ Spec.LiquidPrecipitation o t ∧
        (∀ d rate n, o.disdrometer = some d → d.rainfallRate t = some rate → d.nParticles t = some n →
          Spec.RainyDisdrometer rate n) ∧
        ((∀ d, o.disdrometer = some d → d.rainfallRate t = none ∨ d.nParticles t = none) →
          Spec.RainyEcho o t (g + 3))) ∧
      (rain t = none ∨ rain t = some 0 ∨ rain t = some 1) := by
  obtain ⟨r, hr, hr'⟩ := rainFromRadarEcho_iff o g hg hn
  -- the combined evidence
  have hev : ∀ t, ((o.rainFromDisdrometer t).getD (r t) = 1 ↔
      (∀ d rate n, o.disdrometer = some d → d.rainfallRate t = some rate → d.nParticles t = some n →
        Spec.RainyDisdrometer rate n) ∧
      ((∀ d, o.disdrometer = some d → d.rainfallRate t = none ∨ d.nParticles t = none) →
        Spec.RainyEcho o t (g + 3))) ∧
      ((o.rainFromDisdrometer t).getD (r t) = 0 ∨ (o.rainFromDisdrometer t).getD (r t) = 1) := by
    intro t
    have hecho : (r t = 1 ↔ Spec.RainyEcho o t (g + 3)) ∧ (r t = 0 ∨ r t = 1) := by
      by_cases he : Spec.RainyEcho o t (g + 3)
      · rw [(hr' t).1 he]; simp [he]
      · rw [(hr' t).2 he]; simp [he]
    unfold RainInput.rainFromDisdrometer
    rcases hd : o.disdrometer with _ | d
    · simp only [Option.getD_none, reduceCtorEq, false_implies, implies_true, true_and, true_implies]
      exact hecho
    · rcases h1 : d.rainfallRate t with _ | rate
      · simp only [h1, Option.getD_none, Option.some.injEq]
        refine ⟨?_, hecho.2⟩
        rw [hecho.1]
        constructor
        · intro he
          refine ⟨?_, fun _ => he⟩
          rintro d' rate n rfl h2
          rw [h1] at h2; cases h2
        · rintro ⟨-, h⟩
          exact h fun d' hd' => Or.inl (hd' ▸ h1)
      · rcases h2 : d.nParticles t with _ | n
        · simp only [h1, h2, Option.getD_none, Option.some.injEq]
          refine ⟨?_, hecho.2⟩
          rw [hecho.1]
          constructor
          · intro he
            refine ⟨?_, fun _ => he⟩
            rintro d' rate n rfl - h3
            rw [h2] at h3; cases h3
          · rintro ⟨-, h⟩
            exact h fun d' hd' => Or.inr (hd' ▸ h2)
        · have hthr : (25 / 100 * (1 / (3600 / (1 / 1000))) : α) = 1 / 14400000 := by norm_num
          simp only [h1, h2, Option.getD_some, Option.some.injEq, hthr]
          by_cases hc : (1 / 14400000 : α) < rate ∧ 30 < n
          · rw [if_pos hc]
            refine ⟨?_, Or.inr rfl⟩
            simp only [true_iff]
            refine ⟨?_, ?_⟩
            · rintro d' rate' n' rfl h3 h4
              rw [h1] at h3; rw [h2] at h4
              cases h3; cases h4
              exact hc
            · intro h
              rcases h d rfl with h | h
              · rw [h1] at h; cases h
              · rw [h2] at h; cases h
          · rw [if_neg hc]
            refine ⟨?_, Or.inl rfl⟩
            simp only [zero_ne_one, false_iff, not_and]
            intro h
            exact absurd (h d rate n rfl h1 h2) hc
  unfold RainInput.profilesWithRain
  simp only [hr, bind, Except.bind, pure, Except.pure]
  rcases hsyn : o.disdrometer.bind (·.synop) with _ | wawa
  · -- no weather code
    have hno : ∀ d, o.disdrometer = some d → d.synop = none := by
      intro d hd
      rw [hd] at hsyn
      exact hsyn
    obtain ⟨h0, hh0, hall⟩ := htw
    have hex : ∃ first, (List.range o.nH).find? (fun h => (List.range o.nT).all fun t => (o.tw t h).isSome)
        = some first := by
      rcases hf : (List.range o.nH).find? (fun h => (List.range o.nT).all fun t => (o.tw t h).isSome) with _ | f
      · rw [find_range_none] at hf
        have := hf h0 hh0
        simp only [List.all_eq_false, List.mem_range] at this
        obtain ⟨t, ht, hn⟩ := this
        exact absurd (Option.isSome_iff_ne_none.2 (hall t ht)) hn
      · exact ⟨f, rfl⟩
    obtain ⟨first, hfirst⟩ := hex
    simp only [hfirst]
    refine ⟨_, rfl, fun t ht => ?_⟩
    rw [find_range_some] at hfirst
    obtain ⟨f1, f2, f3⟩ := hfirst
    simp only [List.all_eq_true, List.mem_range, Option.isSome_iff_ne_none] at f1
    simp only [List.all_eq_false, List.mem_range, Option.isSome_iff_ne_none, not_not] at f3
    refine ⟨?_, ?_, ?_⟩
    · simp only [reduceCtorEq, false_iff]
      rintro ⟨d, code, hd, hc, -⟩
      rw [hno d hd] at hc
      cases hc
    · obtain ⟨x, hx⟩ := Option.ne_none_iff_exists'.1 (f1 t ht)
      have hliq : Spec.LiquidPrecipitation o t ↔ 27316 / 100 + 5 < x := by
        unfold Spec.LiquidPrecipitation
        constructor
        · rintro ⟨-, h⟩
          obtain ⟨g', g1, g2, g3, y, hy, hlt⟩ := h hno
          have : g' = first := by
            rcases Nat.lt_trichotomy g' first with h | h | h
            · obtain ⟨t', ht', hn'⟩ := f3 g' h
              exact absurd hn' (g2 t' ht')
            · exact h
            · obtain ⟨t', ht', hn'⟩ := g3 first h
              exact absurd hn' (f1 t' ht')
          subst this
          rw [hx] at hy
          cases hy
          have : (27816 / 100 : α) = 27316 / 100 + 5 := by norm_num
          rwa [← this]
        · intro h
          refine ⟨?_, fun _ => ⟨first, f2, f1, f3, x, hx, ?_⟩⟩
          · intro d code hd hc
            rw [hno d hd] at hc; cases hc
          · have : (27816 / 100 : α) = 27316 / 100 + 5 := by norm_num
            rwa [this]
      rw [hliq, hx, Option.getD_some]
      simp only [Option.some.injEq]
      split
      · next h => rw [(hev t).1]; simp [h]
      · next h => simp [h]
    · right
      split
      · rcases (hev t).2 with h | h <;> simp [h]
      · exact Or.inl rfl
  · -- a weather code
    obtain ⟨d, hd, hds⟩ : ∃ d, o.disdrometer = some d ∧ d.synop = some wawa := by
      rcases hd : o.disdrometer with _ | d
      · rw [hd] at hsyn; cases hsyn
      · rw [hd] at hsyn; exact ⟨d, rfl, hsyn⟩
    refine ⟨_, rfl, fun t ht => ?_⟩
    refine ⟨?_, ?_, ?_⟩
    · rw [Option.map_eq_none_iff]
      constructor
      · intro h; exact ⟨d, wawa, hd, hds, h⟩
      · rintro ⟨d', c', h1, h2, h3⟩
        rw [hd] at h1; cases h1
        rw [hds] at h2; cases h2
        exact h3
    · have hliq : Spec.LiquidPrecipitation o t ↔ ∃ w, wawa t = some w ∧ 57 ≤ w ∧ w ≤ 68 := by
        unfold Spec.LiquidPrecipitation
        constructor
        · rintro ⟨h, -⟩
          exact h d wawa hd hds
        · intro h
          refine ⟨?_, ?_⟩
          · intro d' c' h1 h2
            rw [hd] at h1; cases h1
            rw [hds] at h2; cases h2
            exact h
          · intro hno
            rw [hno d hd] at hds; cases hds
      rw [hliq]
      rcases hw : wawa t with _ | w
      · simp
      · simp only [Option.map_some, Option.some.injEq, exists_eq_left']
        split
        · next h => rw [(hev t).1]; simp [h]
        · next h => simp [h]
    · rcases hw : wawa t with _ | w
      · exact Or.inl rfl
      · right
        simp only [Option.map_some]
        split
        · rcases (hev t).2 with h | h <;> simp [h]
        · exact Or.inl rfl

theorem profilesWithRain_values (o : RainInput α) (rain : ℕ → Option ℤ) (h : o.profilesWithRain = .ok rain) (t : ℕ) :
    rain t = none ∨ rain t = some 0 ∨ rain t = some 1 := by
  unfold RainInput.profilesWithRain at h
  rcases h1 : o.rainFromRadarEcho with e | r
  · simp only [h1, bind, Except.bind, reduceCtorEq] at h
  have hr : r t = 0 ∨ r t = 1 := by
    unfold RainInput.rainFromRadarEcho at h1
    simp only at h1
    split at h1
    · cases h1
    · have h1 := Except.ok.inj h1
      rw [← h1]
      simp only
      split
      · exact Or.inr rfl
      · exact Or.inl rfl
  have hd : (o.rainFromDisdrometer t).getD (r t) = 0 ∨ (o.rainFromDisdrometer t).getD (r t) = 1 := by
    unfold RainInput.rainFromDisdrometer
    rcases o.disdrometer with _ | d
    · exact hr
    · rcases h2 : d.rainfallRate t with _ | rate
      · simp only [h2, Option.getD_none]; exact hr
      · rcases h3 : d.nParticles t with _ | n
        · simp only [h2, h3, Option.getD_none]; exact hr
        · simp only [h2, h3, Option.getD_some]
          split
          · exact Or.inr rfl
          · exact Or.inl rfl
  simp only [h1, bind, Except.bind, pure, Except.pure] at h
  split at h
  · next wawa _ =>
    have h := Except.ok.inj h
    rw [← h]
    rcases hw : wawa t with _ | w
    · simp only [hw]; exact Or.inl rfl
    · right
      simp only [hw, Option.map_some, Option.some.injEq]
      split
      · exact hd
      · exact Or.inl rfl
  · split at h
    · cases h
    · have h := Except.ok.inj h
      rw [← h]
      right
      simp only [Option.some.injEq]
      split
      · exact hd
      · exact Or.inl rfl

/-- C67. The clutter actually reported: the first ten gates with an absolute velocity below 0.05 m/s, in rain or
not. -/
theorem C67_clutter (o : RainInput α) (rain : ℕ → Option ℤ) (clutter : Grid Bool)
    (h : o.rainAndClutter = .ok (rain, clutter)) (t k : ℕ) :
    clutter t k = true ↔ k < 10 ∧ ∃ v, o.v.get t k = some v ∧ |v| < 5 / 100 := by
  unfold RainInput.rainAndClutter at h
  rcases h1 : o.profilesWithRain with e | r
  · simp only [h1, bind, Except.bind, reduceCtorEq] at h
  · simp only [h1, bind, Except.bind, pure, Except.pure, findClutter] at h
    split at h
    · cases h
    · next hn =>
      split at hn
      · cases hn
      · have hn := Except.ok.inj hn
        have h := Except.ok.inj h
        obtain ⟨rfl, rfl⟩ := Prod.mk.inj h
        rw [← hn]
        simp only [masked_get_some]
        by_cases hk : k < 10
        · rw [if_pos hk]
          simp only [hk, true_and]
          by_cases ht : o.v.mask t k = false ∧ |o.v.data t k| < 5 / 100
          · have hb : (!o.v.mask t k && decide (|o.v.data t k| < 5 / 100)) = true := by
              simp [ht.1, ht.2]
            rw [if_pos hb]
            have : (∃ v, (o.v.mask t k = false ∧ o.v.data t k = v) ∧ |v| < 5 / 100) := ⟨_, ⟨ht.1, rfl⟩, ht.2⟩
            simp only [this, iff_true]
            rcases profilesWithRain_values o _ h1 t with h | h | h <;> rw [h] <;> simp [bitInvert]
          · have hb : ¬ (!o.v.mask t k && decide (|o.v.data t k| < 5 / 100)) = true := by
              simpa using ht
            rw [if_neg hb]
            have : ¬ (∃ v, (o.v.mask t k = false ∧ o.v.data t k = v) ∧ |v| < 5 / 100) := by
              rintro ⟨v, ⟨h1, h2⟩, h3⟩
              exact ht ⟨h1, h2.symm ▸ h3⟩
            simp only [this, iff_false]
            rcases profilesWithRain_values o _ h1 t with h | h | h <;> rw [h] <;> simp
        · rw [if_neg hk]
          simp [hk]

/-- C67. A single profile is rejected. -/
theorem C67_single_profile_raises (o : RainInput α) (h1 : o.nT ≤ 1) : ∃ e, o.rainAndClutter = .error e := by
  unfold RainInput.rainAndClutter
  rcases o.profilesWithRain with e | r
  · exact ⟨e, rfl⟩
  · simp only [bind, Except.bind, findClutter, if_pos h1]
    exact ⟨_, rfl⟩

end

/-- Two profiles of five gates, disdrometer and radar rain, 285 K, zero velocity in the lowest gate. -/
def Spec.rainyDay : RainInput ℚ :=
  { nT := 2, nH := 5,
    z := ⟨fun _ _ => 10, fun _ _ => false⟩
    v := ⟨fun _ h => if h = 0 then 0 else -3, fun _ _ => false⟩
    ldr := none, sldr := none
    tw := fun _ _ => some 285
    disdrometer := none }

/-- The hypotheses of `C67_rain` are met. -/
example : Spec.LowestGate Spec.rainyDay 0 ∧ 0 + 3 < Spec.rainyDay.nH ∧
    (∃ h < Spec.rainyDay.nH, ∀ t < Spec.rainyDay.nT, Spec.rainyDay.tw t h ≠ none) :=
  ⟨⟨by decide, ⟨0, by decide, by decide +kernel⟩, by intro h hh; omega⟩, by decide, 0, by decide, by
    intro t _; exact Option.some_ne_none _⟩

/-- C67, code disagreement: clutter should be looked for in rain-free profiles only, but the rain flag is an integer
array, so that its complement is never zero and clutter is reported in rain too. -/
theorem C67_clutter_reported_in_rain : ∃ (o : RainInput ℚ) (rain : ℕ → Option ℤ) (clutter : Grid Bool),
    o.rainAndClutter = .ok (rain, clutter) ∧ ∃ t < o.nT, ∃ h, rain t = some 1 ∧ clutter t h = true := by
  have key : (match Spec.rainyDay.rainAndClutter with
    | .ok r => decide (r.1 0 = some 1 ∧ r.2 0 0 = true)
    | .error _ => false) = true := by decide +kernel
  rcases h : Spec.rainyDay.rainAndClutter with e | ⟨rain, clutter⟩
  · rw [h] at key; cases key
  · rw [h] at key
    simp only [decide_eq_true_eq] at key
    exact ⟨_, rain, clutter, h, 0, by decide, 0, key.1, key.2⟩

end Cloudnet
