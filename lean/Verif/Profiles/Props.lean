import Mathlib.Tactic
import Verif.IceFile.Props
import Verif.DerFile.Props
import Verif.LwcFile.Props
import Verif.DrizzleFile.Props
import Verif.ClassFile.Props

/-!
C167: the retrievals treat each profile on its own. A categorize file whose profiles are a selection of those of another one (some of them, in
any order, possibly repeated) gives products whose profiles are the same selection.
-/

namespace Cloudnet

namespace Spec

/-- The categorize file with the `n` profiles `pick 0`, `pick 1`, … of another one, as far as ice products read it. -/
def iceSelection (f : IceInput) (n : ℕ) (pick : ℕ → ℕ) : IceInput :=
  { f with
    nT := n
    time := fun t => f.time (pick t)
    z := f.z.map fun z t => z (pick t)
    zError := f.zError.map fun z t => z (pick t)
    categoryBits := fun t => f.categoryBits (pick t)
    qualityBits := fun t => f.qualityBits (pick t)
    rain := fun name => (f.rain name).map fun r t => r (pick t) }

/-- As far as effective radius of droplets reads it. -/
def derSelection (f : DerInput) (n : ℕ) (pick : ℕ → ℕ) : DerInput :=
  { f with
    nT := n
    z := f.z.map fun z t => z (pick t)
    lwp := f.lwp.map fun l t => l (pick t)
    categoryBits := fun t => f.categoryBits (pick t)
    rain := fun name => (f.rain name).map fun r t => r (pick t) }

/-- As far as liquid water content reads it. -/
def lwcSelection (f : LwcInput) (n : ℕ) (pick : ℕ → ℕ) : LwcInput :=
  { f with
    nT := n
    time := fun t => f.time (pick t)
    lwp := f.lwp.map fun l t => l (pick t)
    lwpError := f.lwpError.map fun l t => l (pick t)
    categoryBits := fun t => f.categoryBits (pick t)
    qualityBits := fun t => f.qualityBits (pick t)
    rain := fun name => (f.rain name).map fun r t => r (pick t) }

/-- As far as drizzle reads it. -/
def drizzleSelection (f : DrizzleCategorize) (n : ℕ) (pick : ℕ → ℕ) : DrizzleCategorize :=
  { f with
    nT := n
    time := fun t => f.time (pick t)
    z := f.z.map fun z t => z (pick t)
    beta := f.beta.map fun b t => b (pick t)
    v := f.v.map fun v t => v (pick t)
    vSigma := f.vSigma.map fun v t => v (pick t)
    width := f.width.map fun w t => w (pick t)
    zError := f.zError.map (Sum.map id fun z t => z (pick t))
    categoryBits := fun t => f.categoryBits (pick t)
    qualityBits := fun t => f.qualityBits (pick t)
    rain := fun name => (f.rain name).map fun r t => r (pick t) }

end Spec

theorem getIsRain_selection (nc : String → Option (ℕ → Option ℝ)) (pick : ℕ → ℕ) :
    getIsRain (fun name => (nc name).map fun r t => r (pick t)) = (getIsRain nc).map fun r t => r (pick t) := by
  unfold getIsRain
  cases h1 : nc "rain_detected" <;> cases h2 : nc "rainfall_rate" <;> cases h3 : nc "rain_rate" <;>
    simp [getIsRain.go, h1, h2, h3, Except.map] <;> rfl

theorem iceMasks_selection (f : IceInput) (n : ℕ) (pick : ℕ → ℕ) (hn : 2 ≤ n) (m : IceMasks) (hm : iceMasks f = .ok m) :
    iceMasks (Spec.iceSelection f n pick) = .ok ⟨fun t => m.isIce (pick t), fun t => m.wouldBeIce (pick t), fun t => m.correctedIce (pick t),
      fun t => m.uncorrectedIce (pick t), fun t => m.clearAboveRain (pick t)⟩ := by
  unfold iceMasks at hm ⊢
  unfold Spec.iceSelection
  dsimp only
  rw [getIsRain_selection]
  rw [readCategoryBits_eq, readQualityBits_eq] at hm ⊢
  cases hr : getIsRain f.rain with
  | error e => rw [hr] at hm; cases hm
  | ok rain =>
    rw [hr] at hm
    simp only [Except.bind, Except.map] at hm ⊢
    unfold iceClassification at hm ⊢
    dsimp only at hm ⊢
    by_cases h1 : f.nT ≤ 1
    · rw [if_pos h1] at hm; cases hm
    · rw [if_neg h1] at hm
      cases hm
      rw [if_neg (by omega)]
      rfl

/-- **C167.** Ice water content, its error and its status. -/
theorem C167_iwc (f : IceInput) (file : IwcFile) (hf : generateIwc f = .ok file) (n : ℕ) (hn : 2 ≤ n) (pick : ℕ → ℕ) :
    ∃ part, generateIwc (Spec.iceSelection f n pick) = .ok part ∧ part.bias = file.bias ∧
      ∀ t h, part.iwc t h = file.iwc (pick t) h ∧ part.error t h = file.error (pick t) h ∧ part.status t h = file.status (pick t) h := by
  unfold generateIwc at hf ⊢
  cases h1 : iceSource "iwc" f with
  | error e => rw [h1] at hf; cases hf
  | ok source =>
  have h1' : iceSource "iwc" (Spec.iceSelection f n pick) = .ok source := h1
  cases h2 : iceMasks f with
  | error e => rw [h1, h2] at hf; cases hf
  | ok m =>
  cases h3 : f.z with
  | none => rw [h1, h2, h3] at hf; cases hf
  | some z =>
  cases h4 : f.zBias with
  | none => rw [h1, h2, h3, h4] at hf; cases hf
  | some bias =>
  cases h5 : f.zSensitivity with
  | none => rw [h1, h2, h3, h4, h5] at hf; cases hf
  | some s =>
  cases h6 : f.zError with
  | none => rw [h1, h2, h3, h4, h5, h6] at hf; cases hf
  | some zError =>
  rw [h1, h2, h3, h4, h5, h6] at hf
  simp only [Except.bind, Except.map, readVar] at hf
  cases hf
  have e3 : (Spec.iceSelection f n pick).z = some fun t => z (pick t) := by simp [Spec.iceSelection, h3]
  have e4 : (Spec.iceSelection f n pick).zBias = some bias := h4
  have e5 : (Spec.iceSelection f n pick).zSensitivity = some s := h5
  have e6 : (Spec.iceSelection f n pick).zError = some fun t => zError (pick t) := by simp [Spec.iceSelection, h6]
  rw [h1', iceMasks_selection f n pick hn m h2, e3, e4, e5, e6]
  simp only [Except.bind, Except.map, readVar]
  exact ⟨_, rfl, rfl, fun t h => ⟨rfl, rfl, rfl⟩⟩

/-- **C167.** Effective radius of ice. -/
theorem C167_ier (f : IceInput) (file : IerFile) (hf : generateIer f = .ok file) (n : ℕ) (hn : 2 ≤ n) (pick : ℕ → ℕ) :
    ∃ part, generateIer (Spec.iceSelection f n pick) = .ok part ∧
      ∀ t h, part.ier t h = file.ier (pick t) h ∧ part.error t h = file.error (pick t) h ∧ part.status t h = file.status (pick t) h := by
  unfold generateIer at hf ⊢
  cases h1 : iceSource "ier" f with
  | error e => rw [h1] at hf; cases hf
  | ok source =>
  have h1' : iceSource "ier" (Spec.iceSelection f n pick) = .ok source := h1
  cases h2 : iceMasks f with
  | error e => rw [h1, h2] at hf; cases hf
  | ok m =>
  cases h3 : f.z with
  | none => rw [h1, h2, h3] at hf; cases hf
  | some z =>
  rw [h1, h2, h3] at hf
  simp only [Except.bind, Except.map, readVar] at hf
  cases hf
  have e3 : (Spec.iceSelection f n pick).z = some fun t => z (pick t) := by simp [Spec.iceSelection, h3]
  rw [h1', iceMasks_selection f n pick hn m h2, e3]
  simp only [Except.bind, Except.map, readVar]
  exact ⟨_, rfl, fun t h => ⟨rfl, rfl, rfl⟩⟩

/-- **C167.** Effective radius of droplets: all variables of the selected profiles. -/
theorem C167_der (p : Option DerParameters) (f : DerInput) (file : DerFile) (hf : generateDer p f = .ok file) (n : ℕ) (pick : ℕ → ℕ)
    (hpick : ∀ t < n, pick t < f.nT) :
    ∃ part, generateDer p (Spec.derSelection f n pick) = .ok part ∧
      ∀ t < n, ∀ h < f.nH, part.der t h = file.der (pick t) h ∧ part.error t h = file.error (pick t) h ∧
        part.scaled t h = file.scaled (pick t) h ∧ part.scaledError t h = file.scaledError (pick t) h ∧ part.n t h = file.n (pick t) h ∧
        part.status t h = file.status (pick t) h := by
  obtain ⟨part, hpart⟩ : ∃ part, generateDer p (Spec.derSelection f n pick) = .ok part := by
    obtain ⟨z, lwp, rain, -, h1, h2, h3, -⟩ := generateDer_ok p f file hf
    obtain ⟨ps, hps, -⟩ := C21_bases_tops_pair n f.nH (fun t h => (f.categoryBits (pick t) h).testBit 0)
    unfold generateDer Spec.derSelection
    dsimp only
    rw [readCategoryBits_eq, getIsRain_selection, h1, h2, h3]
    simp only [Option.map_some, Except.map, Except.bind, readVar, hps]
    exact ⟨_, rfl⟩
  refine ⟨part, hpart, fun t ht h hh => ?_⟩
  obtain ⟨z, lwp, rain, d, h1, h2, h3, a1, a2, a3, a4, a5, ⟨c, hc, a6⟩, a7, a8⟩ := generateDer_ok p f file hf
  obtain ⟨z', lwp', rain', d', h1', h2', h3', b1, b2, b3, b4, b5, ⟨c', hc', b6⟩, b7, b8⟩ := generateDer_ok p _ part hpart
  have ez : z' = fun t => z (pick t) := by
    have : (Spec.derSelection f n pick).z = some fun t => z (pick t) := by simp [Spec.derSelection, h1]
    rw [this] at h1'; exact (Option.some.inj h1').symm
  have el : lwp' = fun t => lwp (pick t) := by
    have : (Spec.derSelection f n pick).lwp = some fun t => lwp (pick t) := by simp [Spec.derSelection, h2]
    rw [this] at h2'; exact (Option.some.inj h2').symm
  have er : rain' = fun t => rain (pick t) := by
    have : getIsRain (Spec.derSelection f n pick).rain = .ok fun t => rain (pick t) := by
      show getIsRain (fun name => (f.rain name).map fun r t => r (pick t)) = _
      rw [getIsRain_selection, h3]; rfl
    rw [this] at h3'; exact (Except.ok.inj h3').symm
  subst ez el er
  have hd : d' t h = d (pick t) h := by
    by_cases hcase : ¬ Spec.DropletPixel f (pick t) h ∨ z (pick t) h = none
    · rw [a7 (pick t) (hpick t ht) h hh hcase]
      exact b7 t ht h hh hcase
    · push_neg at hcase
      obtain ⟨hdr, hz⟩ := hcase
      obtain ⟨x, hx⟩ := Option.ne_none_iff_exists'.1 hz
      obtain ⟨base, top, hl, hb, htop⟩ := droplet_layer f (pick t) h hh hdr
      rw [a8 (pick t) (hpick t ht) base top hl h hb htop x hx]
      exact b8 t ht base top hl h hb htop x hx
  have ed : part.der t h = file.der (pick t) h := by rw [a1, b1]; simp only [hd]
  refine ⟨ed, ?_, ?_, ?_, ?_, ?_⟩
  · rw [a2, b2]; simp only [hd]
  · rw [a3, b3]; unfold maskedByLwp; simp only [hd]; rfl
  · rw [a4, b4]; unfold maskedByLwp; simp only [hd]; rfl
  · rw [a5, b5]; unfold maskedByLwp; simp only [hd]; rfl
  · rw [readCategoryBits_eq] at hc hc'
    cases hc; cases hc'
    rw [a6, b6]
    unfold derStatus
    simp only [Grid.assign_apply, Grid.const_apply, gand, gnot, ed]
    rfl

/-- **C167.** Liquid water content and its status. -/
theorem C167_lwc (g : ℝ → ℝ → ℝ) (f : LwcInput) (hg : ∀ t h, 0 < g (f.temperatureAt t h) (f.pressureAt t h)) (hh : Spec.GoodHeights f)
    (file : LwcFile) (hf : generateLwc g f = .ok file) (n : ℕ) (hn : 2 ≤ n) (pick : ℕ → ℕ) (hpick : ∀ t < n, pick t < f.nT) :
    ∃ part, generateLwc g (Spec.lwcSelection f n pick) = .ok part ∧
      ∀ t < n, ∀ h < f.nH, part.lwc t h = file.lwc (pick t) h ∧ part.status t h = file.status (pick t) h := by
  have hg' : ∀ t h, 0 < g ((Spec.lwcSelection f n pick).temperatureAt t h) ((Spec.lwcSelection f n pick).pressureAt t h) := fun t h => hg (pick t) h
  have hh' : Spec.GoodHeights (Spec.lwcSelection f n pick) := hh
  have ha : ∀ t < f.nT, ∀ h < f.nH, Spec.AdiabaticContent g f t h (f.adiabatic g t h) := fun t ht h hhn =>
    (adiabatic_content g f hg hh t h ht hhn _).2 rfl
  have ha' : ∀ t < n, ∀ h < f.nH, Spec.AdiabaticContent g (Spec.lwcSelection f n pick) t h (f.adiabatic g (pick t) h) := fun t ht h hhn =>
    ha (pick t) (hpick t ht) h hhn
  have hrain : ∀ t, Spec.RainyProfile (Spec.lwcSelection f n pick) t ↔ Spec.RainyProfile f (pick t) := by
    intro t
    unfold Spec.RainyProfile
    show (∃ rain, getIsRain (fun name => (f.rain name).map fun r t => r (pick t)) = .ok rain ∧ rain t = true) ↔ _
    rw [getIsRain_selection]
    cases getIsRain f.rain with
    | error e => simp [Except.map]
    | ok r => simp [Except.map]
  have hlwp : ∀ t, Spec.lwpOf (Spec.lwcSelection f n pick) t = Spec.lwpOf f (pick t) := by
    intro t
    unfold Spec.lwpOf Spec.lwcSelection
    dsimp only
    cases f.lwp <;> rfl
  have hext : ∀ t b, Spec.ExtendedCloud (Spec.lwcSelection f n pick) (fun t h => f.adiabatic g (pick t) h) t b ↔
      Spec.ExtendedCloud f (f.adiabatic g) (pick t) b := by
    intro t b
    unfold Spec.ExtendedCloud
    rw [hlwp]
    show (∃ rain, getIsRain (fun name => (f.rain name).map fun r t => r (pick t)) = .ok rain ∧ _) ↔ _
    rw [getIsRain_selection]
    cases getIsRain f.rain with
    | error e => simp [Except.map]
    | ok r =>
      constructor
      · rintro ⟨rain, hr, h⟩
        cases hr
        exact ⟨r, rfl, h⟩
      · rintro ⟨rain, hr, h⟩
        cases hr
        exact ⟨_, rfl, h⟩
  obtain ⟨w1, w2, w3, -, w5, w6⟩ := (C142_written g f hg hh _ ha).1 ⟨file, hf⟩
  obtain ⟨part, hpart⟩ : ∃ part, generateLwc g (Spec.lwcSelection f n pick) = .ok part := by
    refine (C142_written g _ hg' hh' (fun t h => f.adiabatic g (pick t) h) ha').2 ⟨?_, ?_, ?_, hn, w5, fun t ht => ?_⟩
    · simpa [Spec.lwcSelection] using w1
    · simpa [Spec.lwcSelection] using w2
    · simpa [Spec.lwcSelection] using w3
    · rw [hext]; exact w6 (pick t) (hpick t ht)
  refine ⟨part, hpart, fun t ht h hhn => ⟨?_, ?_⟩⟩
  · obtain ⟨a1, a2⟩ := C142_content g f hg hh _ ha file hf (pick t) (hpick t ht)
    obtain ⟨b1, b2⟩ := C142_content g _ hg' hh' _ ha' part hpart t ht
    rw [hrain, hlwp] at b1 b2
    by_cases hc : Spec.RainyProfile f (pick t) ∨ Spec.lwpOf f (pick t) = none ∨ (∀ h < f.nH, ¬ Spec.DropletGate f (pick t) h)
    · rw [a1 hc h, b1 hc h]
    · push_neg at hc
      obtain ⟨c1, c2, c3⟩ := hc
      obtain ⟨p, hp⟩ := Option.ne_none_iff_exists'.1 c2
      rw [(a2 p c1 hp c3).2 h hhn]
      exact (b2 p c1 hp c3).2 h hhn
  · obtain ⟨a4, a2, a1, a3, a0⟩ := C142_status g f hg hh _ ha file hf (pick t) h (hpick t ht)
    obtain ⟨b4, b2, b1, b3, b0⟩ := C142_status g _ hg' hh' _ ha' part hpart t h ht
    simp only [hrain, hlwp, hext] at b4 b2 b1 b3
    have k4 : part.status t h = 4 ↔ file.status (pick t) h = 4 := b4.trans a4.symm
    have k2 : part.status t h = 2 ↔ file.status (pick t) h = 2 := b2.trans a2.symm
    have k1 : part.status t h = 1 ↔ file.status (pick t) h = 1 := b1.trans a1.symm
    have k3 : part.status t h = 3 ↔ file.status (pick t) h = 3 := b3.trans a3.symm
    omega

theorem gradient1_shift (n m k : ℕ) (a b : ℕ → ℝ) (i : ℕ) (h0 : 0 < i) (h1 : i + 1 < n) (h2 : i + k + 1 < m)
    (h : ∀ j < n, a j = b (j + k)) : gradient1 n a i = gradient1 m b (i + k) := by
  unfold gradient1
  rw [if_neg (by omega), if_neg (by omega), if_neg (by omega), if_neg (by omega), h (i + 1) h1, h (i - 1) (by omega),
    show i + 1 + k = i + k + 1 by omega, show i - 1 + k = i + k - 1 by omega]

theorem gradient1_congr (n : ℕ) (hn : 2 ≤ n) (a b : ℕ → ℝ) (i : ℕ) (hi : i < n) (h : ∀ j < n, a j = b j) : gradient1 n a i = gradient1 n b i := by
  unfold gradient1
  by_cases h0 : i = 0
  · subst h0
    rw [if_pos rfl, if_pos rfl, h 1 (by omega), h 0 (by omega)]
  · rw [if_neg h0, if_neg h0]
    by_cases h1 : i = n - 1
    · rw [if_pos h1, if_pos h1, h i hi, h (i - 1) (by omega)]
    · rw [if_neg h1, if_neg h1, h (i + 1) (by omega), h (i - 1) (by omega)]

/-- **C167.** The error of liquid water content also depends on the two neighbouring profiles. So a part of the day has the same errors,
except at its first and last profile. -/
theorem C167_lwc_error (g : ℝ → ℝ → ℝ) (f : LwcInput) (hg : ∀ t h, 0 < g (f.temperatureAt t h) (f.pressureAt t h)) (hh : Spec.GoodHeights f)
    (file : LwcFile) (hf : generateLwc g f = .ok file) (first n : ℕ) (hn : first + n ≤ f.nT) (part : LwcFile)
    (hpart : generateLwc g (Spec.lwcSelection f n fun t => t + first) = .ok part) (t h : ℕ) (h0 : 0 < t) (ht : t + 1 < n) (hhn : h < f.nH) :
    part.error t h = file.error (t + first) h := by
  obtain ⟨part', hp', hsame⟩ := C167_lwc g f hg hh file hf n (by omega) (fun t => t + first) (fun t ht => by omega)
  rw [hpart] at hp'
  obtain rfl := Except.ok.inj hp'
  obtain ⟨lwp, lwpError, rain, h1, h2, h3, -, -, -, h6⟩ := generateLwc_ok g f file hf
  obtain ⟨lwp', lwpError', rain', h1', h2', h3', -, -, -, h6'⟩ := generateLwc_ok g _ part hpart
  have el : lwpError' = fun t => lwpError (t + first) := by
    have : (Spec.lwcSelection f n fun t => t + first).lwpError = some fun t => lwpError (t + first) := by simp [Spec.lwcSelection, h2]
    rw [this] at h2'; exact (Option.some.inj h2').symm
  have er : rain' = fun t => rain (t + first) := by
    have : getIsRain (Spec.lwcSelection f n fun t => t + first).rain = .ok fun t => rain (t + first) := by
      show getIsRain (fun name => (f.rain name).map fun r t => r (t + first)) = _
      rw [getIsRain_selection _ fun t => t + first, h3]; rfl
    rw [this] at h3'; exact (Except.ok.inj h3').symm
  have hlwp : ∀ t, Spec.lwpOf (Spec.lwcSelection f n fun t => t + first) t = Spec.lwpOf f (t + first) := by
    intro t
    unfold Spec.lwpOf Spec.lwcSelection
    dsimp only
    cases f.lwp <;> rfl
  subst el er
  unfold lwcError at h6 h6'
  by_cases hsz : f.nT ≤ 1 ∨ f.nH ≤ 1
  · rw [if_pos hsz] at h6; cases h6
  rw [if_neg hsz] at h6
  rw [if_neg (show ¬ ((Spec.lwcSelection f n fun t => t + first).nT ≤ 1 ∨ (Spec.lwcSelection f n fun t => t + first).nH ≤ 1) from
    (show ¬ (n ≤ 1 ∨ f.nH ≤ 1) by omega))] at h6'
  rw [← Except.ok.inj h6, ← Except.ok.inj h6']
  have e : ∀ s < n, ∀ k < f.nH, part.lwc s k = file.lwc (s + first) k := fun s hs k hk => (hsame s hs k hk).1
  have g1 : gradient1 n (fun t' => (part.lwc t' h).getD 0) t = gradient1 f.nT (fun t' => (file.lwc t' h).getD 0) (t + first) :=
    gradient1_shift n f.nT first _ _ t h0 ht (by omega) fun j hj => by rw [e j hj h hhn]
  have g2 : gradient1 f.nH (fun k => (part.lwc t k).getD 0) h = gradient1 f.nH (fun k => (file.lwc (t + first) k).getD 0) h :=
    gradient1_congr f.nH (by omega) _ _ h hhn fun j hj => by rw [e t (by omega) j hj]
  have g2' : gradient1 (Spec.lwcSelection f n fun t => t + first).nH (fun k => (part.lwc t k).getD 0) h =
    gradient1 f.nH (fun k => (file.lwc (t + first) k).getD 0) h := g2
  have g1' : gradient1 (Spec.lwcSelection f n fun t => t + first).nT (fun t' => (part.lwc t' h).getD 0) t =
    gradient1 f.nT (fun t' => (file.lwc t' h).getD 0) (t + first) := g1
  simp only [g1', g2', hlwp, e t (by omega) h hhn]

/-! Drizzle -/

/-- Row `t` of one solution is row `s` of another. -/
structure SameRow (p' p : DrizzleParams) (t s : ℕ) : Prop where
  Do : ∀ h, p'.Do t h = p.Do s h
  mu : ∀ h, p'.mu t h = p.mu s h
  S : ∀ h, p'.S t h = p.S s h
  corr : ∀ h, p'.betaCorr t h = p.betaCorr s h

/-- Pixels of other profiles do not matter. -/
theorem solveRow (d : DrizzleInput) (t : ℕ) : ∀ (l : List Pixel) (p' p : DrizzleParams), SameRow p' p t t →
    SameRow (l.foldl (solvePixel d) p') ((l.filter fun q => decide (q.1 = t)).foldl (solvePixel d) p) t t := by
  intro l
  induction l with
  | nil => exact fun _ _ h => h
  | cons q l ih =>
    intro p' p h
    rw [List.foldl_cons]
    by_cases hq : q.1 = t
    · rw [List.filter_cons_of_pos (by simpa using hq), List.foldl_cons]
      apply ih
      subst hq
      refine ⟨fun k => ?_, fun k => ?_, fun k => ?_, fun k => ?_⟩ <;>
        simp only [solvePixel, Grid.set_apply, h.corr, h.Do, h.mu, h.S]
    · rw [List.filter_cons_of_neg (by simpa using hq)]
      apply ih
      have hq' : ¬ t = q.1 := fun h => hq h.symm
      refine ⟨fun k => ?_, fun k => ?_, fun k => ?_, fun k => ?_⟩ <;>
        simp only [solvePixel, Grid.set_apply, hq', false_and, if_false, h.corr, h.Do, h.mu, h.S]

/-- Two retrievals with the same profile. -/
structure SameInput (d' d : DrizzleInput) (t s : ℕ) : Prop where
  mie : d'.mie = d.mie
  nH : d'.nH = d.nH
  heights : d'.heightAgl = d.heightAgl
  z : ∀ h, d'.z t h = d.z s h
  beta : ∀ h, d'.beta t h = d.beta s h
  v : ∀ h, d'.v t h = d.v s h
  width : ∀ h, d'.widthHt t h = d.widthHt s h
  drizzle : ∀ h, d'.drizzle t h = d.drizzle s h

theorem drizzleStep_same {d' d : DrizzleInput} {t s : ℕ} (h : SameInput d' d t s) (k : ℕ) (corr x : ℝ) :
    drizzleStep d' t k corr x = drizzleStep d s k corr x := by
  unfold drizzleStep findLutIndices betaZRatio
  rw [h.mie, h.z, h.beta, h.width]

theorem drizzleIterate_same {d' d : DrizzleInput} {t s : ℕ} (h : SameInput d' d t s) (k : ℕ) (corr : ℝ) : ∀ n x,
    drizzleIterate d' t k corr n x = drizzleIterate d s k corr n x := by
  intro n
  induction n with
  | zero => exact fun x => drizzleStep_same h k corr x
  | succ n ih =>
    intro x
    unfold drizzleIterate
    simp only [drizzleStep_same h, ih]

theorem solveRow_same {d' d : DrizzleInput} {t s : ℕ} (h : SameInput d' d t s) : ∀ (l : List ℕ) (p' p : DrizzleParams), SameRow p' p t s →
    SameRow ((l.map fun k => (t, k)).foldl (solvePixel d') p') ((l.map fun k => (s, k)).foldl (solvePixel d) p) t s := by
  intro l
  induction l with
  | nil => exact fun _ _ h => h
  | cons j l ih =>
    intro p' p hp
    simp only [List.map_cons, List.foldl_cons]
    apply ih
    refine ⟨fun k => ?_, fun k => ?_, fun k => ?_, fun k => ?_⟩ <;>
      simp only [solvePixel, Grid.set_apply, true_and, hp.corr, hp.Do, hp.mu, hp.S, drizzleIterate_same h, betaZRatio, h.z, h.beta, h.heights]

theorem whereGrid_row (nT nH : ℕ) (m : Grid Bool) (t : ℕ) (ht : t < nT) :
    ((whereGrid nT nH m).filter fun q => decide (q.1 = t)) = ((List.range nH).filter (m t)).map fun k => (t, k) := by
  rw [← filter_whereGrid nT nH m t nH ht le_rfl]
  apply List.filter_congr
  intro q hq
  have : q.2 < nH := by
    have := (mem_whereGrid nT nH m q).1 hq
    exact this.2.1
  simp [this]

theorem solveDrizzle_same {d' d : DrizzleInput} {t s : ℕ} (h : SameInput d' d t s) (ht : t < d'.nT) (hs : s < d.nT) :
    SameRow (solveDrizzle d') (solveDrizzle d) t s := by
  have h0 : ∀ t s, SameRow initDrizzleParams initDrizzleParams t s := fun t s => ⟨fun _ => rfl, fun _ => rfl, fun _ => rfl, fun _ => rfl⟩
  have h1 := solveRow d' t (whereGrid d'.nT d'.nH d'.drizzle) _ _ (h0 t t)
  have h2 := solveRow d s (whereGrid d.nT d.nH d.drizzle) _ _ (h0 s s)
  rw [whereGrid_row _ _ _ _ ht] at h1
  rw [whereGrid_row _ _ _ _ hs] at h2
  have e : (List.range d'.nH).filter (d'.drizzle t) = (List.range d.nH).filter (d.drizzle s) := by
    rw [h.nH]; exact congrArg (fun m => (List.range d.nH).filter m) (funext h.drizzle)
  rw [e] at h1
  have h3 := solveRow_same h ((List.range d.nH).filter (d.drizzle s)) _ _ (h0 t s)
  unfold solveDrizzle
  exact ⟨fun k => (h1.Do k).trans ((h3.Do k).trans (h2.Do k).symm), fun k => (h1.mu k).trans ((h3.mu k).trans (h2.mu k).symm),
    fun k => (h1.S k).trans ((h3.S k).trans (h2.S k).symm), fun k => (h1.corr k).trans ((h3.corr k).trans (h2.corr k).symm)⟩

/-- A result for profile `t` is that for profile `s` of another file. -/
def SameResult (t s : ℕ) : DrizzleResult ℝ → DrizzleResult ℝ → Prop
  | .scalar x, .scalar y => x = y
  | .grid a, .grid b => ∀ h, a t h = b s h
  | _, _ => False

theorem sameResult_lookup {t s : ℕ} {l' l : List (String × DrizzleResult ℝ)}
    (h : List.Forall₂ (fun a b => a.1 = b.1 ∧ SameResult t s a.2 b.2) l' l) (name : String) :
    (l'.lookup name = none ∧ l.lookup name = none) ∨ ∃ a b, l'.lookup name = some a ∧ l.lookup name = some b ∧ SameResult t s a b := by
  induction h with
  | nil => exact .inl ⟨rfl, rfl⟩
  | @cons a b l' l hab _ ih =>
    rw [List.lookup_cons, List.lookup_cons, ← hab.1]
    by_cases hn : (name == a.1) = true
    · rw [hn]; exact .inr ⟨_, _, rfl, rfl, hab.2⟩
    · rw [Bool.not_eq_true] at hn; rw [hn]; exact ih

theorem drizzleErrors_same {D' D : Grid ℝ} {z' z : Grid (Option ℝ)} {t s : ℕ} (hD : ∀ h, D' t h = D s h) (hz : ∀ h, z' t h = z s h) (b : ℝ) (h : ℕ) :
    (drizzleErrors D' z' b).Do t h = (drizzleErrors D z b).Do s h ∧ (drizzleErrors D' z' b).lwc t h = (drizzleErrors D z b).lwc s h ∧
    (drizzleErrors D' z' b).lwf t h = (drizzleErrors D z b).lwf s h ∧ (drizzleErrors D' z' b).S t h = (drizzleErrors D z b).S s h ∧
    (drizzleErrors D' z' b).N t h = (drizzleErrors D z b).N s h ∧ (drizzleErrors D' z' b).vDrizzle t h = (drizzleErrors D z b).vDrizzle s h := by
  unfold drizzleErrors stackErrors getDrizzleIndices
  simp only [Grid.assignFrom, Grid.const_apply, hD, hz, and_self]

theorem drizzleProducts_same {d' d : DrizzleInput} {p' p : DrizzleParams} {t s : ℕ} (h : SameInput d' d t s) (hp : SameRow p' p t s) (k : ℕ) :
    (drizzleProducts d' p').N t k = (drizzleProducts d p).N s k ∧ (drizzleProducts d' p').lwc t k = (drizzleProducts d p).lwc s k ∧
    (drizzleProducts d' p').lwf t k = (drizzleProducts d p).lwf s k ∧ (drizzleProducts d' p').vDrizzle t k = (drizzleProducts d p).vDrizzle s k ∧
    (drizzleProducts d' p').vAir t k = (drizzleProducts d p).vAir s k := by
  unfold drizzleProducts productIndices
  simp only [hp.Do, hp.mu, hp.S, h.z, h.beta, h.v, h.mie, and_self]

theorem drizzleResults_same {d' d : DrizzleInput} {t s : ℕ} (h : SameInput d' d t s) (ht : t < d'.nT) (hs : s < d.nT) {z' z : Grid (Option ℝ)}
    (hz : ∀ h, z' t h = z s h) (b zb bb : ℝ) :
    List.Forall₂ (fun a b => a.1 = b.1 ∧ SameResult t s a.2 b.2) (drizzleResults d' z' b zb bb) (drizzleResults d z b zb bb) := by
  have hp := solveDrizzle_same h ht hs
  have hr := drizzleProducts_same h hp
  have he := drizzleErrors_same hp.Do hz b
  unfold drizzleResults
  refine .cons ⟨rfl, fun k => congrArg some (hp.Do k)⟩ <| .cons ⟨rfl, fun k => congrArg some (hp.mu k)⟩ <|
    .cons ⟨rfl, fun k => congrArg some (hp.S k)⟩ <| .cons ⟨rfl, fun k => congrArg some (hp.corr k)⟩ <|
    .cons ⟨rfl, fun k => congrArg some (hr k).1⟩ <| .cons ⟨rfl, fun k => congrArg some (hr k).2.1⟩ <|
    .cons ⟨rfl, fun k => congrArg some (hr k).2.2.1⟩ <| .cons ⟨rfl, fun k => congrArg some (hr k).2.2.2.1⟩ <|
    .cons ⟨rfl, fun k => congrArg some (hr k).2.2.2.2⟩ <| .cons ⟨rfl, fun k => (he k).1⟩ <| .cons ⟨rfl, fun k => (he k).2.1⟩ <|
    .cons ⟨rfl, fun k => (he k).2.2.1⟩ <| .cons ⟨rfl, fun k => (he k).2.2.2.1⟩ <| .cons ⟨rfl, rfl⟩ <| .cons ⟨rfl, rfl⟩ <|
    .cons ⟨rfl, rfl⟩ <| .cons ⟨rfl, fun k => (he k).2.2.2.2.1⟩ <| .cons ⟨rfl, fun k => (he k).2.2.2.2.2⟩ <| .cons ⟨rfl, rfl⟩ <|
    .cons ⟨rfl, rfl⟩ <| .cons ⟨rfl, rfl⟩ .nil

theorem drizzleClassification_selection {nT nH : ℕ} {c : CategoryBits} {q : QualityBits} {v : Grid Bool} {rain : ℕ → Bool} {m : DrizzleMasks}
    (hm : drizzleClassification nT nH c q v rain = .ok m) (n : ℕ) (hn : 2 ≤ n) (pick : ℕ → ℕ) :
    drizzleClassification n nH ⟨fun t => c.droplet (pick t), fun t => c.falling (pick t), fun t => c.freezing (pick t), fun t => c.melting (pick t),
        fun t => c.aerosol (pick t), fun t => c.insect (pick t)⟩
      ⟨fun t => q.radar (pick t), fun t => q.lidar (pick t), fun t => q.clutter (pick t), fun t => q.molecular (pick t),
        fun t => q.attenuatedLiquid (pick t), fun t => q.correctedLiquid (pick t), fun t => q.attenuatedRain (pick t),
        fun t => q.correctedRain (pick t), fun t => q.attenuatedMelting (pick t), fun t => q.correctedMelting (pick t)⟩
      (fun t => v (pick t)) (fun t => rain (pick t)) =
    .ok ⟨fun t => m.warmLiquid (pick t), fun t => m.drizzle (pick t), fun t => m.wouldBeDrizzle (pick t), fun t => m.coldRain (pick t),
      fun t => m.isRain (pick t)⟩ := by
  unfold drizzleClassification at hm ⊢
  by_cases h1 : nT ≤ 1
  · rw [if_pos h1] at hm; cases hm
  · rw [if_neg h1] at hm
    cases hm
    rw [if_neg (by omega)]
    rfl

theorem file_of (a : List (String × DrizzleResult ℝ)) (b : Grid ℕ) : ∃ p : DrizzleFile ℝ, p.fields = a ∧ p.status = b := ⟨⟨a, b⟩, rfl, rfl⟩

/-- **C167.** Drizzle: all variables and the status. -/
theorem C167_drizzle (mie : String → MieTable) (f : DrizzleCategorize) (file : DrizzleFile ℝ) (hf : generateDrizzle mie f = .ok file) (n : ℕ)
    (hn : 2 ≤ n) (pick : ℕ → ℕ) (hpick : ∀ t < n, pick t < f.nT) :
    ∃ part, generateDrizzle mie (Spec.drizzleSelection f n pick) = .ok part ∧
      (∀ name, Spec.scalarOf part name = Spec.scalarOf file name) ∧
      ∀ t < n, ∀ h, (∀ name, Spec.gridOf part name t h = Spec.gridOf file name (pick t) h) ∧ part.status t h = file.status (pick t) h := by
  obtain ⟨x, band, z, beta, v, rain, sg, ze, be, zb, bb, m, all, hx, hb, hz, hbeta, hv, hr, hs, hze, hbe, hzb, hbb, hm, hall, h1, h2⟩ :=
    (generateDrizzle_ok mie f file).1 hf
  have hm' := drizzleClassification_selection hm n hn pick
  have hall' := drizzleClassification_selection hall n hn pick
  obtain ⟨part, e1, e2⟩ : ∃ part : DrizzleFile ℝ, part.fields = (drizzleFile
      ⟨fun t => m.warmLiquid (pick t), fun t => m.drizzle (pick t), fun t => m.wouldBeDrizzle (pick t), fun t => m.coldRain (pick t),
        fun t => m.isRain (pick t)⟩ (drizzleResults (drizzleInput (Spec.drizzleSelection f n pick) (mie band) (fun t => z (pick t))
        (fun t => beta (pick t)) (fun t => v (pick t)) (fun t => sg (pick t)) ⟨fun t => m.warmLiquid (pick t), fun t => m.drizzle (pick t),
        fun t => m.wouldBeDrizzle (pick t), fun t => m.coldRain (pick t), fun t => m.isRain (pick t)⟩)
        (zErrorGrid (Sum.map id (fun z t => z (pick t)) ze)) be zb bb)).fields ∧
      part.status = drizzleStatusMasked ⟨fun t => all.warmLiquid (pick t), fun t => all.drizzle (pick t), fun t => all.wouldBeDrizzle (pick t),
        fun t => all.coldRain (pick t), fun t => all.isRain (pick t)⟩ ⟨fun t => m.warmLiquid (pick t), fun t => m.drizzle (pick t),
        fun t => m.wouldBeDrizzle (pick t), fun t => m.coldRain (pick t), fun t => m.isRain (pick t)⟩ := file_of _ _
  have hrun : generateDrizzle mie (Spec.drizzleSelection f n pick) = .ok part := by
    refine (generateDrizzle_ok mie _ part).2 ⟨x, band, _, _, _, fun t => rain (pick t), _, _, be, zb, bb, _, _, hx, hb, ?_, ?_, ?_, ?_, ?_, ?_, hbe, hzb, hbb, hm', hall', e1, e2⟩
    · simp [Spec.drizzleSelection, hz]
    · simp [Spec.drizzleSelection, hbeta]
    · simp [Spec.drizzleSelection, hv]
    · show getIsRain (fun name => (f.rain name).map fun r t => r (pick t)) = _
      rw [getIsRain_selection, hr]; rfl
    · simp [Spec.drizzleSelection, hs]
    · simp [Spec.drizzleSelection, hze]
  have hrel : ∀ t < n, List.Forall₂ (fun a b => a.1 = b.1 ∧ SameResult t (pick t) a.2 b.2) part.fields file.fields := by
    intro t ht
    rw [e1, h1]
    unfold drizzleFile
    dsimp only
    rw [List.forall₂_map_left_iff, List.forall₂_map_right_iff]
    have hsame : SameInput (drizzleInput (Spec.drizzleSelection f n pick) (mie band) (fun t => z (pick t)) (fun t => beta (pick t))
        (fun t => v (pick t)) (fun t => sg (pick t)) ⟨fun t => m.warmLiquid (pick t), fun t => m.drizzle (pick t),
        fun t => m.wouldBeDrizzle (pick t), fun t => m.coldRain (pick t), fun t => m.isRain (pick t)⟩) (drizzleInput f (mie band) z beta v sg m)
        t (pick t) := by
      refine ⟨rfl, rfl, rfl, fun _ => rfl, fun _ => rfl, fun _ => rfl, fun h => ?_, fun _ => rfl⟩
      have : spectralWidth (Spec.drizzleSelection f n pick) (fun t => sg (pick t)) t h = spectralWidth f sg (pick t) h := by
        unfold spectralWidth Spec.drizzleSelection
        dsimp only
        cases f.width <;> rfl
      show (spectralWidth _ _ t h).getD _ = (spectralWidth _ _ (pick t) h).getD _
      rw [this]
    have hzz : ∀ h, zErrorGrid (Sum.map id (fun z t => z (pick t)) ze) t h = zErrorGrid ze (pick t) h := fun h => by cases ze <;> rfl
    have key := drizzleResults_same hsame (show t < n from ht) (show pick t < f.nT from hpick t ht) hzz be zb bb
    refine List.Forall₂.imp ?_ key
    rintro ⟨a, ra⟩ ⟨b, rb⟩ ⟨hab, hrr⟩
    refine ⟨hab, ?_⟩
    dsimp only at hrr ⊢
    cases ra <;> cases rb
    · dsimp only [SameResult, screenRain, maskZeros] at hrr ⊢
      rw [hrr]
    · exact hrr.elim
    · exact hrr.elim
    · dsimp only [SameResult, screenRain, maskZeros] at hrr ⊢
      intro h
      simp only [Grid.assign_apply, hrr h]
      congr
  refine ⟨part, hrun, fun name => ?_, fun t ht h => ⟨fun name => ?_, ?_⟩⟩
  · unfold Spec.scalarOf
    rcases sameResult_lookup (hrel 0 (by omega)) name with ⟨a, b⟩ | ⟨a, b, ha, hb, hab⟩
    · rw [a, b]
    · rw [ha, hb]
      cases a <;> cases b
      · exact hab
      · exact hab.elim
      · exact hab.elim
      · rfl
  · unfold Spec.gridOf
    rcases sameResult_lookup (hrel t ht) name with ⟨a, b⟩ | ⟨a, b, ha, hb, hab⟩
    · rw [a, b]
    · rw [ha, hb]
      cases a <;> cases b
      · rfl
      · exact hab.elim
      · exact hab.elim
      · exact hab h
  · rw [e2, h2]; rfl

/-! Classification -/

/-- The variables about attenuation of the selected profiles. -/
def Spec.attenuationSelection {α : Type} (d : AttenuationInput α) (pick : ℕ → ℕ) : AttenuationInput α :=
  { d with
    liquidAtten := fun t => d.liquidAtten (pick t)
    rainAtten := fun t => d.rainAtten (pick t)
    meltingAtten := fun t => d.meltingAtten (pick t)
    lwp := d.lwp.map fun l t => l (pick t)
    rainfallRate := d.rainfallRate.map fun r t => r (pick t) }

theorem attenuationClasses_selection {α : Type} [Field α] [LinearOrder α] (d : AttenuationInput α) (pick : ℕ → ℕ) :
    attenuationClasses (Spec.attenuationSelection d pick) = ⟨fun t => (attenuationClasses d).small (pick t),
      fun t => (attenuationClasses d).moderate (pick t), fun t => (attenuationClasses d).severe (pick t)⟩ := by
  unfold attenuationClasses Spec.attenuationSelection
  by_cases h : d.radarFrequency < 90
  · cases d.lwp <;> cases d.rainfallRate <;> simp only [h, decide_true, if_true, Option.map_none, Option.map_some]
  · cases d.lwp <;> cases d.rainfallRate <;> simp only [h, decide_false, Bool.false_eq_true, if_false, Option.map_none, Option.map_some]

/-- **C167.** The four classifications of pixels. -/
theorem C167_classification {α : Type} [Field α] [LinearOrder α] (nT nH : ℕ) (category quality : Grid ℤ) (att : AttenuationInput α) (height : ℕ → α)
    (altitude : α) (file : ClassificationFile α) (hf : generateClassification nT nH category quality att height altitude = .ok file)
    (n : ℕ) (pick : ℕ → ℕ) (part : ClassificationFile α)
    (hp : generateClassification n nH (fun t => category (pick t)) (fun t => quality (pick t)) (Spec.attenuationSelection att pick) height altitude =
      .ok part) (t h : ℕ) :
    part.target t h = file.target (pick t) h ∧ part.detection t h = file.detection (pick t) h ∧
    part.signalSource t h = file.signalSource (pick t) h ∧ part.attenuation t h = file.attenuation (pick t) h := by
  unfold generateClassification at hf hp
  rw [readCategoryBits_eq, readQualityBits_eq] at hf hp
  simp only [bind, Except.bind, pure, Except.pure] at hf hp
  split at hf
  · cases hf
  split at hp
  · cases hp
  cases hf
  cases hp
  refine ⟨rfl, rfl, rfl, ?_⟩
  dsimp only
  unfold radarAttenuationStatus
  rw [attenuationClasses_selection]
  rfl

/-- A cloud of 15 gates in the first two of three profiles. -/
def exampleCloud : CategoryBits :=
  ⟨fun _ _ => false, fun t _ => decide (t < 2), fun _ _ => true, fun _ _ => false, fun _ _ => false, fun _ _ => false⟩

/-- **C167, a finding.** The heights of clouds of a profile depend on the other profiles: of the three profiles the first one has a cloud
base, of the first and the last profile none has. A cloud needs more than 20 pixels, in all profiles together. -/
theorem C167_cloud_heights :
    (match generateClassification 3 15 (classesToBits exampleCloud.fields) (classesToBits exampleQuality.fields)
        ⟨fun _ _ => none, fun _ _ => none, fun _ _ => none, 35, none, none⟩ (fun h => (100 + 30 * h : ℚ)) 50,
      generateClassification 2 15 (fun t => classesToBits exampleCloud.fields (2 * t)) (fun t => classesToBits exampleQuality.fields (2 * t))
        (Spec.attenuationSelection ⟨fun _ _ => none, fun _ _ => none, fun _ _ => none, 35, none, none⟩ fun t => 2 * t)
        (fun h => (100 + 30 * h : ℚ)) 50 with
    | .ok file, .ok part => decide (file.baseAmsl 0 = some 100 ∧ part.baseAmsl 0 = none ∧ file.target 0 3 = 4 ∧ part.target 0 3 = 4)
    | _, _ => false) = true := by decide +kernel

/-- The examples of the four retrievals with their two profiles swapped. -/
example : (∃ part file, generateIwc (Spec.iceSelection exampleIceInput 2 fun t => 1 - t) = .ok part ∧ generateIwc exampleIceInput = .ok file ∧
      part.iwc 1 1 = file.iwc 0 1) ∧
    (∃ part file, generateDer none (Spec.derSelection exampleDerInput 2 fun t => 1 - t) = .ok part ∧ generateDer none exampleDerInput = .ok file ∧
      part.der 1 3 = file.der 0 3) ∧
    ∃ part file, generateDrizzle (fun _ => exampleMie) (Spec.drizzleSelection exampleDrizzleCategorize 2 fun t => 1 - t) = .ok part ∧
      generateDrizzle (fun _ => exampleMie) exampleDrizzleCategorize = .ok file ∧ Spec.gridOf part "Do" 1 0 = Spec.gridOf file "Do" 0 0 := by
  refine ⟨?_, ?_, ?_⟩
  · obtain ⟨file, hfile⟩ : ∃ out, generateIwc exampleIceInput = .ok out := by
      rw [C139_written]
      refine ⟨⟨35, rfl, Or.inl ⟨by norm_num, by norm_num⟩⟩, le_refl _, ?_, ?_, ?_, ?_, Or.inr (Or.inr ?_)⟩ <;> simp [exampleIceInput]
    obtain ⟨part, hp, -, h⟩ := C167_iwc _ file hfile 2 (le_refl _) fun t => 1 - t
    exact ⟨part, file, hp, hfile, (h 1 1).1⟩
  · obtain ⟨file, hfile⟩ : ∃ out, generateDer none exampleDerInput = .ok out := by
      rw [C140_written]
      simp [exampleDerInput]
    obtain ⟨part, hp, h⟩ := C167_der none _ file hfile 2 (fun t => 1 - t) fun t _ => show 1 - t < 2 by omega
    exact ⟨part, file, hp, hfile, (h 1 (by norm_num) 3 (by norm_num [exampleDerInput])).1⟩
  · obtain ⟨file, hfile⟩ := exampleDrizzle_case.1
    obtain ⟨part, hp, -, h⟩ := C167_drizzle _ _ file hfile 2 (le_refl _) (fun t => 1 - t) fun t _ => by
      simp only [exampleDrizzleCategorize]; omega
    exact ⟨part, file, hp, hfile, (h 1 (by norm_num) 0).1 "Do"⟩

end Cloudnet
