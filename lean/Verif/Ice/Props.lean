import Verif.Ice.Model
import Verif.Ice.Spec
import Verif.Atmos.Props
import Mathlib.Tactic.NormNum
import Mathlib.Tactic.Positivity

/-!
Properties C12 (ice retrieval status), C13 (rain flag), C14 (ice retrieval formula), C15 (droplet
effective radius status), C63 (wavelength band).
-/

set_option linter.unusedSimpArgs false

namespace Cloudnet

/-- C12. For every file with at least two profiles the ice classification succeeds, the retrieval
status of every pixel is the one of the table `Spec.iceStatus`, and the pixel carries a value iff it is
ice with an echo and without uncorrected attenuation. -/
theorem C12_ice_status {α : Type*} (nT : ℕ) (hT : 2 ≤ nT) (c : CategoryBits) (q : QualityBits)
    (isRain : ℕ → Bool) (z : Grid (Option α)) :
    ∃ m, iceClassification nT c q isRain = .ok m ∧ ∀ t h,
      let attenuated := q.attenuatedLiquid t h || q.attenuatedRain t h || q.attenuatedMelting t h
      let uncorrected := (q.attenuatedLiquid t h && !q.correctedLiquid t h) ||
        (q.attenuatedRain t h && !q.correctedRain t h) ||
        (q.attenuatedMelting t h && !q.correctedMelting t h)
      iceStatus m (icyData m z) t h =
        Spec.iceStatus (c.falling t h) (c.freezing t h) (c.melting t h) (c.insect t h) (isRain t)
          attenuated uncorrected (z t h).isSome ∧
      icyData m z t h = if Spec.ice (c.falling t h) (c.freezing t h) (c.melting t h) (c.insect t h) &&
        !uncorrected then z t h else none := by
  unfold iceClassification
  simp only [show ¬ nT ≤ 1 by omega, if_false]
  refine ⟨_, rfl, ?_⟩
  intro t h
  simp only [iceStatus, icyData, Grid.assign_apply, Grid.const_apply, gand_apply, gor_apply,
    gnot_apply]
  generalize hx : z t h = x
  generalize c.falling t h = a1
  generalize c.freezing t h = a2
  generalize c.melting t h = a3
  generalize c.insect t h = a4
  generalize isRain t = a5
  generalize q.attenuatedLiquid t h = b1
  generalize q.correctedLiquid t h = b2
  generalize q.attenuatedRain t h = b3
  generalize q.correctedRain t h = b4
  generalize q.attenuatedMelting t h = b5
  generalize q.correctedMelting t h = b6
  have hdata : (bif (!(a1 && a2 && !a3 && !a4) || (a1 && a2 && !a3 && !a4 && (b1 || b3 || b5) &&
      (b5 && !b6 || b3 && !b4 || b1 && !b2))) then none else x) =
      if (Spec.ice a1 a2 a3 a4 && !(b1 && !b2 || b3 && !b4 || b5 && !b6)) = true then x else none := by
    clear hx
    revert a1 a2 a3 a4 b1 b2 b3 b4 b5 b6
    cases x with
    | none => intros; simp
    | some v =>
      intro a1 a2 a3 a4 b1 b2 b3 b4 b5 b6
      cases a1 <;> cases a2 <;> cases a3 <;> cases a4 <;> simp [Spec.ice] <;>
        cases b1 <;> cases b2 <;> cases b3 <;> cases b4 <;> cases b5 <;> cases b6 <;> simp
  rw [hdata]
  refine ⟨?_, rfl⟩
  have hsome : (if (Spec.ice a1 a2 a3 a4 && !(b1 && !b2 || b3 && !b4 || b5 && !b6)) = true then x
      else none).isSome = (Spec.ice a1 a2 a3 a4 && !(b1 && !b2 || b3 && !b4 || b5 && !b6) &&
        x.isSome) := by
    cases (Spec.ice a1 a2 a3 a4 && !(b1 && !b2 || b3 && !b4 || b5 && !b6)) <;> simp
  rw [hsome]
  generalize x.isSome = e
  clear hdata hsome hx
  revert a1 a2 a3 a4 a5 b1 b2 b3 b4 b5 b6 e
  decide +kernel

/-- C12. A pixel carries a value iff its status is 1 or 3, and status 3 means that it is attenuated. -/
theorem C12_data_iff_status {α : Type*} (nT : ℕ) (c : CategoryBits) (q : QualityBits)
    (isRain : ℕ → Bool) (z : Grid (Option α)) (m : IceMasks)
    (hm : iceClassification nT c q isRain = .ok m) (t h : ℕ) :
    ((icyData m z t h).isSome = true ↔
      iceStatus m (icyData m z) t h = 1 ∨ iceStatus m (icyData m z) t h = 3) ∧
    iceStatus m (icyData m z) t h ∈ [0, 1, 2, 3, 4, 6, 7] := by
  have hT : 2 ≤ nT := by
    by_contra hc
    unfold iceClassification at hm
    simp only [show nT ≤ 1 by omega, if_true] at hm
    cases hm
  obtain ⟨m', hm', hh⟩ := C12_ice_status nT hT c q isRain z
  rw [hm] at hm'
  obtain rfl : m = m' := by simpa using hm'
  obtain ⟨h1, h2⟩ := hh t h
  rw [h1, h2]
  generalize (q.attenuatedLiquid t h && !q.correctedLiquid t h ||
    q.attenuatedRain t h && !q.correctedRain t h ||
    q.attenuatedMelting t h && !q.correctedMelting t h) = u
  generalize (q.attenuatedLiquid t h || q.attenuatedRain t h || q.attenuatedMelting t h) = w
  have : (if (Spec.ice (c.falling t h) (c.freezing t h) (c.melting t h) (c.insect t h) && !u) = true
      then z t h else none).isSome =
      (Spec.ice (c.falling t h) (c.freezing t h) (c.melting t h) (c.insect t h) && !u &&
        (z t h).isSome) := by
    cases (Spec.ice (c.falling t h) (c.freezing t h) (c.melting t h) (c.insect t h) && !u) <;> simp
  rw [this]
  clear this h1 h2
  generalize (z t h).isSome = e
  generalize c.falling t h = a1
  generalize c.freezing t h = a2
  generalize c.melting t h = a3
  generalize c.insect t h = a4
  generalize isRain t = a5
  revert a1 a2 a3 a4 a5 u w e
  decide

/-- C12. All seven codes occur. -/
example : ∀ n ∈ [0, 1, 2, 3, 4, 6, 7], ∃ f z m i r a u e : Bool, Spec.iceStatus f z m i r a u e = n := by
  decide

/-- C13. The rain flag comes from the first existing variable of `rain_detected`, `rainfall_rate`,
`rain_rate`; a profile is rainy iff the value there is masked or not zero; without any of the three the
function raises. -/
theorem C13_is_rain {α : Type*} [Zero α] [DecidableEq α] (nc : String → Option (ℕ → Option α)) :
    (∀ d, nc "rain_detected" = some d → ∃ r, getIsRain nc = .ok r ∧
      ∀ t, r t = true ↔ (d t = none ∨ ∃ x, d t = some x ∧ x ≠ 0)) ∧
    (∀ d, nc "rain_detected" = none → nc "rainfall_rate" = some d → ∃ r, getIsRain nc = .ok r ∧
      ∀ t, r t = true ↔ (d t = none ∨ ∃ x, d t = some x ∧ x ≠ 0)) ∧
    (∀ d, nc "rain_detected" = none → nc "rainfall_rate" = none → nc "rain_rate" = some d →
      ∃ r, getIsRain nc = .ok r ∧ ∀ t, r t = true ↔ (d t = none ∨ ∃ x, d t = some x ∧ x ≠ 0)) ∧
    (nc "rain_detected" = none → nc "rainfall_rate" = none → nc "rain_rate" = none →
      getIsRain nc = .error "ValueError: No rain data found.") := by
  refine ⟨?_, ?_, ?_, ?_⟩
  · intro d h1
    simp only [getIsRain, getIsRain.go, h1]
    refine ⟨_, rfl, fun t => ?_⟩
    cases d t <;> simp
  · intro d h1 h2
    simp only [getIsRain, getIsRain.go, h1, h2]
    refine ⟨_, rfl, fun t => ?_⟩
    cases d t <;> simp
  · intro d h1 h2 h3
    simp only [getIsRain, getIsRain.go, h1, h2, h3]
    refine ⟨_, rfl, fun t => ?_⟩
    cases d t <;> simp
  · intro h1 h2 h3
    simp only [getIsRain, getIsRain.go, h1, h2, h3]

/-- `rainfall_rate` decides although `rain_rate` disagrees; the masked profile 2 is rainy. -/
example : (match getIsRain (fun n => if n = "rainfall_rate" then
      some (fun t => if t = 2 then none else some (t : ℤ))
      else if n = "rain_rate" then some (fun _ => some 0) else none) with
    | .ok r => decide (r 0 = false ∧ r 1 = true ∧ r 2 = true)
    | .error _ => false) = true := by decide

/-- C63. `get_wl_band` is total on the three open frequency intervals, raises everywhere else, and the
three results exclude each other. -/
theorem C63_wl_band (f : ℝ) :
    (getWlBand f = .ok "X" ↔ 8 < f ∧ f < 12) ∧
    (getWlBand f = .ok "Ka" ↔ 27 < f ∧ f < 40) ∧
    (getWlBand f = .ok "W" ↔ 75 < f ∧ f < 110) ∧
    (getWlBand f = .error "ValueError: Unknown band" ↔
      ¬ (8 < f ∧ f < 12) ∧ ¬ (27 < f ∧ f < 40) ∧ ¬ (75 < f ∧ f < 110)) ∧
    (∀ b, getWlBand f = .ok b → b = "X" ∨ b = "Ka" ∨ b = "W") := by
  unfold getWlBand
  have hno : ¬ ((8 < f ∧ f < 12) ∧ (27 < f ∧ f < 40)) := by rintro ⟨⟨_, _⟩, _, _⟩; linarith
  have hno2 : ¬ ((8 < f ∧ f < 12) ∧ (75 < f ∧ f < 110)) := by rintro ⟨⟨_, _⟩, _, _⟩; linarith
  have hno3 : ¬ ((27 < f ∧ f < 40) ∧ (75 < f ∧ f < 110)) := by rintro ⟨⟨_, _⟩, _, _⟩; linarith
  by_cases h1 : 8 < f ∧ f < 12
  · have h2 : ¬ (27 < f ∧ f < 40) := fun h => hno ⟨h1, h⟩
    have h3 : ¬ (75 < f ∧ f < 110) := fun h => hno2 ⟨h1, h⟩
    simp [h1, h2, h3]
  · by_cases h2 : 27 < f ∧ f < 40
    · have h3 : ¬ (75 < f ∧ f < 110) := fun h => hno3 ⟨h2, h⟩
      simp [h1, h2, h3]
    · by_cases h3 : 75 < f ∧ f < 110 <;> simp [h1, h2, h3]

/-- C63. The radars in use: 9.4 GHz, 35.5 GHz, 94 GHz. -/
example : getWlBand 9.4 = .ok "X" ∧ getWlBand 35.5 = .ok "Ka" ∧ getWlBand 94 = .ok "W" :=
  ⟨(C63_wl_band _).1.2 (by norm_num), (C63_wl_band _).2.1.2 (by norm_num),
    (C63_wl_band _).2.2.1.2 (by norm_num)⟩

/-- Exponent of `zToIwc` as a linear function of reflectivity. -/
theorem zToIwc_lt_iff (k : IceCoefficients) (z z' T : ℝ) :
    zToIwc k z T < zToIwc k z' T ↔ (k.ZT * T + k.Z) * z < (k.ZT * T + k.Z) * z' := by
  unfold zToIwc
  rw [Real.rpow_lt_rpow_left_iff (by norm_num)]
  constructor <;> intro h <;> nlinarith

/-- C14. Supported bands are exactly Ka and W, for both products. -/
theorem C14_supported_bands (product band : String) :
    (∃ k, getIceCoefficients product band = .ok k) ↔ band = "Ka" ∨ band = "W" := by
  unfold getIceCoefficients
  by_cases hp : product = "ier" <;> by_cases h1 : band = "Ka" <;> by_cases h2 : band = "W" <;>
    simp [hp, h1, h2]

/-- C14. Ice water content: positive wherever there is an echo, and strictly increasing in
reflectivity for every temperature above -159 °C, at both supported bands. -/
theorem C14_iwc_positive_increasing (band : String) (k : IceCoefficients)
    (hk : getIceCoefficients "iwc" band = .ok k) (T : ℝ) :
    ∃ f : ℝ → ℝ, (∀ z, convertZ "iwc" k (some z) T = .ok (some (f z))) ∧
      convertZ "iwc" k none T = .ok none ∧ (∀ z, 0 < f z) ∧
      (-159 < T → ∀ z z', z < z' → f z < f z') := by
  refine ⟨fun z => zToIwc k (z + getZFactor k) T * 0.001, ?_, ?_, ?_, ?_⟩
  · intro z; simp [convertZ]
  · simp [convertZ]
  · intro z; unfold zToIwc; positivity
  · intro hT z z' hz
    have hc : 0 < k.ZT * T + k.Z := by
      unfold getIceCoefficients at hk
      by_cases h1 : band = "Ka"
      · simp only [h1] at hk
        rw [if_neg (by decide), if_pos trivial] at hk
        obtain rfl := Except.ok.inj hk
        norm_num; linarith
      · by_cases h2 : band = "W"
        · simp only [h2] at hk
          rw [if_neg (by decide), if_neg (by decide), if_pos trivial] at hk
          obtain rfl := Except.ok.inj hk
          norm_num; linarith
        · rw [if_neg (by decide), if_neg h1, if_neg h2] at hk; cases hk
    have := (zToIwc_lt_iff k (z + getZFactor k) (z' + getZFactor k) T).2
      (mul_lt_mul_of_pos_left (by linarith) hc)
    have h3 : (0 : ℝ) < 0.001 := by norm_num
    exact mul_lt_mul_of_pos_right this h3

/-- C14. Ice effective radius: positive wherever there is an echo, and strictly increasing in
reflectivity for every temperature below 0 °C, at both supported bands. -/
theorem C14_ier_positive_increasing (band : String) (k : IceCoefficients)
    (hk : getIceCoefficients "ier" band = .ok k) (T : ℝ) :
    ∃ f : ℝ → ℝ, (∀ z, convertZ "ier" k (some z) T = .ok (some (f z))) ∧
      convertZ "ier" k none T = .ok none ∧ (∀ z, 0 < f z) ∧
      (T < 0 → ∀ z z', z < z' → f z < f z') := by
  refine ⟨fun z => zToIwc k (z + getZFactor k) T * (3 / (2 * 917) * 1000000), ?_, ?_, ?_, ?_⟩
  · intro z; simp [convertZ]
  · simp [convertZ]
  · intro z; unfold zToIwc; positivity
  · intro hT z z' hz
    have hc : 0 < k.ZT * T + k.Z := by
      unfold getIceCoefficients at hk
      by_cases h1 : band = "Ka"
      · simp only [h1] at hk
        rw [if_pos trivial, if_pos trivial] at hk
        obtain rfl := Except.ok.inj hk
        norm_num; linarith
      · by_cases h2 : band = "W"
        · simp only [h2] at hk
          rw [if_pos trivial, if_neg (by decide), if_pos trivial] at hk
          obtain rfl := Except.ok.inj hk
          norm_num; linarith
        · rw [if_pos rfl, if_neg h1, if_neg h2] at hk; cases hk
    have := (zToIwc_lt_iff k (z + getZFactor k) (z' + getZFactor k) T).2
      (mul_lt_mul_of_pos_left (by linarith) hc)
    have h3 : (0 : ℝ) < 3 / (2 * 917) * 1000000 := by norm_num
    exact mul_lt_mul_of_pos_right this h3

/-- C14. The W-band effective radius decreases with reflectivity in warm air (`T > 0`), so the
temperature bound cannot be dropped. -/
theorem C14_ier_warm_decreases (k : IceCoefficients) (hk : getIceCoefficients "ier" "W" = .ok k)
    (T : ℝ) (hT : 0 < T) (z z' : ℝ) (hz : z < z') : zToIwc k z' T < zToIwc k z T := by
  rw [zToIwc_lt_iff]
  unfold getIceCoefficients at hk
  rw [if_pos rfl, if_neg (by decide), if_pos rfl] at hk
  obtain rfl := Except.ok.inj hk
  norm_num
  nlinarith

example : ∃ k, getIceCoefficients "iwc" "W" = .ok k := (C14_supported_bands _ _).2 (Or.inr rfl)

/-- Value of `der` after processing some layers: pixels of earlier layers keep their value. -/
theorem foldl_derLayer (N s : ℝ) (z : Grid (Option ℝ)) (ps : List (Pixel × Pixel)) (d : Grid ℝ)
    (t h : ℕ) :
    ps.foldl (derLayer N s z) d t h =
      if (∃ q ∈ ps, t = q.1.1 ∧ q.1.2 ≤ h ∧ h ≤ q.2.2) then
        match z t h with
        | some zv => 0.5 * (zv / N) ^ (1 / 6 : ℝ) * Real.exp (-0.5 * (s * s))
        | none => d t h
      else d t h := by
  classical
  induction ps generalizing d with
  | nil => simp
  | cons q ps ih =>
    rw [List.foldl_cons, ih]
    by_cases h1 : ∃ q' ∈ ps, t = q'.1.1 ∧ q'.1.2 ≤ h ∧ h ≤ q'.2.2
    · have h2 : ∃ q' ∈ q :: ps, t = q'.1.1 ∧ q'.1.2 ≤ h ∧ h ≤ q'.2.2 := by
        obtain ⟨q', hq', hh⟩ := h1; exact ⟨q', List.mem_cons_of_mem _ hq', hh⟩
      rw [if_pos h1, if_pos h2]
      cases hz : z t h with
      | some v => rfl
      | none =>
        simp only [derLayer]
        split
        · rename_i hc; rw [← hc.1, hz]
        · rfl
    · rw [if_neg h1]
      by_cases h2 : t = q.1.1 ∧ q.1.2 ≤ h ∧ h ≤ q.2.2
      · rw [if_pos ⟨q, List.mem_cons_self, h2⟩]
        simp only [derLayer]
        rw [if_pos ⟨h2.1, h2.2.1, by omega⟩, ← h2.1]
        cases z t h <;> rfl
      · rw [if_neg]
        · simp only [derLayer]
          rw [if_neg]; rintro ⟨a, b, c⟩; exact h2 ⟨a, b, by omega⟩
        · rintro ⟨q', hq', hh⟩
          rcases List.mem_cons.1 hq' with rfl | hq'
          · exact h2 hh
          · exact h1 ⟨q', hq', hh⟩

/-- C15. For a positive droplet number concentration the effective radius retrieval succeeds for every
droplet mask; a pixel has a (positive) value iff it is a droplet pixel with an echo, and the value is
the Frisch formula of that pixel's own reflectivity. -/
theorem C15_der_value (N s : ℝ) (hN : 0 < N) (nT nH : ℕ) (droplet : Grid Bool)
    (Z : Grid (Option ℝ)) :
    ∃ der, appendDer N s nT nH droplet Z = .ok der ∧ ∀ t < nT, ∀ h < nH,
      der t h = (if droplet t h then (Z t h).map (fun z =>
        1 / 2 * ((10 : ℝ) ^ (z / 10) / N) ^ (1 / 6 : ℝ) * Real.exp (-(s ^ 2) / 2) / 1000) else none) ∧
      ∀ v, der t h = some v → 0 < v := by
  classical
  obtain ⟨ps, hps, h1, h2⟩ := C21_bases_tops_pair nT nH droplet
  unfold appendDer
  simp only [hps, bind, Except.bind, pure, Except.pure]
  refine ⟨_, rfl, ?_⟩
  intro t ht h hh
  have hiff : (∃ q ∈ ps, t = q.1.1 ∧ q.1.2 ≤ h ∧ h ≤ q.2.2) ↔ droplet t h = true := by
    constructor
    · rintro ⟨q, hq, rfl, a, b⟩; exact (h1 q hq).2.2.full h a b
    · intro hd
      obtain ⟨q, ⟨hq, a, b, c⟩, _⟩ := h2 t ht h hh hd
      exact ⟨q, hq, a.symm, b, c⟩
  rw [foldl_derLayer]
  simp only [hiff]
  cases hd : droplet t h
  · simp
  · cases hz : Z t h with
    | none => simp
    | some z =>
      have hpos : (0 : ℝ) < 0.5 * ((10 : ℝ) ^ (z / 10) / N) ^ (1 / 6 : ℝ) *
          Real.exp (-0.5 * (s * s)) := by positivity
      simp only [Option.map_some, if_true]
      rw [if_neg (not_le.2 hpos)]
      constructor
      · congr 1
        rw [show -(s ^ 2) / 2 = -0.5 * (s * s) by ring]
        ring
      · intro v hv
        obtain rfl := Option.some.inj hv
        positivity

/-- C15. The retrieval status of every pixel is the one of the table `Spec.derStatus`, and the pixel
has a value iff the status is 1, 2 or 3. -/
theorem C15_der_status (N s : ℝ) (hN : 0 < N) (nT nH : ℕ) (c : CategoryBits) (isRain : ℕ → Bool)
    (Z : Grid (Option ℝ)) :
    ∃ der, appendDer N s nT nH c.droplet Z = .ok der ∧ ∀ t < nT, ∀ h < nH,
      derStatus c isRain der t h =
        Spec.derStatus (c.droplet t h) (c.falling t h) (c.freezing t h) (c.melting t h)
          (c.insect t h) (isRain t) (Z t h).isSome ∧
      ((der t h).isSome = true ↔ derStatus c isRain der t h ∈ [1, 2, 3]) := by
  obtain ⟨der, hder, hv⟩ := C15_der_value N s hN nT nH c.droplet Z
  refine ⟨der, hder, ?_⟩
  intro t ht h hh
  have hs : (der t h).isSome = (c.droplet t h && (Z t h).isSome) := by
    rw [(hv t ht h hh).1]; cases c.droplet t h <;> simp
  simp only [derStatus, Grid.assign_apply, Grid.const_apply, gand_apply, gor_apply, gnot_apply, hs]
  generalize (Z t h).isSome = e
  generalize c.droplet t h = a0
  generalize c.falling t h = a1
  generalize c.freezing t h = a2
  generalize c.melting t h = a3
  generalize c.insect t h = a4
  generalize isRain t = a5
  revert a0 a1 a2 a3 a4 a5 e
  decide

example : ∀ n ≤ 4, ∃ d f z m i r e : Bool, Spec.derStatus d f z m i r e = n := by decide

end Cloudnet
