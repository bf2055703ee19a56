import Mathlib.Tactic
import Verif.PlotAxes.Model
import Verif.FmcwDay.Props
import Verif.L3Figs.Props

namespace Cloudnet

/-! ## C157: axes, units and scales of figures -/

section
variable {α : Type} [Field α] [LinearOrder α] [IsStrictOrderedRing α]

/-! ### Heights -/

theorem knownMedian_eq (l : List (Option α)) (m : α) (h : Spec.MedianOf (l.filterMap id) m) : knownMedian l = some m := by
  have hne := medianOf_ne_nil _ _ h
  unfold knownMedian
  rw [if_neg hne]
  exact congrArg some (medianOf_unique _ _ _ (median_medianOf _ hne) h)

theorem inKm_lowered (m : α) (l : List (Option α)) : inKm (lowered (some m) l) = l.map fun h => h.map fun z => (z - m) / 1000 := by
  unfold inKm lowered
  rw [List.map_map]
  apply List.map_congr_left
  intro h _
  cases h with
  | none => rfl
  | some h => simp [Function.comp, div_eq_mul_inv]

theorem inKm_eq (l : List (Option α)) : inKm l = l.map fun h => h.map fun z => z / 1000 := by
  unfold inKm
  apply List.map_congr_left
  intro h _
  cases h with
  | none => rfl
  | some h => simp [div_eq_mul_inv]

/-- **C157.** The vertical axis of a file that is neither of a model nor of a satellite: kilometres above the median altitude of the instrument, or
above sea level if that is wanted; without heights it is the range, and without a range the diameter in millimetres. -/
theorem C157_height (isa : α → α → α) (f : HeightSource α) (h1 : f.fileType ≠ "cpr-simulation") (h2 : f.fileType ≠ "model") :
    (∀ h a m, f.height = some h → f.altitude = some a → Spec.MedianOf (a.filterMap id) m →
      figureHeight isa true f = .ok (some (h.map fun z => z.map fun z => (z - m) / 1000))) ∧
    (∀ h, f.height = some h → f.altitude = none → figureHeight isa true f = .error "ValueError") ∧
    (∀ h, f.height = some h → figureHeight isa false f = .ok (some (h.map fun z => z.map fun z => z / 1000))) ∧
    (∀ r above, f.height = none → f.range = some r → figureHeight isa above f = .ok (some (r.map fun z => z.map fun z => z / 1000))) ∧
    (∀ d above, f.height = none → f.range = none → f.diameter = some d →
      figureHeight isa above f = .ok (some (d.map fun z => z.map fun z => z * 1000))) ∧
    (∀ above, f.height = none → f.range = none → f.diameter = none → figureHeight isa above f = .ok none) := by
  unfold figureHeight
  rw [if_neg h1, if_neg h2]
  refine ⟨?_, ?_, ?_, ?_, ?_, ?_⟩
  · intro h a m hh ha hm
    rw [hh]
    dsimp only
    rw [if_pos rfl, ha]
    dsimp only
    rw [knownMedian_eq a m hm, inKm_lowered]
  · intro h hh ha
    rw [hh]
    dsimp only
    rw [if_pos rfl, ha]
  · intro h hh
    rw [if_neg h1, if_neg h2, hh]
    dsimp only
    rw [if_neg (by simp), inKm_eq]
  · intro r above hh hr
    rw [if_neg h1, if_neg h2, hh, hr]
    dsimp only
    rw [inKm_eq]
  · intro d above hh hr hd
    rw [if_neg h1, if_neg h2, hh, hr, hd]
  · intro above hh hr hd
    rw [if_neg h1, if_neg h2, hh, hr, hd]

/-- **C157.** The vertical axis of model files: the mean height of each level above the ground, in kilometres. Above sea level the altitude of the
ground is added: the mean surface geopotential divided by the gravity of the Earth, or, without one that can be used, the altitude of the standard
atmosphere for the mean temperature and pressure of the lowest level. -/
theorem C157_model_height (isa : α → α → α) (f : HeightSource α) (rows : List (ℕ → Option α)) (hf : f.fileType = "model")
    (hrows : f.modelHeight = some rows) (above : Bool) :
    ∃ zs, figureHeight isa above f = .ok (some zs) ∧ zs.length = f.nLevels ∧ ∀ k, k < f.nLevels →
      ∃ m, Spec.MeanOfKnown (rows.map fun r => r k) m ∧
        (above = true → zs[k]? = some (m.map fun z => z / 1000)) ∧
        (above = false → ∀ gs g, f.geopotential = some gs → f.gdas = false → gs ≠ [] → g * (gs.length * 9.80665) = gs.sum →
          zs[k]? = some (m.map fun z => (z + g) / 1000)) ∧
        (above = false → (f.geopotential = none ∨ f.gdas = true) → ∀ t p, Spec.MeanOfKnown f.temperature (some t) →
          Spec.MeanOfKnown f.pressure (some p) → zs[k]? = some (m.map fun z => (z + isa t p) / 1000)) := by
  have hmean : ∀ (l : List (Option α)) (v : α), Spec.MeanOfKnown l (some v) → maskedMean l = some v := by
    intro l v hv
    rcases maskedMean_mean l with ⟨h, -⟩ | ⟨w, h, h1, h2⟩
    · rcases hv with ⟨-, h'⟩ | ⟨w, h', -⟩
      · cases h'
      · exact absurd h h'
    · rcases hv with ⟨h', -⟩ | ⟨w', -, e, h4⟩
      · exact absurd h' h
      · cases e
        rw [h1]
        have : ((l.filterMap id).length : α) ≠ 0 := by
          have := List.length_pos_of_ne_nil h
          positivity
        congr 1
        exact mul_right_cancel₀ this (h2.trans h4.symm)
  unfold figureHeight
  rw [hf, if_neg (by decide), if_pos rfl, hrows]
  dsimp only
  refine ⟨_, rfl, ?_, ?_⟩
  · rw [inKm_eq]
    cases above <;> simp
  · intro k hk
    refine ⟨maskedMean (rows.map fun r => r k), maskedMean_mean _, ?_, ?_, ?_⟩
    · rintro rfl
      rw [inKm_eq, if_pos rfl]
      simp [hk]
    · rintro rfl gs g hgs hgd hne hg
      have hground : groundAltitude isa f = some g := by
        unfold groundAltitude
        rw [hgs]
        dsimp only
        rw [hgd, if_neg (by simp)]
        unfold maskedMean
        have hid : (gs.map some).filterMap id = gs := by simp [List.filterMap_map]
        simp only [hid]
        rw [if_neg hne]
        have hl : (gs.length : α) ≠ 0 := by
          have := List.length_pos_of_ne_nil hne
          positivity
        rw [Option.map_some, ← hg]
        congr 1
        have h9 : (9.80665 : α) = 980665 / 100000 := by norm_num
        rw [h9]
        field_simp
      rw [inKm_eq, if_neg (by simp), hground]
      rw [List.map_map, List.map_map, List.getElem?_map, List.getElem?_range hk, Option.map_some]
      congr 1
      dsimp only [Function.comp]
      cases maskedMean (rows.map fun r => r k) <;> rfl
    · rintro rfl hor t p ht hp
      have hground : groundAltitude isa f = some (isa t p) := by
        unfold groundAltitude
        rw [hmean _ _ ht, hmean _ _ hp]
        rcases hor with h | h
        · rw [h]; rfl
        · rw [h]
          cases f.geopotential <;> simp
      rw [inKm_eq, if_neg (by simp), hground]
      rw [List.map_map, List.map_map, List.getElem?_map, List.getElem?_range hk, Option.map_some]
      congr 1
      dsimp only [Function.comp]
      cases maskedMean (rows.map fun r => r k) <;> rfl

/-- A file of a radar at 100 m (one altitude is missing) and one of a model. -/
def exHeightFile : HeightSource ℚ :=
  ⟨"radar", none, 0, none, some [some 200, some 1100], some [some 90, none, some 100, some 150], none, none, none, false, [], []⟩

/-- A model with two levels and two times. -/
def exModelFile : HeightSource ℚ :=
  ⟨"model", none, 2, some [fun k => some (10 + 100 * k), fun k => some (20 + 100 * k)], none, none, none, none, some [980665 / 1000, 980665 / 1000], false, [], []⟩

example : figureHeight (fun _ _ => 0) true exHeightFile = .ok (some [some (1 / 10), some 1]) ∧
    figureHeight (fun _ _ => 0) false exHeightFile = .ok (some [some (2 / 10), some (11 / 10)]) ∧
    figureHeight (fun _ _ => 0) true exModelFile = .ok (some [some (15 / 1000), some (115 / 1000)]) ∧
    figureHeight (fun _ _ => 0) false exModelFile = .ok (some [some (115 / 1000), some (215 / 1000)]) ∧
    outOfRange (some [some (1 : ℚ), some 8]) 12 = some (8, 12) := by decide +kernel

/-- **C157.** Simulated satellite data: heights above the median altitude, or above sea level. -/
theorem C157_satellite_height (isa : α → α → α) (f : HeightSource α) (hf : f.fileType = "cpr-simulation") (h : List (Option α))
    (hh : f.heightSat = some h) :
    (∀ a m, f.altitude = some a → Spec.MedianOf (a.filterMap id) m →
      figureHeight isa true f = .ok (some (h.map fun z => z.map fun z => (z - m) / 1000))) ∧
    figureHeight isa false f = .ok (some (h.map fun z => z.map fun z => z / 1000)) := by
  unfold figureHeight
  rw [if_pos hf, hh]
  constructor
  · intro a m ha hm
    rw [ha]
    dsimp only
    rw [if_pos rfl, knownMedian_eq a m hm, inKm_lowered]
  · rw [if_pos hf]
    cases f.altitude with
    | none => simp [inKm_eq]
    | some a => simp [inKm_eq]

/-- **C157.** The part of the figure above the highest gate is hatched. -/
theorem C157_out_of_range (h : List (Option α)) (top maxY : α) (hlast : h.getLast? = some (some top)) :
    (top < maxY → outOfRange (some h) maxY = some (top, maxY)) ∧ (maxY ≤ top → outOfRange (some h) maxY = none) := by
  unfold outOfRange
  rw [Option.bind_some, hlast]
  simp only [Option.join_some, Option.bind_some]
  exact ⟨fun e => if_neg (not_le.2 e), fun e => if_pos e⟩

/-! ### Units -/

namespace Spec

/-- Variables in metres per second that are shown in millimetres per hour. -/
def rates : List String := ["rainfall_rate", "snowfall_rate", "precipitation_rate"]
/-- Variables in metres that are shown in millimetres. -/
def amounts : List String := ["rainfall_amount", "snowfall_amount", "precipitation_amount", "r_accum_RT", "r_accum_NRT"]
/-- Fractions shown in percent. -/
def fractions : List String := ["relative_humidity", "rh"]
/-- Kelvins shown in degrees Celsius. -/
def temperatures : List String :=
  ["air_temperature", "temperature", "Tw", "T_sensor", "T_ambient", "T_interior", "T_laser_driver", "transmitter_temperature", "receiver_temperature",
    "pc_temperature"]

end Spec

/-- **C157.** The units of figures. -/
theorem C157_units (name : String) (x : α) :
    (name ∈ Spec.rates → plotUnit name x = x * 1000 * 3600) ∧ (name ∈ Spec.amounts → plotUnit name x = x * 1000) ∧
    (name ∈ Spec.fractions → plotUnit name x = x * 100) ∧ (name ∈ Spec.temperatures → plotUnit name x = x - 273.15) ∧
    (name = "air_pressure" → plotUnit name x = x / 100) ∧ (name = "cloud_top_height_agl" → plotUnit name x = x / 1000) ∧
    (name ∉ Spec.rates ++ Spec.amounts ++ Spec.fractions ++ Spec.temperatures ++ ["air_pressure", "cloud_top_height_agl"] → plotUnit name x = x) := by
  refine ⟨?_, ?_, ?_, ?_, ?_, ?_, ?_⟩
  · intro h
    simp only [Spec.rates, List.mem_cons, List.not_mem_nil, or_false] at h
    rcases h with rfl | rfl | rfl <;> (simp [plotUnit, unitTable, List.lookup]; ring)
  · intro h
    simp only [Spec.amounts, List.mem_cons, List.not_mem_nil, or_false] at h
    rcases h with rfl | rfl | rfl | rfl | rfl <;> simp [plotUnit, unitTable, List.lookup]
  · intro h
    simp only [Spec.fractions, List.mem_cons, List.not_mem_nil, or_false] at h
    rcases h with rfl | rfl <;> simp [plotUnit, unitTable, List.lookup]
  · intro h
    simp only [Spec.temperatures, List.mem_cons, List.not_mem_nil, or_false] at h
    rcases h with rfl | rfl | rfl | rfl | rfl | rfl | rfl | rfl | rfl | rfl <;>
      (simp [plotUnit, unitTable, List.lookup]; norm_num; ring)
  · rintro rfl
    simp [plotUnit, unitTable, List.lookup, div_eq_mul_inv]
  · rintro rfl
    simp [plotUnit, unitTable, List.lookup, div_eq_mul_inv]
  · intro h
    have : (unitTable (α := α)).lookup name = none := by
      rw [List.lookup_eq_none_iff]
      intro p hp
      simp only [Spec.rates, Spec.amounts, Spec.fractions, Spec.temperatures, List.cons_append, List.nil_append, List.mem_cons, List.not_mem_nil,
        or_false, not_or] at h
      simp only [unitTable, List.mem_cons, List.not_mem_nil, or_false] at hp
      rw [bne_iff_ne]
      rcases hp with rfl | rfl | rfl | rfl | rfl | rfl | rfl | rfl | rfl | rfl | rfl | rfl | rfl | rfl | rfl | rfl | rfl | rfl | rfl | rfl | rfl | rfl <;>
        (dsimp only; tauto)
    unfold plotUnit
    rw [this]
    simp

end

/-- **C157.** The labels of units that are converted; others are written with superscripts. -/
theorem C157_labels (name : String) (units : Option String) :
    (name ∈ Spec.rates → unitLabel name units = "mm h$^{-1}$") ∧ (name ∈ Spec.amounts → unitLabel name units = "mm") ∧
    (name ∈ Spec.fractions → unitLabel name units = "%") ∧ (name ∈ Spec.temperatures → unitLabel name units = "°C") ∧
    (name = "air_pressure" → unitLabel name units = "hPa") ∧ (name = "cloud_top_height_agl" → unitLabel name units = "Height (km AGL)") ∧
    (name ∉ Spec.rates ++ Spec.amounts ++ Spec.fractions ++ Spec.temperatures ++ ["air_pressure", "cloud_top_height_agl"] →
      unitLabel name units = reformatUnits (units.getD "")) := by
  refine ⟨?_, ?_, ?_, ?_, ?_, ?_, ?_⟩
  · intro h
    simp only [Spec.rates, List.mem_cons, List.not_mem_nil, or_false] at h
    rcases h with rfl | rfl | rfl <;> simp [unitLabel, unitTable, List.lookup]
  · intro h
    simp only [Spec.amounts, List.mem_cons, List.not_mem_nil, or_false] at h
    rcases h with rfl | rfl | rfl | rfl | rfl <;> simp [unitLabel, unitTable, List.lookup]
  · intro h
    simp only [Spec.fractions, List.mem_cons, List.not_mem_nil, or_false] at h
    rcases h with rfl | rfl <;> simp [unitLabel, unitTable, List.lookup]
  · intro h
    simp only [Spec.temperatures, List.mem_cons, List.not_mem_nil, or_false] at h
    rcases h with rfl | rfl | rfl | rfl | rfl | rfl | rfl | rfl | rfl | rfl <;> simp [unitLabel, unitTable, List.lookup]
  · rintro rfl
    simp [unitLabel, unitTable, List.lookup]
  · rintro rfl
    simp [unitLabel, unitTable, List.lookup]
  · intro h
    have : (unitTable (α := ℚ)).lookup name = none := by
      rw [List.lookup_eq_none_iff]
      intro p hp
      simp only [Spec.rates, Spec.amounts, Spec.fractions, Spec.temperatures, List.cons_append, List.nil_append, List.mem_cons, List.not_mem_nil,
        or_false, not_or] at h
      simp only [unitTable, List.mem_cons, List.not_mem_nil, or_false] at hp
      rw [bne_iff_ne]
      rcases hp with rfl | rfl | rfl | rfl | rfl | rfl | rfl | rfl | rfl | rfl | rfl | rfl | rfl | rfl | rfl | rfl | rfl | rfl | rfl | rfl | rfl | rfl <;>
        (dsimp only; tauto)
    unfold unitLabel
    rw [this]

/-! ### Superscripts -/

namespace Spec

/-- A power in a unit: a letter, an optional minus and a digit. -/
def HasPower (s : List Char) : Prop :=
  ∃ pre c sign d post, s = pre ++ c :: (sign ++ d :: post) ∧ c.isAlpha = true ∧ (sign = [] ∨ sign = ['-']) ∧ d.isDigit = true

/-- Characters of the markup. -/
def isMarkup (c : Char) : Bool := c == '$' || c == '^' || c == '{' || c == '}'

end Spec

theorem alpha_not_digit (c : Char) (h : c.isDigit = true) : c.isAlpha = false := by
  rw [← Bool.not_eq_true]
  intro ha
  simp only [Char.isDigit, Char.isAlpha, Char.isUpper, Char.isLower, Bool.or_eq_true, Bool.and_eq_true, decide_eq_true_eq] at h ha
  have h1 := UInt32.le_iff_toNat_le.1 h.1
  have h2 := UInt32.le_iff_toNat_le.1 h.2
  rcases ha with ha | ha
  · have h3 := UInt32.le_iff_toNat_le.1 ha.1
    revert h2 h3
    simp
    omega
  · have h3 := UInt32.le_iff_toNat_le.1 ha.1
    revert h2 h3
    simp
    omega

theorem startsNumber_alpha (c : Char) (cs : List Char) (h : c.isAlpha = true) : startsNumber (c :: cs) = false := by
  have hd : c.isDigit = false := by
    cases hc : c.isDigit with
    | false => rfl
    | true => rw [alpha_not_digit c hc] at h; cases h
  have hm : c ≠ '-' := by rintro rfl; revert h; decide
  unfold startsNumber
  split
  · next e => simp only [List.cons.injEq] at e; exact absurd e.1 hm
  · next e => simp only [List.cons.injEq] at e; rw [← e.1]; exact hd
  · rfl

theorem startsNumber_cons (c : Char) (cs : List Char) :
    startsNumber (c :: cs) = if c = '-' then (cs.head?.map Char.isDigit).getD false else c.isDigit := by
  by_cases h : c = '-'
  · subst h
    cases cs <;> simp [startsNumber]
  · rw [if_neg h]
    unfold startsNumber
    split
    · next e => simp only [List.cons.injEq] at e; exact absurd e.1 h
    · next e => simp only [List.cons.injEq] at e; rw [← e.1]
    · next e => cases e

/-- Is there a power in the text, where `after` tells that there is a letter before? -/
def powerIn (after : Bool) : List Char → Bool
  | [] => false
  | c :: cs => (after && startsNumber (c :: cs)) || powerIn c.isAlpha cs

theorem startsNumber_iff (s : List Char) : startsNumber s = true ↔ ∃ sign d post, s = sign ++ d :: post ∧ (sign = [] ∨ sign = ['-']) ∧ d.isDigit = true := by
  constructor
  · intro h
    cases s with
    | nil => cases h
    | cons c cs =>
      rw [startsNumber_cons] at h
      by_cases hc : c = '-'
      · rw [if_pos hc] at h
        cases cs with
        | nil => simp at h
        | cons d cs => exact ⟨['-'], d, cs, by rw [hc]; rfl, Or.inr rfl, by simpa using h⟩
      · rw [if_neg hc] at h
        exact ⟨[], c, cs, rfl, Or.inl rfl, h⟩
  · rintro ⟨sign, d, post, rfl, hs, hd⟩
    rcases hs with rfl | rfl
    · rw [List.nil_append, startsNumber_cons, if_neg (by rintro rfl; revert hd; decide)]; exact hd
    · rw [List.cons_append, List.nil_append, startsNumber_cons, if_pos rfl]; simpa using hd

theorem powerIn_true (s : List Char) (a : Bool) : powerIn a s = true ↔ (a = true ∧ startsNumber s = true) ∨ Spec.HasPower s := by
  induction s generalizing a with
  | nil =>
    simp only [powerIn, Bool.false_eq_true, startsNumber, and_false, false_or, false_iff]
    rintro ⟨pre, c, sign, d, post, h, -⟩
    simp at h
  | cons c cs ih =>
    rw [powerIn, Bool.or_eq_true, Bool.and_eq_true, ih]
    apply or_congr_right
    constructor
    · rintro (⟨h1, h2⟩ | ⟨pre, c', sign, d, post, h, h2⟩)
      · obtain ⟨sign, d, post, rfl, h3, h4⟩ := (startsNumber_iff cs).1 h2
        exact ⟨[], c, sign, d, post, rfl, h1, h3, h4⟩
      · exact ⟨c :: pre, c', sign, d, post, by rw [h]; rfl, h2⟩
    · rintro ⟨pre, c', sign, d, post, h, h1, h2, h3⟩
      cases pre with
      | nil =>
        simp only [List.nil_append, List.cons.injEq] at h
        obtain ⟨rfl, rfl⟩ := h
        exact Or.inl ⟨h1, (startsNumber_iff _).2 ⟨sign, d, post, rfl, h2, h3⟩⟩
      | cons p pre =>
        simp only [List.cons_append, List.cons.injEq] at h
        obtain ⟨rfl, rfl⟩ := h
        exact Or.inr ⟨pre, c', sign, d, post, rfl, h1, h2, h3⟩

theorem powerIn_false_iff (s : List Char) : powerIn false s = false ↔ ¬ Spec.HasPower s := by
  rw [← Bool.not_eq_true, powerIn_true]
  simp

theorem superscript_filter (s : List Char) : ∀ a i, (superscript a i s).filter (fun c => !Spec.isMarkup c) = s.filter fun c => !Spec.isMarkup c := by
  induction s with
  | nil => intro a i; cases i <;> simp [superscript, Spec.isMarkup]
  | cons c cs ih =>
    intro a i
    rw [superscript]
    split_ifs with h1 h2 h3
    · rw [List.filter_cons, List.filter_cons, ih]
    · rw [List.filter_append, List.filter_cons, List.filter_cons, ih]; simp [Spec.isMarkup]
    · rw [List.filter_append, List.filter_cons, List.filter_cons, ih]; simp [Spec.isMarkup]
    · rw [List.filter_cons, List.filter_cons, ih]

theorem superscript_none (s : List Char) : ∀ a, powerIn a s = false → superscript a false s = s := by
  induction s with
  | nil => intro a _; rfl
  | cons c cs ih =>
    intro a h
    rw [powerIn, Bool.or_eq_false_iff] at h
    rw [superscript, if_neg (by simp), if_neg (by simp), if_neg (by rw [h.1]; simp), ih _ h.2]

theorem superscript_head (c : Char) (cs : List Char) : startsNumber (c :: superscript c.isAlpha false cs) = startsNumber (c :: cs) := by
  rw [startsNumber_cons, startsNumber_cons]
  by_cases h : c = '-'
  · rw [if_pos h, if_pos h, h]
    cases cs with
    | nil => rfl
    | cons d cs =>
      rw [superscript, if_neg (by simp), if_neg (by simp), if_neg (by rw [show Char.isAlpha '-' = false by decide]; simp)]
      rfl
  · rw [if_neg h, if_neg h]

theorem superscript_clean (s : List Char) :
    powerIn false (superscript false true s) = false ∧ ∀ a, powerIn a (superscript a false s) = false := by
  induction s with
  | nil => exact ⟨by decide, fun a => rfl⟩
  | cons c cs ih =>
    constructor
    · rw [superscript]
      by_cases hd : c.isDigit = true
      · rw [if_pos (by simp [hd]), powerIn, alpha_not_digit c hd, ih.1]; rfl
      · rw [if_neg (by simp [hd]), if_pos rfl]
        show powerIn false ('}' :: '$' :: c :: superscript c.isAlpha false cs) = false
        rw [powerIn, powerIn, powerIn, ih.2, show Char.isAlpha '}' = false by decide, show Char.isAlpha '$' = false by decide]
        rfl
    · intro a
      rw [superscript, if_neg (by simp), if_neg (by simp)]
      split_ifs with h
      · show powerIn a ('$' :: '^' :: '{' :: c :: superscript false true cs) = false
        rw [Bool.and_eq_true] at h
        have hc : c.isAlpha = false := by
          cases hc : c.isAlpha with
          | false => rfl
          | true => rw [startsNumber_alpha c cs hc] at h; exact absurd h.2 (by simp)
        rw [powerIn, powerIn, powerIn, powerIn, hc, ih.1, show Char.isAlpha '$' = false by decide, show Char.isAlpha '^' = false by decide,
          show Char.isAlpha '{' = false by decide, startsNumber_cons, if_neg (by decide), show Char.isDigit '$' = false by decide]
        simp
      · rw [powerIn, superscript_head, ih.2]
        simpa using h

theorem superscript_prefix (pre : List Char) (c : Char) (hc : c.isAlpha = true) (r : List Char) :
    ∀ a, powerIn a (pre ++ [c]) = false → superscript a false (pre ++ c :: r) = pre ++ c :: superscript true false r := by
  induction pre with
  | nil =>
    intro a _
    rw [List.nil_append, superscript, if_neg (by simp), if_neg (by simp), if_neg (by rw [startsNumber_alpha c r hc]; simp), hc]
    rfl
  | cons p pre ih =>
    intro a h
    rw [List.cons_append, powerIn, Bool.or_eq_false_iff] at h
    have hs : startsNumber (p :: (pre ++ c :: r)) = startsNumber (p :: (pre ++ [c])) := by
      rw [startsNumber_cons, startsNumber_cons]
      cases pre <;> rfl
    rw [List.cons_append, superscript, if_neg (by simp), if_neg (by simp), hs, if_neg (by rw [h.1]; simp), ih _ h.2]
    rfl

theorem superscript_inside (ds : List Char) (hds : ∀ d ∈ ds, d.isDigit = true) (post : List Char) (hpost : ∀ d, post.head? = some d → d.isDigit = false) :
    superscript false true (ds ++ post) = ds ++ ("}$".toList ++ superscript false false post) := by
  induction ds with
  | nil =>
    cases post with
    | nil => rfl
    | cons c cs =>
      have hc := hpost c rfl
      rw [List.nil_append, superscript, if_neg (by simp [hc]), if_pos rfl, superscript, if_neg (by simp), if_neg (by simp), if_neg (by simp)]
      rfl
  | cons d ds ih =>
    rw [List.cons_append, superscript, if_pos (by simp [hds d (by simp)]), ih fun x hx => hds x (List.mem_cons_of_mem _ hx)]
    rfl

theorem superscript_power (sign ds post : List Char) (hs : sign = [] ∨ sign = ['-']) (hne : ds ≠ []) (hds : ∀ d ∈ ds, d.isDigit = true)
    (hpost : ∀ d, post.head? = some d → d.isDigit = false) :
    superscript true false (sign ++ (ds ++ post)) = "$^{".toList ++ (sign ++ (ds ++ ("}$".toList ++ superscript false false post))) := by
  cases ds with
  | nil => exact absurd rfl hne
  | cons d ds =>
    have hd := hds d (by simp)
    have hrest : ∀ x ∈ ds, x.isDigit = true := fun x hx => hds x (List.mem_cons_of_mem _ hx)
    rcases hs with rfl | rfl
    · rw [List.nil_append, List.cons_append, superscript, if_neg (by simp), if_neg (by simp),
        if_pos (by rw [startsNumber_cons, if_neg (by rintro rfl; revert hd; decide), hd]; rfl), superscript_inside ds hrest post hpost]
      rfl
    · rw [List.cons_append, List.nil_append, superscript, if_neg (by simp), if_neg (by simp),
        if_pos (by rw [startsNumber_cons, if_pos rfl]; simp [hd]), superscript_inside (d :: ds) hds post hpost]
      rfl

/-- **C157.** Powers in units are set as superscripts: the first number directly after a letter, with all its digits and its minus, is put into
braces, and the rest of the text is treated in the same way; a text without powers is not changed. No power is left as it was, and only markup is
added. -/
theorem C157_superscripts (units : String) (hne : units ≠ "1") :
    (¬ Spec.HasPower units.toList → reformatUnits units = units) ∧
    (∀ pre c sign ds post, units = String.ofList (pre ++ c :: (sign ++ (ds ++ post))) → ¬ Spec.HasPower (pre ++ [c]) → c.isAlpha = true →
      sign = [] ∨ sign = ['-'] → ds ≠ [] → (∀ d ∈ ds, d.isDigit = true) → (∀ d, post.head? = some d → d.isDigit = false) → String.ofList post ≠ "1" →
      reformatUnits units = String.ofList (pre ++ [c]) ++ "$^{" ++ String.ofList (sign ++ ds) ++ "}$" ++ reformatUnits (String.ofList post)) ∧
    ¬ Spec.HasPower (reformatUnits units).toList ∧
    ((reformatUnits units).toList.filter fun c => !Spec.isMarkup c) = units.toList.filter fun c => !Spec.isMarkup c := by
  have hu : (reformatUnits units).toList = superscript false false units.toList := by
    unfold reformatUnits
    rw [if_neg hne, String.toList_ofList]
  refine ⟨?_, ?_, ?_, ?_⟩
  · intro h
    apply String.toList_injective
    rw [hu, superscript_none _ _ ((powerIn_false_iff _).2 h)]
  · intro pre c sign ds post he hpre hc hs hds hdig hpost hp1
    have hp : (reformatUnits (String.ofList post)).toList = superscript false false post := by
      unfold reformatUnits
      rw [if_neg hp1, String.toList_ofList, String.toList_ofList]
    apply String.toList_injective
    rw [hu, he, String.toList_ofList, superscript_prefix pre c hc _ _ ((powerIn_false_iff _).2 hpre),
      superscript_power sign ds post hs hds hdig hpost]
    simp only [String.toList_append, String.toList_ofList, hp, List.append_assoc, List.cons_append, List.nil_append]
  · rw [hu]
    exact (powerIn_false_iff _).1 ((superscript_clean _).2 false)
  · rw [hu]
    exact superscript_filter _ _ _

example : reformatUnits "m s-1" = "m s$^{-1}$" ∧ reformatUnits "kg m-3" = "kg m$^{-3}$" ∧ reformatUnits "m2 s-3" = "m$^{2}$ s$^{-3}$" ∧
    reformatUnits "1" = "" ∧ reformatUnits "sr-1 m-1" = "sr$^{-1}$ m$^{-1}$" ∧ reformatUnits "degree" = "degree" := by decide +kernel

/-! ### Images -/

/-- **C157.** A value of an image is the value in the units of the figure, or its decimal logarithm on a logarithmic scale, where values below the
lower end of the scale are shown at the lower end; zeros are not shown if they are masked or if the variable is the cloud fraction. -/
theorem C157_image (name : String) (maskZeros logScale : Bool) (vmin : ℝ) (hmin : logScale = true → 0 < vmin) (x : Option ℝ) (y : ℝ) :
    imageValue name maskZeros logScale vmin x = some y ↔ ∃ v, x = some v ∧ (plotUnit name v = 0 → maskZeros = false ∧ name ≠ "cloud_fraction") ∧
      y = if logScale = true then Real.log (max (plotUnit name v) vmin) / Real.log 10 else plotUnit name v := by
  cases x with
  | none => unfold imageValue; cases maskZeros <;> cases logScale <;> by_cases h : name = "cloud_fraction" <;> simp [h, maskZero]
  | some v =>
    have hstep : imageValue name maskZeros logScale vmin (some v) =
        if plotUnit name v = 0 ∧ (maskZeros = true ∨ name = "cloud_fraction") then none
        else if logScale then some (Real.logb 10 (max (plotUnit name v) vmin)) else some (plotUnit name v) := by
      unfold imageValue
      simp only [Option.map_some]
      have hpos : logScale = true → 0 < max (plotUnit name v) vmin := fun h => lt_of_lt_of_le (hmin h) (le_max_right _ _)
      by_cases h0 : plotUnit name v = 0 <;> by_cases hn : name = "cloud_fraction" <;> cases maskZeros <;> cases logScale <;>
        simp_all [maskZero]
    rw [hstep]
    constructor
    · intro h
      refine ⟨v, rfl, ?_, ?_⟩
      · intro h0
        by_contra hc
        rw [if_pos ⟨h0, by cases maskZeros <;> simp_all⟩] at h
        cases h
      · split_ifs at h with h1 h2
        · rw [if_pos h2, ← Real.logb.eq_def]; exact (Option.some.inj h).symm
        · rw [if_neg h2]; exact (Option.some.inj h).symm
    · rintro ⟨w, hw, h1, h2⟩
      cases hw
      rw [if_neg (by rintro ⟨h0, hor⟩; obtain ⟨a, b⟩ := h1 h0; rcases hor with h | h
                     · rw [a] at h; cases h
                     · exact b h), h2]
      cases logScale <;> simp [Real.logb]

section
variable {α : Type} [Field α] [LinearOrder α] [IsStrictOrderedRing α]

/-- **C157**, finding: the rainfall rates of rain radars are converted to millimetres per hour but their scale is in metres per second, so that every
rate from 50/3600000 mm/h (a few millimetres in 30 years) has the colour at the upper end. -/
theorem C157_rain_scale (x : α) (h : 50 / 3600000 ≤ plotUnit "rainfall_rate" x) : rainRadarColour x = 1 := by
  unfold rainRadarColour scalePosition rainRadarScale
  dsimp only
  have : 1 ≤ (plotUnit "rainfall_rate" x - 0) / (50 / 3600000 - 0) := by
    rw [sub_zero, sub_zero, le_div_iff₀ (by norm_num), one_mul]
    exact h
  rw [min_eq_left this, max_eq_right (by norm_num)]

/-- Drizzle of 0.1 mm/h and a cloudburst of 50 mm/h have the same colour. -/
example : rainRadarColour (1 / 36000000 : ℚ) = 1 ∧ rainRadarColour (50 / 3600000 : ℚ) = 1 ∧ plotUnit "rainfall_rate" (1 / 36000000 : ℚ) = 1 / 10 ∧
    scalePosition (0, 50) (plotUnit "rainfall_rate" (1 / 36000000 : ℚ)) = 1 / 500 := by decide +kernel

/-! ### Brightness temperatures -/

theorem noValue_iff (n : ℕ) (data : ℕ → Option α) : noValue n data = true ↔ ∀ t < n, data t = none := by
  unfold noValue
  rw [List.all_eq_true]
  simp

/-- A profile that does not point up: the zenith angle is above five degrees or the pointing flag is set. -/
def Spec.NotUp (f : TbFile α) (t : ℕ) : Prop := ∃ flag zenith, f.pointing = some (flag, zenith) ∧ (zenith t < -5 ∨ 5 < zenith t ∨ flag t ≠ 0)

theorem badZenith_iff (f : TbFile α) (t : ℕ) : badZenith f t = true ↔ Spec.NotUp f t := by
  unfold badZenith Spec.NotUp
  cases f.pointing with
  | none => simp
  | some p =>
    obtain ⟨flag, zenith⟩ := p
    simp only [Bool.or_eq_true, decide_eq_true_eq, bne_iff_ne, ne_eq, Option.some.injEq, Prod.mk.injEq]
    rw [lt_abs]
    constructor
    · rintro ((h | h) | h)
      · exact ⟨flag, zenith, ⟨rfl, rfl⟩, Or.inr (Or.inl h)⟩
      · exact ⟨flag, zenith, ⟨rfl, rfl⟩, Or.inl (by linarith)⟩
      · exact ⟨flag, zenith, ⟨rfl, rfl⟩, Or.inr (Or.inr h)⟩
    · rintro ⟨a, b, ⟨rfl, rfl⟩, h | h | h⟩
      · exact Or.inl (Or.inr (by linarith))
      · exact Or.inl (Or.inl h)
      · exact Or.inr h

/-- **C157.** The figure of the brightness temperature of a channel has the values of the profiles that point up, and marks those of them with a
quality flag; a channel that does not exist is a `PlottingError`, as is a figure without values if that is wanted. -/
theorem C157_tb (raiseOnEmpty : Bool) (f : TbFile α) (k : ℕ) (flags : ℕ → ℕ → Bool) (hflags : f.flags = some flags) :
    (f.nFreq ≤ k → plotTb raiseOnEmpty f k = .error "PlottingError") ∧
    (k < f.nFreq → raiseOnEmpty = true → (∀ t < f.nT, ¬ Spec.NotUp f t → f.tb t k = none) → plotTb raiseOnEmpty f k = .error "PlottingError") ∧
    (k < f.nFreq → (raiseOnEmpty = false ∨ ∃ t < f.nT, ¬ Spec.NotUp f t ∧ f.tb t k ≠ none) → ∃ data marked,
      plotTb raiseOnEmpty f k = .ok (data, marked) ∧ (∀ t x, data t = some x ↔ f.tb t k = some x ∧ ¬ Spec.NotUp f t) ∧
      marked.Pairwise (· < ·) ∧ ∀ t, t ∈ marked ↔ t < f.nT ∧ flags t k = true ∧ ¬ Spec.NotUp f t) := by
  have hcol : k < f.nFreq → pyColumn f.nFreq (k : ℤ) = some k := by
    intro h
    unfold pyColumn
    rw [if_pos ⟨by omega, by omega⟩]
    simp
  have hdata : ∀ t x, (if badZenith f t = true then none else f.tb t k) = some x ↔ f.tb t k = some x ∧ ¬ Spec.NotUp f t := by
    intro t x
    rw [← badZenith_iff]
    by_cases h : badZenith f t = true <;> simp [h]
  have hempty : noValue f.nT (fun t => if badZenith f t = true then none else f.tb t k) = true ↔ ∀ t < f.nT, ¬ Spec.NotUp f t → f.tb t k = none := by
    rw [noValue_iff]
    refine forall_congr' fun t => imp_congr_right fun _ => ?_
    rw [← badZenith_iff]
    by_cases h : badZenith f t = true <;> simp [h]
  refine ⟨?_, ?_, ?_⟩
  · intro h
    unfold plotTb
    rw [if_pos (by exact_mod_cast h)]
    rfl
  · intro h hr hnone
    unfold plotTb
    rw [if_neg (by omega), hcol h, hflags, hr]
    simp only [Bool.and_true]
    rw [if_pos (hempty.2 hnone)]
    by_cases hn : noValue f.nT (fun t => f.tb t k) = true
    · rw [if_pos hn]; rfl
    · rw [if_neg hn]; rfl
  · intro h hor
    have hno : ¬ (noValue f.nT (fun t => if badZenith f t = true then none else f.tb t k) && raiseOnEmpty) = true := by
      rw [Bool.and_eq_true, hempty]
      rintro ⟨h1, h2⟩
      rcases hor with h3 | ⟨t, ht, h3, h4⟩
      · rw [h3] at h2; cases h2
      · exact h4 (h1 t ht h3)
    have hno2 : ¬ (noValue f.nT (fun t => f.tb t k) && raiseOnEmpty) = true := by
      rw [Bool.and_eq_true, noValue_iff]
      rintro ⟨h1, h2⟩
      rcases hor with h3 | ⟨t, ht, h3, h4⟩
      · rw [h3] at h2; cases h2
      · exact h4 (h1 t ht)
    refine ⟨fun t => if badZenith f t = true then none else f.tb t k, (List.range f.nT).filter fun t => flags t k && !badZenith f t, ?_, hdata, ?_, ?_⟩
    · unfold plotTb
      rw [if_neg (by omega), hcol h, hflags]
      simp only
      rw [if_neg hno2, if_neg hno]
      rfl
    · exact List.Pairwise.filter _ List.pairwise_lt_range
    · intro t
      rw [List.mem_filter, List.mem_range, Bool.and_eq_true, ← badZenith_iff]
      simp

/-- **C157**, findings: a file without quality flags raises `IndexError`; channel -1 is the last one. -/
theorem C157_tb_flags (f : TbFile α) (k : ℕ) (hk : k < f.nFreq) (hf : f.flags = none) (raiseOnEmpty : Bool) (h : ∃ t < f.nT, f.tb t k ≠ none) :
    plotTb raiseOnEmpty f k = .error "IndexError" := by
  unfold plotTb
  have hcol : pyColumn f.nFreq (k : ℤ) = some k := by
    unfold pyColumn
    rw [if_pos ⟨by omega, by omega⟩]
    simp
  have hno : ¬ (noValue f.nT (fun t => f.tb t k) && raiseOnEmpty) = true := by
    rw [Bool.and_eq_true, noValue_iff]
    rintro ⟨h1, -⟩
    obtain ⟨t, ht, h2⟩ := h
    exact h2 (h1 t ht)
  rw [if_neg (by omega), hcol, hf]
  simp only
  rw [if_neg hno]
  rfl

/-- Three profiles and two channels; the second profile is tilted. -/
def exTbFile : TbFile ℚ := ⟨3, 2, fun t k => some (10 * t + k), some (fun _ => 0, fun t => if t = 1 then 30 else 0), some fun t k => t = 2 && k = 1⟩

theorem C157_last_channel : (plotTb true exTbFile 1).map (fun p => ((List.range 3).map p.1, p.2)) = .ok ([some 1, none, some 21], [2]) ∧
    (plotTb true exTbFile (-1)).map (fun p => ((List.range 3).map p.1, p.2)) = .ok ([some 1, none, some 21], [2]) := by decide +kernel

end

/-- **C157.** The flags of a variable are its own ones, else those of the temperature, else (but not for the infrared radiometer) those of the file. -/
theorem C157_flags (has : String → Bool) (name : String) :
    (has (name ++ "_quality_flag") = true → flagVariable has name = some (name ++ "_quality_flag")) ∧
    (has (name ++ "_quality_flag") = false → has "temperature_quality_flag" = true → flagVariable has name = some "temperature_quality_flag") ∧
    (has (name ++ "_quality_flag") = false → has "temperature_quality_flag" = false → has "quality_flag" = true → name ≠ "irt" →
      flagVariable has name = some "quality_flag") ∧
    (has (name ++ "_quality_flag") = false → has "temperature_quality_flag" = false → (has "quality_flag" = false ∨ name = "irt") →
      flagVariable has name = none) := by
  unfold flagVariable
  refine ⟨?_, ?_, ?_, ?_⟩
  · intro h; simp [h]
  · intro h h2; simp [h, h2]
  · intro h h2 h3 h4; simp [h, h2, h3, h4]
  · intro h h2 h3
    by_cases hn : name = "irt"
    · rw [if_neg (by simp [hn])]; simp [h, h2]
    · rcases h3 with h3 | h3
      · simp [h, h2, h3, hn]
      · exact absurd h3 hn

/-! ### Ticks -/

/-- **C157.** There is a tick label for each multiple of the resolution up to 24, with the hour in two digits; those of both edges are empty unless
they are wanted. -/
theorem C157_ticks (r : ℕ) (hr : 0 < r) (edges : Bool) (k : ℕ) (label : String) :
    (tickLabels r edges)[k]? = some label ↔ k * r ≤ 24 ∧
      label = if edges = true ∨ (0 < k * r ∧ k * r < 24) then
        String.ofList [Char.ofNat (48 + k * r / 10), Char.ofNat (48 + k * r % 10), ':', '0', '0'] else "" := by
  have hlist : (((List.range 25).map fun k => k * r).filter fun i => i ≤ 24) = (List.range (24 / r + 1)).map fun k => k * r := by
    have h25 : 24 / r + 1 ≤ 25 := by
      have := Nat.div_le_self 24 r
      omega
    have hsplit : List.range 25 = List.range (24 / r + 1) ++ (List.range (25 - (24 / r + 1))).map (24 / r + 1 + ·) := by
      rw [← List.range_add]
      congr 1
      omega
    rw [hsplit, List.map_append, List.filter_append]
    have h1 : (((List.range (24 / r + 1)).map fun k => k * r).filter fun i => decide (i ≤ 24)) = (List.range (24 / r + 1)).map fun k => k * r := by
      rw [List.filter_eq_self]
      intro i hi
      obtain ⟨j, hj, rfl⟩ := List.mem_map.1 hi
      rw [List.mem_range] at hj
      rw [decide_eq_true_eq]
      calc j * r ≤ 24 / r * r := Nat.mul_le_mul_right _ (by omega)
        _ ≤ 24 := Nat.div_mul_le_self 24 r
    have h2 : ((((List.range (25 - (24 / r + 1))).map (24 / r + 1 + ·)).map fun k => k * r).filter fun i => decide (i ≤ 24)) = [] := by
      rw [List.filter_eq_nil_iff]
      intro i hi
      obtain ⟨j, hj, rfl⟩ := List.mem_map.1 hi
      obtain ⟨l, hl, rfl⟩ := List.mem_map.1 hj
      rw [decide_eq_true_eq, not_le]
      calc 24 < (24 / r + 1) * r := by
            rw [mul_comm]
            exact Nat.lt_mul_div_succ 24 hr
        _ ≤ (24 / r + 1 + l) * r := Nat.mul_le_mul_right _ (by omega)
    rw [h1, h2, List.append_nil]
  have htext : ∀ i ≤ 24, hourText i = String.ofList [Char.ofNat (48 + i / 10), Char.ofNat (48 + i % 10), ':', '0', '0'] := by decide +kernel
  unfold tickLabels
  rw [hlist, List.map_map, List.getElem?_map]
  have hlt : k * r ≤ 24 ↔ k < 24 / r + 1 := by
    rw [Nat.lt_succ_iff, Nat.le_div_iff_mul_le hr]
  by_cases hk : k < 24 / r + 1
  · rw [List.getElem?_range hk, Option.map_some, Option.some.injEq]
    have hle := hlt.2 hk
    simp only [Function.comp, hle, true_and, htext _ hle]
    have hmod : 48 + k * r % 10 = 48 + k * r % 10 := rfl
    cases edges with
    | true => simp [hle, eq_comm]
    | false =>
      simp only [Bool.false_eq_true, if_false, false_or, gt_iff_lt]
      rw [eq_comm]
      by_cases h : 0 < k * r ∧ k * r < 24
      · rw [if_pos h, if_pos ⟨h.2, h.1⟩]
      · rw [if_neg h, if_neg (fun e => h ⟨e.2, e.1⟩)]
  · rw [List.getElem?_eq_none (by simpa using hk)]
    simp only [Option.map_none, reduceCtorEq, false_iff]
    rintro ⟨h, -⟩
    exact hk (hlt.1 h)

example : tickLabels 4 false = ["", "04:00", "08:00", "12:00", "16:00", "20:00", ""] ∧
    tickLabels 5 true = ["00:00", "05:00", "10:00", "15:00", "20:00"] := by decide +kernel

end Cloudnet
