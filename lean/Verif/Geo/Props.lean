import Verif.Geo.Model
import Verif.Cli.Props
import Verif.Disdronator.ParsivelProps
import Mathlib.Tactic

/-!
C134 site coordinates, C135 epoch of time units.
-/

namespace Cloudnet

section
variable {α : Type} [Field α] [LinearOrder α] [IsStrictOrderedRing α]

namespace Spec

/-- The positions of a GPS: an array of the file or, if the file has none, of the data read so far, with a valid value other than zero;
zeros are missing. Altitudes are not taken from a GPS. -/
def GpsPositions (i : GeoInput α) (key : String) (v : List (Option α)) : Prop :=
  i.gps = true ∧ key ≠ "altitude" ∧
  ∃ raw, ((∃ d, i.dataset = some d ∧ d.var key = some raw) ∨
      ((∀ d, i.dataset = some d → d.var key = none) ∧ i.data key = some raw)) ∧
    (∃ x, some x ∈ raw ∧ x ≠ 0) ∧ List.Forall₂ (fun a b => b = if a = some 0 then none else a) raw v

/-- No position by GPS and none given for the site. -/
def NotGiven (i : GeoInput α) (key : String) : Prop :=
  (∀ v, ¬ GpsPositions i key v) ∧ ∀ s, i.site = some s → s key = none

/-- The global attribute of the file that counts: there is no position from GPS or site, and no variable with a valid value. -/
def AttributeUsed (i : GeoInput α) (key text : String) : Prop :=
  NotGiven i key ∧ ∃ d, i.dataset = some d ∧ (∀ v, d.var key = some v → ∀ x, some x ∉ v) ∧
    d.attr (capitalize key) = some text ∧ text ≠ "Unknown"
where
  /-- The name with an upper case first letter. -/
  capitalize (key : String) : String :=
    match key.toList with
    | [] => ""
    | c :: cs => String.ofList (c.toUpper :: cs)

/-- Where a coordinate comes from, in order of preference. -/
inductive Located (float : String → Option α) (i : GeoInput α) (key : String) : GeoValue α → String → Prop where
  | gps (v : List (Option α)) : GpsPositions i key v → Located float i key (.array v) "GPS"
  | site (s : String → Option α) (x : α) : (∀ v, ¬ GpsPositions i key v) → i.site = some s → s key = some x →
      Located float i key (.array [some x]) "site coordinates"
  | file (d : GeoFile α) (v : List (Option α)) : NotGiven i key → i.dataset = some d → d.var key = some v → (∃ x, some x ∈ v) →
      Located float i key (.array v) "raw file"
  | fileAttribute (text : String) (x : α) : AttributeUsed i key text →
      float (String.ofList (text.toList.filter fun c => c.isDigit || c == '.')) = some x → Located float i key (.number x) "raw file"

/-- Mean of the valid values. -/
def IsMeanPosition (l : List (Option α)) (m : α) : Prop := m * ((l.filterMap id).length : α) = (l.filterMap id).sum

/-- The latitudes differ by at most 0.01 degrees, the longitudes by the same distance on the ground (at the middle latitude). -/
def Stationary (cosd : α → α) (lat lon : List (Option α)) : Prop :=
  ∃ lo hi, IsLeast {x | some x ∈ lat} lo ∧ IsGreatest {x | some x ∈ lat} hi ∧ hi - lo ≤ 1 / 100 ∧
    ∀ x y, some x ∈ lon → some y ∈ lon → x - y ≤ 1 / 100 / cosd ((lo + hi) / 2)

end Spec

/-! ### Lemmas -/

theorem foldl_min_least (a : α) (l : List α) : IsLeast {x | x = a ∨ x ∈ l} (l.foldl min a) := by
  induction l generalizing a with
  | nil => simp [IsLeast, lowerBounds]
  | cons b l ih =>
    obtain ⟨h1, h2⟩ := ih (min a b)
    simp only [List.foldl_cons]
    constructor
    · rcases h1 with h1 | h1
      · rcases min_choice a b with h | h
        · exact Or.inl (h1.trans h)
        · exact Or.inr (by rw [h1, h]; simp)
      · exact Or.inr (List.mem_cons_of_mem _ h1)
    · rintro x (rfl | hx)
      · exact (h2 (Or.inl rfl)).trans (min_le_left _ _)
      · rcases List.mem_cons.1 hx with rfl | hx
        · exact (h2 (Or.inl rfl)).trans (min_le_right _ _)
        · exact h2 (Or.inr hx)

theorem foldl_max_greatest (a : α) (l : List α) : IsGreatest {x | x = a ∨ x ∈ l} (l.foldl max a) := by
  induction l generalizing a with
  | nil => simp [IsGreatest, upperBounds]
  | cons b l ih =>
    obtain ⟨h1, h2⟩ := ih (max a b)
    simp only [List.foldl_cons]
    constructor
    · rcases h1 with h1 | h1
      · rcases max_choice a b with h | h
        · exact Or.inl (h1.trans h)
        · exact Or.inr (by rw [h1, h]; simp)
      · exact Or.inr (List.mem_cons_of_mem _ h1)
    · rintro x (rfl | hx)
      · exact (le_max_left _ _).trans (h2 (Or.inl rfl))
      · rcases List.mem_cons.1 hx with rfl | hx
        · exact (le_max_right _ _).trans (h2 (Or.inl rfl))
        · exact h2 (Or.inr hx)

theorem geo_valid (l : List (Option α)) (h : ∃ x, some x ∈ l) :
    ∃ a vs, l.filterMap id = a :: vs ∧ ∀ x, some x ∈ l ↔ x = a ∨ x ∈ vs := by
  obtain ⟨x, hx⟩ := h
  have hx' : x ∈ l.filterMap id := by simpa using hx
  cases hl : l.filterMap id with
  | nil => rw [hl] at hx'; simp at hx'
  | cons a vs =>
    refine ⟨a, vs, rfl, fun y => ?_⟩
    have : y ∈ l.filterMap id ↔ some y ∈ l := by simp
    rw [← this, hl, List.mem_cons]

theorem geoMin_least (l : List (Option α)) (h : ∃ x, some x ∈ l) : IsLeast {x | some x ∈ l} (geoMin l) := by
  obtain ⟨a, vs, hl, hm⟩ := geo_valid l h
  have := foldl_min_least a vs
  unfold geoMin
  rw [hl]
  simp only [List.headD_cons, List.foldl_cons, min_self, hm]
  exact this

theorem geoMax_greatest (l : List (Option α)) (h : ∃ x, some x ∈ l) : IsGreatest {x | some x ∈ l} (geoMax l) := by
  obtain ⟨a, vs, hl, hm⟩ := geo_valid l h
  have := foldl_max_greatest a vs
  unfold geoMax
  rw [hl]
  simp only [List.headD_cons, List.foldl_cons, max_self, hm]
  exact this

theorem geoMean_spec (l : List (Option α)) (h : ∃ x, some x ∈ l) : Spec.IsMeanPosition l (geoMean l) := by
  obtain ⟨a, vs, hl, _⟩ := geo_valid l h
  unfold Spec.IsMeanPosition geoMean maskedMean
  have : ((l.filterMap id).length : α) ≠ 0 := by rw [hl]; simp; positivity
  simp only [hl, List.cons_ne_nil, if_false, Option.getD_some] at this ⊢
  field_simp

theorem sum_between (l : List α) (lo hi : α) (h : ∀ x ∈ l, lo ≤ x ∧ x ≤ hi) :
    lo * (l.length : α) ≤ l.sum ∧ l.sum ≤ hi * (l.length : α) := by
  induction l with
  | nil => simp
  | cons a l ih =>
    obtain ⟨h1, h2⟩ := ih fun x hx => h x (List.mem_cons_of_mem _ hx)
    obtain ⟨h3, h4⟩ := h a (by simp)
    simp only [List.length_cons, Nat.cast_add, Nat.cast_one, List.sum_cons]
    constructor <;> linarith

theorem mean_between (l : List (Option α)) (h : ∃ x, some x ∈ l) (m : α) (hm : Spec.IsMeanPosition l m) (lo hi : α)
    (hb : ∀ x, some x ∈ l → lo ≤ x ∧ x ≤ hi) : lo ≤ m ∧ m ≤ hi := by
  obtain ⟨a, vs, hl, _⟩ := geo_valid l h
  have hpos : (0 : α) < ((l.filterMap id).length : α) := by rw [hl]; simp; positivity
  obtain ⟨h1, h2⟩ := sum_between (l.filterMap id) lo hi fun x hx => hb x (by simpa using hx)
  unfold Spec.IsMeanPosition at hm
  rw [← hm] at h1 h2
  exact ⟨le_of_mul_le_mul_right h1 hpos, le_of_mul_le_mul_right h2 hpos⟩

theorem stationary_iff (cosd : α → α) (lat lon : List (Option α)) (h1 : ∃ x, some x ∈ lat) (h2 : ∃ x, some x ∈ lon) :
    areStationary cosd lat lon = true ↔ Spec.Stationary cosd lat lon := by
  have a := geoMin_least lat h1
  have b := geoMax_greatest lat h1
  have c := geoMin_least lon h2
  have d := geoMax_greatest lon h2
  unfold areStationary Spec.Stationary
  rw [Bool.and_eq_true, decide_eq_true_iff, decide_eq_true_iff]
  constructor
  · rintro ⟨h3, h4⟩
    refine ⟨_, _, a, b, h3, fun x y hx hy => ?_⟩
    have := d.2 hx
    have := c.2 hy
    linarith
  · rintro ⟨lo, hi, hlo, hhi, h3, h4⟩
    rw [hlo.unique a, hhi.unique b] at *
    exact ⟨h3, h4 _ _ d.1 c.1⟩

theorem gpsValue_eq (raw v : List (Option α)) :
    gpsValue raw = some v ↔ (∃ x, some x ∈ raw ∧ x ≠ 0) ∧ List.Forall₂ (fun a b => b = if a = some 0 then none else a) raw v := by
  have hf : List.Forall₂ (fun a b : Option α => b = if a = some 0 then none else a) raw v ↔
      v = raw.map fun x => x.filter fun v => decide (v ≠ 0) := by
    have he : ∀ a : Option α, (a.filter fun v => decide (v ≠ 0)) = if a = some 0 then none else a := by
      intro a
      cases a with
      | none => simp
      | some x => by_cases hx : x = 0 <;> simp [Option.filter, hx]
    simp only [he]
    constructor
    · intro h
      induction h with
      | nil => rfl
      | cons h _ ih => simp [h, ih]
    · rintro rfl
      rw [List.forall₂_map_right_iff]
      exact List.forall₂_same.2 fun _ _ => rfl
  rw [hf]
  unfold gpsValue
  have hany : (raw.any fun x => x.any fun v => decide (v ≠ 0)) = true ↔ ∃ x, some x ∈ raw ∧ x ≠ 0 := by
    simp only [List.any_eq_true, Option.any_eq_true, decide_eq_true_eq]
    constructor
    · rintro ⟨o, ho, x, rfl, hx⟩
      exact ⟨x, ho, hx⟩
    · rintro ⟨x, hx, h0⟩
      exact ⟨_, hx, x, rfl, h0⟩
  by_cases h : ∃ x, some x ∈ raw ∧ x ≠ 0
  · rw [if_pos (hany.2 h)]
    simp only [Option.some.injEq, h, true_and]
    exact eq_comm
  · rw [if_neg (fun hh => h (hany.1 hh))]
    simp [h]

theorem gps_iff (i : GeoInput α) (key : String) (v : List (Option α)) :
    (i.gpsValues key).bind gpsValue = some v ↔ Spec.GpsPositions i key v := by
  rw [Option.bind_eq_some_iff]
  unfold Spec.GpsPositions GeoInput.gpsValues
  by_cases hg : i.gps = true ∧ key ≠ "altitude"
  · rw [if_pos hg]
    simp only [hg.1, ne_eq, hg.2, not_false_eq_true, true_and]
    refine exists_congr fun raw => ?_
    rw [gpsValue_eq]
    refine and_congr_left fun _ => ?_
    cases hd : i.dataset with
    | none => simp
    | some d =>
      simp only [Option.bind_some, Option.some.injEq, exists_eq_left']
      cases hv : d.var key with
      | none => simp [hv]
      | some w => simp [hv]
  · rw [if_neg hg]
    simp only [reduceCtorEq, false_and, exists_false, false_iff]
    rintro ⟨h1, h2, _⟩
    exact hg ⟨h1, h2⟩

/-- The three coordinates. -/
theorem geoAttribute_eq (key : String) (h : key ∈ ["latitude", "longitude", "altitude"]) :
    geoAttribute key = Spec.AttributeUsed.capitalize key := by
  simp only [List.mem_cons, List.not_mem_nil, or_false] at h
  rcases h with rfl | rfl | rfl <;> decide +kernel

/-! ### C134 -/

theorem geo_notGiven (i : GeoInput α) (key : String) :
    Spec.NotGiven i key ↔ (i.gpsValues key).bind gpsValue = none ∧ (i.site.bind fun s => s key) = none := by
  unfold Spec.NotGiven
  refine and_congr ?_ ?_
  · rw [Option.eq_none_iff_forall_ne_some]
    exact forall_congr' fun v => not_congr (gps_iff i key v).symm
  · cases i.site <;> simp

theorem geo_valid_filter (o : Option (List (Option α))) :
    (o.filter fun v => !(v.all Option.isNone)) = none ↔ ∀ v, o = some v → ∀ x, some x ∉ v := by
  cases o with
  | none => simp
  | some v =>
    simp only [Option.filter_eq_none_iff, Option.some.injEq, forall_eq']
    simp only [Bool.not_eq_true', List.all_eq_true, Bool.not_eq_eq_eq_not, Bool.not_true]
    constructor
    · intro h x hx
      have h1 : v.all Option.isNone = true := by simpa using h
      have := List.all_eq_true.1 h1 _ hx
      simp at this
    · intro h
      have : v.all Option.isNone = true := List.all_eq_true.2 fun o ho => by
        cases o with
        | none => rfl
        | some x => exact absurd ho (h x)
      simp [this]

theorem geo_used (i : GeoInput α) (key : String) (hkey : key ∈ ["latitude", "longitude", "altitude"]) (text : String) :
    Spec.AttributeUsed i key text ↔ Spec.NotGiven i key ∧ ∃ d, i.dataset = some d ∧
      ((d.var key).filter fun v => !(v.all Option.isNone)) = none ∧ d.attr (geoAttribute key) = some text ∧ text ≠ "Unknown" := by
  unfold Spec.AttributeUsed
  rw [geoAttribute_eq key hkey]
  simp only [geo_valid_filter]

/-- **C134.** Where a coordinate comes from: first the GPS, then the coordinates given for the site, then a variable and at last a global
attribute of the file. -/
theorem C134_source (float : String → Option α) (i : GeoInput α) (key : String) (hkey : key ∈ ["latitude", "longitude", "altitude"])
    (v : GeoValue α) (source : String) :
    geoFind float i key = .ok (some (v, source)) ↔ Spec.Located float i key v source := by
  have hng := geo_notGiven i key
  constructor
  · intro h
    unfold geoFind at h
    cases hg : (i.gpsValues key).bind gpsValue with
    | some w =>
      rw [hg] at h
      cases h
      exact .gps _ ((gps_iff i key w).1 hg)
    | none =>
      rw [hg] at h
      have hno : ∀ v, ¬ Spec.GpsPositions i key v := fun v hv => by
        rw [← gps_iff, hg] at hv
        cases hv
      dsimp only at h
      cases hs : i.site.bind fun s => s key with
      | some x =>
        rw [hs] at h
        cases h
        obtain ⟨s, hs1, hs2⟩ := Option.bind_eq_some_iff.1 hs
        exact .site s x hno hs1 hs2
      | none =>
        rw [hs] at h
        dsimp only at h
        have hn := hng.2 ⟨hg, hs⟩
        cases hd : i.dataset with
        | none => rw [hd] at h; cases h
        | some d =>
          rw [hd] at h
          dsimp only at h
          unfold geoFromFile at h
          cases hv : (d.var key).filter fun v => !(v.all Option.isNone) with
          | some w =>
            rw [hv] at h
            cases h
            obtain ⟨h1, h2⟩ := Option.filter_eq_some_iff.1 hv
            refine .file d _ hn hd h1 ?_
            by_contra hx
            push Not at hx
            have := (geo_valid_filter (d.var key)).2 fun v hv' => by rw [h1] at hv'; cases hv'; exact hx
            rw [this] at hv
            cases hv
          | none =>
            rw [hv] at h
            dsimp only at h
            cases ha : d.attr (geoAttribute key) with
            | none => rw [ha] at h; cases h
            | some a =>
              rw [ha] at h
              dsimp only at h
              unfold geoNumeral at h
              by_cases hu : a = "Unknown"
              · rw [if_pos hu] at h; cases h
              · rw [if_neg hu] at h
                cases hf : float (String.ofList (a.toList.filter fun c => c.isDigit || c == '.')) with
                | none => rw [hf] at h; cases h
                | some x =>
                  rw [hf] at h
                  cases h
                  exact .fileAttribute a x ((geo_used i key hkey a).2 ⟨hn, d, hd, hv, ha, hu⟩) hf
  · intro h
    cases h with
    | gps v hv =>
      unfold geoFind
      rw [(gps_iff i key v).2 hv]
    | site s x hno hs hx =>
      unfold geoFind
      have : (i.gpsValues key).bind gpsValue = none :=
        Option.eq_none_iff_forall_ne_some.2 fun v hv => hno v ((gps_iff i key v).1 hv)
      rw [this, hs]
      simp [hx]
    | file d v hn hd hv hx =>
      unfold geoFind
      rw [(hng.1 hn).1, (hng.1 hn).2, hd]
      dsimp only
      unfold geoFromFile
      have : ((d.var key).filter fun v => !(v.all Option.isNone)) = some v := by
        rw [Option.filter_eq_some_iff]
        refine ⟨hv, ?_⟩
        by_contra hc
        have h0 : ((d.var key).filter fun v => !(v.all Option.isNone)) = none := by
          rw [hv]
          simpa [Option.filter] using hc
        obtain ⟨x, hx⟩ := hx
        exact (geo_valid_filter _).1 h0 v hv x hx
      rw [this]
    | fileAttribute text x hu hf =>
      obtain ⟨hn, d, hd, hv, ha, ht⟩ := (geo_used i key hkey text).1 hu
      unfold geoFind
      rw [(hng.1 hn).1, (hng.1 hn).2, hd]
      dsimp only
      unfold geoFromFile
      rw [hv, ha]
      dsimp only
      unfold geoNumeral
      rw [if_neg ht, hf]
      rfl

/-- **C134.** A global attribute without a number raises `ValueError`; nothing else does. -/
theorem C134_error (float : String → Option α) (i : GeoInput α) (key : String) (hkey : key ∈ ["latitude", "longitude", "altitude"])
    (e : String) :
    geoFind float i key = .error e ↔ e = "ValueError" ∧ ∃ text, Spec.AttributeUsed i key text ∧
      float (String.ofList (text.toList.filter fun c => c.isDigit || c == '.')) = none := by
  have hng := geo_notGiven i key
  simp only [geo_used i key hkey, hng]
  unfold geoFind
  cases hg : (i.gpsValues key).bind gpsValue with
  | some w => simp
  | none =>
    dsimp only
    cases hs : i.site.bind fun s => s key with
    | some x => simp
    | none =>
      dsimp only
      cases hd : i.dataset with
      | none => simp
      | some d =>
        dsimp only
        unfold geoFromFile
        cases hv : (d.var key).filter fun v => !(v.all Option.isNone) with
        | some w =>
          refine iff_of_false (by simp) ?_
          rintro ⟨_, t, ⟨_, d', hd', hv', _⟩, _⟩
          cases hd'
          rw [hv] at hv'
          cases hv'
        | none =>
          dsimp only
          cases ha : d.attr (geoAttribute key) with
          | none => simp [ha]
          | some a =>
            dsimp only
            unfold geoNumeral
            by_cases hu : a = "Unknown"
            · rw [if_pos hu]
              simp [hv, ha, hu, Except.map]
            · rw [if_neg hu]
              cases hf : float (String.ofList (a.toList.filter fun c => c.isDigit || c == '.')) with
              | none =>
                simp only [Except.map, Except.error.injEq, Option.some.injEq, true_and, exists_eq_left', hv, ha]
                constructor
                · rintro rfl
                  exact ⟨rfl, a, ⟨rfl, hu⟩, hf⟩
                · rintro ⟨rfl, _⟩
                  rfl
              | some x =>
                simp only [Except.map, reduceCtorEq, Option.some.injEq, true_and, exists_eq_left', hv, ha, false_iff]
                rintro ⟨_, t, ⟨rfl, _⟩, ht⟩
                rw [hf] at ht
                cases ht

/-- A coordinate that was found has a valid value. -/
theorem located_valid (float : String → Option α) (i : GeoInput α) (key : String) (v : GeoValue α) (s : String)
    (h : Spec.Located float i key v s) : ∃ x, some x ∈ v.elements := by
  cases h with
  | gps v hv =>
    obtain ⟨_, _, raw, hraw, ⟨x, hx, h0⟩, hf⟩ := hv
    clear hraw
    refine ⟨x, ?_⟩
    unfold GeoValue.elements
    dsimp only
    induction hf with
    | nil => simp at hx
    | cons hab _ ih =>
      rcases List.mem_cons.1 hx with rfl | hx
      · rw [hab]
        simp [h0]
      · exact List.mem_cons_of_mem _ (ih hx)
  | site s x => exact ⟨x, by simp [GeoValue.elements]⟩
  | file d v _ _ _ hx => exact hx
  | fileAttribute t x => exact ⟨x, by simp [GeoValue.elements]⟩

/-- **C134.** Coordinates can be set unless a global attribute that counts has no number. -/
theorem C134_raises (cosd : α → α) (float : String → Option α) (i : GeoInput α) :
    (∃ r, addSiteGeolocation cosd float i = .ok r) ↔ ∀ key ∈ ["latitude", "longitude", "altitude"], ∀ text,
      Spec.AttributeUsed i key text → float (String.ofList (text.toList.filter fun c => c.isDigit || c == '.')) ≠ none := by
  have hok : ∀ key ∈ ["latitude", "longitude", "altitude"], ((∃ r, geoFind float i key = .ok r) ↔ ∀ text,
      Spec.AttributeUsed i key text → float (String.ofList (text.toList.filter fun c => c.isDigit || c == '.')) ≠ none) := by
    intro key hkey
    have he := C134_error float i key hkey
    cases hf : geoFind float i key with
    | error e =>
      rw [hf] at he
      obtain ⟨_, t, ht, hn⟩ := (he e).1 rfl
      refine iff_of_false (by simp) fun h => h t ht hn
    | ok r =>
      refine iff_of_true ⟨r, rfl⟩ fun t ht hn => ?_
      have := (he "ValueError").2 ⟨rfl, t, ht, hn⟩
      rw [hf] at this
      cases this
  simp only [List.mem_cons, List.not_mem_nil, or_false, forall_eq_or_imp, forall_eq]
  rw [← hok "latitude" (by simp), ← hok "longitude" (by simp), ← hok "altitude" (by simp)]
  unfold addSiteGeolocation
  cases h1 : geoFind float i "latitude" with
  | error e => simp [bind, Except.bind]
  | ok a =>
    cases h2 : geoFind float i "longitude" with
    | error e => simp [bind, Except.bind]
    | ok b =>
      cases h3 : geoFind float i "altitude" with
      | error e => simp [bind, Except.bind]
      | ok c =>
        simp only [bind, Except.bind, Except.ok.injEq, exists_eq', and_self, iff_true, pure, Except.pure]
        cases a <;> cases b <;> exact ⟨_, rfl⟩

/-- **C134.** Positions that stay within 0.01 degrees (about 1 km) become one number, the mean, which is within 0.01 degrees of each
latitude; otherwise every position is kept. -/
theorem C134_position (cosd : α → α) (float : String → Option α) (i : GeoInput α) (r : GeoResult α)
    (h : addSiteGeolocation cosd float i = .ok r) (lat lon : GeoValue α) (s t : String)
    (hlat : Spec.Located float i "latitude" lat s) (hlon : Spec.Located float i "longitude" lon t) :
    (Spec.Stationary cosd lat.elements lon.elements → ∃ m n, r.latitude = some (.number m, s) ∧ r.longitude = some (.number n, t) ∧
      Spec.IsMeanPosition lat.elements m ∧ Spec.IsMeanPosition lon.elements n ∧ ∀ x, some x ∈ lat.elements → |x - m| ≤ 1 / 100) ∧
    (¬ Spec.Stationary cosd lat.elements lon.elements →
      r.latitude = some (.array lat.elements, s) ∧ r.longitude = some (.array lon.elements, t)) := by
  have v1 := located_valid _ _ _ _ _ hlat
  have v2 := located_valid _ _ _ _ _ hlon
  rw [← C134_source float i _ (by simp)] at hlat hlon
  unfold addSiteGeolocation at h
  rw [hlat, hlon] at h
  have hr : r.latitude = some ((geoPosition cosd lat lon).1, s) ∧ r.longitude = some ((geoPosition cosd lat lon).2, t) := by
    cases h3 : geoFind float i "altitude" with
    | error e => rw [h3] at h; cases h
    | ok c => rw [h3] at h; cases h; exact ⟨rfl, rfl⟩
  rw [hr.1, hr.2]
  unfold geoPosition
  constructor
  · intro hs
    rw [if_pos ((stationary_iff _ _ _ v1 v2).2 hs)]
    refine ⟨_, _, rfl, rfl, geoMean_spec _ v1, geoMean_spec _ v2, fun x hx => ?_⟩
    obtain ⟨lo, hi, hlo, hhi, hd, _⟩ := hs
    obtain ⟨b1, b2⟩ := mean_between _ v1 _ (geoMean_spec _ v1) lo hi fun y hy => ⟨hlo.2 hy, hhi.2 hy⟩
    have := hlo.2 hx
    have := hhi.2 hx
    rw [abs_le]
    constructor <;> linarith
  · intro hs
    rw [if_neg fun hh => hs ((stationary_iff _ _ _ v1 v2).1 hh)]
    exact ⟨rfl, rfl⟩

/-- **C134.** Without one of latitude and longitude the other one is kept as found; a coordinate that was not found is not set. -/
theorem C134_alone (cosd : α → α) (float : String → Option α) (i : GeoInput α) (r : GeoResult α)
    (h : addSiteGeolocation cosd float i = .ok r) :
    ((∀ v s, ¬ Spec.Located float i "latitude" v s) → r.latitude = none ∧
      ∀ v s, r.longitude = some (v, s) ↔ Spec.Located float i "longitude" v s) ∧
    ((∀ v s, ¬ Spec.Located float i "longitude" v s) → r.longitude = none ∧
      ∀ v s, r.latitude = some (v, s) ↔ Spec.Located float i "latitude" v s) ∧
    ((∀ v s, ¬ Spec.Located float i "altitude" v s) → r.altitude = none) := by
  have e1 := C134_source float i "latitude" (by simp)
  have e2 := C134_source float i "longitude" (by simp)
  have e3 := C134_source float i "altitude" (by simp)
  simp only [← e1, ← e2, ← e3]
  unfold addSiteGeolocation at h
  cases h1 : geoFind float i "latitude" with
  | error e => rw [h1] at h; cases h
  | ok a =>
    cases h2 : geoFind float i "longitude" with
    | error e => rw [h1, h2] at h; cases h
    | ok b =>
      cases h3 : geoFind float i "altitude" with
      | error e => rw [h1, h2, h3] at h; cases h
      | ok c =>
        rw [h1, h2, h3] at h
        refine ⟨fun hn => ?_, fun hn => ?_, fun hn => ?_⟩
        · cases a with
          | some a => exact absurd rfl (hn a.1 a.2)
          | none => cases h; exact ⟨rfl, fun v s => by simp⟩
        · cases b with
          | some a => exact absurd rfl (hn a.1 a.2)
          | none => cases a <;> cases h <;> exact ⟨rfl, fun v s => by simp⟩
        · cases c with
          | some a => exact absurd rfl (hn a.1 a.2)
          | none => cases a <;> cases b <;> cases h <;> rfl

/-- **C134.** Altitudes that differ by less than 100 m become their mean, otherwise they are kept. -/
theorem C134_altitude (cosd : α → α) (float : String → Option α) (i : GeoInput α) (r : GeoResult α)
    (h : addSiteGeolocation cosd float i = .ok r) (alt : GeoValue α) (s : String) (halt : Spec.Located float i "altitude" alt s) :
    s ≠ "GPS" ∧
    ((∀ x y, some x ∈ alt.elements → some y ∈ alt.elements → x - y < 100) → ∃ m, r.altitude = some (.number m, s) ∧
      Spec.IsMeanPosition alt.elements m ∧ ∀ x, some x ∈ alt.elements → |x - m| < 100) ∧
    (¬ (∀ x y, some x ∈ alt.elements → some y ∈ alt.elements → x - y < 100) → r.altitude = some (alt, s)) := by
  have v := located_valid _ _ _ _ _ halt
  refine ⟨?_, ?_⟩
  · cases halt with
    | gps v hv => exact absurd rfl hv.2.1
    | site => decide
    | file => decide
    | fileAttribute => decide
  rw [← C134_source float i _ (by simp)] at halt
  have hr : r.altitude = some (geoAltitude alt, s) := by
    unfold addSiteGeolocation at h
    cases h1 : geoFind float i "latitude" with
    | error e => rw [h1] at h; cases h
    | ok a =>
      cases h2 : geoFind float i "longitude" with
      | error e => rw [h1, h2] at h; cases h
      | ok b =>
        rw [h1, h2, halt] at h
        cases a <;> cases b <;> cases h <;> rfl
  have a := geoMin_least _ v
  have b := geoMax_greatest _ v
  have hs : (∀ x y, some x ∈ alt.elements → some y ∈ alt.elements → x - y < 100) ↔
      geoMax alt.elements - geoMin alt.elements < 100 := by
    constructor
    · intro hh
      exact hh _ _ b.1 a.1
    · intro hh x y hx hy
      have := b.2 hx
      have := a.2 hy
      linarith
  rw [hs, hr]
  unfold geoAltitude
  constructor
  · intro hh
    rw [if_pos hh]
    refine ⟨_, rfl, geoMean_spec _ v, fun x hx => ?_⟩
    obtain ⟨b1, b2⟩ := mean_between _ v _ (geoMean_spec _ v) _ _ fun y hy => ⟨a.2 hy, b.2 hy⟩
    have := a.2 hx
    have := b.2 hx
    rw [abs_lt]
    constructor <;> linarith
  · intro hh
    rw [if_neg hh]

/-- **C134 (finding).** The coordinates given for a site are stored unchanged: a longitude between 180 and 360 degrees east is not
converted to west. -/
theorem C134_longitude (cosd : α → α) (float : String → Option α) (site : String → Option α) (data : String → Option (List (Option α)))
    (dataset : Option (GeoFile α)) (lat lon : α) (hlat : site "latitude" = some lat) (hlon : site "longitude" = some lon)
    (hcos : 0 < cosd lat) (r : GeoResult α) (h : addSiteGeolocation cosd float ⟨false, data, some site, dataset⟩ = .ok r) :
    r.latitude = some (.number lat, "site coordinates") ∧ r.longitude = some (.number lon, "site coordinates") := by
  have hg : ∀ key v, ¬ Spec.GpsPositions (⟨false, data, some site, dataset⟩ : GeoInput α) key v := fun key v hv => by
    simpa using hv.1
  have l1 : Spec.Located float ⟨false, data, some site, dataset⟩ "latitude" (.array [some lat]) "site coordinates" :=
    .site site lat (hg _) rfl hlat
  have l2 : Spec.Located float ⟨false, data, some site, dataset⟩ "longitude" (.array [some lon]) "site coordinates" :=
    .site site lon (hg _) rfl hlon
  have hs : Spec.Stationary cosd (GeoValue.array [some lat]).elements (GeoValue.array [some lon]).elements := by
    refine ⟨lat, lat, ?_, ?_, ?_, ?_⟩
    · simp [GeoValue.elements, IsLeast, lowerBounds]
    · simp [GeoValue.elements, IsGreatest, upperBounds]
    · simp
    · intro x y hx hy
      simp only [GeoValue.elements, List.mem_singleton, Option.some.injEq] at hx hy
      subst hx hy
      have e : (lat + lat) / 2 = lat := by ring
      rw [e, sub_self]
      positivity
  obtain ⟨m, n, h1, h2, h3, h4, _⟩ := (C134_position cosd float _ r h _ _ _ _ l1 l2).1 hs
  have e1 : m = lat := by simpa [Spec.IsMeanPosition, GeoValue.elements] using h3
  have e2 : n = lon := by simpa [Spec.IsMeanPosition, GeoValue.elements] using h4
  rw [h1, h2, e1, e2]
  exact ⟨rfl, rfl⟩

/-- **C134 (finding).** The sign of a coordinate in a global attribute is lost: `-70.5` is read as `70.5`, and so is any text with other
characters. -/
theorem C134_sign (float : String → Option α) (a : String) (h : a ≠ "Unknown") (h' : "-" ++ a ≠ "Unknown") :
    geoNumeral float ("-" ++ a) = geoNumeral float a := by
  unfold geoNumeral
  rw [if_neg h, if_neg h']
  have : ("-" ++ a).toList.filter (fun c => c.isDigit || c == '.') = a.toList.filter fun c => c.isDigit || c == '.' := by
    rw [String.toList_append, List.filter_append]
    have : "-".toList.filter (fun c => c.isDigit || c == '.') = [] := by decide +kernel
    rw [this, List.nil_append]
  rw [this]

/-- **C134.** Only radars of the types BASTA, RPG and the HATPRO radiometer have a GPS. -/
theorem C134_gps (instrument : String) :
    hasGps instrument = true ↔ instrument = "BASTA" ∨ instrument = "FMCW94" ∨ instrument = "FMCW35" ∨ instrument = "HATPRO" := by
  unfold hasGps
  simp

end

/-- A ship with a GPS: the positions differ, so all are kept; zeros are missing. The altitude is that of the site. -/
example : addSiteGeolocation (α := ℚ) (fun _ => 1) (fun _ => none)
    ⟨true, fun k => if k = "latitude" then some [some 10, some 0, some 11] else if k = "longitude" then some [some 20, none, some 21]
      else none, some fun k => if k = "altitude" then some 5 else some 1, none⟩ =
    .ok ⟨some (.array [some 10, none, some 11], "GPS"), some (.array [some 20, none, some 21], "GPS"),
      some (.number 5, "site coordinates")⟩ := by decide +kernel

/-- A radar on land. -/
example : addSiteGeolocation (α := ℚ) (fun _ => 1) (fun t => if t = "70.5" then some (141 / 2) else none)
    ⟨true, fun _ => none, none, some ⟨fun k => if k = "latitude" then some [some 10, some (10 + 1 / 100)] else none,
      fun k => if k = "Longitude" then some "-70.5 deg" else if k = "Altitude" then some "Unknown" else none⟩⟩ =
    .ok ⟨some (.number (10 + 1 / 200), "GPS"), some (.number (141 / 2), "raw file"), none⟩ := by decide +kernel

/-! ### C135 -/

namespace Spec

/-- A date of the calendar. -/
def IsDate (year month day : ℤ) : Prop :=
  1 ≤ year ∧ year ≤ 9999 ∧ 1 ≤ month ∧ month ≤ 12 ∧ 1 ≤ day ∧
    day ≤ (if month = 2 then (if (4 ∣ year ∧ ¬ 100 ∣ year) ∨ 400 ∣ year then 29 else 28)
      else if month = 4 ∨ month = 6 ∨ month = 9 ∨ month = 11 then 30 else 31)

end Spec

theorem civilDate_iff (y m d : ℤ) (c : CivilDate) : civilDate y m d = .ok c ↔ Spec.IsDate y m d ∧ c = ⟨y, m, d⟩ := by
  have hd : daysInMonth y m = (if m = 2 then (if (4 ∣ y ∧ ¬ 100 ∣ y) ∨ 400 ∣ y then 29 else 28)
      else if m = 4 ∨ m = 6 ∨ m = 9 ∨ m = 11 then 30 else 31) := by
    unfold daysInMonth
    have h1 : (y % 4 = 0 ∧ (y % 100 ≠ 0 ∨ y % 400 = 0)) ↔ ((4 ∣ y ∧ ¬ 100 ∣ y) ∨ 400 ∣ y) := by omega
    simp only [h1, List.mem_cons, List.not_mem_nil, or_false]
  unfold civilDate Spec.IsDate
  rw [← hd]
  by_cases h : 1 ≤ y ∧ y ≤ 9999 ∧ 1 ≤ m ∧ m ≤ 12 ∧ 1 ≤ d ∧ d ≤ daysInMonth y m
  · rw [if_pos h]
    simp only [h, Except.ok.injEq, and_self, true_and]
    exact eq_comm
  · rw [if_neg h]
    simp [h]

/-- The pieces of a text between separators are numbers. -/
def Spec.NumbersBetween (int : String → Option ℤ) (sep : Char) (text : List Char) (numbers : List ℤ) : Prop :=
  ∃ pieces : List (List Char), pieces ≠ [] ∧ text = [sep].intercalate pieces ∧ (∀ p ∈ pieces, sep ∉ p) ∧
    List.Forall₂ (fun p n => int (String.ofList p) = some n) pieces numbers

/-- The numbers of a date: between hyphens, or between dots if that does not work. -/
def Spec.DateNumbers (int : String → Option ℤ) (text : List Char) (numbers : List ℤ) : Prop :=
  Spec.NumbersBetween int '-' text numbers ∨
    (∀ l, ¬ Spec.NumbersBetween int '-' text l) ∧ Spec.NumbersBetween int '.' text numbers

theorem numbersBetween_iff (int : String → Option ℤ) (sep : Char) (text : List Char) (l : List ℤ) :
    ((text.splitOn sep).map String.ofList).mapM int = some l ↔ Spec.NumbersBetween int sep text l := by
  rw [mapM_option_iff, List.forall₂_map_left_iff]
  unfold Spec.NumbersBetween
  constructor
  · intro h
    exact ⟨_, List.splitOn_ne_nil _ _, (List.intercalate_splitOn sep).symm, splitOn_not_mem sep text, h⟩
  · rintro ⟨ps, h1, rfl, h2, h3⟩
    rw [List.splitOn_intercalate _ h2 h1]
    exact h3

theorem dateNumbers_iff (int : String → Option ℤ) (text : List Char) (l : List ℤ) :
    epochNumbers int text = some l ↔ Spec.DateNumbers int text l := by
  unfold epochNumbers Spec.DateNumbers
  simp only [← numbersBetween_iff]
  cases h : ((text.splitOn '-').map String.ofList).mapM int with
  | some k => simp
  | none => simp

/-- **C135.** The epoch is the date in the third word of the units, if the year is after 1900 and not in the future; a day that is not
in the calendar raises `ValueError`; any other year, month or day gives 2001-01-01. -/
theorem C135_date (int : String → Option ℤ) (current : ℤ) (units word : String) (hw : (rmWords units)[2]? = some word) (y m d : ℤ)
    (h : Spec.DateNumbers int ((word.toList.filter (· ≠ ',')).takeWhile (· ≠ 'T')) [y, m, d]) :
    ((1900 < y ∧ y ≤ current ∧ Spec.IsDate y m d) → getEpoch int current units = .ok ⟨y, m, d⟩) ∧
    ((1900 < y ∧ y ≤ current ∧ 1 ≤ m ∧ m ≤ 12 ∧ 1 ≤ d ∧ d ≤ 31 ∧ ¬ Spec.IsDate y m d) →
      getEpoch int current units = .error "ValueError") ∧
    ((y ≤ 1900 ∨ current < y ∨ m < 1 ∨ 12 < m ∨ d < 1 ∨ 31 < d) → getEpoch int current units = .ok ⟨2001, 1, 1⟩) := by
  have hn : epochNumbers int (epochText word) = some [y, m, d] := (dateNumbers_iff _ _ _).2 h
  unfold getEpoch
  rw [hw]
  dsimp only
  rw [hn]
  dsimp only
  refine ⟨?_, ?_, ?_⟩
  · rintro ⟨h1, h2, h3⟩
    have h4 := h3
    obtain ⟨_, _, _, _, _, h5⟩ := h4
    have : d ≤ 31 := by
      refine h5.trans ?_
      split_ifs <;> norm_num
    rw [if_pos (by omega)]
    exact (civilDate_iff _ _ _ _).2 ⟨h3, rfl⟩
  · rintro ⟨h1, h2, h3, h4, h5, h6, h7⟩
    rw [if_pos (by omega)]
    unfold civilDate
    rw [if_neg]
    intro hh
    have : civilDate y m d = .ok ⟨y, m, d⟩ := by unfold civilDate; rw [if_pos hh]
    exact h7 ((civilDate_iff _ _ _ _).1 this).1
  · intro hh
    rw [if_neg (by omega)]

/-- **C135.** Without a third word, and if it has anything else than numbers between hyphens or dots, the epoch is 2001-01-01. -/
theorem C135_fallback (int : String → Option ℤ) (current : ℤ) (units : String)
    (h : ∀ word, (rmWords units)[2]? = some word → ∀ l, ¬ Spec.DateNumbers int ((word.toList.filter (· ≠ ',')).takeWhile (· ≠ 'T')) l) :
    getEpoch int current units = .ok ⟨2001, 1, 1⟩ := by
  unfold getEpoch
  cases hw : (rmWords units)[2]? with
  | none => rfl
  | some word =>
    dsimp only
    have : epochNumbers int (epochText word) = none :=
      Option.eq_none_iff_forall_ne_some.2 fun l hl => h word hw l ((dateNumbers_iff _ _ _).1 hl)
    rw [this]

/-- **C135.** A date with more or less than three numbers raises `ValueError`. -/
theorem C135_incomplete (int : String → Option ℤ) (current : ℤ) (units word : String) (hw : (rmWords units)[2]? = some word) (l : List ℤ)
    (h : Spec.DateNumbers int ((word.toList.filter (· ≠ ',')).takeWhile (· ≠ 'T')) l) (hl : l.length ≠ 3) :
    getEpoch int current units = .error "ValueError" := by
  have hn : epochNumbers int (epochText word) = some l := (dateNumbers_iff _ _ _).2 h
  unfold getEpoch
  rw [hw]
  dsimp only
  rw [hn]
  match l, hl with
  | [], _ => rfl
  | [_], _ => rfl
  | [_, _], _ => rfl
  | [_, _, _], h => exact absurd rfl h
  | _ :: _ :: _ :: _ :: _, _ => rfl

/-- The words of a text that begins with three words. -/
theorem words_three (a b c rest : List Char) (ha : a ≠ []) (hb : b ≠ []) (hc : c ≠ []) (na : ∀ x ∈ a, x.isWhitespace = false)
    (nb : ∀ x ∈ b, x.isWhitespace = false) (nc : ∀ x ∈ c, x.isWhitespace = false)
    (hr : rest = [] ∨ ∃ s cs, rest = s :: cs ∧ s.isWhitespace = true) :
    (rmWords (String.ofList (a ++ ' ' :: (b ++ ' ' :: (c ++ rest)))))[2]? = some (String.ofList c) := by
  unfold rmWords
  rw [String.toList_ofList, List.splitOnP_append_cons_of_forall_mem na ' ' (by decide),
    List.splitOnP_append_cons_of_forall_mem nb ' ' (by decide)]
  have : ∃ ws, (c ++ rest).splitOnP Char.isWhitespace = c :: ws := by
    rcases hr with rfl | ⟨s, cs, rfl, hs⟩
    · refine ⟨[], ?_⟩
      rw [List.append_nil]
      exact List.splitOnP_eq_singleton nc
    · exact ⟨_, List.splitOnP_append_cons_of_forall_mem nc s hs cs⟩
  obtain ⟨ws, hws⟩ := this
  rw [hws]
  simp [List.filter_cons, ha, hb, hc]

/-- **C135 (finding).** Units of the form `seconds since 2023-01-02` and anything after the date: only the date counts, so a time of
day other than midnight is lost. -/
theorem C135_units (int : String → Option ℤ) (current : ℤ) (unit since y m d rest : List Char) (year month day : ℤ)
    (hu : unit ≠ [] ∧ ∀ x ∈ unit, x.isWhitespace = false) (hs : since ≠ [] ∧ ∀ x ∈ since, x.isWhitespace = false)
    (hy : ∀ x ∈ y, x.isDigit = true) (hm : ∀ x ∈ m, x.isDigit = true) (hd : ∀ x ∈ d, x.isDigit = true)
    (iy : int (String.ofList y) = some year) (im : int (String.ofList m) = some month) (id : int (String.ofList d) = some day)
    (hr : rest = [] ∨ (∃ s cs, rest = s :: cs ∧ s.isWhitespace = true) ∨ ∃ cs, rest = 'T' :: cs ∧ ∀ x ∈ cs, x.isWhitespace = false)
    (hdate : 1900 < year ∧ year ≤ current ∧ Spec.IsDate year month day) :
    getEpoch int current (String.ofList (unit ++ ' ' :: (since ++ ' ' :: (y ++ '-' :: (m ++ '-' :: (d ++ rest)))))) =
      .ok ⟨year, month, day⟩ := by
  have hplain : ∀ x : Char, x.isDigit = true → x.isWhitespace = false ∧ x ≠ ',' ∧ x ≠ 'T' ∧ x ≠ '-' := by
    intro x hx
    refine ⟨?_, ?_, ?_, ?_⟩
    · simp only [Char.isDigit, Bool.and_eq_true, decide_eq_true_eq] at hx
      unfold Char.isWhitespace
      by_contra hc
      simp only [Bool.not_eq_false, Bool.or_eq_true, beq_iff_eq, decide_eq_true_eq] at hc
      rcases hc with (((rfl | rfl) | rfl) | rfl) <;> revert hx <;> decide
    all_goals rintro rfl; revert hx; decide
  set t := y ++ '-' :: (m ++ '-' :: d) with ht
  have htc : ∀ x ∈ t, x.isWhitespace = false ∧ x ≠ ',' ∧ x ≠ 'T' := by
    intro x hx
    simp only [ht, List.mem_append, List.mem_cons] at hx
    rcases hx with h | rfl | h | rfl | h
    · exact ⟨(hplain x (hy x h)).1, (hplain x (hy x h)).2.1, (hplain x (hy x h)).2.2.1⟩
    · decide
    · exact ⟨(hplain x (hm x h)).1, (hplain x (hm x h)).2.1, (hplain x (hm x h)).2.2.1⟩
    · decide
    · exact ⟨(hplain x (hd x h)).1, (hplain x (hd x h)).2.1, (hplain x (hd x h)).2.2.1⟩
  have hnum : Spec.DateNumbers int t [year, month, day] := by
    refine Or.inl ⟨[y, m, d], by simp, by simp [ht, List.intercalate, List.intersperse], ?_, ?_⟩
    · intro p hp
      simp only [List.mem_cons, List.not_mem_nil, or_false] at hp
      rcases hp with rfl | rfl | rfl
      · exact fun h => (hplain _ (hy _ h)).2.2.2 rfl
      · exact fun h => (hplain _ (hm _ h)).2.2.2 rfl
      · exact fun h => (hplain _ (hd _ h)).2.2.2 rfl
    · exact .cons iy (.cons im (.cons id .nil))
  have happ : y ++ '-' :: (m ++ '-' :: (d ++ rest)) = t ++ rest := by simp [ht]
  rw [happ]
  have htne : t ≠ [] := by simp [ht]
  have hfilter : ∀ l : List Char, (∀ x ∈ l, x ≠ ',') → l.filter (· ≠ ',') = l := by
    intro l hl
    exact List.filter_eq_self.2 fun x hx => by simpa using hl x hx
  have key : ∃ word, (rmWords (String.ofList (unit ++ ' ' :: (since ++ ' ' :: (t ++ rest)))))[2]? = some word ∧
      (word.toList.filter (· ≠ ',')).takeWhile (· ≠ 'T') = t := by
    rcases hr with rfl | hr | ⟨cs, rfl, hcs⟩
    · refine ⟨_, words_three _ _ t [] hu.1 hs.1 htne hu.2 hs.2 (fun x hx => (htc x hx).1) (Or.inl rfl), ?_⟩
      rw [String.toList_ofList, hfilter _ fun x hx => (htc x hx).2.1]
      exact List.takeWhile_eq_self_iff.2 fun x hx => by simpa using (htc x hx).2.2
    · refine ⟨_, words_three _ _ t rest hu.1 hs.1 htne hu.2 hs.2 (fun x hx => (htc x hx).1) (Or.inr hr), ?_⟩
      rw [String.toList_ofList, hfilter _ fun x hx => (htc x hx).2.1]
      exact List.takeWhile_eq_self_iff.2 fun x hx => by simpa using (htc x hx).2.2
    · have h3 := words_three unit since (t ++ 'T' :: cs) [] hu.1 hs.1 (by simp [htne]) hu.2 hs.2 (fun x hx => by
        simp only [List.mem_append, List.mem_cons] at hx
        rcases hx with h | rfl | h
        · exact (htc x h).1
        · decide
        · exact hcs x h) (Or.inl rfl)
      rw [List.append_nil] at h3
      refine ⟨_, h3, ?_⟩
      rw [String.toList_ofList, List.filter_append, hfilter t fun x hx => (htc x hx).2.1,
        List.takeWhile_append_of_pos fun x hx => by simpa using (htc x hx).2.2]
      simp [List.filter_cons]
  obtain ⟨word, hw, hwt⟩ := key
  exact (C135_date int current _ word hw year month day (by rw [hwt]; exact hnum)).1 hdate

/-- Python's `int` for digits. -/
def exampleInt (s : String) : Option ℤ := if s.toList ≠ [] ∧ s.toList.all Char.isDigit then some (s.toList.foldl (fun n c => 10 * n + (c.toNat - 48)) 0) else none

example : getEpoch exampleInt 2026 "hours since 2023-01-02 12:00:00 +00:00" = .ok ⟨2023, 1, 2⟩ ∧
    getEpoch exampleInt 2026 "seconds since 1970-01-01T00:00:00" = .ok ⟨1970, 1, 1⟩ ∧
    getEpoch exampleInt 2026 "seconds since 2004.12.31, 00:00" = .ok ⟨2004, 12, 31⟩ ∧
    getEpoch exampleInt 2026 "days since 1900-01-01" = .ok ⟨2001, 1, 1⟩ ∧
    getEpoch exampleInt 2026 "days since 2023-02-30" = .error "ValueError" ∧
    getEpoch exampleInt 2026 "days since 2023-02" = .error "ValueError" ∧
    getEpoch exampleInt 2026 "hours UTC" = .ok ⟨2001, 1, 1⟩ := by decide +kernel

end Cloudnet
