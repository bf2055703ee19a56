import Mathlib.Tactic
import Verif.Station.Pipe
import Verif.Station.Csv
import Verif.Interp.Props
import Verif.Gauge.Props
import Verif.Categorize.Props

set_option linter.unusedSimpArgs false

namespace Cloudnet

/-! ## C114: the variables of a weather station -/

namespace Spec

/-- `out` has the elements of `l` at the given indices. -/
def Picks {β : Type} (ind : List ℕ) (l out : List β) : Prop := List.Forall₂ (fun i x => l[i]? = some x) ind out

/-- All columns have as many values as there are times. -/
def AlignedColumns {T α : Type} (d : StationData T α) : Prop := ∀ kv ∈ d.columns, kv.2.length = d.time.length

/-- The records kept: those of the expected date whose time of day was not found in an earlier one, in order of the time of
day. -/
def KeptRecords {T α : Type} [LT α] (hours : T → α) (onDate : Option (T → Bool)) (times : List T) (kept : List ℕ) : Prop :=
  (∀ i, i ∈ kept ↔ ∃ t, times[i]? = some t ∧ (∀ p, onDate = some p → p t = true) ∧
    ∀ j < i, ∀ t', times[j]? = some t' → (∀ p, onDate = some p → p t' = true) → hours t' ≠ hours t) ∧
  kept.Pairwise fun i j => ∀ t t', times[i]? = some t → times[j]? = some t' → hours t < hours t'

/-- Wind of Galați is left out if the first record of the day is early. -/
def Dropped {T : Type} (early : T → Bool) (site : Site) (onDate : Option (T → Bool)) (times : List T) (name : String) : Prop :=
  site = .galati ∧ (name = "wind_speed" ∨ name = "wind_direction") ∧
    ∃ before t after, times = before ++ t :: after ∧ (∀ p, onDate = some p → p t = true) ∧
      (∀ t' ∈ before, ∃ p, onDate = some p ∧ p t' = false) ∧ early t = true

/-- Factor and offset to SI units: temperatures are in °C, humidities in percent, pressures in hPa (10 Pa, kPa and mmHg for
Kenttärova, Hyytiälä and Galați), rain rates in mm per minute (mm per hour for Bucharest, tenths of it for Kenttärova, mm in ten
minutes for Limassol and Cluj-Napoca), amounts of Palaiseau and Bucharest in mm. -/
def siUnits {α : Type} [Field α] (site : Site) (name : String) : α × α :=
  match name with
  | "air_temperature" => (1, 27315 / 100)
  | "relative_humidity" => (1 / 100, 0)
  | "air_pressure" => (if site = .kenttarova then 10 else if site = .hyytiala then 1000 else if site = .galati then 133322 / 1000
      else 100, 0)
  | "rainfall_rate" => (if site = .bucharest then 1 / 3600000 else if site = .kenttarova then 1 / 36000000
      else if site = .limassol ∨ site = .cluj then 1 / 600000 else 1 / 60000, 0)
  | "rainfall_amount" => (if site = .palaiseau ∨ site = .bucharest then 1 / 1000 else 1, 0)
  | _ => (1, 0)

end Spec

section
variable {T α : Type}

/-- **C114.** Values are converted to SI units. -/
theorem C114_units [Field α] [CharZero α] (trunc : α → α) (site : Site) (name : String) (hv : name ≠ "visibility") (x : α) :
    stationConvert trunc site name x = (Spec.siUnits site name : α × α).1 * x + (Spec.siUnits site name : α × α).2 := by
  unfold stationConvert
  by_cases h1 : name = "air_temperature"
  · subst h1; simp [Spec.siUnits]
  by_cases h2 : name = "relative_humidity"
  · subst h2; simp [Spec.siUnits]; ring
  by_cases h3 : name = "air_pressure"
  · subst h3; cases site <;> simp [Spec.siUnits] <;> ring
  by_cases h4 : name = "rainfall_rate"
  · subst h4; cases site <;> simp [Spec.siUnits] <;> ring
  by_cases h5 : name = "rainfall_amount"
  · subst h5; cases site <;> simp [Spec.siUnits] <;> ring
  simp only [h1, h2, h3, h4, h5, hv, if_false, false_and]
  unfold Spec.siUnits
  split <;> simp_all

/-! ### Selecting records -/

/-- The indices of the elements with a property. -/
def selIdx (p : T → Bool) : List T → List ℕ
  | [] => []
  | t :: ts => if p t then 0 :: (selIdx p ts).map Nat.succ else (selIdx p ts).map Nat.succ

theorem selIdx_mem (p : T → Bool) (ts : List T) (i : ℕ) : i ∈ selIdx p ts ↔ ∃ t, ts[i]? = some t ∧ p t = true := by
  induction ts generalizing i with
  | nil => simp [selIdx]
  | cons t ts ih =>
    rw [selIdx]
    cases i with
    | zero =>
      by_cases h : p t = true
      · simp [h]
      · rw [if_neg h]; simp [h]
    | succ i =>
      have : i + 1 ∈ (selIdx p ts).map Nat.succ ↔ i ∈ selIdx p ts := by
        rw [List.mem_map]
        exact ⟨fun ⟨a, h, e⟩ => by cases e; exact h, fun h => ⟨i, h, rfl⟩⟩
      split
      · rw [List.mem_cons, this, ih]; simp
      · rw [this, ih]; simp

theorem selIdx_lt (p : T → Bool) (ts : List T) : (selIdx p ts).Pairwise (· < ·) := by
  induction ts with
  | nil => exact .nil
  | cons t ts ih =>
    have h2 : ((selIdx p ts).map Nat.succ).Pairwise (· < ·) := by
      rw [List.pairwise_map]
      exact ih.imp fun h => Nat.succ_lt_succ h
    rw [selIdx]
    split
    · rw [List.pairwise_cons]
      refine ⟨?_, h2⟩
      intro a ha
      obtain ⟨b, -, rfl⟩ := List.mem_map.1 ha
      exact Nat.succ_pos b
    · exact h2

theorem picks_succ {β : Type} (ind : List ℕ) (a : β) (l out : List β) :
    Spec.Picks (ind.map Nat.succ) (a :: l) out ↔ Spec.Picks ind l out := by
  unfold Spec.Picks
  rw [List.forall₂_map_left_iff]
  simp

theorem selIdx_picks {β : Type} (p : T → Bool) (ts : List T) (l : List β) (h : l.length = ts.length) :
    Spec.Picks (selIdx p ts) l (((ts.zip l).filter fun tx => p tx.1).map Prod.snd) := by
  induction ts generalizing l with
  | nil => exact .nil
  | cons t ts ih =>
    cases l with
    | nil => cases h
    | cons a l =>
      have := ih l (by simpa using h)
      rw [selIdx, List.zip_cons_cons, List.filter_cons]
      by_cases hp : p t = true
      · rw [if_pos hp, if_pos hp, List.map_cons]
        exact .cons rfl ((picks_succ _ _ _ _).2 this)
      · rw [if_neg hp, if_neg hp]
        exact (picks_succ _ _ _ _).2 this

theorem selIdx_picks_self (p : T → Bool) (ts : List T) : Spec.Picks (selIdx p ts) ts (ts.filter p) := by
  have := selIdx_picks p ts ts rfl
  have e : ((ts.zip ts).filter fun tx => p tx.1).map Prod.snd = ts.filter p := by
    clear this
    induction ts with
    | nil => rfl
    | cons t ts ih =>
      rw [List.zip_cons_cons, List.filter_cons, List.filter_cons]
      split
      · rw [List.map_cons, ih]
      · exact ih
  rwa [e] at this

theorem picks_get {β : Type} {ind : List ℕ} {l out : List β} (h : Spec.Picks ind l out) {k : ℕ} {x : β} (hx : out[k]? = some x) :
    ∃ i, ind[k]? = some i ∧ l[i]? = some x := by
  induction h generalizing k with
  | nil => simp at hx
  | @cons i y ind out h1 h2 ih =>
    cases k with
    | zero => simp only [List.getElem?_cons_zero, Option.some.injEq] at hx ⊢; subst hx; exact ⟨i, rfl, h1⟩
    | succ k => simp only [List.getElem?_cons_succ] at hx ⊢; exact ih hx

theorem picks_get' {β : Type} {ind : List ℕ} {l out : List β} (h : Spec.Picks ind l out) {k i : ℕ} (hi : ind[k]? = some i) :
    ∃ x, out[k]? = some x ∧ l[i]? = some x := by
  induction h generalizing k with
  | nil => simp at hi
  | @cons j y ind out h1 h2 ih =>
    cases k with
    | zero => simp only [List.getElem?_cons_zero, Option.some.injEq] at hi ⊢; subst hi; exact ⟨y, rfl, h1⟩
    | succ k => simp only [List.getElem?_cons_succ] at hi ⊢; exact ih hi

theorem picks_comp {β : Type} {i1 i2 : List ℕ} {l m out : List β} (h1 : Spec.Picks i1 l m) (h2 : Spec.Picks i2 m out) :
    Spec.Picks (pickRows i2 i1) l out := by
  unfold Spec.Picks pickRows at *
  induction h2 with
  | nil => exact .nil
  | cons g1 g2 ih =>
    obtain ⟨i, e1, e2⟩ := picks_get h1 g1
    rw [List.filterMap_cons, e1]
    exact .cons e2 ih

theorem picks_pickRows {β : Type} (ind : List ℕ) (l : List β) (h : ∀ i ∈ ind, i < l.length) : Spec.Picks ind l (pickRows ind l) := by
  unfold Spec.Picks pickRows
  induction ind with
  | nil => exact .nil
  | cons i ind ih =>
    have hi := h i (by simp)
    rw [List.filterMap_cons, List.getElem?_eq_getElem hi]
    exact .cons (List.getElem?_eq_getElem hi) (ih fun j hj => h j (by simp [hj]))

theorem picks_length {β : Type} {ind : List ℕ} {l out : List β} (h : Spec.Picks ind l out) : out.length = ind.length := h.length_eq.symm

variable [Field α] [LinearOrder α] [IsStrictOrderedRing α]

theorem uniqueIndex_one (x : ℕ → α) : uniqueIndex 1 x = [0] := by
  have h : (List.range 1).filter (fun i => decide (∀ j < i, x j ≠ x i)) = [0] := by simp
  simp [uniqueIndex, h]

theorem stationUnique_picks {β : Type} (hs : List α) (l : List β) (h : l.length = hs.length) :
    Spec.Picks (uniqueIndex hs.length (vec hs)) l (stationUnique hs l) := by
  obtain ⟨h1, -⟩ := uniqueIndex_spec hs.length (vec hs)
  unfold stationUnique
  by_cases h2 : l.length = 1
  · rw [if_neg (by tauto)]
    rw [← h, h2, uniqueIndex_one]
    match l, h2 with
    | [a], _ => exact .cons rfl .nil
  · rw [if_pos ⟨h, h2⟩]
    exact picks_pickRows _ _ fun i hi => by rw [h]; exact ((h1 i).1 hi).1

/-! ### The steps -/

theorem lookup_filter_name {β : Type} (p : String → Bool) (l : List (String × β)) (name : String) :
    (l.filter fun kv => p kv.1).lookup name = if p name = true then l.lookup name else none := by
  induction l with
  | nil => simp
  | cons kv l ih =>
    rw [List.filter_cons, List.lookup_cons]
    by_cases hn : name = kv.1
    · subst hn
      by_cases hp : p kv.1 = true
      · rw [if_pos hp, if_pos hp, List.lookup_cons]; simp
      · rw [if_neg hp, ih, if_neg hp, if_neg hp]
    · rw [beq_false_of_ne hn]
      split
      · rw [List.lookup_cons, beq_false_of_ne hn]; exact ih
      · exact ih

theorem lookup_map_name {β γ : Type} (f : String → β → γ) (l : List (String × β)) (name : String) :
    (l.map fun kv => (kv.1, f kv.1 kv.2)).lookup name = (l.lookup name).map (f name) := by
  induction l with
  | nil => rfl
  | cons kv l ih =>
    rw [List.map_cons, List.lookup_cons, List.lookup_cons]
    by_cases hn : name = kv.1
    · subst hn; simp
    · rw [beq_false_of_ne hn]; exact ih

theorem mem_of_lookup {β : Type} {l : List (String × β)} {name : String} {v : β} (h : l.lookup name = some v) : (name, v) ∈ l := by
  induction l with
  | nil => cases h
  | cons kv l ih =>
    rw [List.lookup_cons] at h
    by_cases hn : name = kv.1
    · subst hn
      rw [beq_self_eq_true] at h
      cases h; simp
    · rw [beq_false_of_ne hn] at h
      exact List.mem_cons_of_mem _ (ih h)

/-- A record of the expected date. -/
def chosen (onDate : Option (T → Bool)) (t : T) : Bool :=
  match onDate with
  | none => true
  | some p => p t

theorem chosen_iff (onDate : Option (T → Bool)) (t : T) : chosen onDate t = true ↔ ∀ p, onDate = some p → p t = true := by
  unfold chosen
  cases onDate <;> simp

omit [Field α] [LinearOrder α] [IsStrictOrderedRing α] in
theorem stationScreen_spec (site : Site) (onDate : Option (T → Bool)) (d : StationData T α) (hal : Spec.AlignedColumns d) :
    (∀ d', stationScreen site onDate d = .ok d' → Spec.AlignedColumns d' ∧
      d'.time = d.time.filter (chosen onDate) ∧
      ∀ name, (∀ col, d.columns.lookup name = some col →
          ∃ col', d'.columns.lookup name = some col' ∧ Spec.Picks (selIdx (chosen onDate) d.time) col col') ∧
        (d.columns.lookup name = none → d'.columns.lookup name = none)) ∧
    ((∃ d', stationScreen site onDate d = .ok d') ↔ ∀ p, onDate = some p → ∃ t ∈ d.time, p t = true) := by
  cases onDate with
  | none =>
    constructor
    · intro d' h
      cases h
      have hc : (chosen (none : Option (T → Bool))) = fun _ => true := by funext t; rfl
      refine ⟨hal, by rw [hc]; simp, ?_⟩
      intro name
      refine ⟨fun col hcol => ⟨col, hcol, ?_⟩, id⟩
      have := selIdx_picks (chosen (none : Option (T → Bool))) d.time col (hal _ (mem_of_lookup hcol))
      rw [hc] at this ⊢
      have e : ((d.time.zip col).filter fun _ => true).map Prod.snd = col := by
        simp [List.map_snd_zip (le_of_eq (hal _ (mem_of_lookup hcol)))]
      rwa [e] at this
    · simp [stationScreen]
  | some p =>
    have hc : (chosen (some p)) = p := rfl
    rw [hc]
    unfold stationScreen stationOnDate
    dsimp only
    by_cases hall : d.time.all (fun t => !p t) = true
    · rw [if_pos hall]
      constructor
      · intro d' h; cases h
      · constructor
        · rintro ⟨d', h⟩; cases h
        · intro h
          obtain ⟨t, ht, hp⟩ := h p rfl
          have := List.all_eq_true.1 hall t ht
          simp [hp] at this
    · rw [if_neg hall]
      have hany : (d.columns.any fun kv => decide (kv.2.length ≠ d.time.length)) = false := by
        rw [List.any_eq_false]
        intro kv hkv
        simpa using hal kv hkv
      rw [hany, Bool.and_false, if_neg (by simp)]
      constructor
      · intro d' h
        cases h
        refine ⟨?_, rfl, ?_⟩
        · intro kv hkv
          obtain ⟨kv', hkv', rfl⟩ := List.mem_map.1 hkv
          dsimp only
          rw [picks_length (selIdx_picks p d.time kv'.2 (hal kv' hkv')), picks_length (selIdx_picks_self p d.time)]
        · intro name
          have hl := lookup_map_name (fun _ (col : List (Option α)) => ((d.time.zip col).filter fun tx => p tx.1).map Prod.snd)
            d.columns name
          constructor
          · intro col hcol
            rw [hcol] at hl
            exact ⟨_, hl, selIdx_picks p d.time col (hal _ (mem_of_lookup hcol))⟩
          · intro hnone
            rw [hnone] at hl
            exact hl
      · constructor
        · rintro - q hq
          cases hq
          by_contra hc
          push Not at hc
          apply hall
          rw [List.all_eq_true]
          intro t ht
          simpa using hc t ht
        · intro _; exact ⟨_, rfl⟩

theorem stationColumns_lookup (early : T → Bool) (site : Site) (first : T) (cols : Columns (Option α)) (name : String) :
    (stationColumns early site first cols).lookup name =
      if site = .galati ∧ early first = true ∧ (name = "wind_speed" ∨ name = "wind_direction") then none else cols.lookup name := by
  unfold stationColumns
  by_cases h : site = .galati ∧ early first = true
  · rw [if_pos h, lookup_filter_name (fun n => decide (n ∉ galatiDropped))]
    obtain ⟨h1, h2⟩ := h
    by_cases hn : name = "wind_speed" ∨ name = "wind_direction"
    · have hd : name ∈ galatiDropped := by simpa [galatiDropped] using hn
      simp [h1, h2, hn, hd]
    · have hd : name ∉ galatiDropped := by simpa [galatiDropped] using hn
      simp [h1, h2, hn, hd]
  · rw [if_neg h, if_neg (fun hc => h ⟨hc.1, hc.2.1⟩)]

theorem dropped_iff (early : T → Bool) (site : Site) (onDate : Option (T → Bool)) (times : List T) (first : T) (rest : List T)
    (hf : times.filter (chosen onDate) = first :: rest) (name : String) :
    Spec.Dropped early site onDate times name ↔
      site = .galati ∧ early first = true ∧ (name = "wind_speed" ∨ name = "wind_direction") := by
  have key : ∀ (before : List T) (t : T) (after : List T), times = before ++ t :: after → chosen onDate t = true →
      (∀ t' ∈ before, chosen onDate t' = false) → t = first := by
    intro before t after he ht hb
    rw [he, List.filter_append, List.filter_cons, if_pos ht, List.filter_eq_nil_iff.2 (fun a ha => by simp [hb a ha]),
      List.nil_append] at hf
    exact (List.cons.inj hf).1
  have hno : ∀ t', (∃ p, onDate = some p ∧ p t' = false) ↔ chosen onDate t' = false := by
    intro t'
    unfold chosen
    cases onDate <;> simp
  constructor
  · rintro ⟨h1, h2, before, t, after, e, h3, h4, h5⟩
    have := key before t after e ((chosen_iff _ _).2 h3) fun t' ht' => (hno t').1 (h4 t' ht')
    subst this
    exact ⟨h1, h5, h2⟩
  · rintro ⟨h1, h2, h3⟩
    refine ⟨h1, h3, ?_⟩
    have hex : ∃ before t after, times = before ++ t :: after ∧ chosen onDate t = true ∧ ∀ t' ∈ before, chosen onDate t' = false := by
      clear key
      induction times with
      | nil => cases hf
      | cons a ts ih =>
        by_cases ha : chosen onDate a = true
        · exact ⟨[], a, ts, rfl, ha, by simp⟩
        · rw [List.filter_cons, if_neg ha] at hf
          obtain ⟨b, t, r, e, g1, g2⟩ := ih hf
          refine ⟨a :: b, t, r, by rw [e]; rfl, g1, ?_⟩
          intro t' ht'
          rcases List.mem_cons.1 ht' with rfl | ht'
          · simpa using ha
          · exact g2 t' ht'
    obtain ⟨b, t, r, e, g1, g2⟩ := hex
    have := key b t r e g1 g2
    subst this
    exact ⟨b, t, r, e, (chosen_iff _ _).1 g1, fun t' ht' => (hno t').2 (g2 t' ht'), h2⟩

theorem stationAmount_spec (hs : List α) (cols out : Columns (Option α)) (h : stationAmount hs cols = .ok out) (name : String) :
    (name ≠ "rainfall_amount" → out.lookup name = cols.lookup name) ∧
    (∀ a, cols.lookup "rainfall_amount" = some a → ∃ f, (normalizeAmount a.length fun i => a.getD i none) = .ok f ∧
      out.lookup "rainfall_amount" = some ((List.range a.length).map f)) ∧
    (cols.lookup "rainfall_amount" = none → ∀ r, cols.lookup "rainfall_rate" = some r →
      out.lookup "rainfall_amount" = some ((List.range (if hs.length = 1 then 1 else r.length)).map
        (rainfallAmount hs.length (vec hs) fun i => r.getD i none))) ∧
    (cols.lookup "rainfall_amount" = none → cols.lookup "rainfall_rate" = none → out.lookup "rainfall_amount" = none) := by
  unfold stationAmount at h
  cases ha : cols.lookup "rainfall_amount" with
  | some a =>
    rw [ha] at h
    dsimp only at h
    cases hn : normalizeAmount a.length (fun i => a.getD i none) with
    | error e => rw [hn] at h; cases h
    | ok f =>
      rw [hn] at h
      cases h
      refine ⟨fun hne => by rw [lookup_dictSet, if_neg hne], ?_, by simp, by simp⟩
      intro a' ha'
      cases ha'
      exact ⟨f, hn, by rw [lookup_dictSet, if_pos rfl]⟩
  | none =>
    rw [ha] at h
    dsimp only at h
    cases hr : cols.lookup "rainfall_rate" with
    | some r =>
      rw [hr] at h
      cases h
      refine ⟨?_, by simp, ?_, by simp⟩
      · intro hne
        rw [List.lookup_append, List.lookup_cons, beq_false_of_ne hne]
        simp
      · intro _ r' hr'
        cases hr'
        rw [List.lookup_append, ha]
        simp
    | none =>
      rw [hr] at h
      cases h
      exact ⟨fun _ => rfl, by simp, by simp, fun _ _ => ha⟩

theorem stationWind_lookup (cols : Columns (Option α)) (name : String) :
    (cols.map stationWind).lookup name =
      (cols.lookup name).map fun l => if name = "wind_direction" then l.map (Option.map wrapWindDirection) else l := by
  have : cols.map stationWind = cols.map fun kv =>
      (kv.1, if kv.1 = "wind_direction" then kv.2.map (Option.map wrapWindDirection) else kv.2) := by
    refine List.map_congr_left fun kv _ => ?_
    unfold stationWind
    split <;> rfl
  rw [this]
  exact lookup_map_name (fun n l => if n = "wind_direction" then l.map (Option.map wrapWindDirection) else l) cols name

omit [LinearOrder α] [IsStrictOrderedRing α] in
theorem stationConvert_wind (trunc : α → α) (site : Site) (x : α) : stationConvert trunc site "wind_direction" x = x := by
  unfold stationConvert
  rw [if_neg (by decide), if_neg (by decide), if_neg (by decide), if_neg (by decide), if_neg (by decide),
    if_neg (fun h => absurd h.1 (by decide))]

/-- **C114.** A file with columns of equal length is processed exactly if there is a record (of the expected date, if one is
given) and the file has the columns that the site needs. -/
theorem C114_accepted (hours : T → α) (trunc : α → α) (early : T → Bool) (site : Site) (onDate : Option (T → Bool))
    (d : StationData T α) (hal : Spec.AlignedColumns d) :
    (∃ out, stationFile hours trunc early site onDate d = .ok out) ↔
      (∃ t ∈ d.time, ∀ p, onDate = some p → p t = true) ∧ ∀ key ∈ site.required, key ∈ d.columns.map Prod.fst := by
  obtain ⟨g1, g2⟩ := stationScreen_spec site onDate d hal
  have hkey : ∀ (cols : Columns (Option α)) (key : String), (cols.lookup key).isSome ↔ key ∈ cols.map Prod.fst := by
    intro cols key
    constructor
    · intro h
      obtain ⟨v, hv⟩ := Option.isSome_iff_exists.1 h
      exact List.mem_map.2 ⟨_, mem_of_lookup hv, rfl⟩
    · intro h
      by_contra hc
      rw [Option.not_isSome_iff_eq_none, List.lookup_eq_none_iff] at hc
      obtain ⟨kv, hkv, rfl⟩ := List.mem_map.1 h
      have := hc kv hkv
      simp at this
  unfold stationFile
  cases hsc : stationScreen site onDate d with
  | error e =>
    constructor
    · rintro ⟨out, h⟩; cases h
    · rintro ⟨⟨t, ht, hp⟩, -⟩
      obtain ⟨d', hd'⟩ := g2.2 fun p hpp => ⟨t, ht, hp p hpp⟩
      rw [hsc] at hd'; cases hd'
  | ok d' =>
    obtain ⟨hal', htime, hlook⟩ := g1 d' hsc
    dsimp only [Except.bind]
    cases htm : d'.time with
    | nil =>
      constructor
      · rintro ⟨out, h⟩; cases h
      · rintro ⟨⟨t, ht, hp⟩, -⟩
        have : t ∈ d'.time := by
          rw [htime, List.mem_filter]
          exact ⟨ht, (chosen_iff _ _).2 hp⟩
        rw [htm] at this; cases this
    | cons first rest =>
      dsimp only
      have hfirst : first ∈ d.time.filter (chosen onDate) := by rw [← htime, htm]; simp
      have hA : ∃ t ∈ d.time, ∀ p, onDate = some p → p t = true :=
        ⟨first, (List.mem_filter.1 hfirst).1, (chosen_iff _ _).1 (List.mem_filter.1 hfirst).2⟩
      have hreq : (site.required.all fun k => ((stationColumns early site first d'.columns).lookup k).isSome) = true ↔
          ∀ key ∈ site.required, key ∈ d.columns.map Prod.fst := by
        rw [List.all_eq_true]
        refine forall_congr' fun key => forall_congr' fun hk => ?_
        have hnw : ∀ key ∈ site.required, ¬ (key = "wind_speed" ∨ key = "wind_direction") := by
          cases site <;> decide
        replace hnw := hnw key hk
        rw [stationColumns_lookup, if_neg (by tauto), ← hkey]
        cases hl : d.columns.lookup key with
        | none => rw [(hlook key).2 hl]
        | some col =>
          obtain ⟨col', hc, -⟩ := (hlook key).1 col hl
          rw [hc]; rfl
      unfold stationProcess
      by_cases hr : (site.required.all fun k => ((stationColumns early site first d'.columns).lookup k).isSome) = true
      · rw [if_pos hr]
        refine ⟨fun _ => ⟨hA, hreq.1 hr⟩, fun _ => ?_⟩
        -- the amount never fails
        have hamt : ∃ c, stationAmount (stationUnique ((first :: rest).map hours) ((first :: rest).map hours))
            ((stationColumns early site first d'.columns).map fun kv =>
              (kv.1, (stationUnique ((first :: rest).map hours) kv.2).map (Option.map (stationConvert trunc site kv.1)))) = .ok c := by
          unfold stationAmount
          rw [lookup_map_name (fun n l => (stationUnique ((first :: rest).map hours) l).map (Option.map (stationConvert trunc site n)))]
          cases hl : (stationColumns early site first d'.columns).lookup "rainfall_amount" with
          | none =>
            dsimp only [Option.map]
            split <;> exact ⟨_, rfl⟩
          | some a =>
            dsimp only [Option.map]
            have hlen : a.length = (first :: rest).length := by
              rw [stationColumns_lookup] at hl
              split at hl
              · cases hl
              · rw [hal' _ (mem_of_lookup hl), htm]
            have hpos : ((stationUnique ((first :: rest).map hours) a).map
                (Option.map (stationConvert trunc site "rainfall_amount"))).length ≠ 0 := by
              rw [List.length_map, picks_length (stationUnique_picks _ a (by rw [hlen, List.length_map]))]
              rw [List.length_map]
              intro hz
              have h0 := (((uniqueIndex_spec (first :: rest).length (vec ((first :: rest).map hours))).1 0).2
                ⟨by simp, by simp⟩)
              rw [List.length_eq_zero_iff] at hz
              rw [hz] at h0
              cases h0
            cases hn : normalizeAmount ((stationUnique ((first :: rest).map hours) a).map
                (Option.map (stationConvert trunc site "rainfall_amount"))).length (fun i =>
                ((stationUnique ((first :: rest).map hours) a).map
                (Option.map (stationConvert trunc site "rainfall_amount"))).getD i none) with
            | error e => exact absurd ((C53_raises _ _).1 ⟨e, hn⟩) hpos
            | ok f => exact ⟨_, rfl⟩
        obtain ⟨c, hc⟩ := hamt
        rw [hc]
        exact ⟨_, rfl⟩
      · rw [if_neg hr]
        constructor
        · rintro ⟨out, h⟩; cases h
        · rintro ⟨-, h⟩; exact absurd (hreq.2 h) hr

/-- **C114.** The output has one record for each time of day: the first one read (of the expected date), in order of the time of
day. Each column of the input except the rain amount is there, with the values of these records converted. The rain amount is
that of the input made cumulative, or the integral of the rain rate. -/
theorem C114_records (hours : T → α) (trunc : α → α) (early : T → Bool) (site : Site) (onDate : Option (T → Bool))
    (d : StationData T α) (hal : Spec.AlignedColumns d) (hs : List α) (out : Columns (Option α))
    (h : stationFile hours trunc early site onDate d = .ok (hs, out)) :
    ∃ kept, Spec.KeptRecords hours onDate d.time kept ∧
      List.Forall₂ (fun i x => ∃ t, d.time[i]? = some t ∧ x = hours t) kept hs ∧
      (∀ name, name ≠ "rainfall_amount" → ¬ Spec.Dropped early site onDate d.time name →
        ∀ col, d.columns.lookup name = some col → ∃ ocol, out.lookup name = some ocol ∧
          List.Forall₂ (fun i y => ∃ x, col[i]? = some x ∧ y = if name = "wind_direction" then x.map wrapWindDirection
            else x.map (stationConvert trunc site name)) kept ocol) ∧
      (∀ name, name ≠ "rainfall_amount" → Spec.Dropped early site onDate d.time name ∨ d.columns.lookup name = none →
        out.lookup name = none) ∧
      (∀ col, d.columns.lookup "rainfall_amount" = some col → ∃ amount f,
        List.Forall₂ (fun i y => ∃ x, col[i]? = some x ∧ y = x.map (stationConvert trunc site "rainfall_amount")) kept amount ∧
        (normalizeAmount kept.length fun i => amount.getD i none) = .ok f ∧
        out.lookup "rainfall_amount" = some ((List.range kept.length).map f)) ∧
      (d.columns.lookup "rainfall_amount" = none → out.lookup "rainfall_amount" =
        (out.lookup "rainfall_rate").map fun rate =>
          (List.range kept.length).map (rainfallAmount kept.length (vec hs) fun i => rate.getD i none)) := by
  obtain ⟨g1, -⟩ := stationScreen_spec site onDate d hal
  unfold stationFile at h
  cases hsc : stationScreen site onDate d with
  | error e => rw [hsc] at h; cases h
  | ok d' =>
    rw [hsc] at h
    obtain ⟨hal', htime, hlook⟩ := g1 d' hsc
    dsimp only [Except.bind] at h
    cases htm : d'.time with
    | nil => rw [htm] at h; cases h
    | cons first rest =>
      rw [htm] at h
      dsimp only at h
      rw [← htm] at h
      unfold stationProcess at h
      split at h
      case isFalse => cases h
      set hh := d'.time.map hours with hhh
      cases ham : stationAmount (stationUnique hh hh) ((stationColumns early site first d'.columns).map fun kv =>
          (kv.1, (stationUnique hh kv.2).map (Option.map (stationConvert trunc site kv.1)))) with
      | error e => rw [ham] at h; cases h
      | ok c =>
        rw [ham] at h
        cases h
        set i1 := selIdx (chosen onDate) d.time with hi1
        set i2 := uniqueIndex hh.length (vec hh) with hi2
        obtain ⟨u1, u2⟩ := uniqueIndex_spec hh.length (vec hh)
        rw [← hi2] at u1 u2
        have hp1 : Spec.Picks i1 d.time d'.time := by rw [htime]; exact selIdx_picks_self _ _
        have hhlen : hh.length = d'.time.length := by rw [hhh, List.length_map]
        have hi1len : i1.length = d'.time.length := (picks_length hp1).symm
        have hp2 : Spec.Picks i2 i1 (pickRows i2 i1) := picks_pickRows _ _ fun i hi => by
          rw [hi1len, ← hhlen]; exact ((u1 i).1 hi).1
        have hpt : Spec.Picks i2 d'.time (stationUnique hh d'.time) := stationUnique_picks hh d'.time hhlen.symm
        have hph : Spec.Picks i2 hh (stationUnique hh hh) := stationUnique_picks hh hh rfl
        have hvec : ∀ k t, d'.time[k]? = some t → vec hh k = hours t := by
          intro k t hk
          simp [vec, hhh, hk]
        have hlenkept : (pickRows i2 i1).length = (stationUnique hh hh).length := by
          rw [picks_length hp2, picks_length hph]
        -- picks of columns
        have hcol : ∀ name col, d.columns.lookup name = some col → ¬ Spec.Dropped early site onDate d.time name →
            ∃ col', (stationColumns early site first d'.columns).lookup name = some col' ∧
              Spec.Picks (pickRows i2 i1) col (stationUnique hh col') := by
          intro name col hc hd
          obtain ⟨col', e1, e2⟩ := (hlook name).1 col hc
          refine ⟨col', ?_, picks_comp e2 (stationUnique_picks hh col' ?_)⟩
          · rw [dropped_iff early site onDate d.time first rest (by rw [← htime, htm])] at hd
            rw [stationColumns_lookup, if_neg hd, e1]
          · rw [hal' _ (mem_of_lookup e1), hhlen]
        have hmapF : ∀ (name : String) (kept : List ℕ) (col l : List (Option α)), Spec.Picks kept col l → ∀ f : α → α,
            List.Forall₂ (fun i y => ∃ x, col[i]? = some x ∧ y = x.map f) kept (l.map (Option.map f)) := by
          intro name kept col l hp f
          rw [List.forall₂_map_right_iff]
          exact hp.imp fun i x hx => ⟨x, hx, rfl⟩
        refine ⟨pickRows i2 i1, ⟨?_, ?_⟩, ?_, ?_, ?_, ?_, ?_⟩
        · -- membership
          intro i
          have hmem : i ∈ pickRows i2 i1 ↔ ∃ k ∈ i2, i1[k]? = some i := by
            unfold pickRows; rw [List.mem_filterMap]
          rw [hmem]
          constructor
          · rintro ⟨k, hk, hki⟩
            obtain ⟨t, e1, e2⟩ := picks_get' hp1 hki
            have him : i ∈ i1 := List.mem_of_getElem? hki
            obtain ⟨t', e3, e4⟩ := (selIdx_mem _ _ _).1 him
            rw [e2] at e3
            cases e3
            refine ⟨t, e2, (chosen_iff _ _).1 e4, ?_⟩
            intro j hj t' ht' hsel
            have hjm : j ∈ i1 := (selIdx_mem _ _ _).2 ⟨t', ht', (chosen_iff _ _).2 hsel⟩
            obtain ⟨m, hm⟩ := List.mem_iff_getElem?.1 hjm
            obtain ⟨t'', e5, e6⟩ := picks_get' hp1 hm
            rw [ht'] at e6
            cases e6
            have hmk : m < k := by
              by_contra hc
              rcases Nat.lt_or_eq_of_le (Nat.le_of_not_lt hc) with hc | hc
              · have hlt := List.pairwise_iff_getElem.1 (selIdx_lt (chosen onDate) d.time) k m
                  (List.getElem?_eq_some_iff.1 hki).1 (List.getElem?_eq_some_iff.1 hm).1 hc
                rw [(List.getElem?_eq_some_iff.1 hki).2, (List.getElem?_eq_some_iff.1 hm).2] at hlt
                omega
              · subst hc
                rw [hki] at hm
                cases hm
                omega
            have := ((u1 k).1 hk).2 m hmk
            rw [hvec m _ e5, hvec k _ e1] at this
            exact this
          · rintro ⟨t, ht, hsel, hfirst⟩
            have him : i ∈ i1 := (selIdx_mem _ _ _).2 ⟨t, ht, (chosen_iff _ _).2 hsel⟩
            obtain ⟨k, hk⟩ := List.mem_iff_getElem?.1 him
            obtain ⟨t', e1, e2⟩ := picks_get' hp1 hk
            rw [ht] at e2
            cases e2
            refine ⟨k, (u1 k).2 ⟨?_, ?_⟩, hk⟩
            · rw [hhlen]; exact (List.getElem?_eq_some_iff.1 e1).1
            · intro j hj
              have hjlt : j < d'.time.length := lt_trans hj (List.getElem?_eq_some_iff.1 e1).1
              obtain ⟨m, e3, e4⟩ := picks_get hp1 (List.getElem?_eq_getElem hjlt)
              have hmm : m ∈ i1 := List.mem_of_getElem? e3
              obtain ⟨t'', e5, e6⟩ := (selIdx_mem _ _ _).1 hmm
              rw [e4] at e5
              cases e5
              rw [hvec j _ (List.getElem?_eq_getElem hjlt), hvec k _ e1]
              refine hfirst m ?_ _ e4 ((chosen_iff _ _).1 e6)
              have hlt := List.pairwise_iff_getElem.1 (selIdx_lt (chosen onDate) d.time) j k
                (List.getElem?_eq_some_iff.1 e3).1 (List.getElem?_eq_some_iff.1 hk).1 hj
              rwa [(List.getElem?_eq_some_iff.1 hk).2, (List.getElem?_eq_some_iff.1 e3).2] at hlt
        · -- order
          rw [List.pairwise_iff_getElem] at u2 ⊢
          intro a b ha hb hab t t' ht ht'
          obtain ⟨k, e1, e2⟩ := picks_get hp2 (List.getElem?_eq_getElem ha)
          obtain ⟨k', e3, e4⟩ := picks_get hp2 (List.getElem?_eq_getElem hb)
          obtain ⟨s, e5, e6⟩ := picks_get' hp1 e2
          obtain ⟨s', e7, e8⟩ := picks_get' hp1 e4
          rw [ht] at e6; rw [ht'] at e8
          cases e6; cases e8
          have := u2 a b (List.getElem?_eq_some_iff.1 e1).1 (List.getElem?_eq_some_iff.1 e3).1 hab
          rw [(List.getElem?_eq_some_iff.1 e1).2, (List.getElem?_eq_some_iff.1 e3).2, hvec k _ e5, hvec k' _ e7] at this
          exact this
        · -- hours
          have : Spec.Picks (pickRows i2 i1) (d.time.map hours) (stationUnique hh hh) := by
            refine picks_comp ?_ hph
            unfold Spec.Picks
            rw [hhh, List.forall₂_map_right_iff]
            exact hp1.imp fun i x hx => by simp [hx]
          refine this.imp fun i x hx => ?_
          rw [List.getElem?_map, Option.map_eq_some_iff] at hx
          obtain ⟨t, h1, rfl⟩ := hx
          exact ⟨t, h1, rfl⟩
        · -- columns
          intro name hne hd col hc
          obtain ⟨col', e1, e2⟩ := hcol name col hc hd
          obtain ⟨a1, -⟩ := stationAmount_spec _ _ _ ham name
          refine ⟨(fun l : List (Option α) => if name = "wind_direction" then l.map (Option.map wrapWindDirection) else l)
            ((stationUnique hh col').map (Option.map (stationConvert trunc site name))), ?_, ?_⟩
          · rw [stationWind_lookup, a1 hne,
              lookup_map_name (fun n l => (stationUnique hh l).map (Option.map (stationConvert trunc site n))), e1]
            rfl
          · dsimp only
            by_cases hw : name = "wind_direction"
            · subst hw
              simp only [if_true, List.map_map]
              have : (Option.map wrapWindDirection ∘ Option.map (stationConvert trunc site "wind_direction")) =
                  Option.map (wrapWindDirection : α → α) := by
                funext x
                cases x <;> simp [stationConvert_wind]
              rw [this]
              exact hmapF "" _ _ _ e2 _
            · simp only [hw, if_false]
              exact hmapF "" _ _ _ e2 _
        · -- no further columns
          intro name hne hd
          obtain ⟨a1, -⟩ := stationAmount_spec _ _ _ ham name
          rw [stationWind_lookup, a1 hne,
            lookup_map_name (fun n l => (stationUnique hh l).map (Option.map (stationConvert trunc site n)))]
          have : (stationColumns early site first d'.columns).lookup name = none := by
            rw [stationColumns_lookup]
            rcases hd with hd | hd
            · rw [dropped_iff early site onDate d.time first rest (by rw [← htime, htm])] at hd
              rw [if_pos hd]
            · rw [(hlook name).2 hd]; split <;> rfl
          rw [this]; rfl
        · -- amount
          intro col hc
          have hnd : ¬ Spec.Dropped early site onDate d.time "rainfall_amount" := by
            rintro ⟨-, h, -⟩
            revert h; decide
          obtain ⟨col', e1, e2⟩ := hcol _ col hc hnd
          obtain ⟨-, a2, -⟩ := stationAmount_spec _ _ _ ham ""
          obtain ⟨f, f1, f2⟩ := a2 _ (by
            rw [lookup_map_name (fun n l => (stationUnique hh l).map (Option.map (stationConvert trunc site n))), e1]; rfl)
          have hl : ((stationUnique hh col').map (Option.map (stationConvert trunc site "rainfall_amount"))).length =
              (pickRows i2 i1).length := by rw [List.length_map, picks_length e2]
          refine ⟨_, f, hmapF "" _ _ _ e2 _, ?_, ?_⟩
          · rw [← hl]; exact f1
          · rw [stationWind_lookup, f2, hl]; rfl
        · -- integrated rate
          intro hnone
          have hn' : ((stationColumns early site first d'.columns).map fun kv =>
              (kv.1, (stationUnique hh kv.2).map (Option.map (stationConvert trunc site kv.1)))).lookup "rainfall_amount" = none := by
            rw [lookup_map_name (fun n l => (stationUnique hh l).map (Option.map (stationConvert trunc site n))),
              stationColumns_lookup, (hlook _).2 hnone]
            split <;> rfl
          obtain ⟨a1, -, a3, a4⟩ := stationAmount_spec _ _ _ ham "rainfall_rate"
          rw [stationWind_lookup, stationWind_lookup, a1 (by decide)]
          cases hr : ((stationColumns early site first d'.columns).map fun kv =>
              (kv.1, (stationUnique hh kv.2).map (Option.map (stationConvert trunc site kv.1)))).lookup "rainfall_rate" with
          | none => rw [a4 hn' hr]; rfl
          | some r =>
            rw [a3 hn' r hr, hlenkept]
            have hrl : r.length = (stationUnique hh hh).length := by
              rw [lookup_map_name (fun n l => (stationUnique hh l).map (Option.map (stationConvert trunc site n))),
                Option.map_eq_some_iff] at hr
              obtain ⟨col', e1, rfl⟩ := hr
              rw [stationColumns_lookup] at e1
              split at e1
              · cases e1
              · rw [List.length_map, picks_length (stationUnique_picks hh col' (by rw [hal' _ (mem_of_lookup e1), hhlen])),
                  picks_length hph]
            rw [hrl]
            simp only [Option.map_some, show ("rainfall_amount" = "wind_direction") = False by simp,
              show ("rainfall_rate" = "wind_direction") = False by simp, if_false]
            congr 2
            split
            · rename_i h1; rw [h1]
            · rfl

omit [Field α] [LinearOrder α] [IsStrictOrderedRing α] in
/-- **C114.** The variables of Limassol are the columns with its titles; wind is measured at 10 m if the files have both its speed
and direction. -/
theorem C114_limassol (p : SirtaParsers T α) (files : List (List (String × List String))) (cols : Columns (StationCell T α))
    (h : limassol p files = .ok cols) : ∃ raw, limassolFiles p files = .ok raw ∧
      (∀ name title, (name, title) ∈ [("time", "Date Time (yyyy-mm-ddThh:mm:ss)"), ("air_temperature", "Air temperature (°C)"),
          ("relative_humidity", "Relative humidity (%)"), ("rainfall_rate", "Total precipitation (mm)")] →
        (cols.lookup name).isSome ∧ cols.lookup name = raw.lookup title) ∧
      ((raw.lookup "Wind speed at 10m (m/s)").isSome → (raw.lookup "Wind direction at 10m (degrees)").isSome →
        cols.lookup "wind_speed" = raw.lookup "Wind speed at 10m (m/s)" ∧
        cols.lookup "wind_direction" = raw.lookup "Wind direction at 10m (degrees)") ∧
      (¬ ((raw.lookup "Wind speed at 10m (m/s)").isSome ∧ (raw.lookup "Wind direction at 10m (degrees)").isSome) →
        (cols.lookup "wind_speed").isSome ∧ cols.lookup "wind_speed" = raw.lookup "Wind speed (m/s)" ∧
        cols.lookup "wind_direction" = none) := by
  unfold limassol at h
  cases hr : limassolFiles p files with
  | error e => rw [hr] at h; cases h
  | ok raw =>
    rw [hr] at h
    replace h : pickColumns (limassolNames fun k => (raw.lookup k).isSome) raw = .ok cols := h
    have hnd : ((limassolNames fun k => (raw.lookup k).isSome).map Prod.fst).Nodup := by
      unfold limassolNames
      split <;> decide
    have hpick : ∀ name title, (name, [title]) ∈ limassolNames (fun k => (raw.lookup k).isSome) →
        (cols.lookup name).isSome ∧ cols.lookup name = raw.lookup title := by
      intro name title hmem
      obtain ⟨k, col, ⟨before, after, e1, -, -⟩, e3, e4⟩ := pickColumns_spec _ raw cols hnd h _ hmem
      have : k = title := by
        cases before with
        | nil => cases e1; rfl
        | cons b bs => have := congrArg List.length e1; simp at this
      subst this
      rw [e4, e3]; simp
    refine ⟨raw, rfl, ?_, ?_, ?_⟩
    · intro name title hmem
      refine hpick name title ?_
      unfold limassolNames
      refine List.mem_append_left _ ?_
      simpa using hmem
    · intro h1 h2
      have hm : ∀ x ∈ [("wind_speed", ["Wind speed at 10m (m/s)"]), ("wind_direction", ["Wind direction at 10m (degrees)"])],
          x ∈ limassolNames fun k => (raw.lookup k).isSome := by
        intro x hx
        unfold limassolNames
        rw [if_pos (by simp [h1, h2])]
        exact List.mem_append_right _ hx
      exact ⟨(hpick _ _ (hm _ (by simp))).2, (hpick _ _ (hm _ (by simp))).2⟩
    · intro h12
      have he : limassolNames (fun k => (raw.lookup k).isSome) =
          [("time", ["Date Time (yyyy-mm-ddThh:mm:ss)"]), ("air_temperature", ["Air temperature (°C)"]),
           ("relative_humidity", ["Relative humidity (%)"]), ("rainfall_rate", ["Total precipitation (mm)"])] ++
          [("wind_speed", ["Wind speed (m/s)"])] := by
        unfold limassolNames
        rw [if_neg (by simpa using h12)]
      have g := hpick "wind_speed" "Wind speed (m/s)" (by rw [he]; simp)
      refine ⟨g.1, g.2, ?_⟩
      have hn := pickColumns_names _ raw cols h
      rw [he] at hn
      rw [List.lookup_eq_none_iff]
      intro kv hkv
      rw [bne_iff_ne]
      intro hc
      have : kv.1 ∈ cols.map Prod.fst := List.mem_map.2 ⟨kv, hkv, rfl⟩
      rw [hn, ← hc] at this
      revert this; decide

end

/-! ### Concrete files -/

/-- Two days of a station: (day, hour). -/
def twoDays : StationData (ℕ × ℚ) ℚ :=
  ⟨[(1, 5), (1, 4), (1, 5), (2, 3), (2, 5)],
   [("air_temperature", [some 10, some 11, some 12, some 13, some 14]),
    ("relative_humidity", [some 50, none, some 50, some 50, some 50]),
    ("rainfall_rate", [some 60, some 120, none, some 0, some 60]),
    ("wind_direction", [some 361, some (-1), some 7, some 8, some 9])]⟩

example : Spec.AlignedColumns twoDays := by
  unfold Spec.AlignedColumns twoDays; decide

example : (stationFile (fun t : ℕ × ℚ => t.2) id (fun _ => false) .juelich (some fun t => t.1 == 1) twoDays).toOption.map
    (fun r => (r.1, r.2.lookup "wind_direction")) = some ([4, 5], some [some 359, some 1]) := by decide +kernel

example : (stationFile (fun t : ℕ × ℚ => t.2) id (fun _ => false) .juelich (some fun t => t.1 == 1) twoDays).toOption.map
    (fun r => (r.2.lookup "air_temperature", r.2.lookup "rainfall_amount")) =
    some (some [some (11 + 27315 / 100), some (10 + 27315 / 100)], some [some (2 * 3600 / 1000), some (3 * 3600 / 1000)]) := by
  decide +kernel

example : (stationFile (fun t : ℕ × ℚ => t.2) id (fun _ => true) .galati (some fun t => t.1 == 1)
    { twoDays with columns := ("air_pressure", [none, none, none, none, none]) :: twoDays.columns }).toOption.map
    (fun r => r.2.lookup "wind_direction") = some none := by decide +kernel

example : (stationFile (fun t : ℕ × ℚ => t.2) id (fun _ => false) .juelich (some fun t => t.1 == 3) twoDays).isOk = false ∧
    (stationFile (fun t : ℕ × ℚ => t.2) id (fun _ => false) .kenttarova (some fun t => t.1 == 1) twoDays).isOk = false := by
  decide +kernel

/-- **C114 finding.** Without an expected date the records of several days are put together by their time of day: a record of the
second day is first and the other one is lost. -/
theorem C114_two_days :
    (stationFile (fun t : ℕ × ℚ => t.2) id (fun _ => false) .juelich none twoDays).toOption.map
      (fun r => (r.1, r.2.lookup "air_temperature")) =
    some ([3, 4, 5], some [some (13 + 27315 / 100), some (11 + 27315 / 100), some (10 + 27315 / 100)]) := by decide +kernel

/-- **C114 finding.** The time of day is rounded down to seconds, so that of several records in a second only the first one is
kept. -/
theorem C114_same_second :
    (stationFile (fun t : ClockTime => (datetime2decimalHours t : ℚ)) id (fun _ => false) .juelich none
      ⟨[⟨1, 0, 0, 0⟩, ⟨1, 0, 0, 500000⟩, ⟨1, 0, 1, 0⟩],
       [("air_temperature", [some 1, some 2, some 3]), ("relative_humidity", [none, none, none])]⟩).toOption.map
      (fun r => r.2.lookup "air_temperature") = some (some [some (1 + 27315 / 100), some (3 + 27315 / 100)]) := by decide +kernel

end Cloudnet
