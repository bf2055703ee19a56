import Mathlib.Tactic
import Verif.Disdrom.Thies
import Verif.Disdrom.PipeProps
import Verif.Disdrom.LoggerProps

namespace Cloudnet

namespace Spec

/-- Variables of the output: name, position in the telegram, and whether it is a decimal number. -/
def thiesLayout : List (String × ℕ × Bool) :=
  [("synop_WW", 9, false), ("synop_WaWa", 10, false), ("rainfall_rate_1min_total", 12, true), ("rainfall_rate", 13, true),
    ("rainfall_rate_1min_solid", 14, true), ("visibility", 16, false), ("radar_reflectivity", 17, true),
    ("measurement_quality", 18, false), ("maximum_hail_diameter", 19, true), ("status_laser", 20, false),
    ("static_signal", 21, false), ("status_T_laser_analogue", 22, false), ("status_T_laser_digital", 23, false),
    ("status_I_laser_analogue", 24, false), ("status_I_laser_digital", 25, false), ("status_sensor_supply", 26, false),
    ("status_laser_heating", 27, false), ("status_receiver_heating", 28, false), ("status_temperature_sensor", 29, false),
    ("status_heating_supply", 30, false), ("status_heating_housing", 31, false), ("status_heating_heads", 32, false),
    ("status_heating_carriers", 33, false), ("status_laser_power", 34, false), ("T_interior", 36, true),
    ("T_laser_driver", 37, true), ("I_mean_laser", 38, false), ("V_control", 39, false), ("V_optical_output", 40, false),
    ("V_sensor_supply", 41, false), ("I_heating_laser_head", 42, false), ("I_heating_receiver_head", 43, false),
    ("T_ambient", 44, true), ("n_particles", 49, false)]

/-- A date `day.month.year`; years below 100 are of this century. -/
def ThiesDate {D C T α : Type} (p : ThiesParsers D C T α) (text : String) (d : D) : Prop :=
  ∃ s1 s2 s3 day month year, splitChar '.' text = [s1, s2, s3] ∧ p.int s1 = some day ∧ p.int s2 = some month ∧
    p.int s3 = some year ∧ ((year < 100 ∧ p.date (year + 2000) month day = some d) ∨ (100 ≤ year ∧ p.date year month day = some d))

/-- A time `hour:minute:second`. -/
def ThiesClock {D C T α : Type} (p : ThiesParsers D C T α) (text : String) (c : C) : Prop :=
  ∃ s1 s2 s3 hour minute second, splitChar ':' text = [s1, s2, s3] ∧ p.int s1 = some hour ∧ p.int s2 = some minute ∧
    p.int s3 = some second ∧ p.clock hour minute second = some c

/-- How a field is read. -/
inductive ThiesReads {D C T α : Type} (p : ThiesParsers D C T α) : String → String → ThiesValue D C T α → Prop
  | date {text d} : ThiesDate p text d → ThiesReads p "_date" text (.date d)
  | clock {text c} : ThiesClock p text c → ThiesReads p "_time" text (.clock c)
  | num {key text x} : key ∈ thiesFloats → p.float text = some x → ThiesReads p key text (.num x)
  | text {key text} : key ∈ thiesTexts → ThiesReads p key text (.text text)
  | int {key text n} : key ∉ "_date" :: "_time" :: (thiesFloats ++ thiesTexts) → p.int text = some n →
      ThiesReads p key text (.int n)

/-- The lines with the number of fields of telegram 4, or of telegram 5 with four more. -/
def telegrams {T : Type} (expected : ℕ) (lines : List (Option T × String)) : List (Option T × String) :=
  lines.filter fun l => decide ((thiesFields l.2).length = expected ∨ (thiesFields l.2).length = expected + 4)

/-- The time of a telegram: that of the data logger, or else date and time of the telegram. -/
def ThiesTime {D C T α : Type} (p : ThiesParsers D C T α) (line : Option T × String) (t : T) : Prop :=
  line.1 = some t ∨ (line.1 = none ∧ ∃ s c d k, (thiesFields line.2)[3]? = some s ∧ ThiesDate p s d ∧
    (thiesFields line.2)[4]? = some c ∧ ThiesClock p c k ∧ t = p.combine d k)

/-- The counts of a telegram: fields 79 to 518. -/
def ThiesCounts {D C T α : Type} (p : ThiesParsers D C T α) (line : Option T × String) (ns : List ℤ) : Prop :=
  ns.length = 440 ∧ ∀ (k : ℕ) n, ns[k]? = some n → ∃ s, (thiesFields line.2)[79 + k]? = some s ∧ p.int s = some n

/-- All that is needed of a telegram can be read: the fields of the telegram's table up to the last expected one, the spectrum,
and the date and time if there is no data logger. -/
def ThiesReadable {D C T α : Type} (p : ThiesParsers D C T α) (expected : ℕ) (line : Option T × String) : Prop :=
  (∀ ik ∈ thiesTelegram, ik.1 + 1 < expected → ∃ s v, (thiesFields line.2)[ik.1]? = some s ∧ ThiesReads p ik.2 s v) ∧
  (79 < expected → ∃ ns, ThiesCounts p line ns) ∧ (line.1 = none → 5 < expected)

end Spec

section
variable {D C T α : Type}

theorem thiesDate_iff (p : ThiesParsers D C T α) (text : String) (d : D) : thiesDate p text = some d ↔ Spec.ThiesDate p text d := by
  unfold thiesDate Spec.ThiesDate
  constructor
  · intro h
    split at h
    · rename_i day month year hm
      rw [mapM_forall₂] at hm
      cases hl : splitChar '.' text with
      | nil => rw [hl] at hm; cases hm
      | cons s1 l =>
        rw [hl] at hm
        obtain ⟨h1, hm⟩ := List.forall₂_cons.1 hm
        cases l with
        | nil => cases hm
        | cons s2 l =>
          obtain ⟨h2, hm⟩ := List.forall₂_cons.1 hm
          cases l with
          | nil => cases hm
          | cons s3 l =>
            obtain ⟨h3, hm⟩ := List.forall₂_cons.1 hm
            cases hm
            refine ⟨s1, s2, s3, day, month, year, rfl, h1, h2, h3, ?_⟩
            split_ifs at h with c
            · exact Or.inl ⟨c, h⟩
            · exact Or.inr ⟨by omega, h⟩
    · cases h
  · rintro ⟨s1, s2, s3, day, month, year, e, h1, h2, h3, h⟩
    have hm : (splitChar '.' text).mapM p.int = some [day, month, year] := by
      rw [mapM_forall₂, e]
      exact .cons h1 (.cons h2 (.cons h3 .nil))
    rw [hm]
    dsimp only
    rcases h with ⟨c, h⟩ | ⟨c, h⟩
    · rw [if_pos c, h]
    · rw [if_neg (by omega), h]

theorem thiesClock_iff (p : ThiesParsers D C T α) (text : String) (c : C) :
    thiesClock p text = some c ↔ Spec.ThiesClock p text c := by
  unfold thiesClock Spec.ThiesClock
  constructor
  · intro h
    split at h
    · rename_i day month year hm
      rw [mapM_forall₂] at hm
      cases hl : splitChar ':' text with
      | nil => rw [hl] at hm; cases hm
      | cons s1 l =>
        rw [hl] at hm
        obtain ⟨h1, hm⟩ := List.forall₂_cons.1 hm
        cases l with
        | nil => cases hm
        | cons s2 l =>
          obtain ⟨h2, hm⟩ := List.forall₂_cons.1 hm
          cases l with
          | nil => cases hm
          | cons s3 l =>
            obtain ⟨h3, hm⟩ := List.forall₂_cons.1 hm
            cases hm
            exact ⟨s1, s2, s3, day, month, year, rfl, h1, h2, h3, h⟩
    · cases h
  · rintro ⟨s1, s2, s3, day, month, year, e, h1, h2, h3, h⟩
    have hm : (splitChar ':' text).mapM p.int = some [day, month, year] := by
      rw [mapM_forall₂, e]
      exact .cons h1 (.cons h2 (.cons h3 .nil))
    rw [hm]
    exact h

theorem thiesParse_iff (p : ThiesParsers D C T α) (key text : String) (v : ThiesValue D C T α) :
    thiesParse p key text = some v ↔ Spec.ThiesReads p key text v := by
  have d1 : "_date" ∉ thiesFloats := by decide
  have d2 : "_date" ∉ thiesTexts := by decide
  have d3 : "_time" ∉ thiesFloats := by decide
  have d4 : "_time" ∉ thiesTexts := by decide
  have d5 : ∀ n ∈ thiesFloats, n ∉ thiesTexts := by decide
  constructor
  · intro h
    unfold thiesParse at h
    split_ifs at h with h1 h2 h3 h4
    · obtain ⟨t, ht, rfl⟩ := Option.map_eq_some_iff.1 h
      subst h1
      exact .date ((thiesDate_iff _ _ _).1 ht)
    · obtain ⟨t, ht, rfl⟩ := Option.map_eq_some_iff.1 h
      subst h2
      exact .clock ((thiesClock_iff _ _ _).1 ht)
    · obtain ⟨t, ht, rfl⟩ := Option.map_eq_some_iff.1 h
      exact .num h3 ht
    · obtain rfl := Option.some.inj h
      exact .text h4
    · obtain ⟨t, ht, rfl⟩ := Option.map_eq_some_iff.1 h
      exact .int (by simp [h1, h2, h3, h4]) ht
  · intro h
    unfold thiesParse
    cases h with
    | date h => rw [if_pos rfl, (thiesDate_iff _ _ _).2 h]; rfl
    | clock h => rw [if_neg (by decide), if_pos rfl, (thiesClock_iff _ _ _).2 h]; rfl
    | num hk h =>
      rw [if_neg (by rintro rfl; exact d1 hk), if_neg (by rintro rfl; exact d3 hk), if_pos hk, h]
      rfl
    | text hk =>
      rw [if_neg (by rintro rfl; exact d2 hk), if_neg (by rintro rfl; exact d4 hk), if_neg fun e => d5 _ e hk, if_pos hk]
    | int hk h =>
      simp only [List.mem_cons, List.mem_append, not_or] at hk
      rw [if_neg hk.1, if_neg hk.2.1, if_neg hk.2.2.1, if_neg hk.2.2.2, h]
      rfl

theorem thiesNames_nodup : (thiesTelegram.map Prod.snd ++ ["spectrum", "time"]).Nodup := by decide

theorem thiesPositions : thiesTelegram.Pairwise fun a b => a.1 < b.1 := by decide

theorem takeWhile_telegram (expected : ℕ) (ik : ℕ × String) :
    ik ∈ thiesTelegram.takeWhile (fun ik => decide (ik.1 + 1 < expected)) ↔ ik ∈ thiesTelegram ∧ ik.1 + 1 < expected := by
  have key : ∀ l : List (ℕ × String), l.Pairwise (fun a b => a.1 < b.1) →
      (ik ∈ l.takeWhile (fun ik => decide (ik.1 + 1 < expected)) ↔ ik ∈ l ∧ ik.1 + 1 < expected) := by
    intro l hl
    induction l with
    | nil => simp
    | cons a l ih =>
      obtain ⟨h1, h2⟩ := List.pairwise_cons.1 hl
      by_cases c : a.1 + 1 < expected
      · rw [List.takeWhile_cons_of_pos (by simpa using c), List.mem_cons, List.mem_cons, ih h2]
        constructor
        · rintro (rfl | h)
          · exact ⟨Or.inl rfl, c⟩
          · exact ⟨Or.inr h.1, h.2⟩
        · rintro ⟨rfl | h, h'⟩
          · exact Or.inl rfl
          · exact Or.inr ⟨h, h'⟩
      · rw [List.takeWhile_cons_of_neg (by simpa using c)]
        simp only [List.not_mem_nil, List.mem_cons, false_iff, not_and]
        rintro (rfl | h)
        · exact c
        · have := h1 _ h
          omega
  exact key _ thiesPositions

theorem thiesSpectrum_iff (p : ThiesParsers D C T α) (line : Option T × String) (ns : List ℤ) :
    thiesSpectrum p (thiesFields line.2) = some ns ↔ Spec.ThiesCounts p line ns := by
  unfold thiesSpectrum Spec.ThiesCounts
  constructor
  · intro h
    split_ifs at h with c
    rw [mapM_forall₂] at h
    refine ⟨by rw [← h.length_eq, c], ?_⟩
    intro k n hn
    obtain ⟨hlt, e⟩ := List.getElem?_eq_some_iff.1 hn
    have hlt' : k < (((thiesFields line.2).drop 79).take 440).length := by rw [h.length_eq]; exact hlt
    refine ⟨(((thiesFields line.2).drop 79).take 440)[k], ?_, ?_⟩
    · have := List.getElem?_eq_getElem hlt'
      rw [List.getElem?_take] at this
      split_ifs at this
      rw [List.getElem?_drop] at this
      exact this
    · have := (List.forall₂_iff_get.1 h).2 k hlt' hlt
      simp only [List.get_eq_getElem] at this
      rw [this, e]
  · rintro ⟨hl, h⟩
    have hlen : (((thiesFields line.2).drop 79).take 440).length = 440 := by
      have : ns[439]? = some (ns[439]'(by omega)) := List.getElem?_eq_getElem _
      obtain ⟨s, hs, -⟩ := h 439 _ this
      have := (List.getElem?_eq_some_iff.1 hs).1
      rw [List.length_take, List.length_drop]
      omega
    rw [if_pos hlen, mapM_forall₂, List.forall₂_iff_get]
    refine ⟨by rw [hlen, hl], ?_⟩
    intro k h1 h2
    obtain ⟨s, hs, hi⟩ := h k _ (List.getElem?_eq_getElem h2)
    have hk : k < 440 := by rw [← hl]; exact h2
    have : (((thiesFields line.2).drop 79).take 440)[k]? = some s := by
      rw [List.getElem?_take, if_pos hk, List.getElem?_drop]
      exact hs
    rw [List.getElem?_eq_getElem h1] at this
    rw [List.get_eq_getElem, List.get_eq_getElem, Option.some.inj this]
    exact hi

theorem forall₂_lookup_pair {A V : Type} {l : List (A × String)} {m : List (String × V)} {R : A × String → String × V → Prop}
    (h : List.Forall₂ R l m) (hk : ∀ a b, R a b → b.1 = a.2) :
    m.map Prod.fst = l.map Prod.snd := by
  induction h with
  | nil => rfl
  | cons hab _ ih => rw [List.map_cons, List.map_cons, ih, hk _ _ hab]

/-- What a line adds, in full. -/
theorem thiesItems_spec (p : ThiesParsers D C T α) (expected : ℕ) (line : Option T × String) :
    ((∃ items, thiesItems p expected line.1 (thiesFields line.2) = some items) ↔ Spec.ThiesReadable p expected line) ∧
    ∀ items, thiesItems p expected line.1 (thiesFields line.2) = some items →
      (items.map Prod.fst).Nodup ∧
      (∀ ik ∈ thiesTelegram, ik.1 + 1 < expected → ∃ s v, (thiesFields line.2)[ik.1]? = some s ∧ Spec.ThiesReads p ik.2 s v ∧
        items.lookup ik.2 = some v) ∧
      (79 < expected → ∃ ns, Spec.ThiesCounts p line ns ∧ items.lookup "spectrum" = some (.counts ns)) ∧
      ∃ t, Spec.ThiesTime p line t ∧ items.lookup "time" = some (.stamp t) := by
  have hmem := takeWhile_telegram expected
  have hsub : ((thiesTelegram.takeWhile fun ik => decide (ik.1 + 1 < expected)).map Prod.snd ++ ["spectrum", "time"]).Nodup := by
    refine thiesNames_nodup.sublist ?_
    exact List.Sublist.append_right ((List.takeWhile_sublist _).map _) _
  unfold thiesItems
  generalize (thiesTelegram.takeWhile fun ik => decide (ik.1 + 1 < expected)) = tel at hmem hsub ⊢
  have hfield : ∀ ik kv, thiesField p (thiesFields line.2) ik = some kv ↔
      kv.1 = ik.2 ∧ ∃ s, (thiesFields line.2)[ik.1]? = some s ∧ Spec.ThiesReads p ik.2 s kv.2 := by
    intro ik kv
    unfold thiesField
    cases h : (thiesFields line.2)[ik.1]? with
    | none => simp
    | some s =>
      simp only [Option.map_eq_some_iff, Option.some.injEq]
      constructor
      · rintro ⟨v, hv, rfl⟩
        exact ⟨rfl, s, rfl, (thiesParse_iff _ _ _ _).1 hv⟩
      · rintro ⟨h1, s', rfl, h2⟩
        exact ⟨kv.2, (thiesParse_iff _ _ _ _).2 h2, by rw [← h1]⟩
  -- the values of the telegram
  have hvals : ∀ values, tel.mapM (thiesField p (thiesFields line.2)) = some values →
      values.map Prod.fst = tel.map Prod.snd ∧ ∀ ik ∈ tel, ∃ s v, (thiesFields line.2)[ik.1]? = some s ∧
        Spec.ThiesReads p ik.2 s v ∧ (ik.2, v) ∈ values := by
    intro values hv
    rw [mapM_forall₂] at hv
    refine ⟨forall₂_lookup_pair hv fun a b hab => ((hfield a b).1 hab).1, ?_⟩
    intro ik hik
    clear hsub hmem
    induction hv with
    | nil => simp at hik
    | @cons a b l m hab _ ih =>
      rcases List.mem_cons.1 hik with rfl | hik
      · obtain ⟨h1, s, h2, h3⟩ := (hfield _ _).1 hab
        exact ⟨s, b.2, h2, h3, by rw [← h1]; simp⟩
      · obtain ⟨s, v, h1, h2, h3⟩ := ih hik
        exact ⟨s, v, h1, h2, by simp [h3]⟩
  -- the time
  have htime : ∀ values, tel.mapM (thiesField p (thiesFields line.2)) = some values →
      ((∃ t, thiesTime p line.1 values = some t) ↔ (line.1 = none → 5 < expected)) ∧
      ∀ t, thiesTime p line.1 values = some t → Spec.ThiesTime p line t := by
    intro values hv
    obtain ⟨hk, hv'⟩ := hvals values hv
    have hnd : (values.map Prod.fst).Nodup := by
      rw [hk]
      exact (List.nodup_append.1 hsub).1
    unfold thiesTime
    cases hs : line.1 with
    | some t0 =>
      refine ⟨by simp, ?_⟩
      intro t ht
      obtain rfl := Option.some.inj ht
      exact Or.inl hs
    | none =>
      dsimp only
      by_cases c : 5 < expected
      · obtain ⟨s, v, a1, a2, a3⟩ := hv' (3, "_date") ((hmem _).2 ⟨by decide, by dsimp only; omega⟩)
        obtain ⟨s', v', b1, b2, b3⟩ := hv' (4, "_time") ((hmem _).2 ⟨by decide, by dsimp only; omega⟩)
        have e1 : values.lookup "_date" = some v := lookup_of_mem_nodup hnd a3
        have e2 : values.lookup "_time" = some v' := lookup_of_mem_nodup hnd b3
        rw [e1, e2]
        have hd : ∃ d, v = .date d ∧ Spec.ThiesDate p s d := by
          rw [← thiesParse_iff] at a2
          unfold thiesParse at a2
          rw [if_pos rfl] at a2
          obtain ⟨d, hd, rfl⟩ := Option.map_eq_some_iff.1 a2
          exact ⟨d, rfl, (thiesDate_iff _ _ _).1 hd⟩
        have hc : ∃ k, v' = .clock k ∧ Spec.ThiesClock p s' k := by
          rw [← thiesParse_iff] at b2
          unfold thiesParse at b2
          rw [if_neg (by decide), if_pos rfl] at b2
          obtain ⟨d, hd, rfl⟩ := Option.map_eq_some_iff.1 b2
          exact ⟨d, rfl, (thiesClock_iff _ _ _).1 hd⟩
        obtain ⟨d, rfl, hd⟩ := hd
        obtain ⟨k, rfl, hc⟩ := hc
        refine ⟨by simp [c], ?_⟩
        intro t ht
        obtain rfl := Option.some.inj ht
        exact Or.inr ⟨hs, s, s', d, k, a1, hd, b1, hc, rfl⟩
      · have e2 : values.lookup "_time" = none := by
          rw [List.lookup_eq_none_iff]
          intro q hq
          rw [bne_iff_ne]
          intro e
          have : q.1 ∈ values.map Prod.fst := List.mem_map.2 ⟨q, hq, rfl⟩
          rw [hk, ← e] at this
          obtain ⟨ik, h1, h2⟩ := List.mem_map.1 this
          obtain ⟨h3, h4⟩ := (hmem ik).1 h1
          have hpos : ∀ ik ∈ thiesTelegram, ik.2 = "_time" → ik.1 = 4 := by decide
          have := hpos ik h3 h2
          omega
        rw [e2]
        refine ⟨?_, ?_⟩
        · have : ∀ o : Option (ThiesValue D C T α), (match o, (none : Option (ThiesValue D C T α)) with
              | some (.date d), some (.clock c) => some (p.combine d c)
              | _, _ => none) = none := by
            intro o
            rcases o with _ | (_ | _ | _ | _ | _ | _ | _) <;> rfl
          simp [this, c]
        · intro t ht
          split at ht <;> simp_all
  have hcounts : ∀ counts, thiesCounts p expected (thiesFields line.2) = some counts →
      (79 < expected ∧ ∃ ns, Spec.ThiesCounts p line ns ∧ counts = [("spectrum", .counts ns)]) ∨ (¬ 79 < expected ∧ counts = []) := by
    intro counts h
    unfold thiesCounts at h
    split_ifs at h with c
    · obtain ⟨ns, h1, rfl⟩ := Option.map_eq_some_iff.1 h
      exact Or.inl ⟨c, ns, (thiesSpectrum_iff _ _ _).1 h1, rfl⟩
    · obtain rfl := Option.some.inj h
      exact Or.inr ⟨c, rfl⟩
  refine ⟨?_, ?_⟩
  · constructor
    · rintro ⟨items, h⟩
      split at h
      · rename_i values counts hv hc
        obtain ⟨t, ht, -⟩ := Option.map_eq_some_iff.1 h
        refine ⟨?_, ?_, ?_⟩
        · intro ik hik hlt
          obtain ⟨s, v, h1, h2, -⟩ := (hvals values hv).2 ik ((hmem ik).2 ⟨hik, hlt⟩)
          exact ⟨s, v, h1, h2⟩
        · intro c
          rcases hcounts counts hc with ⟨-, ns, h1, -⟩ | ⟨c', -⟩
          · exact ⟨ns, h1⟩
          · exact absurd c c'
        · exact (htime values hv).1.1 ⟨t, ht⟩
      · cases h
    · rintro ⟨h1, h2, h3⟩
      have hv : ∃ values, tel.mapM (thiesField p (thiesFields line.2)) = some values := by
        have : ∀ ik ∈ tel, ∃ kv, thiesField p (thiesFields line.2) ik = some kv := by
          intro ik hik
          obtain ⟨a, b⟩ := (hmem ik).1 hik
          obtain ⟨s, v, c, d⟩ := h1 ik a b
          exact ⟨(ik.2, v), (hfield _ _).2 ⟨rfl, s, c, d⟩⟩
        clear hvals htime hsub hmem
        induction tel with
        | nil => exact ⟨[], rfl⟩
        | cons a l ih =>
          obtain ⟨kv, hkv⟩ := this a (by simp)
          obtain ⟨vs, hvs⟩ := ih fun ik hik => this ik (by simp [hik])
          refine ⟨kv :: vs, ?_⟩
          rw [mapM_forall₂] at hvs ⊢
          exact .cons hkv hvs
      obtain ⟨values, hv⟩ := hv
      have hc : ∃ counts, thiesCounts p expected (thiesFields line.2) = some counts := by
        unfold thiesCounts
        split_ifs with c
        · obtain ⟨ns, hns⟩ := h2 c
          rw [(thiesSpectrum_iff _ _ _).2 hns]
          exact ⟨_, rfl⟩
        · exact ⟨[], rfl⟩
      obtain ⟨counts, hc⟩ := hc
      obtain ⟨t, ht⟩ := (htime values hv).1.2 h3
      rw [hv, hc]
      dsimp only
      rw [ht]
      exact ⟨_, rfl⟩
  · intro items h
    split at h
    · rename_i values counts hv hc
      obtain ⟨t, ht, rfl⟩ := Option.map_eq_some_iff.1 h
      obtain ⟨hk, hv'⟩ := hvals values hv
      have hkc : ∀ kv ∈ counts, kv.1 = "spectrum" := by
        rcases hcounts counts hc with ⟨-, ns, -, rfl⟩ | ⟨-, rfl⟩ <;> simp
      have hnd : ((values ++ counts ++ [("time", ThiesValue.stamp t)]).map Prod.fst).Nodup := by
        rw [List.map_append, List.map_append, hk]
        refine hsub.sublist ?_
        rw [List.append_assoc]
        refine List.Sublist.append_left ?_ _
        rcases hcounts counts hc with ⟨-, ns, -, rfl⟩ | ⟨-, rfl⟩
        · exact List.Sublist.refl _
        · exact List.sublist_cons_self _ _
      refine ⟨hnd, ?_, ?_, ?_⟩
      · intro ik hik hlt
        obtain ⟨s, v, h1, h2, h3⟩ := hv' ik ((hmem ik).2 ⟨hik, hlt⟩)
        exact ⟨s, v, h1, h2, lookup_of_mem_nodup hnd (by simp [h3])⟩
      · intro c
        rcases hcounts counts hc with ⟨-, ns, h1, rfl⟩ | ⟨c', -⟩
        · exact ⟨ns, h1, lookup_of_mem_nodup hnd (by simp)⟩
        · exact absurd c c'
      · exact ⟨t, (htime values hv).2 t ht, lookup_of_mem_nodup hnd (by simp)⟩
    · cases h

theorem foldl_rawAppend {V : Type} (items : List (String × V)) (d : List (String × List V))
    (hnd : (items.map Prod.fst).Nodup) (name : String) :
    (items.foldl rawAppend d).lookup name
      = match items.lookup name with
        | none => d.lookup name
        | some v => some ((d.lookup name).getD [] ++ [v]) := by
  induction items generalizing d with
  | nil => rfl
  | cons kv l ih =>
    rw [List.map_cons, List.nodup_cons] at hnd
    rw [List.foldl_cons, ih _ hnd.2, List.lookup_cons]
    unfold rawAppend dictExtend
    rw [lookup_dictSet]
    by_cases e : name = kv.1
    · have : l.lookup name = none := by
        rw [List.lookup_eq_none_iff]
        intro q hq
        rw [bne_iff_ne]
        rintro rfl
        exact hnd.1 (e ▸ List.mem_map.2 ⟨_, hq, rfl⟩)
      rw [this]
      simp [e]
    · have : (name == kv.1) = false := by simpa using e
      rw [this]
      simp [e]

theorem thiesLine_skip (p : ThiesParsers D C T α) (expected : ℕ) (raw : List (String × List (ThiesValue D C T α)))
    (l : Option T × String) (h : ¬ ((thiesFields l.2).length = expected ∨ (thiesFields l.2).length = expected + 4)) :
    thiesLine p expected raw l = .ok raw := by
  unfold thiesLine
  rw [not_or] at h
  rw [if_pos h]

theorem thiesLine_bad (p : ThiesParsers D C T α) (expected : ℕ) (raw : List (String × List (ThiesValue D C T α)))
    (l : Option T × String) (h : (thiesFields l.2).length = expected ∨ (thiesFields l.2).length = expected + 4)
    (hi : thiesItems p expected l.1 (thiesFields l.2) = none) :
    thiesLine p expected raw l = .error "DisdrometerDataError: Unable to read disdrometer file" := by
  unfold thiesLine
  rw [if_neg fun h' => h.elim h'.1 h'.2, hi]

theorem thiesLine_good (p : ThiesParsers D C T α) (expected : ℕ) (raw : List (String × List (ThiesValue D C T α)))
    (l : Option T × String) (h : (thiesFields l.2).length = expected ∨ (thiesFields l.2).length = expected + 4)
    {items : List (String × ThiesValue D C T α)} (hi : thiesItems p expected l.1 (thiesFields l.2) = some items) :
    thiesLine p expected raw l = .ok (items.foldl rawAppend raw) := by
  unfold thiesLine
  rw [if_neg fun h' => h.elim h'.1 h'.2, hi]

theorem telegrams_cons (expected : ℕ) (l : Option T × String) (ls : List (Option T × String)) :
    Spec.telegrams expected (l :: ls)
      = if (thiesFields l.2).length = expected ∨ (thiesFields l.2).length = expected + 4 then l :: Spec.telegrams expected ls
        else Spec.telegrams expected ls := by
  unfold Spec.telegrams
  rw [List.filter_cons]
  simp

theorem thiesFold (p : ThiesParsers D C T α) (expected : ℕ) (lines : List (Option T × String))
    (raw : List (String × List (ThiesValue D C T α))) :
    ((∃ raw', lines.foldlM (thiesLine p expected) raw = .ok raw') ↔
      ∀ l ∈ Spec.telegrams expected lines, Spec.ThiesReadable p expected l) ∧
    ∀ raw', lines.foldlM (thiesLine p expected) raw = .ok raw' → ∀ (name : String) (R : Option T × String → ThiesValue D C T α → Prop),
      (∀ l ∈ Spec.telegrams expected lines, ∀ items, thiesItems p expected l.1 (thiesFields l.2) = some items →
        ∃ v, items.lookup name = some v ∧ R l v) →
      ∃ vs, List.Forall₂ R (Spec.telegrams expected lines) vs ∧
        raw'.lookup name = if Spec.telegrams expected lines = [] then raw.lookup name
          else some ((raw.lookup name).getD [] ++ vs) := by
  induction lines generalizing raw with
  | nil =>
    refine ⟨by simp [Spec.telegrams, pure, Except.pure], ?_⟩
    intro raw' h name R _
    obtain rfl := Except.ok.inj h
    exact ⟨[], by simp [Spec.telegrams], by simp [Spec.telegrams]⟩
  | cons l ls ih =>
    rw [List.foldlM_cons, telegrams_cons]
    by_cases c : (thiesFields l.2).length = expected ∨ (thiesFields l.2).length = expected + 4
    · rw [if_pos c]
      obtain ⟨i1, i2⟩ := thiesItems_spec p expected l
      cases hi : thiesItems p expected l.1 (thiesFields l.2) with
      | none =>
        rw [thiesLine_bad p expected raw l c hi]
        refine ⟨?_, by intro raw' h; cases h⟩
        constructor
        · rintro ⟨raw', h⟩
          cases h
        · intro h
          obtain ⟨items, h'⟩ := i1.2 (h l (by simp))
          rw [hi] at h'
          cases h'
      | some items =>
        rw [thiesLine_good p expected raw l c hi]
        obtain ⟨j1, j2⟩ := ih (items.foldl rawAppend raw)
        have hr := i1.1 ⟨items, hi⟩
        refine ⟨?_, ?_⟩
        · rw [show ((Except.ok (items.foldl rawAppend raw) : Except String _) >>= fun s => ls.foldlM (thiesLine p expected) s)
              = ls.foldlM (thiesLine p expected) (items.foldl rawAppend raw) from rfl, j1]
          simp [hr]
        · intro raw' h name R hR
          obtain ⟨v, hv, hRv⟩ := hR l (by simp) items hi
          obtain ⟨vs, a, b⟩ := j2 raw' h name R fun l' hl' => hR l' (by simp [hl'])
          refine ⟨v :: vs, .cons hRv a, ?_⟩
          rw [b, foldl_rawAppend _ _ (i2 items hi).1, hv, if_neg (List.cons_ne_nil _ _)]
          by_cases e : Spec.telegrams expected ls = []
          · rw [if_pos e]
            rw [e] at a
            cases a
            rfl
          · rw [if_neg e]
            simp
    · rw [if_neg c]
      rw [thiesLine_skip p expected raw l c]
      exact ih raw

/-- **C118.** A file is accepted exactly if it has telegrams and all of them can be read. -/
theorem C118_accepted (p : ThiesParsers D C T α) (expected : ℕ) (lines : List (Option T × String)) :
    (thiesLines p expected lines).isOk ↔
      Spec.telegrams expected lines ≠ [] ∧ ∀ l ∈ Spec.telegrams expected lines, Spec.ThiesReadable p expected l := by
  obtain ⟨a, b⟩ := thiesFold p expected lines []
  unfold thiesLines
  cases h : lines.foldlM (thiesLine p expected) [] with
  | error e =>
    rw [h] at a
    have : ¬ ∀ l ∈ Spec.telegrams expected lines, Spec.ThiesReadable p expected l := by
      intro h'
      obtain ⟨_, h''⟩ := a.2 h'
      cases h''
    simp only [Except.bind, Except.isOk, Except.toBool, Bool.false_eq_true, false_iff]
    exact fun h => this h.2
  | ok raw =>
    have ha := a.1 ⟨raw, h⟩
    obtain ⟨vs, v1, v2⟩ := b raw h "time" (fun _ _ => True) (by
      intro l hl items hi
      obtain ⟨t, -, ht⟩ := ((thiesItems_spec p expected l).2 items hi).2.2.2
      exact ⟨_, ht, trivial⟩)
    simp only [Except.bind]
    rw [v2]
    by_cases e : Spec.telegrams expected lines = []
    · simp [e, Except.isOk, Except.toBool]
    · have hvs : vs.length ≠ 0 := by
        rw [← v1.length_eq]
        intro h
        exact e (List.length_eq_zero_iff.1 h)
      simp [e, hvs, Except.isOk, Except.toBool]
      exact fun a b h => ha (a, b) h

/-- **C118.** The columns have one value for each telegram, in the order of the file: for each name of the table the field at its
position, the spectrum, and the time. -/
theorem C118_columns (p : ThiesParsers D C T α) (expected : ℕ) (lines : List (Option T × String))
    (raw : List (String × List (ThiesValue D C T α))) (h : thiesLines p expected lines = .ok raw) :
    (∀ ik ∈ thiesTelegram, ik.1 + 1 < expected → ∃ col, raw.lookup ik.2 = some col ∧
      List.Forall₂ (fun l v => ∃ s, (thiesFields l.2)[ik.1]? = some s ∧ Spec.ThiesReads p ik.2 s v)
        (Spec.telegrams expected lines) col) ∧
    (79 < expected → ∃ col, raw.lookup "spectrum" = some col ∧
      List.Forall₂ (fun l v => ∃ ns, v = .counts ns ∧ Spec.ThiesCounts p l ns) (Spec.telegrams expected lines) col) ∧
    ∃ col, raw.lookup "time" = some col ∧
      List.Forall₂ (fun l v => ∃ t, v = .stamp t ∧ Spec.ThiesTime p l t) (Spec.telegrams expected lines) col := by
  have hne : Spec.telegrams expected lines ≠ [] := ((C118_accepted p expected lines).1 (by rw [h]; rfl)).1
  obtain ⟨-, b⟩ := thiesFold p expected lines []
  unfold thiesLines at h
  cases hf : lines.foldlM (thiesLine p expected) [] with
  | error e => rw [hf] at h; cases h
  | ok raw' =>
    rw [hf] at h
    simp only [Except.bind] at h
    split_ifs at h
    obtain rfl := Except.ok.inj h
    refine ⟨?_, ?_, ?_⟩
    · intro ik hik hlt
      obtain ⟨vs, v1, v2⟩ := b raw' hf ik.2
        (fun l v => ∃ s, (thiesFields l.2)[ik.1]? = some s ∧ Spec.ThiesReads p ik.2 s v) (by
          intro l hl items hi
          obtain ⟨s, v, h1, h2, h3⟩ := ((thiesItems_spec p expected l).2 items hi).2.1 ik hik hlt
          exact ⟨v, h3, s, h1, h2⟩)
      rw [if_neg hne] at v2
      exact ⟨vs, by simpa using v2, v1⟩
    · intro c
      obtain ⟨vs, v1, v2⟩ := b raw' hf "spectrum" (fun l v => ∃ ns, v = .counts ns ∧ Spec.ThiesCounts p l ns) (by
          intro l hl items hi
          obtain ⟨ns, h1, h2⟩ := ((thiesItems_spec p expected l).2 items hi).2.2.1 c
          exact ⟨_, h2, ns, rfl, h1⟩)
      rw [if_neg hne] at v2
      exact ⟨vs, by simpa using v2, v1⟩
    · obtain ⟨vs, v1, v2⟩ := b raw' hf "time" (fun l v => ∃ t, v = .stamp t ∧ Spec.ThiesTime p l t) (by
          intro l hl items hi
          obtain ⟨t, h1, h2⟩ := ((thiesItems_spec p expected l).2 items hi).2.2.2
          exact ⟨_, h2, t, rfl, h1⟩)
      rw [if_neg hne] at v2
      exact ⟨vs, by simpa using v2, v1⟩

theorem thiesLayout_table : ∀ nik ∈ Spec.thiesLayout, (nik.2.1, nik.1) ∈ thiesTelegram ∧
    (nik.2.2 = true → nik.1 ∈ thiesFloats) ∧ (nik.2.2 = false → nik.1 ∉ "_date" :: "_time" :: (thiesFloats ++ thiesTexts)) := by
  decide

theorem thiesLayout_complete : ∀ ik ∈ thiesTelegram, ik.2.toList.head? ≠ some '_' → ik.2 ∈ Spec.thiesLayout.map Prod.fst := by
  decide

/-- **C118.** The variables of the output are the fields at the positions of the telegram's description. -/
theorem C118_variables (p : ThiesParsers D C T α) (expected : ℕ) (lines : List (Option T × String))
    (raw : List (String × List (ThiesValue D C T α))) (h : thiesLines p expected lines = .ok raw)
    (name : String) (i : ℕ) (decimal : Bool) (hn : (name, i, decimal) ∈ Spec.thiesLayout) (hi : i + 1 < expected) :
    ∃ col, raw.lookup name = some col ∧
      List.Forall₂ (fun l v => ∃ s, (thiesFields l.2)[i]? = some s ∧
        ((decimal = true ∧ ∃ x, p.float s = some x ∧ v = .num x) ∨ (decimal = false ∧ ∃ n, p.int s = some n ∧ v = .int n)))
        (Spec.telegrams expected lines) col := by
  obtain ⟨h1, h2, h3⟩ := thiesLayout_table _ hn
  dsimp only at h1 h2 h3
  obtain ⟨col, c1, c2⟩ := (C118_columns p expected lines raw h).1 _ h1 hi
  refine ⟨col, c1, c2.imp ?_⟩
  rintro l v ⟨s, hs, hr⟩
  refine ⟨s, hs, ?_⟩
  dsimp only at hr
  have q : ∀ n ∈ thiesFloats, n ∉ thiesTexts ∧ n ≠ "_date" ∧ n ≠ "_time" := by decide
  cases decimal with
  | true =>
    left
    refine ⟨rfl, ?_⟩
    have hf := h2 rfl
    obtain ⟨q1, q2, q3⟩ := q _ hf
    cases hr with
    | date h => exact absurd rfl q2
    | clock h => exact absurd rfl q3
    | num _ h => exact ⟨_, h, rfl⟩
    | text h => exact absurd h q1
    | int h =>
      exfalso
      apply h
      rw [List.mem_cons, List.mem_cons, List.mem_append]
      exact Or.inr (Or.inr (Or.inl hf))
  | false =>
    right
    refine ⟨rfl, ?_⟩
    have hf := h3 rfl
    cases hr with
    | date h => exact absurd (List.mem_cons_self) hf
    | clock h => exact absurd (List.mem_cons_of_mem _ List.mem_cons_self) hf
    | num h => exact absurd (List.mem_cons_of_mem _ (List.mem_cons_of_mem _ (List.mem_append_left _ h))) hf
    | text h => exact absurd (List.mem_cons_of_mem _ (List.mem_cons_of_mem _ (List.mem_append_right _ h))) hf
    | int _ h => exact ⟨_, h, rfl⟩

theorem dropWhile_end {l : List Char} {q : Char → Bool} (hl : ∀ c, l.head? = some c → q c = false) : l.dropWhile q = l := by
  cases l with
  | nil => rfl
  | cons a l => rw [List.dropWhile_cons_of_neg]; simpa using hl a (by simp)

theorem head_dropWhile_char (l : List Char) (q : Char → Bool) (c : Char) (hc : (l.dropWhile q).head? = some c) : q c = false := by
  have := List.head?_dropWhile_not q l
  rw [hc] at this
  simpa using this

/-- Removing leading and trailing characters of a list. -/
def trim (q : Char → Bool) (l : List Char) : List Char := ((l.dropWhile q).reverse.dropWhile q).reverse

theorem trim_append (q : Char → Bool) (l m : List Char) (hm : ∀ c ∈ m, q c = true) : trim q (l ++ m) = trim q l := by
  have h0 : m.dropWhile q = [] := List.dropWhile_eq_nil_iff.2 hm
  have h1 : m.reverse.dropWhile q = [] := List.dropWhile_eq_nil_iff.2 fun c hc => hm c (List.mem_reverse.1 hc)
  unfold trim
  rw [List.dropWhile_append]
  split_ifs with h
  · rw [h0, List.isEmpty_iff.1 h]
  · rw [List.reverse_append, List.dropWhile_append, h1]
    rfl

theorem trim_head (q : Char → Bool) (l : List Char) (c : Char) (hc : (trim q l).head? = some c) : q c = false := by
  obtain ⟨m, hm⟩ : ∃ m, l.dropWhile q = trim q l ++ m := by
    refine ⟨((l.dropWhile q).reverse.takeWhile q).reverse, ?_⟩
    unfold trim
    rw [← List.reverse_append, List.takeWhile_append_dropWhile, List.reverse_reverse]
  refine head_dropWhile_char l q c ?_
  rw [hm, List.head?_append, hc]
  rfl

theorem trim_self (q : Char → Bool) (l : List Char) (h1 : ∀ c, l.head? = some c → q c = false)
    (h2 : ∀ c, l.reverse.head? = some c → q c = false) : trim q l = l := by
  unfold trim
  rw [dropWhile_end h1, dropWhile_end h2, List.reverse_reverse]

/-- The telegram of a stamped line has the fields of the rest of the line. -/
theorem thiesFields_fixed (telegram : String) :
    thiesFields (String.ofList (((pyStrip telegram).toList.reverse.dropWhile fun c => decide (c = ';')).reverse) ++ ";")
      = thiesFields telegram := by
  set x := trim Char.isWhitespace telegram.toList with hx
  have hp : pyStrip telegram = String.ofList x := rfl
  rw [hp, String.toList_ofList]
  set z := (x.reverse.dropWhile fun c => decide (c = ';')).reverse with hz
  have e : String.ofList z ++ ";" = String.ofList (z ++ [';']) := by
    rw [String.ofList_append]
  rw [e]
  have hxz : x = z ++ (x.reverse.takeWhile fun c => decide (c = ';')).reverse := by
    rw [hz, ← List.reverse_append, List.takeWhile_append_dropWhile, List.reverse_reverse]
  have hy : trim Char.isWhitespace (z ++ [';']) = z ++ [';'] := by
    apply trim_self
    · intro c hc
      cases hzz : z with
      | nil =>
        rw [hzz] at hc
        obtain rfl := Option.some.inj hc
        decide
      | cons a m =>
        rw [hzz] at hc
        obtain rfl := Option.some.inj hc
        refine trim_head Char.isWhitespace telegram.toList a ?_
        rw [← hx, hxz, hzz]
        rfl
    · intro c hc
      rw [List.reverse_append] at hc
      obtain rfl := Option.some.inj hc
      decide
  have f1 : ∀ l : List Char, thiesFields (String.ofList l)
      = splitChar ';' (String.ofList (trim (fun c => decide (c = ';')) (trim Char.isWhitespace l))) := by
    intro l
    unfold thiesFields stripChar pyStrip
    rw [String.toList_ofList, String.toList_ofList]
    rfl
  have f2 : thiesFields telegram = splitChar ';' (String.ofList (trim (fun c => decide (c = ';')) x)) := by
    have := f1 telegram.toList
    rw [String.ofList_toList] at this
    exact this
  have t1 : trim (fun c => decide (c = ';')) x = trim (fun c => decide (c = ';')) z := by
    rw [hxz]
    refine trim_append _ _ _ ?_
    intro c hc
    exact List.mem_takeWhile_imp (p := fun c => decide (c = ';')) (List.mem_reverse.1 hc)
  rw [f1, hy, f2, trim_append _ z [';'] (by simp), t1]

/-- **C118.** A line with a time stamp of the data logger is the stamp, a semicolon, and the telegram. -/
theorem C118_stamped_line (p : ThiesParsers D C T α) (line : String) (l : Option T × String) (h : thiesStamped p line = .ok l) :
    ∃ stamp telegram t, line = stamp ++ ";" ++ telegram ∧ ';' ∉ stamp.toList ∧ p.stamp stamp = some t ∧ l.1 = some t ∧
      thiesFields l.2 = thiesFields telegram := by
  unfold thiesStamped at h
  split_ifs at h with hs
  dsimp only at h
  set a := line.toList.takeWhile fun c => decide (c ≠ ';') with ha
  set b := line.toList.dropWhile fun c => decide (c ≠ ';') with hb
  split at h
  · cases h
  · rename_i t ht
    cases h
    refine ⟨String.ofList a, String.ofList (b.drop 1), t, ?_, ?_, ht, rfl, thiesFields_fixed _⟩
    · obtain ⟨m, hm⟩ : ∃ m, b = ';' :: m := by
        cases hbb : b with
        | nil =>
          exfalso
          rw [hb] at hbb
          have := List.dropWhile_eq_nil_iff.1 hbb ';' hs
          simp at this
        | cons c m =>
          have := head_dropWhile_char line.toList (fun c => decide (c ≠ ';')) c (by rw [← hb, hbb]; rfl)
          have hc : c = ';' := by simpa using this
          exact ⟨m, by rw [hc]⟩
      have hab : line.toList = a ++ b := by rw [ha, hb, List.takeWhile_append_dropWhile]
      rw [hm] at hab ⊢
      have h2 : line = String.ofList (a ++ ';' :: m) := by rw [← hab, String.ofList_toList]
      rw [h2, List.append_cons, String.ofList_append, String.ofList_append]
      rfl
    · rw [String.toList_ofList]
      intro hc
      have := List.mem_takeWhile_imp hc
      simp at this

/-- **C118.** Which lines are taken as telegrams, for the three kinds of files. -/
theorem C118_files (p : ThiesParsers D C T α) (toa : ToaParsers T) (expected : ℕ) (lines : List String) (csv : List (List String))
    (raw : List (String × List (ThiesValue D C T α))) (h : thiesRead p toa expected lines csv = .ok raw) :
    ∃ telegrams, thiesLines p expected telegrams = .ok raw ∧
      ((hasPart "TOA5" (lines.headD "") = true ∧ ∃ file, readToa5 toa csv = .ok file ∧
          List.Forall₂ (fun row l => ∃ s t, row.lookup "RawString" = some (.scalar (.text s)) ∧
            row.lookup "TIMESTAMP" = some (.scalar (.time t)) ∧ l = (some t, s)) file.rows telegrams) ∨
       (hasPart "TOA5" (lines.headD "") = false ∧ "datetime [utc];".toList <+: pyLower (lines.headD "") ∧
          List.Forall₂ (fun line l => ∃ stamp telegram t, line = stamp ++ ";" ++ telegram ∧ ';' ∉ stamp.toList ∧
            p.stamp stamp = some t ∧ l.1 = some t ∧ thiesFields l.2 = thiesFields telegram) lines.tail telegrams) ∨
       (hasPart "TOA5" (lines.headD "") = false ∧ ¬ "datetime [utc];".toList <+: pyLower (lines.headD "") ∧
          List.Forall₂ (fun line l => l = (none, line)) lines telegrams)) := by
  unfold thiesRead at h
  dsimp only at h
  split_ifs at h with h1 h2
  · cases hr : readToa5 toa csv with
    | error e => rw [hr] at h; cases h
    | ok file =>
      rw [hr] at h
      dsimp only [Except.bind] at h
      cases hm : file.rows.mapM thiesToaRow with
      | error e => rw [hm] at h; cases h
      | ok ls =>
        rw [hm] at h
        refine ⟨ls, h, Or.inl ⟨h1, file, rfl, ?_⟩⟩
        refine (mapM_except _ _ _ |>.1 hm).imp ?_
        intro row l hl
        unfold thiesToaRow at hl
        split at hl
        · rename_i s t e1 e2
          cases hl
          exact ⟨s, t, e1, e2, rfl⟩
        · cases hl
  · rw [Bool.not_eq_true] at h1
    cases hm : (lines.drop 1).mapM (thiesStamped p) with
    | error e => rw [hm] at h; cases h
    | ok ls =>
      rw [hm] at h
      refine ⟨ls, h, Or.inr (Or.inl ⟨h1, List.isPrefixOf_iff_prefix.1 h2, ?_⟩)⟩
      rw [← List.drop_one]
      exact (mapM_except _ _ _ |>.1 hm).imp fun line l hl => C118_stamped_line p line l hl
  · rw [Bool.not_eq_true] at h1
    refine ⟨_, h, Or.inr (Or.inr ⟨h1, fun hp => h2 (List.isPrefixOf_iff_prefix.2 hp), ?_⟩)⟩
    rw [List.forall₂_map_right_iff]
    exact List.forall₂_same.2 fun _ _ => rfl

/-- **C118, finding** One telegram of the right length that cannot be read makes the whole file unreadable. -/
theorem C118_one_bad_telegram (p : ThiesParsers D C T α) (expected : ℕ) (before after : List (Option T × String))
    (bad : Option T × String) (hl : (thiesFields bad.2).length = expected) (hb : ¬ Spec.ThiesReadable p expected bad) :
    ¬ (thiesLines p expected (before ++ bad :: after)).isOk := by
  rw [C118_accepted]
  intro h
  refine hb (h.2 bad ?_)
  unfold Spec.telegrams
  rw [List.mem_filter]
  exact ⟨by simp, by simp [hl]⟩

end

/-- Parsers for examples: dates, clocks and times are numbers. -/
def thiesTest : ThiesParsers ℤ ℤ ℤ ℚ where
  int := fun s => ["0", "1", "2", "3"].findIdx? (· == s) |>.map fun n : ℕ => (n : ℤ)
  float := fun s => ["0", "1", "2", "3"].findIdx? (· == s) |>.map fun n : ℕ => (n : ℚ)
  date := fun y m d => if 1 ≤ m ∧ 1 ≤ d then some (10000 * y + 100 * m + d) else none
  clock := fun h m s => some (10000 * h + 100 * m + s)
  combine := fun d c => 1000000 * d + c
  stamp := fun s => if s = "2" then some 20000101020000 else none

example : (thiesRead thiesTest ⟨fun _ => none, fun _ => none⟩ 7
    ["\x02;A;B;1.2.3;1:2:3;2;C;\n", "x;y\n", "\x02;A;B;1.2.3;1:3:3;3;C\n"] []).toOption.map (fun r => (r.lookup "time", r.lookup "_synop_5min_ww"))
    = some (some [.stamp 20030201010203, .stamp 20030201010303], some [.int 2, .int 3]) := by
  decide +kernel

example : (thiesRead thiesTest ⟨fun _ => none, fun _ => none⟩ 7
    ["Datetime [UTC];Telegram\n", "2;\x02;A;B;1.2.3;1:2:3;2;C;;\n"] []).toOption.map (fun r => (r.lookup "time", r.lookup "_synop_5min_ww"))
    = some (some [.stamp 20000101020000], some [.int 2]) := by
  decide +kernel

example : thiesCounts thiesTest 520 (List.replicate 520 "1") = some [("spectrum", .counts (List.replicate 440 1))] := by
  decide +kernel

example : ¬ Spec.ThiesReadable thiesTest 7 (none, "\x02;A;B;1.0.3;1:2:3;2;C;\n") := by
  intro h
  obtain ⟨s, v, h1, h2⟩ := h.1 (3, "_date") (by decide) (by decide)
  rw [← thiesParse_iff] at h2
  have e : (thiesFields "\x02;A;B;1.0.3;1:2:3;2;C;\n")[3]? = some "1.0.3" := by decide +kernel
  rw [e] at h1
  obtain rfl := Option.some.inj h1
  have e2 : thiesParse thiesTest "_date" "1.0.3" = none := by decide +kernel
  rw [e2] at h2
  cases h2

end Cloudnet
