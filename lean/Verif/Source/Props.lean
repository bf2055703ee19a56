import Verif.Source.Model
import Verif.Interp.Props
import Mathlib.Algebra.Order.Ring.Rat
import Mathlib.Tactic.NormNum

/-!
Properties C98 (coordinates of input files), C99 (liquid water path of categorize), C100 (disdrometer
input), C101 (decibels).
-/

set_option linter.unusedSectionVars false
set_option linter.unusedSimpArgs false

namespace Cloudnet

section
variable {α : Type} [Field α] [LinearOrder α] [IsStrictOrderedRing α]

namespace Spec

/-- The variable gives the lengths `metres`, in metres or kilometres. -/
def GivesMetres (var : SrcVar α) (metres : List (Option α)) : Prop :=
  (var.units = "km" ∧ metres = var.values.map fun v => v.map (1000 * ·)) ∨
  ((var.units = "m" ∨ var.units = "meters") ∧ metres = var.values)

/-- The unit of the variable is understood. -/
def KnownUnit (var : SrcVar α) : Prop := var.units = "km" ∨ var.units = "m" ∨ var.units = "meters"

end Spec

theorem toM_spec (var : SrcVar α) (metres : List (Option α)) :
    toM var = .ok metres ↔ Spec.GivesMetres var metres := by
  unfold toM Spec.GivesMetres
  by_cases h1 : var.units = "km"
  · simp only [h1, if_true, true_and]
    have h2 : ¬ ("km" = "m" ∨ "km" = "meters") := by decide
    simp only [h2, false_and, or_false, Except.ok.injEq]
    have : (fun v : Option α => v.map (· * 1000)) = fun v => v.map (1000 * ·) := by
      funext v; cases v <;> simp [mul_comm]
    rw [this]
    exact eq_comm
  · simp only [h1, if_false, false_and, false_or]
    by_cases h2 : var.units = "m" ∨ var.units = "meters"
    · rw [if_neg (by tauto)]
      simp only [h2, true_and, Except.ok.injEq]
      exact eq_comm
    · rw [if_pos (by tauto)]
      simp [h2]

theorem toM_error (var : SrcVar α) : (∃ e, toM var = .error e) ↔ ¬ Spec.KnownUnit var := by
  unfold toM Spec.KnownUnit
  by_cases h1 : var.units = "km"
  · simp [h1]
  · by_cases h2 : var.units = "m" ∨ var.units = "meters"
    · rw [if_neg h1, if_neg (by tauto)]; simp [h1, h2]
    · rw [if_neg h1, if_pos (by tauto)]; simp [h1, h2]

/-- C98. `getvar` returns the variable with the first of the names that the file has and raises exactly
if it has none of them. -/
theorem C98_getvar {β : Type} (vars : List (String × β)) (names : List String) :
    (∀ v, getvar vars names = .ok v ↔ ∃ pre n post, names = pre ++ n :: post ∧
      vars.lookup n = some v ∧ ∀ m ∈ pre, vars.lookup m = none) ∧
    ((∃ e, getvar vars names = .error e) ↔ ∀ n ∈ names, vars.lookup n = none) := by
  unfold getvar
  cases hf : names.find? fun n => (vars.lookup n).isSome with
  | none =>
    rw [List.find?_eq_none] at hf
    have hn : ∀ n ∈ names, vars.lookup n = none := by
      intro n hn; exact Option.not_isSome_iff_eq_none.1 (hf n hn)
    refine ⟨fun v => ⟨fun h => (nomatch h), ?_⟩, ⟨fun _ => hn, fun _ => ⟨_, rfl⟩⟩⟩
    rintro ⟨pre, n, post, rfl, h, -⟩
    rw [hn n (by simp)] at h
    cases h
  | some n =>
    rw [List.find?_eq_some_iff_append] at hf
    obtain ⟨h1, pre, post, h2, h3⟩ := hf
    obtain ⟨v, hv⟩ := Option.isSome_iff_exists.1 h1
    have h3 : ∀ m ∈ pre, vars.lookup m = none := by
      intro m hm; exact Option.not_isSome_iff_eq_none.1 (by simpa only [Bool.not_eq_true', Bool.not_eq_true] using h3 m hm)
    simp only [hv]
    constructor
    · intro w
      constructor
      · intro h
        exact ⟨pre, n, post, h2, by rw [hv, Except.ok.inj h], h3⟩
      · rintro ⟨pre', n', post', h4, h5, h6⟩
        rw [h2, List.append_eq_append_iff] at h4
        rcases h4 with ⟨a, ha, hb⟩ | ⟨c, hc, hd⟩
        · cases a with
          | nil =>
            simp at hb
            rw [← hb.1, hv] at h5
            rw [Option.some.inj h5]
          | cons x a =>
            rw [List.cons_append, List.cons.injEq] at hb
            have := h6 n (by rw [ha, hb.1]; simp)
            rw [hv] at this; cases this
        · cases c with
          | nil =>
            simp at hd
            rw [hd.1, hv] at h5
            rw [Option.some.inj h5]
          | cons x c =>
            rw [List.cons_append, List.cons.injEq] at hd
            have := h3 n' (by rw [hc, hd.1]; simp)
            rw [h5] at this; cases this
    · refine ⟨fun h => ?_, fun h => ?_⟩
      · obtain ⟨e, he⟩ := h; cases he
      · have := h n (by rw [h2]; simp)
        rw [hv] at this; cases this

/-- C98. Times up to 25 are hours and stay as they are; otherwise they are seconds since some midnight
and become the time of day in hours. Files without times raise. -/
theorem C98_time [FloorRing α] :
    (∃ e, initTime (α := α) none = .error e) ∧
    (∀ t : ℕ → α, ∃ e, initTime (some (0, t)) = .error e) ∧
    ∀ (n : ℕ) (t : ℕ → α), 0 < n →
      ((∀ i < n, t i ≤ 25) → initTime (some (n, t)) = .ok t) ∧
      ((∃ i < n, 25 < t i) → ∃ f, initTime (some (n, t)) = .ok f ∧ ∀ i < n,
        (∃ k : ℤ, t i = 86400 * k + 3600 * f i) ∧
        (0 ≤ f i ∧ f i < 24 ∨ i = n - 1 ∧ f i = 24) ∧ (i = n - 1 → 0 < f i)) := by
  refine ⟨⟨_, rfl⟩, fun t => ⟨_, rfl⟩, fun n t hn => ⟨fun h => ?_, fun h => ?_⟩⟩
  · unfold initTime
    dsimp only
    rw [if_neg (by omega), if_neg]
    rw [List.any_eq_true]
    rintro ⟨i, hi, hc⟩
    rw [List.mem_range] at hi
    exact absurd (of_decide_eq_true hc) (not_lt.2 (h i hi))
  · obtain ⟨i, hi, hc⟩ := h
    unfold initTime
    dsimp only
    rw [if_neg (by omega), if_pos]
    · exact (C36_seconds2hours n t).2 hn
    · rw [List.any_eq_true]
      exact ⟨i, List.mem_range.2 hi, decide_eq_true hc⟩

/-- C98. A file whose times are seconds since midnight of any day (`day` days after the epoch) and one
with the same times in hours give the same result, if some time is later than 25 seconds after the
epoch and the last time is after midnight. -/
theorem C98_time_units [FloorRing α] (n : ℕ) (hours : ℕ → α) (day : ℤ) (hn : 0 < n)
    (hday : ∀ i < n, 0 ≤ hours i ∧ hours i < 24) (hlast : 0 < hours (n - 1))
    (hsec : ∃ i < n, 25 < 86400 * day + 3600 * hours i) :
    ∃ f g, initTime (some (n, hours)) = .ok f ∧
      initTime (some (n, fun i => 86400 * day + 3600 * hours i)) = .ok g ∧
      ∀ i < n, f i = hours i ∧ g i = hours i := by
  obtain ⟨h1, -⟩ := C98_time.2.2 n hours hn
  obtain ⟨-, h2⟩ := C98_time.2.2 n (fun i => 86400 * (day : α) + 3600 * hours i) hn
  obtain ⟨g, hg, hval⟩ := h2 hsec
  refine ⟨hours, g, h1 fun i hi => by have := (hday i hi).2; linarith, hg, fun i hi => ⟨rfl, ?_⟩⟩
  obtain ⟨⟨k, hk⟩, hr, hp⟩ := hval i hi
  obtain ⟨a1, a2⟩ := hday i hi
  rcases hr with ⟨b1, b2⟩ | ⟨b1, b2⟩
  · have c1 : (k : α) < day + 1 := by
      by_contra hc
      have := not_lt.1 hc
      linarith
    have c2 : (day : α) < k + 1 := by
      by_contra hc
      have := not_lt.1 hc
      linarith
    have c1' : k < day + 1 := by exact_mod_cast c1
    have c2' : day < k + 1 := by exact_mod_cast c2
    have : k = day := by omega
    rw [this] at hk
    linarith
  · rw [b2] at hk
    rw [b1] at hk
    have a1 := hlast
    have a2 := (hday (n - 1) (by omega)).2
    have c1 : (k : α) + 1 < day + 1 := by linarith
    have c2 : (day : α) < k + 1 := by linarith
    have c1' : k + 1 < day + 1 := by exact_mod_cast c1
    have c2' : day < k + 1 := by exact_mod_cast c2
    omega

/-- C98. Seconds that end within 25 seconds of the epoch are taken as hours. -/
theorem C98_first_seconds :
    (initTime (some (2, fun i => [(10 : ℚ), 20].getD i 0))).toOption.map (fun f => (f 0, f 1)) =
      some (10, 20) := by
  decide +kernel

/-- The known values of a list. -/
def Spec.known (l : List (Option α)) : List α := l.filterMap id

/-- C98. The altitude of an instrument is the mean of its known altitudes in metres, whatever the unit;
it is unknown if there are none. Other units raise. -/
theorem C98_altitude :
    initAltitude (α := α) none = .ok none ∧
    ∀ var : SrcVar α, ((∀ v ∈ var.values, v = none) → initAltitude (some var) = .ok none) ∧
      ∀ v ∈ var.values, v ≠ none →
        (∀ metres, Spec.GivesMetres var metres → initAltitude (some var) =
          .ok (some ((Spec.known metres).sum / (Spec.known metres).length))) ∧
        ((∃ e, initAltitude (some var) = .error e) ↔ ¬ Spec.KnownUnit var) := by
  refine ⟨rfl, fun var => ⟨fun h => ?_, fun v hv hne => ?_⟩⟩
  · unfold initAltitude
    dsimp only
    rw [if_pos]
    rw [List.all_eq_true]
    intro v hv
    rw [h v hv]; rfl
  · have hall : ¬ (var.values.all fun v => v.isNone) = true := by
      rw [List.all_eq_true]
      intro h
      have := h v hv
      rw [Option.isNone_iff_eq_none] at this
      exact hne this
    unfold initAltitude
    dsimp only
    rw [if_neg hall]
    constructor
    · intro metres hm
      have hm' := (toM_spec var metres).2 hm
      rw [hm']
      simp only [bind, Except.bind]
      -- a single value is its own mean
      match metres, hm with
      | [], _ => rfl
      | [some x], _ => simp [Spec.known]
      | [none], hm =>
        exfalso
        have hl : var.values = [none] := by
          rcases hm with ⟨_, h⟩ | ⟨_, h⟩
          · match hv' : var.values, h with
            | [none], _ => rfl
          · exact h.symm
        rw [hl] at hv
        simp at hv
        exact hne hv
      | _ :: _ :: _, _ => rfl
    · rw [← toM_error]
      cases h : toM var with
      | error e => simp [bind, Except.bind]
      | ok l =>
        simp only [bind, Except.bind]
        constructor
        · rintro ⟨e, he⟩
          match l, he with
          | [], he => cases he
          | [_], he => cases he
          | _ :: _ :: _, he => cases he
        · rintro ⟨e, he⟩; cases he

/-- C98. Heights are above mean sea level in metres, whatever the unit: the heights of the file, else the
distances of the gates from the instrument plus its altitude; they are unknown if there is neither. Other
units raise. -/
theorem C98_height (height range : Option (SrcVar α)) (altitude : Option α) :
    (∀ var, height = some var →
      (∀ metres, Spec.GivesMetres var metres → initHeight height range altitude = .ok (some metres)) ∧
      ((∃ e, initHeight height range altitude = .error e) ↔ ¬ Spec.KnownUnit var)) ∧
    (∀ var alt, height = none → range = some var → altitude = some alt →
      (∀ metres, Spec.GivesMetres var metres → initHeight height range altitude =
        .ok (some (metres.map fun v => v.map (· + alt)))) ∧
      ((∃ e, initHeight height range altitude = .error e) ↔ ¬ Spec.KnownUnit var)) ∧
    (height = none → range = none ∨ altitude = none → initHeight height range altitude = .ok none) := by
  refine ⟨?_, ?_, ?_⟩
  · rintro var rfl
    constructor
    · intro metres hm
      unfold initHeight
      dsimp only
      rw [(toM_spec var metres).2 hm]; rfl
    · rw [← toM_error]
      unfold initHeight
      dsimp only
      cases toM var <;> simp [Except.map]
  · rintro var alt rfl rfl rfl
    constructor
    · intro metres hm
      unfold initHeight
      dsimp only
      rw [(toM_spec var metres).2 hm]; rfl
    · rw [← toM_error]
      unfold initHeight
      dsimp only
      cases toM var <;> simp [Except.map]
  · rintro rfl h
    rcases h with rfl | rfl
    · rfl
    · cases range <;> rfl

/-- C98. Heights above ground: where both are known, adding the altitude gives back the heights above sea
level; gates given as distances from the instrument are their own heights above ground. -/
theorem C98_above_ground [FloorRing α] (n : ℕ) (t : ℕ → α) (altitude height range : Option (SrcVar α))
    (c : Coordinates α) (h : openSource (some (n, t)) altitude height range = .ok c) :
    (∀ hs a, c.height = some hs → c.altitude = some a → ∃ agl, c.heightAgl = some agl ∧
      hs = agl.map fun v => v.map (· + a)) ∧
    ((c.height = none ∨ c.altitude = none) → c.heightAgl = none) ∧
    (height = none → ∀ var metres, range = some var → Spec.GivesMetres var metres →
      c.altitude ≠ none → c.heightAgl = some metres) := by
  unfold openSource at h
  cases h1 : initTime (some (n, t)) with
  | error e => rw [h1] at h; cases h
  | ok time =>
    cases h2 : initAltitude altitude with
    | error e => rw [h1, h2] at h; cases h
    | ok alt =>
      cases h3 : initHeight height range alt with
      | error e => rw [h1, h2] at h; simp only [bind, Except.bind] at h; rw [h3] at h; cases h
      | ok hs =>
        rw [h1, h2] at h
        simp only [bind, Except.bind] at h
        rw [h3] at h
        simp only [pure, Except.pure, Except.ok.injEq] at h
        subst h
        dsimp only
        refine ⟨?_, ?_, ?_⟩
        · rintro hs' a rfl rfl
          refine ⟨_, rfl, ?_⟩
          rw [List.map_map]
          conv_lhs => rw [← List.map_id hs']
          apply List.map_congr_left
          intro v _
          cases v <;> simp
        · rintro (rfl | rfl)
          · rfl
          · cases hs <;> rfl
        · rintro rfl var metres rfl hm hne
          cases alt with
          | none => exact absurd rfl hne
          | some a =>
            have := ((C98_height none (some var) (some a)).2.1 var a rfl rfl rfl).1 metres hm
            rw [this] at h3
            have h3 := Except.ok.inj h3
            subst h3
            dsimp only
            rw [List.map_map]
            conv_rhs => rw [← List.map_id metres]
            congr 1
            apply List.map_congr_left
            intro v _
            cases v <;> simp

example : (openSource (some (2, fun i => [(3600 : ℚ), 7200].getD i 0)) (some ⟨[some (1/10)], "km"⟩) none
    (some ⟨[some (1/2), some 1], "km"⟩)).toOption.map
      (fun c => (c.time 1, c.altitude, c.height, c.heightAgl)) =
    some (2, some 100, some [some 600, some 1100], some [some 500, some 1000]) := by decide +kernel

end

/-! ### Liquid water path -/

/-- C99. The liquid water path is used exactly where it is known and, if the file has quality flags, the
flag is known to be zero; values are not changed. -/
theorem C99_quality {β : Type} (lwp : Option β) (flag : Option (Option ℤ)) (v : β) :
    initLwp lwp flag = some v ↔ lwp = some v ∧ (flag = none ∨ flag = some (some 0)) := by
  unfold initLwp
  cases flag with
  | none => simp
  | some f =>
    by_cases h : f = some 0
    · simp [h]
    · simp [h]

/-- C99. The error of the liquid water path is known exactly where the liquid water path is; it combines
20 g m-2 and 25 %: it is at least each of them and at most their sum. -/
theorem C99_error (lwp : Option ℝ) :
    (initLwpError lwp = none ↔ lwp = none) ∧
    ∀ v e, lwp = some v → initLwpError lwp = some e →
      0 ≤ e ∧ e ^ 2 = (v / 4) ^ 2 + (2 / 100) ^ 2 ∧ 2 / 100 ≤ e ∧ |v| / 4 ≤ e ∧
      e ≤ |v| / 4 + 2 / 100 := by
  unfold initLwpError l2norm
  cases lwp with
  | none => simp [madd]
  | some v =>
    constructor
    · simp [madd]
    · rintro v' e hv he
      have hv := Option.some.inj hv
      subst hv
      simp only [List.foldl_cons, List.foldl_nil, Option.map_some, madd, Option.some.injEq] at he
      have h0 : 0 ≤ e := by rw [← he]; exact Real.sqrt_nonneg _
      have h1 : e ^ 2 = (v / 4) ^ 2 + (2 / 100) ^ 2 := by
        rw [← he, Real.sq_sqrt (by positivity)]; ring
      have hav : (v / 4) ^ 2 = (|v| / 4) ^ 2 := by rw [div_pow, div_pow, sq_abs]
      have hnn : 0 ≤ |v| / 4 := by positivity
      refine ⟨h0, h1, ?_, ?_, ?_⟩
      · nlinarith [sq_nonneg (v / 4)]
      · rw [hav] at h1
        nlinarith [sq_nonneg e]
      · rw [hav] at h1
        nlinarith

/-- C99. Larger liquid water paths never have smaller errors. -/
theorem C99_error_monotone (v w e f : ℝ) (hvw : |v| ≤ |w|) (he : initLwpError (some v) = some e)
    (hf : initLwpError (some w) = some f) : e ≤ f := by
  obtain ⟨h1, h2, -⟩ := (C99_error (some v)).2 v e rfl he
  obtain ⟨h3, h4, -⟩ := (C99_error (some w)).2 w f rfl hf
  have : v ^ 2 ≤ w ^ 2 := sq_le_sq.2 hvw
  nlinarith

/-- C99. On the time grid of categorize: the liquid water path and its error are given at exactly the same
times, those within `maxTime` minutes of a profile with a usable value; the liquid water path is between
usable values and the error is at least 20 g m-2. -/
theorem C99_grid (n : ℕ) (time : ℕ → ℝ) (lwp : ℕ → Option ℝ) (flag : Option (ℕ → Option ℤ)) (nNew : ℕ)
    (timeNew : ℕ → ℝ) (maxTime : ℝ) (hn : 0 < n) (ht : ∀ i < n, 0 ≤ time i ∧ time i ≤ 24) :
    ∃ v e, mwrToGrid n time lwp flag nNew timeNew maxTime = .ok (v, e) ∧ ∀ k < nNew,
      ((v k).isSome ↔ ∃ i < n, (∃ x, lwp i = some x) ∧ (∀ f, flag = some f → f i = some 0) ∧
        |timeNew k - time i| ≤ maxTime / 60) ∧
      ((e k).isSome ↔ (v k).isSome) ∧
      (∀ x, v k = some x →
        (∃ i < n, ∃ y, lwp i = some y ∧ (∀ f, flag = some f → f i = some 0) ∧ y ≤ x) ∧
        ∃ i < n, ∃ y, lwp i = some y ∧ (∀ f, flag = some f → f i = some 0) ∧ x ≤ y) ∧
      ∀ x, e k = some x → 2 / 100 ≤ x := by
  have hgood : ∀ i x, initLwp (lwp i) (flag.map fun f => f i) = some x ↔
      lwp i = some x ∧ ∀ f, flag = some f → f i = some 0 := by
    intro i x
    rw [C99_quality]
    cases flag with
    | none => simp
    | some f => simp
  obtain ⟨v, hv, hv'⟩ := C34_linear n time (fun i => initLwp (lwp i) (flag.map fun f => f i)) nNew timeNew
    maxTime hn ht
  obtain ⟨e, he, he'⟩ := C34_linear n time
    (fun i => initLwpError (initLwp (lwp i) (flag.map fun f => f i))) nNew timeNew maxTime hn ht
  have hr := C34_within_range n time _ nNew timeNew maxTime hn ht v hv
  have hr' := C34_within_range n time _ nNew timeNew maxTime hn ht e he
  refine ⟨v, e, ?_, ?_⟩
  · unfold mwrToGrid
    simp only [bind, Except.bind, hv, he, pure, Except.pure]
  · intro k hk
    have hsome : (v k).isSome ↔ ∃ i < n, (∃ x, lwp i = some x) ∧ (∀ f, flag = some f → f i = some 0) ∧
        |timeNew k - time i| ≤ maxTime / 60 := by
      rw [(hv' k hk).1]
      constructor
      · rintro ⟨i, hi, h1, h2⟩
        obtain ⟨x, hx⟩ := Option.isSome_iff_exists.1 h1
        obtain ⟨h3, h4⟩ := (hgood i x).1 hx
        exact ⟨i, hi, ⟨x, h3⟩, h4, h2⟩
      · rintro ⟨i, hi, ⟨x, h3⟩, h4, h2⟩
        exact ⟨i, hi, Option.isSome_iff_exists.2 ⟨x, (hgood i x).2 ⟨h3, h4⟩⟩, h2⟩
    refine ⟨hsome, ?_, ?_, ?_⟩
    · rw [(he' k hk).1, (hv' k hk).1]
      have : ∀ l : Option ℝ, (initLwpError l).isSome ↔ l.isSome := by
        intro l
        have := (C99_error l).1
        cases l with
        | none => simp [this.2 rfl]
        | some x =>
          simp only [Option.isSome_some, iff_true]
          rw [Option.isSome_iff_ne_none]
          intro hc
          exact nomatch this.1 hc
      simp only [this]
    · intro x hx
      obtain ⟨⟨i, hi, y, hy, hl⟩, ⟨j, hj, z, hz, hu⟩⟩ := hr k x hx
      obtain ⟨a1, a2⟩ := (hgood i y).1 hy
      obtain ⟨b1, b2⟩ := (hgood j z).1 hz
      exact ⟨⟨i, hi, y, a1, a2, hl⟩, ⟨j, hj, z, b1, b2, hu⟩⟩
    · intro x hx
      obtain ⟨⟨i, hi, y, hy, hl⟩, -⟩ := hr' k x hx
      cases hg : initLwp (lwp i) (flag.map fun f => f i) with
      | none => rw [hg, (C99_error none).1.2 rfl] at hy; cases hy
      | some w =>
        rw [hg] at hy
        exact le_trans ((C99_error (some w)).2 w y rfl hy).2.2.1 hl

example : initLwp (some (3 : ℕ)) (some (some 1)) = none ∧ initLwp (some 3) (some none) = none ∧
    initLwp (some 3) (some (some 0)) = some 3 ∧ initLwp (some 3) none = some 3 := by decide

/-! ### Disdrometer -/

/-- C100. A disdrometer file without rain rate or number of particles is refused; the present weather
code is optional. Of the other variables none is used. -/
theorem C100_variables {β : Type} (vars : List (String × β)) :
    ((∃ e, disdrometerVariables vars = .error e) ↔
      vars.lookup "rainfall_rate" = none ∨ vars.lookup "n_particles" = none) ∧
    ∀ data, disdrometerVariables vars = .ok data → ∀ key, data.lookup key =
      if key ∈ ["rainfall_rate", "n_particles", "synop_WaWa"] then vars.lookup key else none := by
  unfold disdrometerVariables
  simp only [List.foldlM_cons, List.foldlM_nil, bind, Except.bind, pure, Except.pure]
  cases h1 : vars.lookup "rainfall_rate" with
  | none => simp
  | some r =>
    cases h2 : vars.lookup "n_particles" with
    | none => simp
    | some p =>
      cases h3 : vars.lookup "synop_WaWa" with
      | none =>
        simp only [if_true, List.nil_append, reduceCtorEq, or_self, iff_false]
        refine ⟨by rintro ⟨e, he⟩; simp at he, ?_⟩
        intro data hd key
        simp at hd
        subst hd
        by_cases k1 : key = "rainfall_rate"
        · subst k1; simp [h1, List.lookup]
        · by_cases k2 : key = "n_particles"
          · subst k2; simp [h2, List.lookup]
          · by_cases k3 : key = "synop_WaWa"
            · subst k3; simp [h3, List.lookup]
            · simp [List.lookup, k1, k2, k3, beq_eq_false_iff_ne.2 k1, beq_eq_false_iff_ne.2 k2]
      | some w =>
        simp only [List.nil_append, reduceCtorEq, or_self, iff_false]
        refine ⟨by rintro ⟨e, he⟩; simp at he, ?_⟩
        intro data hd key
        simp at hd
        subst hd
        by_cases k1 : key = "rainfall_rate"
        · subst k1; simp [h1, List.lookup]
        · by_cases k2 : key = "n_particles"
          · subst k2; simp [h2, List.lookup]
          · by_cases k3 : key = "synop_WaWa"
            · subst k3; simp [h3, List.lookup]
            · simp [List.lookup, k1, k2, k3, beq_eq_false_iff_ne.2 k1, beq_eq_false_iff_ne.2 k2,
                beq_eq_false_iff_ne.2 k3]

/-- C100. On the time grid of categorize a disdrometer variable is given exactly at times within a minute
of a known value. Rain rate and particle number are between known values; a present weather code is one
of the codes of a nearest known value, never a mixture. -/
theorem C100_grid {α : Type} [Field α] [LinearOrder α] [IsStrictOrderedRing α] (n : ℕ) (time : ℕ → α)
    (data : List (String × (ℕ → Option α))) (nNew : ℕ) (timeNew : ℕ → α) (hn : 0 < n)
    (ht : ∀ i < n, 0 ≤ time i ∧ time i ≤ 24) :
    ∃ out, disdrometerToGrid n time data nNew timeNew = .ok out ∧
      List.Forall₂ (fun src dst => src.1 = dst.1 ∧ ∀ k < nNew,
        ((dst.2 k).isSome ↔ ∃ i < n, (src.2 i).isSome ∧ |timeNew k - time i| ≤ 1 / 60) ∧
        ∀ w, dst.2 k = some w →
          (src.1 ≠ "synop_WaWa" → (∃ i < n, ∃ v, src.2 i = some v ∧ v ≤ w) ∧
            ∃ i < n, ∃ v, src.2 i = some v ∧ w ≤ v) ∧
          (src.1 = "synop_WaWa" → ∃ i < n, src.2 i = some w ∧
            ∀ j < n, (src.2 j).isSome → |time i - timeNew k| ≤ |time j - timeNew k|)) data out := by
  unfold disdrometerToGrid
  induction data with
  | nil => exact ⟨[], rfl, List.Forall₂.nil⟩
  | cons kv data ih =>
    obtain ⟨out, ho, hf⟩ := ih
    have hone : ∃ v, interpolate1d n time kv.2 nNew timeNew 1 (decide (kv.1 = "synop_WaWa")) = .ok v ∧
        ∀ k < nNew, ((v k).isSome ↔ ∃ i < n, (kv.2 i).isSome ∧ |timeNew k - time i| ≤ 1 / 60) ∧
        ∀ w, v k = some w →
          (kv.1 ≠ "synop_WaWa" → (∃ i < n, ∃ v, kv.2 i = some v ∧ v ≤ w) ∧
            ∃ i < n, ∃ v, kv.2 i = some v ∧ w ≤ v) ∧
          (kv.1 = "synop_WaWa" → ∃ i < n, kv.2 i = some w ∧
            ∀ j < n, (kv.2 j).isSome → |time i - timeNew k| ≤ |time j - timeNew k|) := by
      by_cases hk : kv.1 = "synop_WaWa"
      · simp only [hk, decide_true]
        by_cases hs : ∃ i < n, (kv.2 i).isSome
        · obtain ⟨v, h1, h2⟩ := C34_nearest n time kv.2 nNew timeNew 1 hn ht hs
          refine ⟨v, h1, fun k hk' => ⟨(h2 k hk').1, fun w hw => ⟨fun h => absurd rfl h, fun _ => ?_⟩⟩⟩
          obtain ⟨i, h3, h4⟩ := (h2 k hk').2 w hw
          exact ⟨i, h3.1, h3.2.1, fun j hj h5 => (h4 j hj h5).1⟩
        · -- nothing known
          cases hi : interpolate1d n time kv.2 nNew timeNew 1 true with
          | error e =>
            exfalso
            rcases (C34_raises n time kv.2 nNew timeNew 1 true).1 ⟨e, hi⟩ with h | ⟨i, h1, h2⟩
            · omega
            · obtain ⟨a, b⟩ := ht i h1
              rcases h2 with h2 | h2
              · exact absurd h2 (not_lt.2 a)
              · exact absurd h2 (not_lt.2 b)
          | ok v =>
            have hnil : (List.range n).filter (fun i => (kv.2 i).isSome) = [] := by
              rw [List.filter_eq_nil_iff]
              intro i hi' hc
              exact hs ⟨i, List.mem_range.1 hi', hc⟩
            unfold interpolate1d at hi
            rw [if_neg (by omega)] at hi
            split at hi
            · cases hi
            · simp only [hnil, if_true] at hi
              have hi := Except.ok.inj hi
              subst hi
              refine ⟨_, rfl, fun k _ => ⟨?_, fun w hw => by cases hw⟩⟩
              simp only [Option.isSome_none, Bool.false_eq_true, false_iff]
              rintro ⟨i, h1, h2, -⟩
              exact hs ⟨i, h1, h2⟩
      · simp only [hk, decide_false]
        obtain ⟨v, h1, h2⟩ := C34_linear n time kv.2 nNew timeNew 1 hn ht
        refine ⟨v, h1, fun k hk' => ⟨(h2 k hk').1, fun w hw => ⟨fun _ => ?_, fun h => absurd h (by simp)⟩⟩⟩
        exact C34_within_range n time kv.2 nNew timeNew 1 hn ht v h1 k w hw
    obtain ⟨v, h1, h2⟩ := hone
    refine ⟨(kv.1, v) :: out, ?_, List.Forall₂.cons ⟨rfl, h2⟩ hf⟩
    rw [List.mapM_cons, ho]
    simp only [bind, Except.bind, h1, pure, Except.pure]

/-! ### Decibels -/

theorem inDb_dB : inDb "dB" = true := by decide +kernel
theorem inDb_empty : inDb "" = false := by decide +kernel
example : inDb "dBZ" = true ∧ inDb "DBZ" = true ∧ inDb "m-1 sr-1" = false := by decide +kernel

/-- C101. Converting to decibels: afterwards the units are decibels; data already in decibels is left
alone, so converting twice is converting once; otherwise a positive number `x` becomes the decibel number
`y` with `x = 10 ^ (y / 10)` and other numbers are masked. -/
theorem C101_lin2db (a : UnitArray) :
    inDb a.lin2db.units = true ∧ a.lin2db.lin2db = a.lin2db ∧
    (inDb a.units = true → a.lin2db = a) ∧
    (inDb a.units = false → ∀ i y, a.lin2db.data i = some y ↔
      ∃ x, a.data i = some x ∧ 0 < x ∧ x = (10 : ℝ) ^ (y / 10)) := by
  have key : inDb a.lin2db.units = true := by
    unfold UnitArray.lin2db
    cases h : inDb a.units <;> simp [h, inDb_dB]
  refine ⟨key, ?_, ?_, ?_⟩
  · conv_lhs => unfold UnitArray.lin2db
    have : inDb a.lin2db.units = true := key
    unfold UnitArray.lin2db at this
    simp only [this]
    rfl
  · intro h
    unfold UnitArray.lin2db
    simp [h]
  · intro h i y
    unfold UnitArray.lin2db
    simp only [h, Bool.not_false, if_true]
    cases hd : a.data i with
    | none => simp
    | some x =>
      simp only [Option.bind_some, Option.some.injEq, exists_eq_left']
      by_cases hx : 0 < x
      · simp only [hx, if_true, Option.some.injEq, true_and]
        constructor
        · rintro rfl
          rw [mul_div_cancel_left₀ _ (by norm_num : (10 : ℝ) ≠ 0),
            Real.rpow_logb (by norm_num) (by norm_num) hx]
        · intro hxy
          rw [hxy, Real.logb_rpow (by norm_num) (by norm_num)]
          ring
      · simp [hx]

/-- C101. Converting from decibels: afterwards the units are not decibels; only data in decibels
changes, to positive numbers, and missing values stay missing. -/
theorem C101_db2lin (a : UnitArray) :
    inDb a.db2lin.units = false ∧ a.db2lin.db2lin = a.db2lin ∧
    (inDb a.units = false → a.db2lin = a) ∧
    (inDb a.units = true → ∀ i x, a.db2lin.data i = some x ↔
      ∃ y, a.data i = some y ∧ 0 < x ∧ y = 10 * Real.logb 10 x) := by
  have key : inDb a.db2lin.units = false := by
    unfold UnitArray.db2lin
    cases h : inDb a.units <;> simp [h, inDb_empty]
  refine ⟨key, ?_, ?_, ?_⟩
  · conv_lhs => unfold UnitArray.db2lin
    have : inDb a.db2lin.units = false := key
    unfold UnitArray.db2lin at this
    simp only [this]
    rfl
  · intro h
    unfold UnitArray.db2lin
    simp [h]
  · intro h i x
    unfold UnitArray.db2lin
    simp only [h, if_true]
    cases hd : a.data i with
    | none => simp
    | some y =>
      simp only [Option.map_some, Option.some.injEq, exists_eq_left']
      constructor
      · rintro rfl
        refine ⟨by positivity, ?_⟩
        rw [Real.logb_rpow (by norm_num) (by norm_num)]
        ring
      · rintro ⟨hx, rfl⟩
        rw [mul_div_cancel_left₀ _ (by norm_num : (10 : ℝ) ≠ 0),
          Real.rpow_logb (by norm_num) (by norm_num) hx]

/-- C101. There and back: data in decibels is recovered; linear data is recovered where positive and
missing elsewhere. -/
theorem C101_round_trip (a : UnitArray) :
    (inDb a.units = true → ∀ i, a.db2lin.lin2db.data i = a.data i) ∧
    (inDb a.units = false → ∀ i, a.lin2db.db2lin.data i = (a.data i).filter fun x => decide (0 < x)) := by
  constructor
  · intro h i
    have h1 := (C101_db2lin a).2.2.2 h
    have h2 := (C101_lin2db a.db2lin).2.2.2 (C101_db2lin a).1
    apply Option.ext
    intro y
    rw [h2 i y]
    constructor
    · rintro ⟨x, hx, hp, hy⟩
      obtain ⟨y', hy', -, e⟩ := (h1 i x).1 hx
      rw [hy', e, hy, Real.logb_rpow (by norm_num) (by norm_num)]
      congr 1
      ring
    · intro hy
      refine ⟨(10 : ℝ) ^ (y / 10), (h1 i _).2 ⟨y, hy, by positivity, ?_⟩, by positivity, rfl⟩
      rw [Real.logb_rpow (by norm_num) (by norm_num)]
      ring
  · intro h i
    have h1 := (C101_lin2db a).2.2.2 h
    have h2 := (C101_db2lin a.lin2db).2.2.2 (C101_lin2db a).1
    apply Option.ext
    intro x
    rw [h2 i x, Option.filter_eq_some_iff]
    simp only [decide_eq_true_eq]
    constructor
    · rintro ⟨y, hy, hp, e⟩
      obtain ⟨x', hx', hp', e'⟩ := (h1 i y).1 hy
      have : x' = x := by
        rw [e', e, mul_div_cancel_left₀ _ (by norm_num : (10 : ℝ) ≠ 0),
          Real.rpow_logb (by norm_num) (by norm_num) hp]
      rw [← this]
      exact ⟨hx', hp'⟩
    · rintro ⟨hx, hp⟩
      refine ⟨10 * Real.logb 10 x, (h1 i _).2 ⟨x, hx, hp, ?_⟩, hp, rfl⟩
      rw [mul_div_cancel_left₀ _ (by norm_num : (10 : ℝ) ≠ 0),
        Real.rpow_logb (by norm_num) (by norm_num) hp]

end Cloudnet
