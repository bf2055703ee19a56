import Mathlib.Tactic
import Verif.Disdrom.Pipe
import Verif.Station.Pipeline
import Verif.Disdro.Props

namespace Cloudnet

namespace Spec

/-- A time is of the expected date, if one is given. -/
def OfDate {T : Type} (onDate : Option (T → Bool)) (t : T) : Prop := ∀ f, onDate = some f → f t = true

/-- The first time of the expected date. -/
def FirstOfDate {T : Type} (onDate : Option (T → Bool)) (times : List T) (first : T) : Prop :=
  ∃ before after, times = before ++ first :: after ∧ OfDate onDate first ∧ ∀ t ∈ before, ¬ OfDate onDate t

/-- One record of the expected date for each time found on this date, in order of time. -/
def OneEach {T α : Type} [LT α] (hours : T → α) (onDate : Option (T → Bool)) (times : List T) (kept : List ℕ) : Prop :=
  (∀ i ∈ kept, ∃ t, times[i]? = some t ∧ OfDate onDate t) ∧
  (∀ (j : ℕ) t, times[j]? = some t → OfDate onDate t → ∃ i ∈ kept, ∃ t', times[i]? = some t' ∧ hours t' = hours t) ∧
  kept.Pairwise fun i j => ∀ t t', times[i]? = some t → times[j]? = some t' → hours t < hours t'

open Classical in
/-- The number of records of the expected date. -/
noncomputable def countOfDate {T : Type} (onDate : Option (T → Bool)) (times : List T) : ℕ :=
  (times.filter fun t => decide (OfDate onDate t)).length

/-- Names that begin with an underscore are not written. -/
def Written (name : String) : Prop := ¬ ∃ rest, name = "_" ++ rest

/-- All columns have as many values as there are times. -/
def AlignedRaw {T α : Type} (raw : RawDisdro T α) : Prop := ∀ kv ∈ raw.columns, kv.2.length = raw.time.length

/-- The names of the variables written are different. -/
def DistinctNames {T α : Type} (kind : DisdroType α) (raw : RawDisdro T α) : Prop :=
  (((raw.columns.filter fun kv => isPublic kv.1).map fun kv => outputName kv.1) ++ kind.bins.map Prod.fst).Nodup

/-- All records of the expected date have the same sensor; some instruments must give it. -/
def OneSensor {T α : Type} (kind : DisdroType α) (onDate : Option (T → Bool)) (raw : RawDisdro T α) : Prop :=
  (kind.idRequired = true → kind.idName ∈ raw.columns.map Prod.fst) ∧
  ∀ col, raw.columns.lookup kind.idName = some col → ∀ (i j : ℕ) ti tj, raw.time[i]? = some ti → raw.time[j]? = some tj →
    OfDate onDate ti → OfDate onDate tj → col[i]? = col[j]?

/-- There are at least `m` different times on the expected date. -/
def EnoughTimes {T α : Type} (hours : T → α) (onDate : Option (T → Bool)) (times : List T) (m : ℕ) : Prop :=
  ∃ l : List T, l.length = m ∧ (∀ t ∈ l, t ∈ times ∧ OfDate onDate t) ∧ (l.map hours).Nodup

/-- Factor and offset to SI units: rates are in mm/h, diameters in mm, temperatures in °C, the sensor supply of both instruments
in tenths of a volt and the laser current in hundredths of a milliampere. -/
def disdroUnits {α : Type} [Field α] (name : String) : α × α :=
  match name with
  | "rainfall_rate" | "snowfall_rate" | "rainfall_rate_1min_total" | "rainfall_rate_1min_solid" => (1 / 3600000, 0)
  | "diameter" | "diameter_spread" | "diameter_bnds" => (1 / 1000, 0)
  | "V_sensor_supply" => (1 / 10, 0)
  | "I_mean_laser" => (1 / 100, 0)
  | "T_sensor" | "T_interior" | "T_ambient" | "T_laser_driver" => (1, 27315 / 100)
  | _ => (1, 0)

end Spec

section
variable {T α : Type}

theorem isPublic_iff (name : String) : isPublic name = true ↔ Spec.Written name := by
  unfold isPublic Spec.Written
  rw [decide_eq_true_eq, not_iff_not]
  constructor
  · intro h
    cases hl : name.toList with
    | nil => rw [hl] at h; simp at h
    | cons c cs =>
      rw [hl] at h
      simp only [List.head?_cons, Option.some.injEq] at h
      subst h
      refine ⟨String.ofList cs, ?_⟩
      apply String.toList_injective
      rw [hl]
      simp
  · rintro ⟨rest, rfl⟩
    simp

theorem disdroColumns_eq (kind : DisdroType α) (raw : RawDisdro T α) (h : Spec.DistinctNames kind raw) :
    disdroColumns kind raw = ((raw.columns.filter fun kv => isPublic kv.1).map fun kv => (outputName kv.1, kv.2)) ++ kind.bins := by
  unfold disdroColumns
  unfold Spec.DistinctNames at h
  rw [foldl_dictSet_new _ (fun kv : String × List (Cell α) => outputName kv.1) (fun kv => kv.2) []
    (by simpa using (List.nodup_append.1 h).1)]
  rw [foldl_dictSet_new _ (fun kv : String × List (Cell α) => kv.1) (fun kv => kv.2)]
  · simp
  · simpa [List.map_map, Function.comp_def] using h

theorem rawOnDate_spec (onDate : Option (T → Bool)) (raw raw' : RawDisdro T α) (hal : Spec.AlignedRaw raw)
    (h : rawOnDate onDate raw = .ok raw') :
    ∃ sel : List ℕ, sel.Pairwise (· < ·) ∧ (∀ i, i ∈ sel ↔ ∃ t, raw.time[i]? = some t ∧ Spec.OfDate onDate t) ∧
      Spec.Picks sel raw.time raw'.time ∧ raw'.time ≠ [] ∧ raw'.time.length = Spec.countOfDate onDate raw.time ∧
      List.Forall₂ (fun a b : String × List (Cell α) => b.1 = a.1 ∧ Spec.Picks sel a.2 b.2) raw.columns raw'.columns := by
  classical
  unfold rawOnDate at h
  cases onDate with
  | none =>
    dsimp only at h
    split_ifs at h with hne
    obtain rfl := Except.ok.inj h
    have hp : ∀ {β : Type} (l : List β), l.length = raw.time.length → Spec.Picks (List.range raw.time.length) l l := by
      intro β l hl
      unfold Spec.Picks
      rw [← hl, List.forall₂_iff_get]
      refine ⟨by simp, ?_⟩
      intro i h1 h2
      simp
    refine ⟨List.range raw.time.length, List.pairwise_lt_range, ?_, hp _ rfl, hne, ?_, ?_⟩
    · intro i
      rw [List.mem_range]
      constructor
      · intro hi
        exact ⟨raw.time[i], List.getElem?_eq_getElem hi, fun f hf => by cases hf⟩
      · rintro ⟨t, ht, -⟩
        exact (List.getElem?_eq_some_iff.1 ht).1
    · unfold Spec.countOfDate
      rw [List.filter_eq_self.2]
      intro t _
      simp [Spec.OfDate]
    · rw [List.forall₂_same]
      intro kv hkv
      exact ⟨rfl, hp _ (hal kv hkv)⟩
  | some f =>
    dsimp only at h
    split_ifs at h with h1 h2
    obtain rfl := Except.ok.inj h
    have hof : ∀ t, Spec.OfDate (some f) t ↔ f t = true := by
      intro t
      simp [Spec.OfDate]
    refine ⟨selIdx f raw.time, selIdx_lt _ _, ?_, selIdx_picks_self _ _, ?_, ?_, ?_⟩
    · intro i
      rw [selIdx_mem]
      simp [hof]
    · intro e
      apply h1
      rw [List.all_eq_true]
      rw [List.filter_eq_nil_iff] at e
      intro t ht
      simpa using e t ht
    · unfold Spec.countOfDate
      simp [hof]
    · rw [List.forall₂_map_right_iff, List.forall₂_same]
      intro kv hkv
      exact ⟨rfl, selIdx_picks f raw.time kv.2 (hal kv hkv)⟩

variable [Field α] [LinearOrder α] [IsStrictOrderedRing α]

/-- Sorting and removing duplicates picks the same records from every aligned array. -/
theorem sortedRows_spec (hs : List α) (order : List ℕ) (ho : order.Perm (List.range hs.length)) :
    ∃ ind : List ℕ, (∀ {β : Type} (l : List β), l.length = hs.length → Spec.Picks ind l (sortedRows hs order l)) ∧
      (∀ {β : Type} (l : List β), l.length ≠ hs.length → sortedRows hs order l = l) ∧
      ind.Pairwise (fun i j => ∀ x y, hs[i]? = some x → hs[j]? = some y → x < y) ∧
      ∀ (j : ℕ) x, hs[j]? = some x → ∃ i ∈ ind, hs[i]? = some x := by
  have hlen : order.length = hs.length := by rw [ho.length_eq, List.length_range]
  have hpick : ∀ {β : Type} (l : List β), l.length = hs.length → Spec.Picks order l (screenRows hs.length order l) := by
    intro β l hl
    unfold screenRows
    split_ifs with c
    · exact picks_pickRows _ _ fun i hi => by rw [hl]; exact List.mem_range.1 (ho.mem_iff.1 hi)
    · have h1 : l.length = 1 := by
        by_contra h
        exact c ⟨hl, h⟩
      have h2 : hs.length = 1 := by omega
      rw [h2, List.range_one, List.perm_singleton] at ho
      obtain ⟨x, rfl⟩ := List.length_eq_one_iff.1 h1
      rw [ho]
      exact .cons rfl .nil
  set sorted := screenRows hs.length order hs with hsorted
  have hp := hpick hs rfl
  rw [← hsorted] at hp
  have hsl : sorted.length = hs.length := by rw [picks_length hp, hlen]
  obtain ⟨u1, u2⟩ := uniqueIndex_spec sorted.length (vec sorted)
  have hpick2 : ∀ {β : Type} (l : List β), l.length = hs.length →
      Spec.Picks (uniqueIndex sorted.length (vec sorted)) l
        (screenRows sorted.length (uniqueIndex sorted.length (vec sorted)) l) := by
    intro β l hl
    unfold screenRows
    split_ifs with c
    · exact picks_pickRows _ _ fun i hi => by rw [hl, ← hsl]; exact ((u1 i).1 hi).1
    · have h1 : l.length = 1 := by
        by_contra h
        exact c ⟨by rw [hl, hsl], h⟩
      have h2 : sorted.length = 1 := by omega
      rw [h2, uniqueIndex_one]
      obtain ⟨x, rfl⟩ := List.length_eq_one_iff.1 h1
      exact .cons rfl .nil
  have hv : ∀ k x, sorted[k]? = some x → vec sorted k = x := by
    intro k r hk
    simp [vec, hk]
  have hind : Spec.Picks (uniqueIndex sorted.length (vec sorted)) order
      (pickRows (uniqueIndex sorted.length (vec sorted)) order) :=
    picks_pickRows _ _ fun i hi => by rw [hlen, ← hsl]; exact ((u1 i).1 hi).1
  refine ⟨pickRows (uniqueIndex sorted.length (vec sorted)) order, ?_, ?_, ?_, ?_⟩
  · intro β l hl
    have h1 := hpick l hl
    have h2 := hpick2 (screenRows hs.length order l) (by rw [picks_length h1, hlen])
    exact picks_comp h1 h2
  · intro β l hl
    unfold sortedRows
    dsimp only
    have e1 : screenRows hs.length order l = l := by
      unfold screenRows
      rw [if_neg fun h => hl h.1]
    rw [e1, ← hsorted]
    unfold screenRows
    rw [if_neg fun h => hl (by rw [h.1, hsl])]
  · rw [List.pairwise_iff_getElem]
    intro a b ha hb hab x y hx hy
    obtain ⟨i, e1, e2⟩ := picks_get hind (List.getElem?_eq_getElem ha)
    obtain ⟨j, e3, e4⟩ := picks_get hind (List.getElem?_eq_getElem hb)
    rw [List.pairwise_iff_getElem] at u2
    have := u2 a b (List.getElem?_eq_some_iff.1 e1).1 (List.getElem?_eq_some_iff.1 e3).1 hab
    rw [(List.getElem?_eq_some_iff.1 e1).2, (List.getElem?_eq_some_iff.1 e3).2] at this
    obtain ⟨x', s1, s2⟩ := picks_get' hp e2
    obtain ⟨y', s3, s4⟩ := picks_get' hp e4
    rw [hx] at s2
    rw [hy] at s4
    rw [hv _ _ s1, hv _ _ s3, ← Option.some.inj s2, ← Option.some.inj s4] at this
    exact this
  · intro j x hx
    have hj : j ∈ order := ho.mem_iff.2 (List.mem_range.2 (List.getElem?_eq_some_iff.1 hx).1)
    obtain ⟨k, hk⟩ := List.mem_iff_getElem?.1 hj
    obtain ⟨x', s1, s2⟩ := picks_get' hp hk
    rw [hx] at s2
    obtain rfl := Option.some.inj s2
    -- the first position of this time
    have hex : ∃ m, sorted[m]? = some x := ⟨k, s1⟩
    classical
    have hm := Nat.find_spec hex
    have hmu : Nat.find hex ∈ uniqueIndex sorted.length (vec sorted) := by
      rw [u1]
      refine ⟨(List.getElem?_eq_some_iff.1 hm).1, ?_⟩
      intro m' hlt e
      have hlt' : m' < sorted.length := lt_trans hlt (List.getElem?_eq_some_iff.1 hm).1
      have h1 := List.getElem?_eq_getElem hlt'
      rw [hv _ _ h1, hv _ _ hm] at e
      rw [e] at h1
      exact Nat.find_min hex hlt h1
    obtain ⟨q, hq⟩ := List.mem_iff_getElem?.1 hmu
    obtain ⟨i, e1, e2⟩ := picks_get' hind hq
    refine ⟨i, List.mem_of_getElem? e1, ?_⟩
    obtain ⟨x', s3, s4⟩ := picks_get' hp e2
    rw [hm] at s3
    rw [s4, ← Option.some.inj s3]

theorem forall₂_mem {β γ : Type} {r : β → γ → Prop} {l : List β} {m : List γ} (h : List.Forall₂ r l m) {y : γ} (hy : y ∈ m) :
    ∃ x ∈ l, r x y := by
  induction h with
  | nil => simp at hy
  | @cons a b l m hab _ ih =>
    rcases List.mem_cons.1 hy with rfl | hy
    · exact ⟨a, by simp, hab⟩
    · obtain ⟨x, hx, hr⟩ := ih hy
      exact ⟨x, by simp [hx], hr⟩

theorem lookup_of_mem_nodup {β : Type} {l : List (String × β)} (h : (l.map Prod.fst).Nodup) {k : String} {v : β}
    (hm : (k, v) ∈ l) : l.lookup k = some v := by
  induction l with
  | nil => simp at hm
  | cons p l ih =>
    rw [List.map_cons, List.nodup_cons] at h
    rw [List.lookup_cons]
    rcases List.mem_cons.1 hm with e | hm
    · subst e
      simp
    · have : k ≠ p.1 := fun e => h.1 (e ▸ List.mem_map.2 ⟨_, hm, rfl⟩)
      have e : (k == p.1) = false := by simpa using this
      rw [e]
      exact ih h.2 hm

/-- **C117.** The output has one record for each time, taken from the records of the expected date; every variable has the values
of these records, masked and converted. The bins are those of the instrument, unless there are as many records as bins. -/
theorem C117_records (hours : T → T → α) (argsort : List α → List ℕ)
    (hsort : ∀ l, (argsort l).Perm (List.range l.length)) (kind : DisdroType α) (onDate : Option (T → Bool))
    (raw : RawDisdro T α) (hal : Spec.AlignedRaw raw) (hnames : Spec.DistinctNames kind raw) (hs : List α)
    (out : List (String × List (Cell α))) (h : disdroFile hours argsort kind onDate raw = .ok (hs, out)) :
    ∃ first kept, Spec.FirstOfDate onDate raw.time first ∧ Spec.OneEach (hours first) onDate raw.time kept ∧
      List.Forall₂ (fun i x => ∃ t, raw.time[i]? = some t ∧ x = hours first t) kept hs ∧
      (∀ name col, (name, col) ∈ raw.columns → Spec.Written name → ∃ ocol, out.lookup (outputName name) = some ocol ∧
        List.Forall₂ (fun i y => ∃ x, col[i]? = some x ∧ y = Cell.map (kind.value (outputName name)) x) kept ocol) ∧
      (∀ name col, (name, col) ∈ kind.bins → col.length ≠ Spec.countOfDate onDate raw.time →
        out.lookup name = some (col.map (Cell.map (kind.value name)))) ∧
      (∀ name ∈ out.map Prod.fst, name ∈ kind.bins.map Prod.fst ∨
        ∃ kv ∈ raw.columns, Spec.Written kv.1 ∧ name = outputName kv.1) := by
  unfold disdroFile at h
  cases hr : rawOnDate onDate raw with
  | error e => rw [hr] at h; cases h
  | ok raw' =>
    obtain ⟨sel, s1, s2, s3, s4, s5, s6⟩ := rawOnDate_spec onDate raw raw' hal hr
    rw [hr] at h
    dsimp only [Except.bind] at h
    cases hid : sameSensor kind raw' with
    | error e => rw [hid] at h; cases h
    | ok u =>
      rw [hid] at h
      dsimp only at h
      obtain ⟨first, rest, htime⟩ := List.exists_cons_of_ne_nil s4
      have hbody : (if kind.required.any (fun name => (((disdroColumns kind raw').map fun kv =>
            (kv.1, sortedRows (raw'.time.map (hours first)) (argsort (raw'.time.map (hours first))) kv.2)).lookup name).isNone)
          then (.error "KeyError" : Except String (List α × List (String × List (Cell α))))
          else if (sortedRows (raw'.time.map (hours first)) (argsort (raw'.time.map (hours first)))
            (raw'.time.map (hours first))).length < kind.minRecords then .error "DisdrometerDataError: Too few data points"
          else .ok (sortedRows (raw'.time.map (hours first)) (argsort (raw'.time.map (hours first))) (raw'.time.map (hours first)),
            ((disdroColumns kind raw').map fun kv =>
              (kv.1, sortedRows (raw'.time.map (hours first)) (argsort (raw'.time.map (hours first))) kv.2)).map
              fun kv => (kv.1, kv.2.map (Cell.map (kind.value kv.1))))) = .ok (hs, out) := by
        rw [← h, htime]
      set hh := raw'.time.map (hours first) with hhh
      have hhl : hh.length = raw'.time.length := by rw [hhh, List.length_map]
      split_ifs at hbody with c1 c2
      obtain ⟨rfl, rfl⟩ := Prod.mk.inj (Except.ok.inj hbody)
      obtain ⟨ind, i1, i2, i3, i4⟩ := sortedRows_spec hh (argsort hh) (hsort hh)
      have hsell : sel.length = raw'.time.length := (picks_length s3).symm
      have hindlt : ∀ i ∈ ind, i < sel.length := by
        intro i hi
        obtain ⟨k, hk⟩ := List.mem_iff_getElem?.1 hi
        obtain ⟨x, -, e⟩ := picks_get' (i1 hh rfl) hk
        rw [hsell, ← hhl]
        exact (List.getElem?_eq_some_iff.1 e).1
      have hkept : Spec.Picks ind sel (pickRows ind sel) := picks_pickRows _ _ hindlt
      have hh_of : ∀ (i : ℕ) t, raw'.time[i]? = some t → hh[i]? = some (hours first t) := by
        intro i t ht
        rw [hhh, List.getElem?_map, ht]
        rfl
      -- names
      have hnames' : Spec.DistinctNames kind raw' := by
        unfold Spec.DistinctNames at hnames ⊢
        have : (raw'.columns.filter fun kv => isPublic kv.1).map (fun kv => outputName kv.1)
            = (raw.columns.filter fun kv => isPublic kv.1).map (fun kv => outputName kv.1) := by
          clear hnames i1 i2 i3 i4 hbody c1 c2 h hr hid
          generalize raw.columns = l at s6
          generalize raw'.columns = m at s6
          induction s6 with
          | nil => rfl
          | @cons a b l m hab _ ih =>
            rw [List.filter_cons, List.filter_cons, hab.1]
            split_ifs
            · rw [List.map_cons, List.map_cons, hab.1, ih]
            · exact ih
        rw [this]
        exact hnames
      have hcols := disdroColumns_eq kind raw' hnames'
      have hnd : (((disdroColumns kind raw').map fun kv => (kv.1, sortedRows hh (argsort hh) kv.2)).map
          fun kv => (kv.1, kv.2.map (Cell.map (kind.value kv.1)))).map Prod.fst |>.Nodup := by
        rw [List.map_map, List.map_map, hcols]
        unfold Spec.DistinctNames at hnames'
        simpa [Function.comp_def] using hnames'
      refine ⟨first, pickRows ind sel, ?_, ⟨?_, ?_, ?_⟩, ?_, ?_, ?_, ?_⟩
      · -- the first time
        rw [htime] at s3
        cases hsel : sel with
        | nil => rw [hsel] at s3; cases s3
        | cons i0 sel' =>
          rw [hsel] at s3 s1
          have hi0 : raw.time[i0]? = some first := by
            cases s3
            assumption
          have hmem0 : i0 ∈ sel := by rw [hsel]; simp
          obtain ⟨t0, ht0, hof⟩ := (s2 i0).1 hmem0
          rw [hi0] at ht0
          obtain rfl := Option.some.inj ht0
          refine ⟨raw.time.take i0, raw.time.drop (i0 + 1), ?_, hof, ?_⟩
          · obtain ⟨hlt, he⟩ := List.getElem?_eq_some_iff.1 hi0
            rw [← he, ← List.drop_eq_getElem_cons hlt, List.take_append_drop]
          · intro t ht hoft
            obtain ⟨k, hk⟩ := List.mem_iff_getElem?.1 ht
            rw [List.getElem?_take] at hk
            split_ifs at hk with hki
            have hkm : k ∈ sel := (s2 k).2 ⟨t, hk, hoft⟩
            rw [hsel] at hkm
            rcases List.mem_cons.1 hkm with rfl | hkm
            · exact absurd hki (lt_irrefl _)
            · have := (List.pairwise_cons.1 s1).1 k hkm
              omega
      · intro i hi
        obtain ⟨q, hq⟩ := List.mem_iff_getElem?.1 hi
        obtain ⟨j, e1, e2⟩ := picks_get hkept hq
        exact (s2 i).1 (List.mem_of_getElem? e2)
      · intro j t ht hof
        obtain ⟨q, hq⟩ := List.mem_iff_getElem?.1 ((s2 j).2 ⟨t, ht, hof⟩)
        obtain ⟨t', e1, e2⟩ := picks_get' s3 hq
        rw [ht] at e2
        obtain rfl := Option.some.inj e2
        obtain ⟨i, hi, hi2⟩ := i4 q _ (hh_of q _ e1)
        obtain ⟨k, hk⟩ := List.mem_iff_getElem?.1 hi
        obtain ⟨r, e3, e4⟩ := picks_get' hkept hk
        refine ⟨r, List.mem_of_getElem? e3, ?_⟩
        obtain ⟨t2, e5, e6⟩ := picks_get' s3 e4
        refine ⟨t2, e6, ?_⟩
        rw [hh_of i t2 e5] at hi2
        exact Option.some.inj hi2
      · rw [List.pairwise_iff_getElem] at i3 ⊢
        intro a b ha hb hab t t' ht ht'
        obtain ⟨i, e1, e2⟩ := picks_get hkept (List.getElem?_eq_getElem ha)
        obtain ⟨j, e3, e4⟩ := picks_get hkept (List.getElem?_eq_getElem hb)
        obtain ⟨t2, e5, e6⟩ := picks_get' s3 e2
        obtain ⟨t3, e7, e8⟩ := picks_get' s3 e4
        rw [ht] at e6
        rw [ht'] at e8
        obtain rfl := Option.some.inj e6
        obtain rfl := Option.some.inj e8
        have := i3 a b (List.getElem?_eq_some_iff.1 e1).1 (List.getElem?_eq_some_iff.1 e3).1 hab
        rw [(List.getElem?_eq_some_iff.1 e1).2, (List.getElem?_eq_some_iff.1 e3).2] at this
        exact this _ _ (hh_of _ _ e5) (hh_of _ _ e7)
      · -- the times
        have hp := i1 hh rfl
        have hl : (pickRows ind sel).length = (sortedRows hh (argsort hh) hh).length := by
          rw [picks_length hkept, picks_length hp]
        rw [List.forall₂_iff_get]
        refine ⟨hl, ?_⟩
        intro k h1 h2
        obtain ⟨i, e1, e2⟩ := picks_get hkept (List.getElem?_eq_getElem h1)
        obtain ⟨x, e3, e4⟩ := picks_get' hp e1
        obtain ⟨t, e5, e6⟩ := picks_get' s3 e2
        refine ⟨t, e6, ?_⟩
        rw [hh_of _ _ e5] at e4
        rw [List.getElem?_eq_getElem h2] at e3
        have := Option.some.inj e3
        have e4' := Option.some.inj e4
        simp only [List.get_eq_getElem]
        rw [this, ← e4']
      · -- the columns
        intro name col hmem hw
        obtain ⟨kv', hkv', hkn, hkp⟩ : ∃ kv' ∈ raw'.columns, kv'.1 = name ∧ Spec.Picks sel col kv'.2 := by
          clear hcols hnd hnames' hnames i1 i2 i3 i4 hbody c1 c2 h hr hid
          generalize raw.columns = l at s6 hmem
          generalize raw'.columns = m at s6
          induction s6 with
          | nil => simp at hmem
          | @cons a b l m hab _ ih =>
            rcases List.mem_cons.1 hmem with e | hmem
            · subst e
              exact ⟨b, by simp, hab⟩
            · obtain ⟨x, hx, hr⟩ := ih hmem
              exact ⟨x, by simp [hx], hr⟩
        have hlen : kv'.2.length = hh.length := by rw [picks_length hkp, hsell, hhl]
        refine ⟨(sortedRows hh (argsort hh) kv'.2).map (Cell.map (kind.value (outputName name))), ?_, ?_⟩
        · apply lookup_of_mem_nodup hnd
          rw [List.map_map, hcols]
          refine List.mem_map.2 ⟨(outputName kv'.1, kv'.2), ?_, by simp [hkn]⟩
          rw [List.mem_append]
          left
          refine List.mem_map.2 ⟨kv', List.mem_filter.2 ⟨hkv', ?_⟩, rfl⟩
          rw [hkn]
          exact (isPublic_iff name).2 hw
        · have hp := i1 kv'.2 hlen
          rw [List.forall₂_map_right_iff, List.forall₂_iff_get]
          refine ⟨by rw [picks_length hkept, picks_length hp], ?_⟩
          intro k h1 h2
          obtain ⟨i, e1, e2⟩ := picks_get hkept (List.getElem?_eq_getElem h1)
          obtain ⟨x, e3, e4⟩ := picks_get' hp e1
          obtain ⟨y, e5, e6⟩ := picks_get' hkp e2
          rw [e4] at e5
          rw [List.getElem?_eq_getElem h2] at e3
          refine ⟨y, e6, ?_⟩
          simp only [List.get_eq_getElem]
          rw [Option.some.inj e3, Option.some.inj e5]
      · -- the bins
        intro name col hmem hne
        apply lookup_of_mem_nodup hnd
        rw [List.map_map, hcols]
        refine List.mem_map.2 ⟨(name, col), List.mem_append.2 (Or.inr hmem), ?_⟩
        simp only [Function.comp_apply]
        rw [i2 col (by rw [hhl, s5]; exact hne)]
      · intro name hname
        rw [List.map_map, List.map_map, hcols, List.map_append, List.mem_append] at hname
        rcases hname with hname | hname
        · right
          rw [List.map_map] at hname
          obtain ⟨kv, hkv, e⟩ := List.mem_map.1 hname
          obtain ⟨h1, h2⟩ := List.mem_filter.1 hkv
          obtain ⟨x, hx, e1, -⟩ := forall₂_mem s6 h1
          refine ⟨x, hx, ?_, ?_⟩
          · rw [← e1]
            exact (isPublic_iff _).1 h2
          · rw [← e, ← e1]
            rfl
        · left
          obtain ⟨kv, hkv, e⟩ := List.mem_map.1 hname
          exact List.mem_map.2 ⟨kv, hkv, e⟩

theorem rawOnDate_ok (onDate : Option (T → Bool)) (raw : RawDisdro T α) (hal : Spec.AlignedRaw raw) :
    (∃ raw', rawOnDate onDate raw = .ok raw') ↔ ∃ t ∈ raw.time, Spec.OfDate onDate t := by
  unfold rawOnDate
  cases onDate with
  | none =>
    dsimp only
    by_cases h : raw.time = []
    · rw [if_pos h, h]
      simp
    · rw [if_neg h]
      obtain ⟨a, l, e⟩ := List.exists_cons_of_ne_nil h
      refine ⟨fun _ => ⟨a, by rw [e]; simp, fun f hf => by cases hf⟩, fun _ => ⟨raw, rfl⟩⟩
  | some f =>
    dsimp only
    by_cases h : raw.time.all fun t => !f t
    · rw [if_pos h]
      rw [List.all_eq_true] at h
      constructor
      · rintro ⟨_, h⟩
        cases h
      · rintro ⟨t, ht, hof⟩
        have := h t ht
        rw [hof f rfl] at this
        simp at this
    · rw [if_neg h, if_neg]
      · refine ⟨fun _ => ?_, fun _ => ⟨_, rfl⟩⟩
        rw [List.all_eq_true] at h
        push Not at h
        obtain ⟨t, ht, hft⟩ := h
        refine ⟨t, ht, fun g hg => ?_⟩
        obtain rfl := Option.some.inj hg
        simpa using hft
      · rw [List.any_eq_true]
        rintro ⟨kv, hkv, e⟩
        simp [hal kv hkv] at e

theorem forall₂_lookup_picks {sel : List ℕ} {l m : List (String × List (Cell α))}
    (h : List.Forall₂ (fun a b : String × List (Cell α) => b.1 = a.1 ∧ Spec.Picks sel a.2 b.2) l m) (name : String) :
    (l.lookup name = none ∧ m.lookup name = none) ∨
      ∃ a b, l.lookup name = some a ∧ m.lookup name = some b ∧ Spec.Picks sel a b := by
  induction h with
  | nil => exact Or.inl ⟨rfl, rfl⟩
  | @cons a b l m hab _ ih =>
    rw [List.lookup_cons, List.lookup_cons, hab.1]
    cases name == a.1
    · exact ih
    · exact Or.inr ⟨_, _, rfl, rfl, hab.2⟩

theorem mem_keys_iff_lookup {β : Type} (l : List (String × β)) (name : String) :
    name ∈ l.map Prod.fst ↔ ∃ v, l.lookup name = some v := by
  induction l with
  | nil => simp
  | cons p l ih =>
    rw [List.map_cons, List.mem_cons, List.lookup_cons]
    by_cases e : name = p.1
    · simp [e]
    · have : (name == p.1) = false := by simpa using e
      rw [this]
      simpa [e] using ih

theorem sameSensor_iff (kind : DisdroType α) (onDate : Option (T → Bool)) (raw raw' : RawDisdro T α) (sel : List ℕ)
    (s2 : ∀ i, i ∈ sel ↔ ∃ t, raw.time[i]? = some t ∧ Spec.OfDate onDate t) (hne : sel ≠ [])
    (s6 : List.Forall₂ (fun a b : String × List (Cell α) => b.1 = a.1 ∧ Spec.Picks sel a.2 b.2) raw.columns raw'.columns) :
    (∃ u, sameSensor kind raw' = .ok u) ↔ Spec.OneSensor kind onDate raw := by
  unfold sameSensor Spec.OneSensor
  rw [mem_keys_iff_lookup]
  rcases forall₂_lookup_picks s6 kind.idName with ⟨h1, h2⟩ | ⟨a, b, h1, h2, hp⟩
  · rw [h1, h2]
    dsimp only
    cases kind.idRequired <;> simp
  · rw [h1, h2]
    have hbl := picks_length hp
    cases hb : b with
    | nil =>
      rw [hb] at hbl
      exact absurd (List.length_eq_zero_iff.1 hbl.symm) hne
    | cons x xs =>
      dsimp only
      have hx : b[0]? = some x := by rw [hb]; rfl
      obtain ⟨i0, e1, e2⟩ := picks_get hp hx
      constructor
      · rintro ⟨u, hu⟩
        split_ifs at hu with c
        rw [List.all_eq_true] at c
        have hall : ∀ i ∈ sel, a[i]? = some x := by
          intro i hi
          obtain ⟨k, hk⟩ := List.mem_iff_getElem?.1 hi
          obtain ⟨y, f1, f2⟩ := picks_get' hp hk
          have hy : y ∈ b := List.mem_of_getElem? f1
          rw [hb] at hy
          rcases List.mem_cons.1 hy with rfl | hy
          · exact f2
          · rw [f2, of_decide_eq_true (c y hy)]
        refine ⟨fun _ => ⟨a, rfl⟩, ?_⟩
        intro col hcol i j ti tj hi hj oi oj
        obtain rfl := Option.some.inj hcol
        rw [hall i ((s2 i).2 ⟨ti, hi, oi⟩), hall j ((s2 j).2 ⟨tj, hj, oj⟩)]
      · rintro ⟨-, h⟩
        rw [if_pos]
        · exact ⟨(), rfl⟩
        · rw [List.all_eq_true]
          intro y hy
          have hy' : y ∈ b := by rw [hb]; simp [hy]
          obtain ⟨k, hk⟩ := List.mem_iff_getElem?.1 hy'
          obtain ⟨i, f1, f2⟩ := picks_get hp hk
          obtain ⟨ti, hi, oi⟩ := (s2 i).1 (List.mem_of_getElem? f1)
          obtain ⟨tj, hj, oj⟩ := (s2 i0).1 (List.mem_of_getElem? e1)
          have := h a rfl i i0 ti tj hi hj oi oj
          rw [f2, e2] at this
          simpa using this

theorem lookup_map_snd' {β γ : Type} (l : List (String × β)) (f : String × β → γ) (name : String) :
    ((l.map fun kv => (kv.1, f kv)).lookup name).isNone = (l.lookup name).isNone := by
  induction l with
  | nil => rfl
  | cons p l ih =>
    rw [List.map_cons, List.lookup_cons, List.lookup_cons]
    cases name == p.1
    · exact ih
    · rfl

/-- **C117.** Data are written exactly if there are records of the expected date, all from one sensor, at enough different times,
and the variables needed are among them. -/
theorem C117_accepted (hours : T → T → α) (argsort : List α → List ℕ)
    (hsort : ∀ l, (argsort l).Perm (List.range l.length)) (kind : DisdroType α) (onDate : Option (T → Bool))
    (raw : RawDisdro T α) (hal : Spec.AlignedRaw raw) (hnames : Spec.DistinctNames kind raw) :
    (disdroFile hours argsort kind onDate raw).isOk ↔
      (∃ t ∈ raw.time, Spec.OfDate onDate t) ∧ Spec.OneSensor kind onDate raw ∧
      (∀ name ∈ kind.required, name ∈ kind.bins.map Prod.fst ∨
        ∃ kv ∈ raw.columns, Spec.Written kv.1 ∧ name = outputName kv.1) ∧
      ∀ first, Spec.FirstOfDate onDate raw.time first → Spec.EnoughTimes (hours first) onDate raw.time kind.minRecords := by
  unfold disdroFile
  rw [← rawOnDate_ok onDate raw hal]
  cases hr : rawOnDate onDate raw with
  | error e => simp [Except.bind, Except.isOk, Except.toBool]
  | ok raw' =>
    obtain ⟨sel, s1, s2, s3, s4, s5, s6⟩ := rawOnDate_spec onDate raw raw' hal hr
    have hsell : sel.length = raw'.time.length := (picks_length s3).symm
    have hne : sel ≠ [] := by
      intro e
      rw [e] at hsell
      exact s4 (List.length_eq_zero_iff.1 hsell.symm)
    rw [← sameSensor_iff kind onDate raw raw' sel s2 hne s6]
    dsimp only [Except.bind]
    cases hid : sameSensor kind raw' with
    | error e => simp [Except.isOk, Except.toBool]
    | ok u =>
      dsimp only
      obtain ⟨first, rest, htime⟩ := List.exists_cons_of_ne_nil s4
      rw [htime]
      dsimp only
      rw [← htime]
      set hh := raw'.time.map (hours first) with hhh
      have hhl : hh.length = raw'.time.length := by rw [hhh, List.length_map]
      obtain ⟨ind, i1, i2, i3, i4⟩ := sortedRows_spec hh (argsort hh) (hsort hh)
      have hkeys : ∀ m : List (String × List (Cell α)),
          List.Forall₂ (fun a b : String × List (Cell α) => b.1 = a.1 ∧ Spec.Picks sel a.2 b.2) raw.columns m →
          (m.filter fun kv => isPublic kv.1).map (fun kv => outputName kv.1)
            = (raw.columns.filter fun kv => isPublic kv.1).map (fun kv => outputName kv.1) := by
        generalize raw.columns = l
        intro m hm
        induction hm with
        | nil => rfl
        | @cons a b l m hab _ ih =>
          rw [List.filter_cons, List.filter_cons, hab.1]
          split_ifs
          · rw [List.map_cons, List.map_cons, hab.1, ih]
          · exact ih
      have hnames' : Spec.DistinctNames kind raw' := by
        unfold Spec.DistinctNames at hnames ⊢
        rw [hkeys _ s6]
        exact hnames
      have hreq : (kind.required.any fun name => (((disdroColumns kind raw').map fun kv =>
            (kv.1, sortedRows hh (argsort hh) kv.2)).lookup name).isNone) = false ↔
          ∀ name ∈ kind.required, name ∈ kind.bins.map Prod.fst ∨
            ∃ kv ∈ raw.columns, Spec.Written kv.1 ∧ name = outputName kv.1 := by
        rw [List.any_eq_false]
        apply forall_congr'
        intro name
        apply imp_congr_right
        intro _
        rw [lookup_map_snd', Option.isNone_iff_eq_none, ← ne_eq, Option.ne_none_iff_exists', ← mem_keys_iff_lookup,
          disdroColumns_eq _ _ hnames', List.map_append, List.mem_append, List.map_map]
        have : (raw'.columns.filter fun kv => isPublic kv.1).map (Prod.fst ∘ fun kv => (outputName kv.1, kv.2))
            = (raw.columns.filter fun kv => isPublic kv.1).map (fun kv => outputName kv.1) := hkeys _ s6
        rw [this, or_comm]
        apply or_congr_right
        rw [List.mem_map]
        constructor
        · rintro ⟨kv, hkv, e⟩
          obtain ⟨h1, h2⟩ := List.mem_filter.1 hkv
          exact ⟨kv, h1, (isPublic_iff _).1 h2, e.symm⟩
        · rintro ⟨kv, h1, h2, e⟩
          exact ⟨kv, List.mem_filter.2 ⟨h1, (isPublic_iff _).2 h2⟩, e.symm⟩
      -- the first time
      have hfirst : Spec.FirstOfDate onDate raw.time first := by
        rw [htime] at s3
        cases hsel : sel with
        | nil => exact absurd hsel hne
        | cons i0 sel' =>
          rw [hsel] at s3 s1
          have hi0 : raw.time[i0]? = some first := by
            cases s3
            assumption
          have hmem0 : i0 ∈ sel := by rw [hsel]; simp
          obtain ⟨t0, ht0, hof⟩ := (s2 i0).1 hmem0
          rw [hi0] at ht0
          obtain rfl := Option.some.inj ht0
          refine ⟨raw.time.take i0, raw.time.drop (i0 + 1), ?_, hof, ?_⟩
          · obtain ⟨hlt, he⟩ := List.getElem?_eq_some_iff.1 hi0
            rw [← he, ← List.drop_eq_getElem_cons hlt, List.take_append_drop]
          · intro t ht hoft
            obtain ⟨k, hk⟩ := List.mem_iff_getElem?.1 ht
            rw [List.getElem?_take] at hk
            split_ifs at hk with hki
            have hkm : k ∈ sel := (s2 k).2 ⟨t, hk, hoft⟩
            rw [hsel] at hkm
            rcases List.mem_cons.1 hkm with rfl | hkm
            · exact absurd hki (lt_irrefl _)
            · have := (List.pairwise_cons.1 s1).1 k hkm
              omega
      have huniq : ∀ first', Spec.FirstOfDate onDate raw.time first' → first' = first := by
        obtain ⟨b, a, e, o, n⟩ := hfirst
        rintro first' ⟨b', a', e', o', n'⟩
        rw [e] at e'
        rcases List.append_eq_append_iff.1 e' with ⟨c, hc1, hc2⟩ | ⟨c, hc1, hc2⟩
        · cases c with
          | nil => exact (List.cons.inj hc2).1.symm
          | cons y c =>
            obtain ⟨rfl, -⟩ := List.cons.inj hc2
            exact absurd o (n' _ (by rw [hc1]; simp))
        · cases c with
          | nil => exact (List.cons.inj hc2).1
          | cons y c =>
            obtain ⟨rfl, -⟩ := List.cons.inj hc2
            exact absurd o' (n _ (by rw [hc1]; simp))
      have hp := i1 hh rfl
      have htm : ∀ t, t ∈ raw'.time ↔ t ∈ raw.time ∧ Spec.OfDate onDate t := by
        intro t
        constructor
        · intro h
          obtain ⟨k, hk⟩ := List.mem_iff_getElem?.1 h
          obtain ⟨i, e1, e2⟩ := picks_get s3 hk
          obtain ⟨t', e3, e4⟩ := (s2 i).1 (List.mem_of_getElem? e1)
          rw [e2] at e3
          obtain rfl := Option.some.inj e3
          exact ⟨List.mem_of_getElem? e2, e4⟩
        · rintro ⟨h, ho⟩
          obtain ⟨k, hk⟩ := List.mem_iff_getElem?.1 h
          obtain ⟨q, hq⟩ := List.mem_iff_getElem?.1 ((s2 k).2 ⟨t, hk, ho⟩)
          obtain ⟨t', e1, e2⟩ := picks_get' s3 hq
          rw [hk] at e2
          obtain rfl := Option.some.inj e2
          exact List.mem_of_getElem? e1
      have hstrict : (sortedRows hh (argsort hh) hh).Pairwise (· < ·) := by
        rw [List.pairwise_iff_getElem] at i3 ⊢
        intro a b ha hb hab
        obtain ⟨i, e1, e2⟩ := picks_get hp (List.getElem?_eq_getElem ha)
        obtain ⟨j, e3, e4⟩ := picks_get hp (List.getElem?_eq_getElem hb)
        have := i3 a b (List.getElem?_eq_some_iff.1 e1).1 (List.getElem?_eq_some_iff.1 e3).1 hab
        rw [(List.getElem?_eq_some_iff.1 e1).2, (List.getElem?_eq_some_iff.1 e3).2] at this
        exact this _ _ e2 e4
      have henough : kind.minRecords ≤ (sortedRows hh (argsort hh) hh).length ↔
          Spec.EnoughTimes (hours first) onDate raw.time kind.minRecords := by
        constructor
        · intro hle
          -- a time for each output time
          have hch : ∀ x ∈ sortedRows hh (argsort hh) hh, ∃ t, t ∈ raw'.time ∧ hours first t = x := by
            intro x hx
            obtain ⟨k, hk⟩ := List.mem_iff_getElem?.1 hx
            obtain ⟨i, -, e2⟩ := picks_get hp hk
            have : x ∈ hh := List.mem_of_getElem? e2
            rw [hhh, List.mem_map] at this
            exact this
          choose g hg using hch
          let l := ((sortedRows hh (argsort hh) hh).take kind.minRecords).attach.map
            fun x => g x.1 (List.mem_of_mem_take x.2)
          have hl : l.map (hours first) = (sortedRows hh (argsort hh) hh).take kind.minRecords := by
            have h1 : l.map (hours first)
                = ((sortedRows hh (argsort hh) hh).take kind.minRecords).attach.map Subtype.val := by
              simp only [l, List.map_map]
              apply List.map_congr_left
              intro x _
              exact (hg x.1 (List.mem_of_mem_take x.2)).2
            rw [h1, List.attach_map_subtype_val]
          refine ⟨l, ?_, ?_, ?_⟩
          · simp only [l, List.length_map, List.length_attach, List.length_take]
            omega
          · intro t ht
            simp only [l, List.mem_map, List.mem_attach, true_and] at ht
            obtain ⟨x, rfl⟩ := ht
            exact (htm _).1 (hg x.1 (List.mem_of_mem_take x.2)).1
          · rw [hl]
            exact ((hstrict.imp fun h => ne_of_lt h).sublist (List.take_sublist _ _))
        · rintro ⟨l, hl, hmem, hnd⟩
          rw [← hl, ← List.length_map (hours first)]
          apply (hnd.subperm _).length_le
          intro x hx
          obtain ⟨t, ht, rfl⟩ := List.mem_map.1 hx
          obtain ⟨k, hk⟩ := List.mem_iff_getElem?.1 ((htm t).2 (hmem t ht))
          have hk' : hh[k]? = some (hours first t) := by
            rw [hhh, List.getElem?_map, hk]
            rfl
          obtain ⟨i, hi, hi2⟩ := i4 k _ hk'
          obtain ⟨q, hq⟩ := List.mem_iff_getElem?.1 hi
          obtain ⟨x, e1, e2⟩ := picks_get' hp hq
          rw [hi2] at e2
          rw [Option.some.inj e2]
          exact List.mem_of_getElem? e1
      have hlast : (∀ f, Spec.FirstOfDate onDate raw.time f → Spec.EnoughTimes (hours f) onDate raw.time kind.minRecords) ↔
          Spec.EnoughTimes (hours first) onDate raw.time kind.minRecords :=
        ⟨fun h => h first hfirst, fun h f hf => by rw [huniq f hf]; exact h⟩
      rw [hlast, ← hreq, ← henough]
      split_ifs with c1 c2
      · simp [Except.isOk, Except.toBool, c1]
      · simp only [Except.isOk, Except.toBool, Bool.false_eq_true, false_iff]
        rintro ⟨-, -, -, h⟩
        omega
      · simp only [Except.isOk, Except.toBool, true_iff]
        exact ⟨⟨raw', rfl⟩, ⟨u, trivial⟩, by simpa using c1, by omega⟩

/-- **C117.** Values are converted to SI units (the number concentration of Parsivel from its logarithm). -/
theorem C117_units [CharZero α] (toCount : α → α) (name : String) (x : α) :
    ((parsivelType toCount).convert name x = if name = "number_concentration" then toCount x
      else if name ∈ ["rainfall_rate_1min_total", "rainfall_rate_1min_solid", "I_mean_laser", "T_interior", "T_ambient",
        "T_laser_driver"] then x
      else (Spec.disdroUnits name : α × α).1 * x + (Spec.disdroUnits name : α × α).2) ∧
    ((thiesType : DisdroType α).convert name x = if name ∈ ["snowfall_rate", "T_sensor"] then x
      else (Spec.disdroUnits name : α × α).1 * x + (Spec.disdroUnits name : α × α).2) := by
  have hu : name ∉ ["rainfall_rate", "snowfall_rate", "rainfall_rate_1min_total", "rainfall_rate_1min_solid", "diameter",
      "diameter_spread", "diameter_bnds", "V_sensor_supply", "I_mean_laser", "T_sensor", "T_interior", "T_ambient",
      "T_laser_driver"] → (Spec.disdroUnits name : α × α) = (1, 0) := by
    intro h
    unfold Spec.disdroUnits
    split <;> first | rfl | simp at h
  by_cases h : name ∈ ["rainfall_rate", "snowfall_rate", "rainfall_rate_1min_total", "rainfall_rate_1min_solid", "diameter",
      "diameter_spread", "diameter_bnds", "V_sensor_supply", "I_mean_laser", "T_sensor", "T_interior", "T_ambient",
      "T_laser_driver"]
  · simp only [List.mem_cons, List.not_mem_nil, or_false] at h
    rcases h with rfl | rfl | rfl | rfl | rfl | rfl | rfl | rfl | rfl | rfl | rfl | rfl | rfl <;>
      refine ⟨?_, ?_⟩ <;> simp [parsivelType, thiesType, Spec.disdroUnits] <;> ring
  · rw [hu h]
    simp only [List.mem_cons, List.not_mem_nil, or_false, not_or] at h
    simp [parsivelType, thiesType, h]

/-- **C117.** Missing values: concentrations of -9.999 and velocities of 0 for Parsivel, rain rates above 999 mm/h for Thies. -/
theorem C117_missing (toCount : α → α) (name : String) (x : α) :
    ((parsivelType toCount).value name (some x) = none ↔
      (name = "number_concentration" ∧ x = -9.999) ∨ (name = "fall_velocity" ∧ x = 0)) ∧
    ((thiesType : DisdroType α).value name (some x) = none ↔ name = "rainfall_rate" ∧ 999 < x) ∧
    (∀ kind : DisdroType α, kind.value name none = none) := by
  refine ⟨?_, ?_, fun kind => rfl⟩
  · have e : (9.999 : α) = 9999 / 1000 := by norm_num
    by_cases h1 : name = "number_concentration"
    · subst h1
      by_cases hx : x = -(9999 / 1000) <;> simp [DisdroType.value, parsivelType, Option.filter, hx, e]
    · by_cases h2 : name = "fall_velocity"
      · subst h2
        by_cases hx : x = 0 <;> simp [DisdroType.value, parsivelType, Option.filter, hx]
      · simp [DisdroType.value, parsivelType, Option.filter, h1, h2]
  · by_cases h1 : name = "rainfall_rate"
    · subst h1
      by_cases hx : 999 < x <;> simp [DisdroType.value, thiesType, Option.filter, hx]
    · simp [DisdroType.value, thiesType, Option.filter, h1]

end

/-! ## Examples and findings -/

/-- An `argsort` for examples. -/
def sortOrder (l : List ℚ) : List ℕ := (List.range l.length).insertionSort fun i j => l.getD i 0 ≤ l.getD j 0

theorem sortOrder_perm (l : List ℚ) : (sortOrder l).Perm (List.range l.length) := List.perm_insertionSort _ _

/-- Hours since the start of the day of the first record, for times in hours. -/
def dayHours (first t : ℚ) : ℚ := t - 24 * (⌊first / 24⌋ : ℤ)

/-- A small instrument: it has two bins. -/
def twoBins : DisdroType ℚ := { parsivelType id with bins := [("velocity", [.num (some 1), .num (some 2)])] }

/-- Three records on the second day, two of them at the same time, and one on the first. -/
def threeRecords : RawDisdro ℚ ℚ :=
  ⟨[30, 5, 26, 30], [("_sensor_id", [.text "a", .text "b", .text "a", .text "a"]),
    ("rainfall_rate", [.num (some 36), .num (some 1), .num none, .num (some 72)]),
    ("fall_velocity", [.many [some 0, some 1], .many [], .many [some 2, some 0], .many []])]⟩

example : Spec.AlignedRaw threeRecords ∧ Spec.DistinctNames twoBins threeRecords := by
  unfold Spec.AlignedRaw Spec.DistinctNames
  decide +kernel

example : (disdroFile dayHours sortOrder twoBins (some fun t => decide (24 ≤ t)) threeRecords).toOption
    = some ([2, 6], [("rainfall_rate", [.num none, .num (some (1 / 100000))]),
      ("fall_velocity", [.many [some 2, none], .many [none, some 1]]), ("velocity", [.num (some 1), .num (some 2)])]) := by
  decide +kernel

/-- **C117, finding** If no date is given, records of several days are written to one file; their times run past the end of the
day. -/
theorem C117_two_days : ∃ hs out,
    disdroFile dayHours sortOrder (parsivelType id) none ⟨[1, 25], []⟩ = .ok (hs, out) ∧ ∃ x ∈ hs, 24 ≤ x := by
  have h : (disdroFile dayHours sortOrder (parsivelType id) none ⟨[1, 25], []⟩).toOption.map Prod.fst = some [1, 25] := by
    decide +kernel
  cases e : disdroFile dayHours sortOrder (parsivelType id) none ⟨[1, 25], []⟩ with
  | error m => rw [e] at h; simp [Except.toOption] at h
  | ok r =>
    rw [e] at h
    simp only [Except.toOption, Option.map_some, Option.some.injEq] at h
    exact ⟨r.1, r.2, rfl, 25, by rw [h]; simp, by norm_num⟩

/-- Records in the reverse order of time. -/
def reversedRecords (n : ℕ) : RawDisdro ℚ ℚ :=
  ⟨(List.range n).map fun i : ℕ => (n : ℚ) / 4 - (i : ℚ) / 4, [("_sensor_id", List.replicate n (.text "a"))]⟩

/-- **C117, finding** Sorting and removing duplicates apply to every array that is as long as the times, also to the bins: a
Parsivel file with 32 records that are not in order of time gets bins in the wrong order. -/
theorem C117_scrambled_bins : ∃ hs out, disdroFile dayHours sortOrder (parsivelType id) none (reversedRecords 32) = .ok (hs, out) ∧
    out.lookup "velocity" ≠ (parsivelType id : DisdroType ℚ).bins.lookup "velocity" := by
  have h : (disdroFile dayHours sortOrder (parsivelType id) none (reversedRecords 32)).toOption.map
      (fun r => (r.2.lookup "velocity").map fun l => l.head?) = some (some (some (.num (some (208 / 10))))) := by
    decide +kernel
  have hb : ((parsivelType id : DisdroType ℚ).bins.lookup "velocity").map (fun l => l.head?)
      = some (some (.num (some (5 / 100)))) := by
    decide +kernel
  cases e : disdroFile dayHours sortOrder (parsivelType id) none (reversedRecords 32) with
  | error m => rw [e] at h; simp [Except.toOption] at h
  | ok r =>
    rw [e] at h
    simp only [Except.toOption, Option.map_some, Option.some.injEq] at h
    refine ⟨r.1, r.2, rfl, ?_⟩
    intro heq
    rw [heq, hb] at h
    revert h
    decide +kernel

/-- The bins of the instruments, for comparison with their manuals. -/
theorem C117_bin_counts :
    ((parsivelType id : DisdroType ℚ).bins.map fun kv => (kv.1, kv.2.length))
      = [("velocity", 32), ("velocity_spread", 32), ("velocity_bnds", 32), ("diameter", 32), ("diameter_spread", 32),
        ("diameter_bnds", 32)] ∧
    ((thiesType : DisdroType ℚ).bins.map fun kv => (kv.1, kv.2.length))
      = [("velocity", 20), ("velocity_spread", 20), ("velocity_bnds", 20), ("diameter", 22), ("diameter_spread", 22),
        ("diameter_bnds", 22)] := by
  decide +kernel

namespace Spec

/-- The limits of the classes in the manuals: velocities in dm/s, diameters in eighths of a millimetre. -/
def parsivelVelocities : List ℚ := [0, 1, 2, 3, 4, 5, 6, 7, 8, 9, 10, 12, 14, 16, 18, 20, 24, 28, 32, 36, 40, 48, 56, 64, 72, 80, 96, 112, 128, 144, 160, 192, 224]
def parsivelDiameters : List ℚ := [0, 1, 2, 3, 4, 5, 6, 7, 8, 9, 10, 12, 14, 16, 18, 20, 24, 28, 32, 36, 40, 48, 56, 64, 72, 80, 96, 112, 128, 144, 160, 184, 208]
def thiesVelocities : List ℚ := [0, 2, 4, 6, 8, 10, 14, 18, 22, 26, 30, 34, 42, 50, 58, 66, 74, 82, 90, 100, 200]
def thiesDiameters : List ℚ := [1, 2, 3, 4, 6, 8, 10, 12, 14, 16, 20, 24, 28, 32, 36, 40, 44, 48, 52, 56, 60, 64, 68]

/-- The centres, widths and limits of the classes between consecutive limits. -/
def classVectors (name : String) (limits : List ℚ) : List (String × List (Cell ℚ)) :=
  let pairs := limits.zip limits.tail
  [(name, pairs.map fun b => .num (some ((b.1 + b.2) / 2))), (name ++ "_spread", pairs.map fun b => .num (some (b.2 - b.1))),
    (name ++ "_bnds", pairs.map fun b => .many [some b.1, some b.2])]

end Spec

/-- **C117.** The classes of the instruments are those of the manuals. -/
theorem C117_classes :
    (parsivelType id : DisdroType ℚ).bins = Spec.classVectors "velocity" (Spec.parsivelVelocities.map (· / 10))
      ++ Spec.classVectors "diameter" (Spec.parsivelDiameters.map (· / 8)) ∧
    (thiesType : DisdroType ℚ).bins = Spec.classVectors "velocity" (Spec.thiesVelocities.map (· / 10))
      ++ Spec.classVectors "diameter" (Spec.thiesDiameters.map (· / 8)) := by
  decide +kernel

/-- **C117.** The counts of the classes are written as `data_raw`, all other variables under their own names. -/
theorem C117_names (name : String) : outputName "spectrum" = "data_raw" ∧ (name ≠ "spectrum" → outputName name = name) := by
  refine ⟨by decide, fun h => ?_⟩
  unfold outputName
  rw [if_neg h]

end Cloudnet
