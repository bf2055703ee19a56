import Verif.Droplet.Model
import Verif.Radiometrics.Props

/-!
Reader of text files of ceilometers (`cloudnetpy/instruments/vaisala.py`): CL31, CL51 and CS135. The parser is the external package
`ceilopyter`; it gives one time and one message for each profile. Times are microseconds since an epoch at midnight.
-/

namespace Cloudnet

variable {α : Type}

/-- `ceilopyter`: the fields of a message that `vaisala.py:40-47` reads. -/
structure VaMessage (α : Type) where
  resolution : α
  beta : List α
  tilt : α

/-- `vaisala.py:42-44`: the arrays of the file. -/
structure VaData (α : Type) where
  time : List ℤ
  range : List α
  beta : List (List α)

/-- Microseconds of a day. -/
def vaDayLength : ℤ := 86400000000

/-- `datetime.date()` as days since the epoch. -/
def vaDay (t : ℤ) : ℤ := t / vaDayLength

/-- `vaisala.py:56`: `np.unique(time, return_index=True)`: the first place of each time, in order of time. -/
def vaUnique (ts : List ℤ) : List ℕ := (ts.dedup.insertionSort (· ≤ ·)).map fun t => ts.idxOf t

/-- `vaisala.py:62`: the places of the profiles of the date. -/
def vaOfDay (date : ℤ) (ts : List ℤ) : List ℕ := (List.range ts.length).filter fun i => (ts[i]?.map vaDay) = some date

/-- `vaisala.py:65-77` (`_screen_time_indices`): every array whose first dimension has the length of the time is indexed. Selection
by truth values is modelled as selection by the places of the true values. -/
def vaPick (ind : List ℕ) (d : VaData α) : Except String (VaData α) :=
  if ind = [] then .error "ValidTimeStampError"
  else .ok {
    time := pickRows ind d.time
    range := if d.range.length = d.time.length then pickRows ind d.range else d.range
    beta := if d.beta.length = d.time.length then pickRows ind d.beta else d.beta }

/-- What `read_ceilometer_file` leaves in `self.data` and `self.date`. -/
structure VaOut (α : Type) where
  date : ℤ
  hours : List α
  range : List α
  beta : List (List α)
  zenith : α
  factor : α

/-- `vaisala.py:45`: `calibration_factor or 1.0`. -/
def vaFactor [Zero α] [One α] [DecidableEq α] : Option α → α
  | none => 1
  | some c => if c = 0 then 1 else c

/-- `vaisala.py:43`: mid points of the gates. -/
def vaRange [Field α] (n : ℕ) (res : α) : List α := (List.range n).map fun (k : ℕ) => (k : α) * res + res / 2

/-- `vaisala.py:34-83` (`read_ceilometer_file`, `sort_time`, `screen_date`, `convert_to_fraction_hour`). `np.stack` fails if profiles have
different lengths. -/
def vaRead [Field α] [LinearOrder α] (factor : Option α) (expected : Option ℤ) (file : List (ℤ × VaMessage α)) : Except String (VaOut α) :=
  match file.head? with
  | none => .error "ValidTimeStampError"
  | some first =>
    if file.any fun m => m.2.beta.length ≠ first.2.beta.length then .error "ValueError"
    else
      let c := vaFactor factor
      let d : VaData α := {
        time := file.map Prod.fst
        range := vaRange first.2.beta.length first.2.resolution
        beta := file.map fun m => m.2.beta.map (· * c) }
      (vaPick (vaUnique d.time) d).bind fun d =>
        let date := expected.getD (vaDay (d.time.headD 0))
        (vaPick (vaOfDay date d.time) d).bind fun d =>
          let midnight := vaDay (d.time.headD 0) * vaDayLength
          .ok {
            date := date
            hours := d.time.map fun t => ((t - midnight : ℤ) : α) / 3600000000
            range := d.range
            beta := d.beta
            zenith := median (file.map fun m => m.2.tilt)
            factor := c }

/-- `vaisala.py:102-107`: the instrument, by the number of gates. -/
def vaInstrument (gates : ℕ) : String := if gates < 1540 then "CL31" else "CL51"

/-! ### Specification -/

namespace Spec

/-- The profiles of a file that belong to a date: in order of time, each time once, and the first profile of the file with that time. -/
def VaProfiles {M : Type} (day : ℤ → ℤ) (date : ℤ) (file kept : List (ℤ × M)) : Prop :=
  (kept.Pairwise fun a b => a.1 < b.1) ∧
  (∀ m ∈ kept, day m.1 = date ∧ ∃ i : ℕ, file[i]? = some m ∧ ∀ j, j < i → (file[j]?.map Prod.fst) ≠ some m.1) ∧
  ∀ m ∈ file, day m.1 = date → ∃ m' ∈ kept, m'.1 = m.1

/-- Days of 86400 seconds, in microseconds. -/
def vaDay (t : ℤ) : ℤ := t / (24 * 60 * 60 * 1000 * 1000)

end Spec

/-! ### Lemmas -/

theorem vaUnique_map {M : Type} (file : List (ℤ × M)) (h : file ≠ []) : vaUnique (file.map Prod.fst) ≠ [] := by
  unfold vaUnique
  intro e
  rw [List.map_eq_nil_iff] at e
  obtain ⟨m, l, rfl⟩ := List.exists_cons_of_ne_nil h
  have : m.1 ∈ ((List.map Prod.fst (m :: l)).dedup.insertionSort (· ≤ ·)) := by
    rw [List.mem_insertionSort, List.mem_dedup]; simp
  rw [e] at this
  simp at this

/-- The first selection: the first profile with each time, in order of time. -/
def vaFirsts {M : Type} (file : List (ℤ × M)) : List (ℤ × M) := pickRows (vaUnique (file.map Prod.fst)) file

theorem vaUnique_lt (ts : List ℤ) : ∀ i ∈ vaUnique ts, i < ts.length := by
  intro i hi
  unfold vaUnique at hi
  rw [List.mem_map] at hi
  obtain ⟨t, ht, rfl⟩ := hi
  rw [List.mem_insertionSort, List.mem_dedup] at ht
  exact List.idxOf_lt_length_of_mem ht

theorem vaFirsts_times {M : Type} (file : List (ℤ × M)) :
    (vaFirsts file).map Prod.fst = (file.map Prod.fst).dedup.insertionSort (· ≤ ·) := by
  unfold vaFirsts
  rw [pickRows_map]
  unfold vaUnique
  rw [List.filterMap_map]
  have : ∀ t ∈ ((file.map Prod.fst).dedup.insertionSort (· ≤ ·)),
      ((fun i => (file.map Prod.fst)[i]?) ∘ fun t => (file.map Prod.fst).idxOf t) t = some t := by
    intro t ht
    rw [List.mem_insertionSort, List.mem_dedup] at ht
    have hlt := List.idxOf_lt_length_of_mem ht
    simp only [Function.comp]
    rw [List.getElem?_eq_getElem hlt, List.getElem_idxOf]
  rw [List.filterMap_congr this]
  simp

theorem vaFirsts_sorted {M : Type} (file : List (ℤ × M)) : (vaFirsts file).Pairwise fun a b => a.1 < b.1 := by
  have h1 : ((file.map Prod.fst).dedup.insertionSort (· ≤ ·)).Pairwise (· ≤ ·) := List.pairwise_insertionSort _ _
  have h2 : ((file.map Prod.fst).dedup.insertionSort (· ≤ ·)).Nodup :=
    (List.perm_insertionSort _ _).nodup_iff.2 (List.nodup_dedup _)
  have h3 : ((file.map Prod.fst).dedup.insertionSort (· ≤ ·)).Pairwise (· < ·) :=
    (h1.and h2).imp fun ⟨a, b⟩ => lt_of_le_of_ne a b
  rw [← vaFirsts_times, List.pairwise_map] at h3
  exact h3

theorem vaFirsts_mem {M : Type} (file : List (ℤ × M)) (m : ℤ × M) (h : m ∈ vaFirsts file) :
    ∃ i : ℕ, file[i]? = some m ∧ ∀ j, j < i → (file[j]?.map Prod.fst) ≠ some m.1 := by
  unfold vaFirsts pickRows vaUnique at h
  rw [List.mem_filterMap] at h
  obtain ⟨i, hi, hm⟩ := h
  rw [List.mem_map] at hi
  obtain ⟨t, ht, rfl⟩ := hi
  rw [List.mem_insertionSort, List.mem_dedup] at ht
  refine ⟨_, hm, ?_⟩
  have hlt := List.idxOf_lt_length_of_mem ht
  have hmt : m.1 = t := by
    have h1 : (file.map Prod.fst)[(file.map Prod.fst).idxOf t]? = some m.1 := by rw [List.getElem?_map, hm]; rfl
    rw [List.getElem?_eq_getElem hlt, List.getElem_idxOf] at h1
    exact (Option.some.inj h1).symm
  intro j hj e
  rw [hmt, ← List.getElem?_map] at e
  have hjl : j < (file.map Prod.fst).length := by omega
  have := List.not_of_lt_findIdx (p := fun a => a == t) (xs := file.map Prod.fst) (i := j) hj
  rw [List.getElem?_eq_getElem hjl] at e
  simp [Option.some.inj e] at this

theorem vaFirsts_all {M : Type} (file : List (ℤ × M)) (m : ℤ × M) (h : m ∈ file) : ∃ m' ∈ vaFirsts file, m'.1 = m.1 := by
  have : m.1 ∈ (vaFirsts file).map Prod.fst := by
    rw [vaFirsts_times, List.mem_insertionSort, List.mem_dedup]
    exact List.mem_map_of_mem h
  rw [List.mem_map] at this
  exact this

theorem pickRows_map_eq {β γ : Type} (g : β → γ) (ind : List ℕ) (l : List β) : pickRows ind (l.map g) = (pickRows ind l).map g := by
  rw [pickRows_map]; rfl

theorem pickRows_length {β : Type} (ind : List ℕ) (l : List β) (h : ∀ i ∈ ind, i < l.length) : (pickRows ind l).length = ind.length :=
  picks_length (picks_pickRows ind l h)

theorem vaOfDay_filter {M : Type} (date : ℤ) (l : List (ℤ × M)) :
    pickRows (vaOfDay date (l.map Prod.fst)) l = l.filter fun m => vaDay m.1 = date := by
  unfold vaOfDay pickRows
  induction l using List.reverseRecOn with
  | nil => simp
  | append_singleton l a ih =>
    rw [List.map_append, List.length_append, List.filter_append, ← ih]
    simp only [List.map_cons, List.map_nil, List.length_cons, List.length_nil, List.length_map, zero_add]
    rw [List.range_succ, List.filter_append, List.filterMap_append]
    congr 1
    · have : ∀ i ∈ List.range l.length, (l.map Prod.fst ++ [a.1])[i]? = (l.map Prod.fst)[i]? := by
        intro i hi
        rw [List.mem_range] at hi
        rw [List.getElem?_append_left (by simpa using hi)]
      have e1 : ((List.range l.length).filter fun i => decide (((l.map Prod.fst ++ [a.1])[i]?.map vaDay) = some date)) =
          (List.range l.length).filter fun i => decide (((l.map Prod.fst)[i]?.map vaDay) = some date) := by
        refine List.filter_congr ?_
        intro i hi
        rw [this i hi]
      rw [e1]
      refine List.filterMap_congr ?_
      intro i hi
      have hi' := (List.mem_filter.1 hi).1
      rw [List.mem_range] at hi'
      rw [List.getElem?_append_left hi']
    · have : (l.map Prod.fst ++ [a.1])[l.length]? = some a.1 := by
        rw [List.getElem?_append_right (by simp)]
        simp
      by_cases hd : vaDay a.1 = date
      · simp [this, hd]
      · simp [this, hd]

theorem vaOfDay_lt (date : ℤ) (ts : List ℤ) : ∀ i ∈ vaOfDay date ts, i < ts.length := by
  intro i hi
  unfold vaOfDay at hi
  exact List.mem_range.1 (List.mem_filter.1 hi).1

theorem vaOfDay_length {M : Type} (date : ℤ) (l : List (ℤ × M)) :
    (vaOfDay date (l.map Prod.fst)).length = (l.filter fun m => vaDay m.1 = date).length := by
  rw [← vaOfDay_filter, pickRows_length]
  intro i hi
  simpa using vaOfDay_lt _ _ i hi

/-- The number of distinct times. -/
theorem vaFirsts_length {M : Type} (file : List (ℤ × M)) : (vaFirsts file).length = (file.map Prod.fst).dedup.length := by
  have := congrArg List.length (vaFirsts_times file)
  rw [List.length_map, List.length_insertionSort] at this
  exact this

section
variable [Field α] [LinearOrder α]

/-- The reader as two selections from the list of messages. -/
theorem vaRead_eq (factor : Option α) (expected : Option ℤ) (file : List (ℤ × VaMessage α)) (first : ℤ × VaMessage α)
    (hf : file.head? = some first) (hl : ∀ m ∈ file, m.2.beta.length = first.2.beta.length) :
    let firsts := vaFirsts file
    let date := expected.getD (vaDay ((firsts.map Prod.fst).headD 0))
    let kept := firsts.filter fun m => vaDay m.1 = date
    let gates := first.2.beta.length
    let r0 := vaRange gates first.2.resolution
    let r1 := if gates = file.length then pickRows (vaUnique (file.map Prod.fst)) r0 else r0
    let r2 := if r1.length = firsts.length then pickRows (vaOfDay date (firsts.map Prod.fst)) r1 else r1
    vaRead factor expected file =
      if kept = [] then .error "ValidTimeStampError"
      else .ok {
        date := date
        hours := kept.map fun m => ((m.1 - vaDay ((kept.map Prod.fst).headD 0) * vaDayLength : ℤ) : α) / 3600000000
        range := r2
        beta := kept.map fun m => m.2.beta.map (· * vaFactor factor)
        zenith := median (file.map fun m => m.2.tilt)
        factor := vaFactor factor } := by
  intro firsts date kept gates r0 r1 r2
  have hne : file ≠ [] := by rintro rfl; simp at hf
  have hany : (file.any fun m => decide (m.2.beta.length ≠ first.2.beta.length)) = false := by
    rw [List.any_eq_false]
    intro m hm
    simp [hl m hm]
  unfold vaRead
  rw [hf]
  simp only [hany, Bool.false_eq_true, if_false]
  have hp1 : vaPick (vaUnique (file.map Prod.fst)) {
        time := file.map Prod.fst
        range := r0
        beta := file.map fun m => m.2.beta.map (· * vaFactor factor) } =
      .ok { time := firsts.map Prod.fst, range := r1, beta := firsts.map fun m => m.2.beta.map (· * vaFactor factor) } := by
    unfold vaPick
    rw [if_neg (vaUnique_map file hne)]
    congr 2
    · exact pickRows_map_eq _ _ _
    · simp [r0, r1, vaRange, gates]
    · rw [if_pos (by simp)]
      exact pickRows_map_eq (fun m : ℤ × VaMessage α => m.2.beta.map (· * vaFactor factor)) _ file
  rw [hp1]
  dsimp only [Except.bind]
  have hkept : pickRows (vaOfDay date (firsts.map Prod.fst)) firsts = kept := vaOfDay_filter _ _
  have hlen := vaOfDay_length date firsts
  unfold vaPick
  by_cases hk : kept = []
  · have : vaOfDay date (firsts.map Prod.fst) = [] := by
      rw [← List.length_eq_zero_iff, hlen]
      exact List.length_eq_zero_iff.2 hk
    rw [if_pos this, if_pos hk]
  · have : vaOfDay date (firsts.map Prod.fst) ≠ [] := by
      intro e
      rw [e] at hlen
      exact hk (List.length_eq_zero_iff.1 hlen.symm)
    rw [if_neg this, if_neg hk]
    dsimp only
    have e1 : pickRows (vaOfDay date (firsts.map Prod.fst)) (firsts.map Prod.fst) = kept.map Prod.fst := by
      rw [pickRows_map_eq, hkept]
    rw [e1, Except.ok.injEq, VaOut.mk.injEq]
    refine ⟨rfl, by rw [List.map_map]; rfl, ?_, ?_, rfl, rfl⟩
    · rw [List.length_map]
    · rw [if_pos (by simp), pickRows_map_eq, hkept]

/-- A file that is not empty, with profiles of equal length, is read unless no profile is of the date. -/
theorem vaRead_ok (factor : Option α) (expected : Option ℤ) (file : List (ℤ × VaMessage α)) (out : VaOut α)
    (h : vaRead factor expected file = .ok out) :
    ∃ first, file.head? = some first ∧ ∀ m ∈ file, m.2.beta.length = first.2.beta.length := by
  unfold vaRead at h
  cases hf : file.head? with
  | none => rw [hf] at h; cases h
  | some first =>
    rw [hf] at h
    refine ⟨first, rfl, ?_⟩
    by_contra hn
    push Not at hn
    obtain ⟨m, hm, hl⟩ := hn
    have : (file.any fun m => decide (m.2.beta.length ≠ first.2.beta.length)) = true := by
      rw [List.any_eq_true]
      exact ⟨m, hm, by simpa using hl⟩
    simp only [this, if_true] at h
    cases h

theorem vaKept_spec {M : Type} (date : ℤ) (file : List (ℤ × M)) :
    Spec.VaProfiles Spec.vaDay date file ((vaFirsts file).filter fun m => vaDay m.1 = date) := by
  have hday : ∀ t, vaDay t = Spec.vaDay t := fun t => rfl
  refine ⟨(vaFirsts_sorted file).filter _, ?_, ?_⟩
  · intro m hm
    rw [List.mem_filter] at hm
    exact ⟨by simpa [hday] using hm.2, vaFirsts_mem file m hm.1⟩
  · intro m hm hd
    obtain ⟨m', h1, h2⟩ := vaFirsts_all file m hm
    refine ⟨m', ?_, h2⟩
    rw [List.mem_filter]
    refine ⟨h1, ?_⟩
    rw [h2]
    simpa [hday] using hd

/-- Only one list of profiles fits the specification. -/
theorem vaProfiles_unique {M : Type} (day : ℤ → ℤ) (date : ℤ) (file a b : List (ℤ × M)) (ha : Spec.VaProfiles day date file a)
    (hb : Spec.VaProfiles day date file b) : a = b := by
  have key : ∀ a b : List (ℤ × M), Spec.VaProfiles day date file a → Spec.VaProfiles day date file b → ∀ m ∈ a, m ∈ b := by
    intro a b ha hb m hm
    obtain ⟨h1, i, h2, h3⟩ := ha.2.1 m hm
    obtain ⟨m', h4, h5⟩ := hb.2.2 m (List.mem_of_getElem? h2) h1
    obtain ⟨-, j, h6, h7⟩ := hb.2.1 m' h4
    have hij : i = j := by
      rcases lt_trichotomy i j with hlt | rfl | hlt
      · exact absurd (by rw [h2, h5]; rfl) (h7 i hlt)
      · rfl
      · exact absurd (by rw [h6, ← h5]; rfl) (h3 j hlt)
    rw [hij, h6] at h2
    rw [← Option.some.inj h2]
    exact h4
  have nd : ∀ a : List (ℤ × M), Spec.VaProfiles day date file a → a.Nodup := fun a ha =>
    ha.1.imp fun h e => by rw [e] at h; exact lt_irrefl _ h
  have hp : a.Perm b := (List.perm_ext_iff_of_nodup (nd a ha) (nd b hb)).2 fun m => ⟨key a b ha hb m, key b a hb ha m⟩
  exact hp.eq_of_pairwise (fun x y _ _ h1 h2 => absurd h1 (lt_asymm h2)) ha.1 hb.1

end

end Cloudnet
