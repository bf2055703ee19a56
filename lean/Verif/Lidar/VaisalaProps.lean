import Verif.Lidar.Vaisala

/-! Properties of the reader of text files of ceilometers (C124). -/

namespace Cloudnet

variable {α : Type} [Field α] [LinearOrder α]

theorem headD_min {M : Type} (file : List (ℤ × M)) (h : file ≠ []) :
    ∃ m ∈ file, (∀ m' ∈ file, m.1 ≤ m'.1) ∧ ((vaFirsts file).map Prod.fst).headD 0 = m.1 := by
  obtain ⟨x, l, rfl⟩ := List.exists_cons_of_ne_nil h
  cases hv : vaFirsts (x :: l) with
  | nil =>
    obtain ⟨m', h1, -⟩ := vaFirsts_all (x :: l) x (by simp)
    rw [hv] at h1
    simp at h1
  | cons a t =>
    obtain ⟨i, hi, -⟩ := vaFirsts_mem (x :: l) a (by rw [hv]; simp)
    refine ⟨a, List.mem_of_getElem? hi, ?_, by simp⟩
    intro m' hm'
    obtain ⟨m'', h1, h2⟩ := vaFirsts_all (x :: l) m' hm'
    have hs := vaFirsts_sorted (x :: l)
    rw [hv] at h1 hs
    rw [← h2]
    rcases List.mem_cons.1 h1 with rfl | h1
    · exact le_refl _
    · exact le_of_lt ((List.pairwise_cons.1 hs).1 _ h1)

/-- **C124.** What is read from a text file of a ceilometer: of the profiles of the expected date (or the date of the earliest profile),
one for each time, in order of time, the first one in the file if times are equal. The time is the hour of the day, the backscatter that
of the message times the calibration factor, and the zenith angle the median tilt of all messages of the file. -/
theorem C124_profiles (factor : Option α) (expected : Option ℤ) (file : List (ℤ × VaMessage α)) (out : VaOut α)
    (h : vaRead factor expected file = .ok out) :
    (∀ d, expected = some d → out.date = d) ∧
    (expected = none → ∃ m ∈ file, (∀ m' ∈ file, m.1 ≤ m'.1) ∧ out.date = Spec.vaDay m.1) ∧
    out.zenith = median (file.map fun m => m.2.tilt) ∧
    (∀ c, factor = some c → c ≠ 0 → out.factor = c) ∧ (factor = none ∨ factor = some 0 → out.factor = 1) ∧
    ∃ kept, kept ≠ [] ∧ Spec.VaProfiles Spec.vaDay out.date file kept ∧
      out.beta = kept.map (fun m => m.2.beta.map fun b => b * out.factor) ∧
      out.hours = kept.map fun m => ((m.1 - out.date * (24 * 60 * 60 * 1000 * 1000) : ℤ) : α) / (60 * 60 * 1000 * 1000) := by
  obtain ⟨first, hf, hl⟩ := vaRead_ok factor expected file out h
  have he := vaRead_eq factor expected file first hf hl
  dsimp only at he
  rw [he] at h
  split at h
  · cases h
  · rename_i hk
    obtain rfl := Except.ok.inj h
    have hne : file ≠ [] := by rintro rfl; simp at hf
    refine ⟨?_, ?_, rfl, ?_, ?_, _, hk, vaKept_spec _ file, rfl, ?_⟩
    · rintro d rfl; rfl
    · rintro rfl
      obtain ⟨m, h1, h2, h3⟩ := headD_min file hne
      refine ⟨m, h1, h2, ?_⟩
      dsimp only [Option.getD]
      rw [h3]
      rfl
    · rintro c rfl hc
      simp [vaFactor, hc]
    · rintro (rfl | rfl) <;> simp [vaFactor]
    · dsimp only
      generalize expected.getD _ = date at hk ⊢
      refine List.map_congr_left ?_
      intro m _
      have hmid : vaDay (((List.filter (fun m => decide (vaDay m.1 = date)) (vaFirsts file)).map Prod.fst).headD 0) = date := by
        obtain ⟨x, l, e⟩ := List.exists_cons_of_ne_nil hk
        have hx : x ∈ List.filter (fun m => decide (vaDay m.1 = date)) (vaFirsts file) := by rw [e]; simp
        rw [e]
        simpa using (List.mem_filter.1 hx).2
      rw [hmid]
      unfold vaDayLength
      norm_num

/-- **C124.** The profiles of C124_profiles are determined by the file and the date, so the theorem says what is read. -/
theorem C124_determined {M : Type} (date : ℤ) (file a b : List (ℤ × M)) (ha : Spec.VaProfiles Spec.vaDay date file a)
    (hb : Spec.VaProfiles Spec.vaDay date file b) : a = b := vaProfiles_unique _ _ _ _ _ ha hb

/-- **C124.** A file is read exactly if it has a profile, all profiles have the same number of gates, and one is of the expected date. -/
theorem C124_readable (factor : Option α) (expected : Option ℤ) (file : List (ℤ × VaMessage α)) :
    (∃ out, vaRead factor expected file = .ok out) ↔
      file ≠ [] ∧ (∀ m ∈ file, ∀ m' ∈ file, m.2.beta.length = m'.2.beta.length) ∧
      ∀ d, expected = some d → ∃ m ∈ file, Spec.vaDay m.1 = d := by
  constructor
  · rintro ⟨out, h⟩
    obtain ⟨first, hf, hl⟩ := vaRead_ok factor expected file out h
    refine ⟨by rintro rfl; simp at hf, fun m hm m' hm' => by rw [hl m hm, hl m' hm'], ?_⟩
    rintro d rfl
    obtain ⟨h1, -, -, -, -, kept, hk, hs, -⟩ := C124_profiles _ _ _ _ h
    obtain ⟨x, l, e⟩ := List.exists_cons_of_ne_nil hk
    obtain ⟨h2, i, h3, -⟩ := hs.2.1 x (by rw [e]; simp)
    exact ⟨x, List.mem_of_getElem? h3, by rw [h2, h1 d rfl]⟩
  · rintro ⟨h1, h2, h3⟩
    obtain ⟨first, l, e⟩ := List.exists_cons_of_ne_nil h1
    have hf : file.head? = some first := by rw [e]; rfl
    have hl : ∀ m ∈ file, m.2.beta.length = first.2.beta.length := fun m hm => h2 m hm first (by rw [e]; simp)
    have he := vaRead_eq factor expected file first hf hl
    dsimp only at he
    rw [he, if_neg]
    · exact ⟨_, rfl⟩
    · have hm : ∃ m ∈ file, vaDay m.1 = expected.getD (vaDay (((vaFirsts file).map Prod.fst).headD 0)) := by
        cases expected with
        | some d =>
          obtain ⟨m, a, b⟩ := h3 d rfl
          exact ⟨m, a, b⟩
        | none =>
          obtain ⟨m, a, -, b⟩ := headD_min file h1
          exact ⟨m, a, by rw [Option.getD, b]⟩
      obtain ⟨m, a, b⟩ := hm
      obtain ⟨m', c, d⟩ := vaFirsts_all file m a
      intro hnil
      have : m' ∈ (vaFirsts file).filter fun m => vaDay m.1 = expected.getD (vaDay (((vaFirsts file).map Prod.fst).headD 0)) := by
        rw [List.mem_filter]
        exact ⟨c, by rw [d]; simpa using b⟩
      rw [hnil] at this
      simp at this

/-- **C124.** If the number of gates is neither the number of profiles nor that of distinct times, the heights are the mid points of
the gates, one for each value of a profile. -/
theorem C124_range (factor : Option α) (expected : Option ℤ) (file : List (ℤ × VaMessage α)) (out : VaOut α) (first : ℤ × VaMessage α)
    (hf : file.head? = some first) (h : vaRead factor expected file = .ok out) (h1 : first.2.beta.length ≠ file.length)
    (h2 : first.2.beta.length ≠ (file.map Prod.fst).dedup.length) :
    out.range.length = first.2.beta.length ∧ (∀ b ∈ out.beta, b.length = out.range.length) ∧
    ∀ k : ℕ, k < first.2.beta.length → out.range[k]? = some (((k : α) + 1 / 2) * first.2.resolution) := by
  obtain ⟨first', hf', hl⟩ := vaRead_ok factor expected file out h
  rw [hf] at hf'
  obtain rfl := Option.some.inj hf'
  have he := vaRead_eq factor expected file first hf hl
  dsimp only at he
  rw [he] at h
  split at h
  · cases h
  · obtain rfl := Except.ok.inj h
    dsimp only
    rw [if_neg (by rw [vaFirsts_length]; simpa [vaRange] using h2)]
    refine ⟨by simp [vaRange], ?_, ?_⟩
    · intro b hb
      rw [List.mem_map] at hb
      obtain ⟨m, hm, rfl⟩ := hb
      obtain ⟨i, hi, -⟩ := vaFirsts_mem file m (List.mem_filter.1 hm).1
      simp [vaRange, hl m (List.mem_of_getElem? hi)]
    · intro k hk
      unfold vaRange
      rw [List.getElem?_map, List.getElem?_range hk]
      simp only [Option.map_some, Option.some.injEq]
      ring

theorem pickRows_range (ind : List ℕ) (n : ℕ) (h : ∀ i ∈ ind, i < n) : pickRows ind (List.range n) = ind := by
  unfold pickRows
  have : ∀ i ∈ ind, (List.range n)[i]? = some i := fun i hi => List.getElem?_range (h i hi)
  rw [List.filterMap_congr this]
  simp

/-- **C124, finding** If a file happens to have as many profiles as gates, the heights are sorted and selected together with the profiles:
there are as many heights as profiles left, and gate number k gets the height of the gate whose number is the place of profile k in the
file. -/
theorem C124_range_selected (factor : Option α) (expected : Option ℤ) (file : List (ℤ × VaMessage α)) (out : VaOut α)
    (first : ℤ × VaMessage α) (hf : file.head? = some first) (h : vaRead factor expected file = .ok out)
    (h1 : first.2.beta.length = file.length) :
    out.range.length = out.beta.length ∧
    ∃ kept, Spec.VaProfiles Spec.vaDay out.date file kept ∧ kept.length = out.range.length ∧
      ∀ (k : ℕ) m, kept[k]? = some m → ∃ i : ℕ, file[i]? = some m ∧ out.range[k]? = some (((i : α) + 1 / 2) * first.2.resolution) := by
  obtain ⟨first', hf', hl⟩ := vaRead_ok factor expected file out h
  rw [hf] at hf'
  obtain rfl := Option.some.inj hf'
  have he := vaRead_eq factor expected file first hf hl
  dsimp only at he
  rw [he] at h
  split at h
  · cases h
  · obtain rfl := Except.ok.inj h
    dsimp only
    generalize expected.getD _ = date
    set i1 := vaUnique (file.map Prod.fst) with hi1
    set i2 := vaOfDay date ((vaFirsts file).map Prod.fst) with hi2
    have lt1 : ∀ i ∈ i1, i < file.length := by
      intro i hi
      simpa using vaUnique_lt (file.map Prod.fst) i hi
    have lt2 : ∀ i ∈ i2, i < (vaFirsts file).length := by
      intro i hi
      simpa using vaOfDay_lt date ((vaFirsts file).map Prod.fst) i hi
    have p1 : Spec.Picks i1 file (vaFirsts file) := picks_pickRows i1 file lt1
    have p2 : Spec.Picks i2 (vaFirsts file) ((vaFirsts file).filter fun m => vaDay m.1 = date) := by
      have := picks_pickRows i2 (vaFirsts file) lt2
      rwa [hi2, vaOfDay_filter] at this
    have e1 : pickRows i1 (vaRange first.2.beta.length first.2.resolution) =
        i1.map fun (k : ℕ) => (k : α) * first.2.resolution + first.2.resolution / 2 := by
      unfold vaRange
      rw [pickRows_map_eq, pickRows_range i1 _ (by rw [h1]; exact lt1)]
    rw [e1, if_pos (by rw [List.length_map, picks_length p1]), pickRows_map_eq]
    have pc := picks_comp p1 p2
    refine ⟨?_, _, vaKept_spec date file, ?_, ?_⟩
    · rw [List.length_map, List.length_map, picks_length pc]
    · rw [List.length_map, picks_length pc]
    · intro k m hk
      obtain ⟨i, a, b⟩ := picks_get pc hk
      refine ⟨i, b, ?_⟩
      rw [List.getElem?_map, a]
      simp only [Option.map_some, Option.some.injEq]
      ring

/-- Four messages of a ceilometer with two gates: out of order, one of them doubled, one of the next day. -/
def vaDemo : List (ℤ × VaMessage ℚ) :=
  [(7200000000, ⟨10, [3, 4], 2⟩), (3600000000, ⟨10, [1, 2], 4⟩), (7200000000, ⟨10, [5, 6], 3⟩), (90000000000, ⟨10, [7, 8], 3⟩)]

example : (vaRead (some 2) none vaDemo).toOption.map (fun o => (o.date, o.hours, o.range, o.beta)) =
    some (0, [1, 2], [5, 15], [[2, 4], [6, 8]]) := by decide +kernel

/-- The finding on a small file: three gates, three profiles, one of them of the next day. -/
example : (vaRead none (some 0) [((7200000000 : ℤ), (⟨10, [3, 4, 5], 2⟩ : VaMessage ℚ)), (3600000000, ⟨10, [1, 2, 3], 2⟩),
    (90000000000, ⟨10, [7, 8, 9], 3⟩)]).toOption.map (fun o => (o.hours, o.range, o.beta)) =
    some ([1, 2], [15, 5], [[1, 2, 3], [3, 4, 5]]) := by decide +kernel

example : (vaRead none (some 5) vaDemo).isOk = false := by decide +kernel

/-- **C124.** The name of the instrument by the number of gates. -/
theorem C124_instrument (gates : ℕ) : (vaInstrument gates = "CL31" ↔ gates < 1540) ∧ (vaInstrument gates = "CL51" ↔ 1540 ≤ gates) := by
  unfold vaInstrument
  split_ifs with h
  · simp [h]
  · simp [h, not_lt.1 h]


end Cloudnet
