import Verif.WRadar.Model
import Verif.Times.Props
import Verif.Lwc.Props
import Verif.Rebin.Props
import Mathlib.Algebra.Order.Ring.Rat

/-!
Property C102 (weather radar files).
-/

set_option linter.unusedSectionVars false
set_option linter.unusedSimpArgs false

namespace Cloudnet

/-! ### Reading -/

namespace Spec

/-- The values of a gate in the rays where there is one. -/
def RayValue (g : OperaGroup) (h r : ℕ) (x : ℝ) : Prop :=
  r < g.nRays ∧ g.raw r h ≠ g.nodata ∧ g.raw r h ≠ g.undetect ∧ x = g.offset + g.gain * g.raw r h

/-- The rays with a value in the gate. -/
noncomputable def raysWithValue (g : OperaGroup) (h : ℕ) : Finset ℕ :=
  open Classical in (Finset.range g.nRays).filter fun r => g.raw r h ≠ g.nodata ∧ g.raw r h ≠ g.undetect

end Spec

theorem operaDecoded (g : OperaGroup) (h : ℕ) (f : ℝ → ℝ) :
    open Classical in
    let decoded := (List.range g.nRays).filterMap fun r =>
      if g.raw r h = g.nodata ∨ g.raw r h = g.undetect then none
      else some (g.offset + g.gain * g.raw r h)
    (decoded.map f).sum = ∑ r ∈ Spec.raysWithValue g h, f (g.offset + g.gain * g.raw r h) ∧
    decoded.length = (Spec.raysWithValue g h).card := by
  classical
  intro decoded
  have hd : decoded = ((List.range g.nRays).filter fun r =>
      decide (g.raw r h ≠ g.nodata ∧ g.raw r h ≠ g.undetect)).map fun r =>
        g.offset + g.gain * g.raw r h := by
    show List.filterMap _ _ = _
    induction (List.range g.nRays) with
    | nil => rfl
    | cons r l ih =>
      by_cases hc : g.raw r h = g.nodata ∨ g.raw r h = g.undetect
      · rw [List.filterMap_cons, if_pos hc, List.filter_cons, if_neg (by simp; tauto)]
        exact ih
      · rw [List.filterMap_cons, if_neg hc, List.filter_cons, if_pos (by simp; tauto), List.map_cons]
        simp only
        rw [ih]
  set l := (List.range g.nRays).filter fun r =>
      decide (g.raw r h ≠ g.nodata ∧ g.raw r h ≠ g.undetect) with hl
  have hnd : l.Nodup := List.nodup_range.filter _
  have hset : l.toFinset = Spec.raysWithValue g h := by
    ext r
    unfold Spec.raysWithValue
    simp [hl]
  rw [hd]
  constructor
  · rw [List.map_map, ← hset, List.sum_toFinset _ hnd]
    rfl
  · rw [List.length_map, ← hset, List.toFinset_card_of_nodup hnd]

/-- C102. A gate of a quantity is missing exactly if it is marked as missing in all rays. Otherwise it is
the mean over the rays with a value; for quantities in decibels the mean of the linear power. -/
theorem C102_gate (g : OperaGroup) (h : ℕ) :
    (operaGate g h = none ↔ ¬ ∃ r x, Spec.RayValue g h r x) ∧
    ∀ y, operaGate g h = some y →
      (g.quantity ≠ "ZDR" → g.quantity ≠ "SNR" →
        y * (Spec.raysWithValue g h).card =
          ∑ r ∈ Spec.raysWithValue g h, (g.offset + g.gain * g.raw r h)) ∧
      (g.quantity = "ZDR" ∨ g.quantity = "SNR" →
        (10 : ℝ) ^ (y / 10) * (Spec.raysWithValue g h).card =
          ∑ r ∈ Spec.raysWithValue g h, (10 : ℝ) ^ ((g.offset + g.gain * g.raw r h) / 10)) := by
  classical
  obtain ⟨h1, h2⟩ := operaDecoded g h id
  obtain ⟨h3, -⟩ := operaDecoded g h (fun x => (10 : ℝ) ^ (x / 10))
  unfold operaGate
  simp only at h1 h2 h3 ⊢
  set decoded := (List.range g.nRays).filterMap fun r =>
      if g.raw r h = g.nodata ∨ g.raw r h = g.undetect then none
      else some (g.offset + g.gain * g.raw r h) with hdec
  rw [List.map_id] at h1
  have hmem : (∃ r x, Spec.RayValue g h r x) ↔ 0 < (Spec.raysWithValue g h).card := by
    rw [Finset.card_pos]
    constructor
    · rintro ⟨r, x, a1, a2, a3, -⟩
      exact ⟨r, by unfold Spec.raysWithValue; simp [a1, a2, a3]⟩
    · rintro ⟨r, hr⟩
      unfold Spec.raysWithValue at hr
      simp at hr
      exact ⟨r, _, hr.1, hr.2.1, hr.2.2, rfl⟩
  by_cases hnil : decoded = []
  · rw [if_pos hnil]
    refine ⟨⟨fun _ => ?_, fun _ => rfl⟩, fun y hy => nomatch hy⟩
    rw [hmem, ← h2, hnil]
    simp
  · have hpos : 0 < decoded.length := List.length_pos_iff.2 hnil
    have hpos' : (0 : ℝ) < decoded.length := by exact_mod_cast hpos
    rw [if_neg hnil, ← h2]
    constructor
    · rw [hmem, ← h2]
      constructor
      · intro hc
        split at hc <;> cases hc
      · intro hc; exact absurd hpos hc
    · intro y hy
      constructor
      · intro c1 c2
        rw [if_neg (by tauto)] at hy
        rw [← Option.some.inj hy, div_mul_cancel₀ _ (ne_of_gt hpos'), h1]
        rfl
      · intro c
        rw [if_pos c] at hy
        have hsum : 0 < (decoded.map fun x => (10 : ℝ) ^ (x / 10)).sum := by
          apply List.sum_pos
          · intro x hx
            rw [List.mem_map] at hx
            obtain ⟨z, -, rfl⟩ := hx
            positivity
          · simpa using hnil
        rw [← Option.some.inj hy, mul_div_cancel_left₀ _ (by norm_num : (10 : ℝ) ≠ 0),
          Real.rpow_logb (by norm_num) (by norm_num) (div_pos hsum hpos'),
          div_mul_cancel₀ _ (ne_of_gt hpos'), h3]

/-- C102. The reflectivity follows from the signal to noise ratio, the noise equivalent reflectivity at
1 km and the range: in linear units it is the product of the three, with the range in kilometres
squared. -/
theorem C102_reflectivity (snr : Option ℝ) (nez rng : ℝ) (hr : 0 < rng) :
    (operaDbzh snr nez rng = none ↔ snr = none) ∧
    ∀ s z, snr = some s → operaDbzh snr nez rng = some z →
      (10 : ℝ) ^ (z / 10) = (10 : ℝ) ^ (s / 10) * (10 : ℝ) ^ (nez / 10) * (rng / 1000) ^ 2 := by
  unfold operaDbzh
  refine ⟨by cases snr <;> simp, ?_⟩
  rintro s z rfl hz
  simp only [Option.map_some, Option.some.injEq] at hz
  have hk : 0 < rng * (1 / 1000) := by positivity
  have e : z / 10 = s / 10 + nez / 10 + Real.logb 10 (rng * (1 / 1000)) * 2 := by rw [← hz]; ring
  rw [e, Real.rpow_add (by norm_num), Real.rpow_add (by norm_num), Real.rpow_mul (by norm_num),
    Real.rpow_logb (by norm_num) (by norm_num) hk]
  norm_num
  left
  ring

/-- C102. A file is not used if the centre of its last gate is more than 100 km away. -/
theorem C102_too_long (rstart rscale : ℝ) (nbins : ℕ) (h : 1 ≤ nbins) :
    operaTooLong rstart rscale nbins ↔ 100 < rstart + rscale * (nbins - 1 / 2) / 1000 := by
  unfold operaTooLong operaRange
  rw [Nat.cast_sub h]
  constructor <;> intro h' <;> push_cast at * <;> linarith

/-- Gates of 50 m from the radar: 2000 gates are read, 2001 are too many. -/
example : ¬ operaTooLong 0 50 2000 ∧ operaTooLong 0 50 2001 := by
  rw [C102_too_long _ _ _ (by norm_num), C102_too_long _ _ _ (by norm_num)]
  norm_num
/-- C102. Gates are equally spaced and the first one is half a gate beyond the start. -/
theorem C102_range (rstart rscale : ℝ) (h : ℕ) :
    operaRange rstart rscale 0 = 1000 * rstart + rscale / 2 ∧
    operaRange rstart rscale (h + 1) = operaRange rstart rscale h + rscale := by
  unfold operaRange
  constructor
  · simp; ring
  · push_cast; ring

/-! ### Merging -/

section
variable {α : Type} [Field α] [LinearOrder α] [IsStrictOrderedRing α]

namespace Spec

/-- The range of the last gate. -/
def reach (f : WrFile α) : α := f.range (f.nRange - 1)

/-- `f` is the first of the files with its time. -/
def FirstWithTime (files : List (WrFile α)) (f : WrFile α) : Prop :=
  ∃ pre post, files = pre ++ f :: post ∧ ∀ g ∈ pre, g.time ≠ f.time

/-- The value of a quantity of the file at a range: that of the nearest gate (the lower one of two), none
outside the gates or if the file lacks the quantity. -/
def ValueAt (f : WrFile α) (key : String) (r : α) (v : Option α) : Prop :=
  (f.data.lookup key = none → v = none) ∧
  ∀ p, f.data.lookup key = some p →
    (r < f.range 0 ∨ f.range (f.nRange - 1) < r → v = none) ∧
    (f.range 0 ≤ r ∧ r ≤ f.range (f.nRange - 1) → ∃ i < f.nRange, v = p i ∧
      (∀ j < f.nRange, |f.range i - r| ≤ |f.range j - r|) ∧ ∀ j < i, |f.range i - r| < |f.range j - r|)

end Spec

theorem targetFile_spec (first : WrFile α) (rest : List (WrFile α)) :
    targetFile first rest ∈ first :: rest ∧
    ∀ f ∈ first :: rest, Spec.reach f ≤ Spec.reach (targetFile first rest) := by
  unfold targetFile
  induction rest generalizing first with
  | nil => simp
  | cons g rest ih =>
    rw [List.foldl_cons]
    by_cases hc : first.range (first.nRange - 1) < g.range (g.nRange - 1)
    · rw [if_pos hc]
      obtain ⟨h1, h2⟩ := ih g
      refine ⟨List.mem_cons_of_mem _ h1, ?_⟩
      intro f hf
      rw [List.mem_cons] at hf
      rcases hf with rfl | hf
      · exact le_trans (le_of_lt hc) (h2 g (by simp))
      · exact h2 f hf
    · rw [if_neg hc]
      obtain ⟨h1, h2⟩ := ih first
      refine ⟨?_, ?_⟩
      · rw [List.mem_cons] at h1 ⊢
        rcases h1 with h1 | h1
        · exact Or.inl h1
        · exact Or.inr (List.mem_cons_of_mem _ h1)
      · intro f hf
        rw [List.mem_cons, List.mem_cons] at hf
        rcases hf with rfl | rfl | hf
        · exact h2 _ (by simp)
        · exact le_trans (not_lt.1 hc) (h2 first (by simp))
        · exact h2 f (by simp [hf])

theorem wrBlock_spec (target f : WrFile α) (key : String) (hpos : 1 ≤ f.nRange)
    (hinc : Spec.Increasing f.nRange f.range) (h : ℕ) (hh : h < target.nRange) :
    Spec.ValueAt f key (target.range h) (wrBlock target f key h) := by
  unfold wrBlock
  refine ⟨fun hn => by rw [hn], fun p hp => ?_⟩
  rw [hp]
  simp only
  by_cases hs : sameRange f target = true
  · rw [hs]
    simp only [Bool.not_true, Bool.false_eq_true, if_false]
    unfold sameRange at hs
    rw [Bool.and_eq_true, decide_eq_true_eq, List.all_eq_true] at hs
    obtain ⟨hn, he⟩ := hs
    have he : f.range h = target.range h := by
      have := he h (List.mem_range.2 (by omega))
      simpa using this
    constructor
    · intro hc
      exfalso
      rw [← he] at hc
      rcases hc with hc | hc
      · exact absurd hc (not_lt.2 (hinc.le (Nat.zero_le _) (by omega)))
      · exact absurd hc (not_lt.2 (hinc.le (by omega) (by omega)))
    · intro _
      refine ⟨h, by omega, rfl, fun j hj => ?_, fun j hj => ?_⟩
      · rw [he, sub_self, abs_zero]; exact abs_nonneg _
      · rw [he, sub_self, abs_zero, ← he]
        exact abs_pos.2 (sub_ne_zero.2 (ne_of_lt (hinc j h hj (by omega))))
  · rw [Bool.not_eq_true] at hs
    rw [hs]
    simp only [Bool.not_false, if_true]
    obtain ⟨c1, c2⟩ := C32_nearest_gate f.nRange hpos f.range hinc (fun _ => p) (target.range h)
    refine ⟨fun hc => c2 hc 0, fun hc => ?_⟩
    obtain ⟨i, hi, a1, a2, a3⟩ := c1 hc
    exact ⟨i, hi, a3 0, a1, a2⟩

theorem maskSelect_map {β γ : Type} (p : β → Bool) (g : β → γ) (fs : List β) :
    maskSelect (fs.map p) (fs.map g) = (fs.filter p).map g := by
  unfold maskSelect
  induction fs with
  | nil => rfl
  | cons f fs ih =>
    simp only [List.map_cons, List.zip_cons_cons, List.filter_cons]
    cases hp : p f
    · simp only [Bool.false_eq_true, if_false]; exact ih
    · simp only [if_true, List.map_cons]
      rw [ih]

theorem takeAt_map {β γ : Type} (ind : List ℕ) (g : β → γ) (fs : List β) :
    takeAt ind (fs.map g) = (takeAt ind fs).map g := by
  unfold takeAt
  rw [List.map_filterMap]
  apply List.filterMap_congr
  intro i _
  rw [List.getElem?_map]

theorem lookup_keys {β : Type} (keys : List String) (F : String → β) (q : String) :
    (keys.map fun k => (k, F k)).lookup q = if q ∈ keys then some (F q) else none := by
  induction keys with
  | nil => rfl
  | cons k keys ih =>
    rw [List.map_cons, List.lookup_cons]
    by_cases h : q = k
    · subst h; simp
    · rw [beq_eq_false_iff_ne.2 h, ih]
      simp [h]

/-- The distinct times in order. -/
theorem dedup_files (fs : List (WrFile α)) :
    let gs := takeAt (uniqueIndex (fs.map (·.time)).length (vec (fs.map (·.time)))) fs
    gs.Pairwise (fun f g => f.time < g.time) ∧ ∀ f, f ∈ gs ↔ Spec.FirstWithTime fs f := by
  intro gs
  obtain ⟨h1, h2⟩ := uniqueIndex_spec (fs.map (·.time)).length (vec (fs.map (·.time)))
  set ind := uniqueIndex (fs.map (·.time)).length (vec (fs.map (·.time))) with hind
  have hvec : ∀ (i : ℕ) f, fs[i]? = some f → vec (fs.map (·.time)) i = f.time := by
    intro i f hf
    unfold vec
    rw [List.getD_eq_getElem?_getD, List.getElem?_map, hf]
    rfl
  constructor
  · show (takeAt ind fs).Pairwise _
    unfold takeAt
    rw [List.pairwise_filterMap]
    refine h2.imp ?_
    intro i j hij f hf g hg
    rw [← hvec i f hf, ← hvec j g hg]
    exact hij
  · intro f
    show f ∈ takeAt ind fs ↔ _
    unfold takeAt
    rw [List.mem_filterMap]
    constructor
    · rintro ⟨i, hi, hf⟩
      obtain ⟨a1, a2⟩ := (h1 i).1 hi
      obtain ⟨hlt, hget⟩ := List.getElem?_eq_some_iff.1 hf
      refine ⟨fs.take i, fs.drop (i + 1), ?_, ?_⟩
      · conv_lhs => rw [← List.take_append_drop i fs]
        rw [List.drop_eq_getElem_cons hlt, hget]
      · intro g hg
        rw [List.mem_take_iff_getElem] at hg
        obtain ⟨j, hj, hgj⟩ := hg
        have hj' : j < i := by omega
        have := a2 j hj'
        rw [hvec i f hf, hvec j g (List.getElem?_eq_some_iff.2 ⟨by omega, hgj⟩)] at this
        exact this
    · rintro ⟨pre, post, rfl, hpre⟩
      have hf : (pre ++ f :: post)[pre.length]? = some f := by simp
      refine ⟨pre.length, (h1 _).2 ⟨by simp, ?_⟩, hf⟩
      intro j hj
      have hj' : (pre ++ f :: post)[j]? = some pre[j] := by
        rw [List.getElem?_append_left hj, List.getElem?_eq_getElem hj]
      rw [hvec _ f hf, hvec j _ hj']
      exact hpre _ (List.getElem_mem hj)

theorem filter_first (fs : List (WrFile α)) (p : α → Bool) (f : WrFile α) :
    Spec.FirstWithTime (fs.filter fun f => p f.time) f ↔ Spec.FirstWithTime fs f ∧ p f.time = true := by
  constructor
  · rintro ⟨pre, post, he, hpre⟩
    have hp : p f.time = true := by
      have : f ∈ fs.filter fun f => p f.time := by rw [he]; simp
      exact (List.mem_filter.1 this).2
    refine ⟨?_, hp⟩
    rw [List.filter_eq_append_iff] at he
    obtain ⟨l1, l2, rfl, e1, e2⟩ := he
    rw [List.filter_eq_cons_iff] at e2
    obtain ⟨l3, l4, rfl, e3, e4, e5⟩ := e2
    refine ⟨l1 ++ l3, l4, by simp, ?_⟩
    intro g hg hc
    rw [List.mem_append] at hg
    rcases hg with hg | hg
    · exact hpre g (by rw [← e1, List.mem_filter]; exact ⟨hg, by rw [hc]; exact hp⟩) hc
    · have := e3 g hg
      rw [hc] at this
      exact this hp
  · rintro ⟨⟨pre, post, rfl, hpre⟩, hp⟩
    refine ⟨pre.filter fun f => p f.time, post.filter fun f => p f.time, ?_, ?_⟩
    · rw [List.filter_append, List.filter_cons, if_pos hp]
    · intro g hg
      exact hpre g (List.mem_filter.1 hg).1

/-- The state of the reader as a function of the files it stands for. -/
def rawOf (target : WrFile α) (keys : List String) (fs : List (WrFile α)) : WrRaw α where
  times := fs.map (·.time)
  target := target
  data := keys.map fun key => (key, fs.map fun f => wrBlock target f key)

/-- What is used of the files. -/
def Spec.usable (files : List (Option (WrFile α))) : List (WrFile α) := files.filterMap id

/-- The file has one of the quantities. -/
def Spec.HasQuantity (f : WrFile α) (q : String) : Prop := q ∈ f.data.map (·.1)

theorem wrMerge_eq [FloorRing α] (files : List (Option (WrFile α))) (expected : Option ℤ) (altitude : α)
    (first : WrFile α) (rest : List (WrFile α)) (hu : Spec.usable files = first :: rest) :
    ∃ target gs keys,
    (target ∈ Spec.usable files ∧ ∀ f ∈ Spec.usable files, Spec.reach f ≤ Spec.reach target) ∧
    (∀ q, q ∈ keys ↔ ∃ f ∈ Spec.usable files, Spec.HasQuantity f q) ∧
    gs.Pairwise (fun f g => f.time < g.time) ∧
    (∀ f, f ∈ gs ↔ Spec.FirstWithTime (Spec.usable files) f ∧
      ∀ d, expected = some d → ⌊f.time / 86400⌋ = d) ∧
    wrMerge files expected altitude = wrConvert altitude
      (expected.getD ⌊first.time / 86400⌋) (rawOf target keys gs) := by
  unfold wrMerge wrReadData
  · have hu' : files.filterMap id = first :: rest := hu
    rw [hu', hu]
    dsimp only
    simp only [bind, Except.bind]
    set target := targetFile first rest with ht
    set keys := ((first :: rest).flatMap fun f => f.data.map (·.1)).dedup with hk
    have hkeys : ∀ q, q ∈ keys ↔ ∃ f ∈ first :: rest, Spec.HasQuantity f q := by
      intro q
      rw [hk, List.mem_dedup, List.mem_flatMap]
      rfl
    have hsort : ∀ fs : List (WrFile α), wrSortDedup (rawOf target keys fs) =
        rawOf target keys (takeAt (uniqueIndex (fs.map (·.time)).length (vec (fs.map (·.time)))) fs) := by
      intro fs
      unfold wrSortDedup rawOf
      simp only [takeAt_map, List.map_map, Function.comp_def]
    cases expected with
    | none =>
      obtain ⟨d1, d2⟩ := dedup_files (first :: rest)
      refine ⟨target, _, keys, targetFile_spec first rest, hkeys, d1, ?_, ?_⟩
      · intro f
        rw [d2]
        simp
      · rw [← hsort]
        rfl
    | some date =>
      obtain ⟨d1, d2⟩ := dedup_files ((first :: rest).filter fun f => decide (dayOf f.time = date))
      refine ⟨target, _, keys, targetFile_spec first rest, hkeys, d1, ?_, ?_⟩
      · intro f
        rw [d2, filter_first (first :: rest) (fun t => decide (dayOf t = date))]
        simp only [decide_eq_true_eq, Option.some.injEq, forall_eq']
        rfl
      · rw [← hsort]
        have : wrScreenTime (rawOf target keys (first :: rest)) (some date) = (date, rawOf target keys
            ((first :: rest).filter fun f => decide (dayOf f.time = date))) := by
          unfold wrScreenTime rawOf
          dsimp only
          rw [List.map_map]
          have hm : ∀ {γ : Type} (g : WrFile α → γ), maskSelect
              ((first :: rest).map ((fun t => decide (dayOf t = date)) ∘ fun f => f.time))
              ((first :: rest).map g) =
              ((first :: rest).filter fun f => decide (dayOf f.time = date)).map g :=
            fun g => maskSelect_map _ g _
          rw [hm]
          simp only [List.map_map]
          congr 2
          apply List.map_congr_left
          intro k _
          simp only [Function.comp, Prod.mk.injEq, true_and]
          exact hm _
        change wrConvert altitude (wrScreenTime (rawOf target keys (first :: rest)) (some date)).1
          (wrSortDedup (wrScreenTime (rawOf target keys (first :: rest)) (some date)).2) = _
        rw [this]
        rfl

theorem lookup_vars {β : Type} {l : List (String × β)} {names : List (String × String)}
    {P : String × String → β → Prop}
    (h : List.Forall₂ (fun nq kv => kv.1 = nq.1 ∧ P nq kv.2) names l)
    (hnd : (names.map (·.1)).Nodup) (nq : String × String) (hm : nq ∈ names) :
    ∃ b, l.lookup nq.1 = some b ∧ P nq b := by
  induction h with
  | nil => simp at hm
  | cons hd tl ih =>
    next a b as bs =>
    rw [List.map_cons, List.nodup_cons] at hnd
    rw [List.mem_cons] at hm
    obtain ⟨b1, b2⟩ := b
    rcases hm with rfl | hm
    · refine ⟨b2, ?_, hd.2⟩
      rw [List.lookup_cons]
      have : b1 = nq.1 := hd.1
      rw [this]; simp
    · obtain ⟨c, h1, h2⟩ := ih hnd.2 hm
      refine ⟨c, ?_, h2⟩
      rw [List.lookup_cons]
      have : nq.1 ≠ b1 := by
        intro hc
        apply hnd.1
        rw [← hd.1, ← hc]
        exact List.mem_map_of_mem hm
      rw [beq_eq_false_iff_ne.2 this]
      exact h1

theorem wrConvert_ok (altitude : α) (date : ℤ) (target : WrFile α) (keys : List String)
    (gs : List (WrFile α)) :
    ((∃ q ∈ wrNames.map (·.2), q ∉ keys) → ∃ e, wrConvert altitude date (rawOf target keys gs) = .error e) ∧
    ((∀ q ∈ wrNames.map (·.2), q ∈ keys) → ∃ out, wrConvert altitude date (rawOf target keys gs) = .ok out ∧
      out.date = date ∧ out.hours = gs.map (fun f => (f.time - (date : α) * 86400) / 3600) ∧
      out.nRange = target.nRange ∧ out.range = target.range ∧
      (∀ h, out.height h = altitude + target.range h) ∧ out.vars.map (·.1) = wrNames.map (·.1) ∧
      ∀ nq ∈ wrNames, ∀ t f, gs[t]? = some f → ∀ h, out.field nq.1 t h = wrBlock target f nq.2 h) := by
  have hl : ∀ q, (rawOf target keys gs).data.lookup q =
      if q ∈ keys then some (gs.map fun f => wrBlock target f q) else none :=
    fun q => lookup_keys keys (fun k => gs.map fun f => wrBlock target f k) q
  constructor
  · rintro ⟨q, hq, hn⟩
    rw [List.mem_map] at hq
    obtain ⟨nq, hm, rfl⟩ := hq
    obtain ⟨e, he⟩ := mapM_error (wrVariable (rawOf target keys gs)) wrNames nq hm
      (by unfold wrVariable; rw [hl, if_neg hn]; exact ⟨_, rfl⟩)
    refine ⟨e, ?_⟩
    unfold wrConvert
    rw [he]
    rfl
  · intro hall
    have hm := mapM_ok (wrVariable (rawOf target keys gs))
      (fun nq => (nq.1, fun t h => ((gs.map fun f => wrBlock target f nq.2).getD t fun _ => none) h))
      wrNames (by
        intro nq hnq
        unfold wrVariable
        rw [hl, if_pos (hall _ (List.mem_map_of_mem hnq))])
    refine ⟨⟨date, (rawOf target keys gs).times.map fun t => (t - date * 86400) / 3600,
      target.nRange, target.range, fun h => altitude + target.range h,
      wrNames.map fun nq => (nq.1, fun t h =>
        ((gs.map fun f => wrBlock target f nq.2).getD t fun _ => none) h)⟩, ?_, ?_⟩
    · unfold wrConvert
      rw [hm]
      rfl
    · refine ⟨rfl, ?_, rfl, rfl, fun _ => rfl, by simp [List.map_map, Function.comp_def], ?_⟩
      · simp [rawOf, List.map_map, Function.comp_def]
      · intro nq hnq t f hf h
        have hf2 : List.Forall₂ (fun (a : String × String) (b : String × Grid (Option α)) =>
            b.1 = a.1 ∧ ∀ t f, gs[t]? = some f → ∀ h, b.2 t h = wrBlock target f a.2 h) wrNames
            (wrNames.map fun nq => (nq.1, fun t h =>
              ((gs.map fun f => wrBlock target f nq.2).getD t fun _ => none) h)) := by
          rw [List.forall₂_map_right_iff]
          apply List.forall₂_same.2
          intro a _
          refine ⟨rfl, ?_⟩
          intro t f hf h
          dsimp only
          rw [List.getD_eq_getElem?_getD, List.getElem?_map, hf]
          rfl
        obtain ⟨b, hb, hb'⟩ := lookup_vars (P := fun (a : String × String) (b : Grid (Option α)) =>
          ∀ t f, gs[t]? = some f → ∀ h, b t h = wrBlock target f a.2 h) hf2 (by decide) nq hnq
        unfold WrOut.field
        dsimp only
        rw [hb]
        exact hb' t f hf h

/-- C102. Which input gives an output: some file must have valid ranges, and each of the six quantities
must be in one of these files. Files with invalid ranges have no influence. -/
theorem C102_accepted [FloorRing α] (files : List (Option (WrFile α))) (expected : Option ℤ)
    (altitude : α) (under : Grid Bool) :
    ((∃ out, wr2nc files expected altitude under = .ok out) ↔
      Spec.usable files ≠ [] ∧ ∀ q ∈ ["SNR", "DBZH", "VRADH", "WRADH", "ZDR", "RHOHV"],
        ∃ f ∈ Spec.usable files, Spec.HasQuantity f q) ∧
    wr2nc files expected altitude under = wr2nc ((Spec.usable files).map some) expected altitude under := by
  constructor
  · unfold wr2nc
    cases hu : Spec.usable files with
    | nil =>
      have : wrMerge files expected altitude = .error "ValidTimeStampError" := by
        unfold wrMerge wrReadData
        have hu' : files.filterMap id = [] := hu
        rw [hu']
        rfl
      rw [this]
      simp [bind, Except.bind]
    | cons first rest =>
      obtain ⟨target, gs, keys, h1, h2, h3, h4, h5⟩ := wrMerge_eq files expected altitude first rest hu
      rw [h5]
      obtain ⟨c1, c2⟩ := wrConvert_ok altitude (expected.getD ⌊first.time / 86400⌋) target keys gs
      have hn : wrNames.map (·.2) = ["SNR", "DBZH", "VRADH", "WRADH", "ZDR", "RHOHV"] := rfl
      rw [hn] at c1 c2
      by_cases hall : ∀ q ∈ ["SNR", "DBZH", "VRADH", "WRADH", "ZDR", "RHOHV"], q ∈ keys
      · obtain ⟨out, ho, -⟩ := c2 hall
        rw [ho]
        constructor
        · intro _
          refine ⟨by simp, fun q hq => ?_⟩
          rw [← hu]
          exact (h2 q).1 (hall q hq)
        · intro _; exact ⟨_, rfl⟩
      · push Not at hall
        obtain ⟨e, he⟩ := c1 hall
        rw [he]
        constructor
        · rintro ⟨o, ho⟩; cases ho
        · rintro ⟨-, hq⟩
          exfalso
          obtain ⟨q, hq1, hq2⟩ := hall
          apply hq2
          rw [h2, hu]
          exact hq q hq1
  · unfold wr2nc wrMerge wrReadData
    have : ((Spec.usable files).map some).filterMap id = files.filterMap id := by
      rw [List.filterMap_map]
      unfold Spec.usable
      simp
    rw [this]

/-- C102. Merging the files: the output has exactly one profile for each time of the usable files (of the
expected date, if given), in increasing order. It comes from the first file with that time. The gates are
those of a file that reaches farthest, each quantity has the value of the nearest gate of its file and
is missing beyond the gates of the file or if the file lacks the quantity. -/
theorem C102_profiles [FloorRing α] (files : List (Option (WrFile α))) (expected : Option ℤ) (altitude : α)
    (hf : ∀ f ∈ Spec.usable files, 1 ≤ f.nRange ∧ Spec.Increasing f.nRange f.range)
    (out : WrOut α) (h : wrMerge files expected altitude = .ok out) :
    ∃ target ∈ Spec.usable files, ∃ profiles : List (WrFile α),
      (∀ f ∈ Spec.usable files, Spec.reach f ≤ Spec.reach target) ∧
      out.nRange = target.nRange ∧ out.range = target.range ∧
      (∀ g, out.height g = altitude + target.range g) ∧
      profiles.Pairwise (fun f g => f.time < g.time) ∧
      (∀ f, f ∈ profiles ↔ Spec.FirstWithTime (Spec.usable files) f ∧
        ∀ d, expected = some d → ⌊f.time / 86400⌋ = d) ∧
      out.date = expected.getD ⌊((Spec.usable files).headD target).time / 86400⌋ ∧
      out.hours = profiles.map (fun f => (f.time - 86400 * (out.date : α)) / 3600) ∧
      ∀ name quantity, (name, quantity) ∈ [("SNR", "SNR"), ("Zh", "DBZH"), ("v", "VRADH"),
          ("width", "WRADH"), ("zdr", "ZDR"), ("rho_hv", "RHOHV")] →
        ∀ (t : ℕ) f, profiles[t]? = some f → ∀ g < target.nRange,
          Spec.ValueAt f quantity (target.range g) (out.field name t g) := by
  cases hu : Spec.usable files with
  | nil =>
    exfalso
    have hu' : files.filterMap id = [] := hu
    unfold wrMerge wrReadData at h
    rw [hu'] at h
    cases h
  | cons first rest =>
    obtain ⟨target, gs, keys, h1, h2, h3, h4, h5⟩ := wrMerge_eq files expected altitude first rest hu
    rw [h5] at h
    obtain ⟨c1, c2⟩ := wrConvert_ok altitude (expected.getD ⌊first.time / 86400⌋) target keys gs
    by_cases hall : ∀ q ∈ wrNames.map (·.2), q ∈ keys
    · obtain ⟨out', ho, a1, a2, a3, a4, a5, -, a6⟩ := c2 hall
      rw [h] at ho
      have ho := Except.ok.inj ho
      subst ho
      rw [hu] at h1 h4 hf
      refine ⟨target, h1.1, gs, h1.2, a3, a4, a5, h3, h4, a1, ?_, ?_⟩
      · rw [a2, a1]
        simp only [mul_comm]
      · intro name quantity hm t f hft g hg
        rw [a6 (name, quantity) hm t f hft g]
        have hmem : f ∈ first :: rest := by
          obtain ⟨⟨pre, post, he, -⟩, -⟩ := (h4 f).1 (List.mem_of_getElem? hft)
          rw [he]; simp
        exact wrBlock_spec target f quantity (hf f hmem).1 (hf f hmem).2 g hg
    · push Not at hall
      obtain ⟨e, he⟩ := c1 hall
      rw [he] at h; cases h

/-! ### Screening -/

/-- A gate is cluttered: over the profiles with a reflectivity and a velocity of at least -1 m s-1 the
mean reflectivity is above -10 dBZ. -/
def Spec.Cluttered (nT : ℕ) (z v : Grid (Option α)) (g : ℕ) : Prop :=
  ∃ s : Finset ℕ, s.Nonempty ∧ (∀ t, t ∈ s ↔ t < nT ∧ (z t g).isSome ∧ ∃ x, v t g = some x ∧ -1 ≤ x) ∧
    -10 < (∑ t ∈ s, (z t g).getD 0) / s.card

theorem wrMeanZ_spec (nT : ℕ) (z v : Grid (Option α)) (g : ℕ) :
    wrIsClutter nT z v g = true ↔ Spec.Cluttered nT z v g := by
  set p : ℕ → Bool := fun t => (z t g).isSome && (match v t g with | some x => decide (-1 ≤ x) | none => false)
    with hp
  set l := (List.range nT).filter p with hl
  have hused : (List.range nT).filterMap (wrUsed z v g) = l.map fun t => (z t g).getD 0 := by
    rw [hl]
    induction (List.range nT) with
    | nil => rfl
    | cons t ts ih =>
      rw [List.filterMap_cons, List.filter_cons]
      unfold wrUsed at ih ⊢
      cases hv : v t g with
      | none =>
        have : p t = false := by rw [hp]; simp [hv]
        simp only [this, Bool.false_eq_true, if_false]
        exact ih
      | some x =>
        by_cases hx : x < -1
        · have : p t = false := by rw [hp]; simp [hv, hx]
          simp only [hx, if_true, this, Bool.false_eq_true, if_false]
          exact ih
        · cases hz : z t g with
          | none =>
            have : p t = false := by rw [hp]; simp [hz]
            simp only [hx, if_false, this, Bool.false_eq_true]
            exact ih
          | some y =>
            have : p t = true := by rw [hp]; simp [hv, hz, not_lt.1 hx]
            simp only [hx, if_false, this, if_true, List.map_cons]
            rw [ih, hz]
            rfl
  have hnd : l.Nodup := List.nodup_range.filter _
  have hmem : ∀ t, t ∈ l.toFinset ↔ t < nT ∧ (z t g).isSome ∧ ∃ x, v t g = some x ∧ -1 ≤ x := by
    intro t
    rw [List.mem_toFinset, hl, List.mem_filter, List.mem_range, hp]
    simp only [Bool.and_eq_true]
    cases v t g <;> simp
  have hsum : (l.map fun t => (z t g).getD 0).sum = ∑ t ∈ l.toFinset, (z t g).getD 0 :=
    (List.sum_toFinset _ hnd).symm
  have hcard : (l.map fun t => (z t g).getD 0).length = l.toFinset.card := by
    rw [List.length_map, List.toFinset_card_of_nodup hnd]
  unfold wrIsClutter wrMeanZ
  dsimp only
  rw [hused]
  by_cases hnil : l = []
  · rw [hnil, List.map_nil, if_pos rfl]
    simp only [Bool.false_eq_true, false_iff]
    rintro ⟨s, ⟨t, ht⟩, hs, -⟩
    have := (hmem t).2 ((hs t).1 ht)
    rw [hnil] at this
    simp at this
  · rw [if_neg (by simpa using hnil)]
    simp only [decide_eq_true_eq]
    rw [hsum, hcard]
    constructor
    · intro hlt
      refine ⟨l.toFinset, ?_, hmem, hlt⟩
      obtain ⟨t, ht⟩ := List.exists_mem_of_ne_nil l hnil
      exact ⟨t, List.mem_toFinset.2 ht⟩
    · rintro ⟨s, -, hs, hlt⟩
      have : s = l.toFinset := by
        ext t; rw [hs, hmem]
      rw [← this]
      exact hlt

theorem wrClutterTop_spec (nT nH : ℕ) (z v : Grid (Option α)) (h : ℕ) :
    h < wrClutterTop nT nH z v ↔ ∃ g, h ≤ g ∧ g < nH ∧ g < 10 ∧ Spec.Cluttered nT z v g := by
  unfold wrClutterTop
  set p : ℕ → Bool := wrIsClutter nT z v with hp
  have hp' : ∀ g, p g = true ↔ Spec.Cluttered nT z v g := fun g => wrMeanZ_spec nT z v g
  dsimp only
  set l := (List.range (min nH 10)).filter p with hl
  have hmem : ∀ g, g ∈ l ↔ (g < nH ∧ g < 10) ∧ Spec.Cluttered nT z v g := by
    intro g
    rw [hl, List.mem_filter, List.mem_range, hp']
    simp only [lt_min_iff]
  cases hlast : l.getLast? with
  | none =>
    rw [List.getLast?_eq_none_iff] at hlast
    simp only [Nat.not_lt_zero, false_iff]
    rintro ⟨g, -, a, b, c⟩
    have := (hmem g).2 ⟨⟨a, b⟩, c⟩
    rw [hlast] at this
    simp at this
  | some m =>
    simp only
    have hsort : l.Pairwise (· < ·) := List.Pairwise.filter _ List.pairwise_lt_range
    obtain ⟨init, hinit⟩ := List.getLast?_eq_some_iff.1 hlast
    have hmax : ∀ g ∈ l, g ≤ m := by
      intro g hg
      rw [hinit] at hg hsort
      rw [List.pairwise_append] at hsort
      rw [List.mem_append, List.mem_singleton] at hg
      rcases hg with hg | rfl
      · exact le_of_lt (hsort.2.2 g hg m (by simp))
      · exact le_refl _
    have hm : m ∈ l := by rw [hinit]; simp
    obtain ⟨⟨a, b⟩, c⟩ := (hmem m).1 hm
    constructor
    · intro hlt
      exact ⟨m, by omega, a, b, c⟩
    · rintro ⟨g, h1, h2, h3, h4⟩
      have := hmax g ((hmem g).2 ⟨⟨h2, h3⟩, h4⟩)
      omega

theorem lookup_map_field {β γ : Type} (l : List (String × β)) (f : β → γ) (name : String) :
    (l.map fun kv => (kv.1, f kv.2)).lookup name = (l.lookup name).map f := by
  induction l with
  | nil => rfl
  | cons kv l ih =>
    rw [List.map_cons, List.lookup_cons, List.lookup_cons]
    cases name == kv.1
    · exact ih
    · rfl

theorem field_map (vars : List (String × Grid (Option α))) (q : ℕ → ℕ → Prop) [∀ t h, Decidable (q t h)]
    (name : String) (t h : ℕ) (d : ℤ) (hours : List α) (n : ℕ) (r z : ℕ → α) :
    WrOut.field ⟨d, hours, n, r, z, vars.map fun kv =>
        (kv.1, (fun t h => if q t h then none else kv.2 t h : Grid (Option α)))⟩ name t h =
      if q t h then none else WrOut.field ⟨d, hours, n, r, z, vars⟩ name t h := by
  unfold WrOut.field
  dsimp only
  rw [lookup_map_field vars (fun g => (fun t h => if q t h then none else g t h : Grid (Option α)))]
  cases vars.lookup name with
  | none => simp
  | some g => rfl

/-- C102. Screening: a value of any variable survives, unchanged, exactly if its gate is above all
cluttered gates among the first ten and its signal to noise ratio is not negative. Where the ratio is
missing, the number under the mask decides. Profiles and gates stay. -/
theorem C102_screening [FloorRing α] (files : List (Option (WrFile α))) (expected : Option ℤ)
    (altitude : α) (m out : WrOut α) (under : Grid Bool)
    (hm : wrMerge files expected altitude = .ok m) (ho : wr2nc files expected altitude under = .ok out)
    (name : String) (t h : ℕ) (x : α) :
    out.date = m.date ∧ out.hours = m.hours ∧ out.range = m.range ∧ out.height = m.height ∧
    (out.field name t h = some x ↔
      m.field name t h = some x ∧
      (∀ g < m.nRange, g < 10 → Spec.Cluttered m.hours.length (m.field "Zh") (m.field "v") g → g < h) ∧
      (∀ s, m.field "SNR" t h = some s → 0 ≤ s) ∧
      (m.field "SNR" t h = none → under t h = false)) := by
  have ho' : out = wrScreenNoise under (wrScreenClutter m) := by
    unfold wr2nc at ho
    rw [hm] at ho
    exact (Except.ok.inj ho).symm
  rw [ho']
  refine ⟨rfl, rfl, rfl, rfl, ?_⟩
  set top := wrClutterTop m.hours.length m.nRange (m.field "Zh") (m.field "v") with htop
  have hc : ∀ name t h, (wrScreenClutter m).field name t h =
      if h < top then none else m.field name t h := by
    intro name t h
    unfold wrScreenClutter
    exact field_map m.vars (fun _ h => h < top) name t h _ _ _ _ _
  have hn : (wrScreenNoise under (wrScreenClutter m)).field name t h =
      if (match (wrScreenClutter m).field "SNR" t h with
        | some s => decide (s < 0)
        | none => under t h) = true then none else (wrScreenClutter m).field name t h := by
    unfold wrScreenNoise
    exact field_map (wrScreenClutter m).vars (fun t h => (match (wrScreenClutter m).field "SNR" t h with
        | some s => decide (s < 0)
        | none => under t h) = true) name t h _ _ _ _ _
  have htop' : (∀ g < m.nRange, g < 10 →
      Spec.Cluttered m.hours.length (m.field "Zh") (m.field "v") g → g < h) ↔ ¬ h < top := by
    rw [htop, wrClutterTop_spec]
    constructor
    · rintro h1 ⟨g, h2, h3, h4, h5⟩
      have := h1 g h3 h4 h5
      omega
    · intro h1 g h2 h3 h4
      by_contra hc'
      exact h1 ⟨g, by omega, h2, h3, h4⟩
  rw [hn, htop', hc, hc]
  by_cases hlt : h < top
  · simp only [hlt, if_true, not_true_eq_false, false_and, and_false, iff_false]
    intro hcon
    split at hcon <;> cases hcon
  · simp only [hlt, if_false, not_false_eq_true, true_and]
    cases hs : m.field "SNR" t h with
    | none =>
      cases under t h <;> simp
    | some s =>
      by_cases h0 : s < 0
      · simp only [h0, decide_true, if_true, reduceCtorEq, false_iff]
        rintro ⟨-, h1, -⟩
        exact absurd h0 (not_lt.2 (h1 s rfl))
      · simp only [h0, decide_false, Bool.false_eq_true, if_false, Option.some.injEq, forall_eq',
          reduceCtorEq, false_implies, and_true, iff_self_and]
        intro _
        exact not_lt.1 h0

/-- Two files of different reach, the second one twice; the first has a clutter gate. -/
def exampleWr : List (Option (WrFile ℚ)) :=
  let keys := ["SNR", "DBZH", "VRADH", "WRADH", "ZDR", "RHOHV"]
  [some ⟨7200, 2, fun h => 100 * h + 50, keys.map fun k => (k, fun _ => some 3)⟩, none,
   some ⟨3600, 3, fun h => 100 * h + 50, keys.map fun k => (k, fun h => some (h : ℚ))⟩,
   some ⟨3600, 3, fun h => 100 * h + 50, keys.map fun k => (k, fun h => some (-9 : ℚ))⟩]

example : (wrMerge exampleWr (some 0) 10).toOption.map (fun o =>
      (o.hours, o.nRange, o.height 2)) = some ([1, 2], 3, 260) := by decide +kernel

example : (wrMerge exampleWr (some 0) 10).toOption.map (fun o =>
      [o.field "Zh" 0 2, o.field "Zh" 1 1, o.field "Zh" 1 2]) = some [some 2, some 3, none] := by
  decide +kernel

/-- C102. If no file is of the expected date the output has no profiles; no error is raised. -/
theorem C102_no_profiles :
    (wr2nc exampleWr (some 5) 10 (fun _ _ => false)).toOption.map (·.hours) = some [] := by
  decide +kernel

/-- C102. Without an expected date files of other days are kept, with times outside the day. -/
theorem C102_other_days :
    (wr2nc (exampleWr ++ [some ⟨86400 * 2, 1, fun _ => 50, []⟩]) none 10 (fun _ _ => false)).toOption.map
      (fun o => (o.date, o.hours)) = some (0, [1, 2, 48]) := by
  decide +kernel

end

end Cloudnet
