import Mathlib.Tactic
import Verif.Disdrom.Rd80
import Verif.Disdrom.PipeProps
import Verif.Station.ToaProps
import Verif.Station.Csv
import Verif.Precip.Props

namespace Cloudnet

/-! ## C119: RD-80 disdrometers -/

namespace Spec

/-- The field with a title (the last one, if there are several). -/
def TitledField (titles fields : List String) (title field : String) : Prop :=
  ∃ a b, titles.zip fields = a ++ (title, field) :: b ∧ title ∉ b.map Prod.fst

/-- A record is what a line of the file says. -/
structure RdReads {D α : Type} (p : RdParsers D α) (titles : List String) (line : String) (r : RdRecord D α) : Prop where
  time : ∃ date clock, TitledField titles (rdFields line) "YYYY-MM-DD" date ∧ TitledField titles (rdFields line) "hh:mm:ss" clock ∧
    p.time (date ++ " " ++ clock) = some r.time
  classes : r.n.length = 20
  counts : ∀ k < 20, ∃ v n, TitledField titles (rdFields line) ("n" ++ toString (k + 1)) v ∧ p.int v = some n ∧ r.n[k]? = some n
  interval : ∃ v, TitledField titles (rdFields line) "Interval [s]" v ∧ p.int v = some r.interval
  rate : ∃ v, TitledField titles (rdFields line) "RI [mm/h]" v ∧ p.float (commaToPoint v) = some r.rate
  amount : ∃ v, TitledField titles (rdFields line) "RA [mm]" v ∧ p.float (commaToPoint v) = some r.amount
  total : ∃ v, TitledField titles (rdFields line) "RAT [mm]" v ∧ p.float (commaToPoint v) = some r.total

/-- The first record of each time, in the order of time. -/
def FirstPerTime {R α : Type} [LT α] (hours : R → α) (rs out : List R) : Prop :=
  (out.Pairwise fun r r' => hours r < hours r') ∧
    ∀ r, r ∈ out ↔ ∃ a b, rs = a ++ r :: b ∧ ∀ r' ∈ a, hours r' ≠ hours r

end Spec

section
variable {D α : Type}

theorem lookup_foldl_dictSet {β : Type} (l : List (String × β)) (d : List (String × β)) (key : String) :
    (l.foldl (fun d kv => dictSet d kv.1 kv.2) d).lookup key = (l.reverse.lookup key).or (d.lookup key) := by
  induction l generalizing d with
  | nil => simp
  | cons kv l ih =>
    obtain ⟨a, w⟩ := kv
    rw [List.foldl_cons, ih, lookup_dictSet, List.reverse_cons, List.lookup_append]
    cases l.reverse.lookup key with
    | some v => simp
    | none =>
      by_cases h : key = a
      · subst h
        simp [List.lookup_cons]
      · simp [List.lookup_cons, h, beq_false_of_ne h]

theorem lookup_reverse_iff {β : Type} (l : List (String × β)) (key : String) (v : β) :
    l.reverse.lookup key = some v ↔ ∃ a b, l = a ++ (key, v) :: b ∧ key ∉ b.map Prod.fst := by
  induction l with
  | nil => simp
  | cons kv l ih =>
    obtain ⟨a0, w⟩ := kv
    rw [List.reverse_cons, List.lookup_append]
    constructor
    · intro h
      cases hl : l.reverse.lookup key with
      | some w' =>
        rw [hl] at h
        obtain rfl := Option.some.inj h
        obtain ⟨a, b, e, hb⟩ := ih.1 hl
        exact ⟨(a0, w) :: a, b, by rw [e]; rfl, hb⟩
      | none =>
        rw [hl] at h
        simp only [Option.none_or, List.lookup_cons, List.lookup_nil] at h
        split at h
        · rename_i he
          obtain rfl := Option.some.inj h
          refine ⟨[], l, ?_, ?_⟩
          · rw [List.nil_append, eq_of_beq he]
          · intro hm
            obtain ⟨q, hq, e⟩ := List.mem_map.1 hm
            have := List.lookup_eq_none_iff.1 hl q (List.mem_reverse.2 hq)
            rw [bne_iff_ne] at this
            exact this e.symm
        · cases h
    · rintro ⟨a, b, e, hb⟩
      cases a with
      | nil =>
        obtain ⟨e1, rfl⟩ := List.cons.inj e
        cases e1
        have : l.reverse.lookup key = none := by
          rw [List.lookup_eq_none_iff]
          intro q hq
          rw [bne_iff_ne]
          rintro rfl
          exact hb (List.mem_map.2 ⟨q, List.mem_reverse.1 hq, rfl⟩)
        rw [this]
        simp [List.lookup_cons]
      | cons a1 a =>
        obtain ⟨rfl, rfl⟩ := List.cons.inj e
        rw [ih.2 ⟨a, b, rfl, hb⟩]
        rfl

theorem titled_iff (titles fields : List String) (title field : String) :
    (dictZip titles fields).lookup title = some field ↔ Spec.TitledField titles fields title field := by
  unfold dictZip Spec.TitledField
  rw [lookup_foldl_dictSet]
  simp only [List.lookup_nil, Option.or_none]
  exact lookup_reverse_iff _ _ _

theorem rdClasses_get (k : ℕ) (hk : k < 20) : rdClasses[k]? = some ("n" ++ toString (k + 1)) := by
  have : ∀ k < 20, rdClasses[k]? = some ("n" ++ toString (k + 1)) := by decide +kernel
  exact this k hk

theorem rdRecord_iff (p : RdParsers D α) (titles : List String) (line : String) (r : RdRecord D α) :
    rdRecord p (dictZip titles (rdFields line)) = some r ↔ Spec.RdReads p titles line r := by
  have ht : ∀ title field, (dictZip titles (rdFields line)).lookup title = some field ↔
    Spec.TitledField titles (rdFields line) title field := titled_iff _ _
  have hlen : rdClasses.length = 20 := by decide
  unfold rdRecord
  constructor
  · intro h
    simp only [Option.bind_eq_some_iff, Option.map_eq_some_iff] at h
    obtain ⟨date, h1, clock, h2, t, h3, n, h4, i, ⟨vi, h5, h5'⟩, ra, ⟨vr, h6, h6'⟩, am, ⟨va, h7, h7'⟩, tot, ⟨vt, h8, h8'⟩, rfl⟩ := h
    rw [mapM_forall₂] at h4
    refine ⟨⟨date, clock, (ht _ _).1 h1, (ht _ _).1 h2, h3⟩, by rw [← hlen, h4.length_eq], ?_, ⟨vi, (ht _ _).1 h5, h5'⟩,
      ⟨vr, (ht _ _).1 h6, h6'⟩, ⟨va, (ht _ _).1 h7, h7'⟩, ⟨vt, (ht _ _).1 h8, h8'⟩⟩
    intro k hk
    have hk' : k < rdClasses.length := by rw [hlen]; exact hk
    have hn : k < n.length := by rw [← h4.length_eq]; exact hk'
    have := (List.forall₂_iff_get.1 h4).2 k hk' hn
    obtain ⟨v, e1, e2⟩ := Option.bind_eq_some_iff.1 this
    refine ⟨v, n[k], ?_, e2, List.getElem?_eq_getElem hn⟩
    have e3 := rdClasses_get k hk
    rw [List.getElem?_eq_getElem hk'] at e3
    rw [← Option.some.inj e3]
    exact (ht _ _).1 e1
  · rintro ⟨⟨date, clock, h1, h2, h3⟩, hl, hc, ⟨vi, h5, h5'⟩, ⟨vr, h6, h6'⟩, ⟨va, h7, h7'⟩, ⟨vt, h8, h8'⟩⟩
    have h4 : (rdClasses.mapM fun key => ((dictZip titles (rdFields line)).lookup key).bind p.int) = some r.n := by
      rw [mapM_forall₂, List.forall₂_iff_get]
      refine ⟨by rw [hl, hlen], ?_⟩
      intro k h h'
      have hk : k < 20 := by rw [← hlen]; exact h
      obtain ⟨v, n, e1, e2, e3⟩ := hc k hk
      have e4 := rdClasses_get k hk
      rw [List.getElem?_eq_getElem h] at e4
      rw [List.getElem?_eq_getElem h'] at e3
      rw [List.get_eq_getElem, List.get_eq_getElem, Option.some.inj e4, (ht _ _).2 e1, Option.some.inj e3]
      exact e2
    rw [(ht _ _).2 h1, (ht _ _).2 h2, h4, (ht _ _).2 h5, (ht _ _).2 h6, (ht _ _).2 h7, (ht _ _).2 h8]
    simp [h3, h5', h6', h7', h8']

/-- **C119.** The records of a file are those of the lines with as many fields as the header has; each of them has to be
readable. -/
theorem C119_lines (p : RdParsers D α) (header : String) (lines : List String) (rs : List (RdRecord D α)) :
    readRd80 p (header :: lines) = .ok rs ↔
      List.Forall₂ (Spec.RdReads p (rdFields header))
        (lines.filter fun l => decide ((rdFields l).length = (rdFields header).length)) rs := by
  have key : ∀ acc rs, lines.foldlM (rdLine p (rdFields header)) acc = .ok rs ↔ ∃ new, rs = acc ++ new ∧
      List.Forall₂ (Spec.RdReads p (rdFields header))
        (lines.filter fun l => decide ((rdFields l).length = (rdFields header).length)) new := by
    induction lines with
    | nil =>
      intro acc rs
      constructor
      · intro h
        cases h
        exact ⟨[], by simp, .nil⟩
      · rintro ⟨new, rfl, h⟩
        cases h
        simp [pure, Except.pure]
    | cons l ls ih =>
      intro acc rs
      rw [List.foldlM_cons, List.filter_cons]
      by_cases c : (rdFields l).length = (rdFields header).length
      · rw [if_pos (by simpa using c)]
        cases hr : rdRecord p (dictZip (rdFields header) (rdFields l)) with
        | none =>
          have : rdLine p (rdFields header) acc l = .error "KeyError or ValueError" := by
            unfold rdLine
            rw [if_neg (by simpa using c), hr]
          rw [this]
          constructor
          · intro h; cases h
          · rintro ⟨new, rfl, h⟩
            cases h with
            | cons h _ =>
              rw [← rdRecord_iff, hr] at h
              cases h
        | some r =>
          have : rdLine p (rdFields header) acc l = .ok (acc ++ [r]) := by
            unfold rdLine
            rw [if_neg (by simpa using c), hr]
          rw [this]
          have e : ((Except.ok (acc ++ [r]) : Except String _) >>= fun s => ls.foldlM (rdLine p (rdFields header)) s)
            = ls.foldlM (rdLine p (rdFields header)) (acc ++ [r]) := rfl
          rw [e, ih]
          constructor
          · rintro ⟨new, rfl, h⟩
            exact ⟨r :: new, by simp, .cons ((rdRecord_iff _ _ _ _).1 hr) h⟩
          · rintro ⟨new, rfl, h⟩
            cases h with
            | @cons _ b _ m h h' =>
              rw [← rdRecord_iff, hr] at h
              obtain rfl := Option.some.inj h
              exact ⟨m, by simp, h'⟩
      · rw [if_neg (by simpa using c)]
        have : rdLine p (rdFields header) acc l = .ok acc := by
          unfold rdLine
          rw [if_pos c]
        rw [this]
        exact ih acc rs
  unfold readRd80
  rw [List.headD_cons, List.drop_succ_cons, List.drop_zero, key]
  simp

/-- **C119.** Several files are read one after the other; each of them has to have a record. -/
theorem C119_files (p : RdParsers D α) (files : List (List String)) (rs : List (RdRecord D α)) :
    rdRead p files = .ok rs ↔ files ≠ [] ∧ ∃ parts, List.Forall₂ (fun f part => readRd80 p f = .ok part ∧ part ≠ []) files parts ∧
      rs = parts.flatten := by
  unfold rdRead
  constructor
  · intro h
    cases hm : files.mapM (readRd80 p) with
    | error e => rw [hm] at h; cases h
    | ok parts =>
      rw [hm] at h
      dsimp only [Except.bind] at h
      split_ifs at h with c
      cases h
      rw [mapM_except] at hm
      simp only [Bool.or_eq_true, List.isEmpty_iff, List.any_eq_true, not_or] at c
      refine ⟨?_, parts, ?_, rfl⟩
      · rintro rfl
        cases hm
        exact c.1 rfl
      · have h2 : ∀ part ∈ parts, part ≠ [] := fun part hp he => c.2 ⟨part, hp, he⟩
        clear c
        induction hm with
        | nil => exact .nil
        | cons hab _ ih =>
          exact .cons ⟨hab, h2 _ (by simp)⟩ (ih fun part hp => h2 part (by simp [hp]))
  · rintro ⟨hf, parts, h, rfl⟩
    have hm : files.mapM (readRd80 p) = .ok parts := (mapM_except _ _ _).2 (h.imp fun _ _ h => h.1)
    rw [hm]
    dsimp only [Except.bind]
    rw [if_neg]
    simp only [Bool.or_eq_true, List.isEmpty_iff, List.any_eq_true, not_or]
    refine ⟨?_, ?_⟩
    · rintro rfl
      cases h
      exact hf rfl
    · rintro ⟨part, hp, he⟩
      obtain ⟨f, -, hfp⟩ : ∃ f ∈ files, readRd80 p f = .ok part ∧ part ≠ [] := by
        clear hm hf
        induction h with
        | nil => simp at hp
        | cons hab _ ih =>
          rcases List.mem_cons.1 hp with rfl | hp
          · exact ⟨_, by simp, hab⟩
          · obtain ⟨f, h1, h2⟩ := ih hp
            exact ⟨f, by simp [h1], h2⟩
      exact hfp.2 he

theorem rdUnique_spec [Field α] [LinearOrder α] [IsStrictOrderedRing α] (rs : List (RdRecord D α)) :
    Spec.FirstPerTime (fun r => r.time.2) rs (rdUnique rs) := by
  unfold rdUnique
  obtain ⟨u1, u2⟩ := uniqueIndex_spec rs.length (vec (rs.map fun r => r.time.2))
  have hq := picks_pickRows (uniqueIndex rs.length (vec (rs.map fun r => r.time.2))) rs fun i hi => ((u1 i).1 hi).1
  have hv : ∀ k r, rs[k]? = some r → vec (rs.map fun r => r.time.2) k = r.time.2 := by
    intro k r hk
    simp [vec, hk]
  refine ⟨?_, ?_⟩
  · rw [List.pairwise_iff_getElem] at u2 ⊢
    intro a b ha hb hab
    obtain ⟨i, e1, e2⟩ := picks_get hq (List.getElem?_eq_getElem ha)
    obtain ⟨j, e3, e4⟩ := picks_get hq (List.getElem?_eq_getElem hb)
    have := u2 a b (List.getElem?_eq_some_iff.1 e1).1 (List.getElem?_eq_some_iff.1 e3).1 hab
    rw [(List.getElem?_eq_some_iff.1 e1).2, (List.getElem?_eq_some_iff.1 e3).2, hv _ _ e2, hv _ _ e4] at this
    exact this
  · intro r
    constructor
    · intro hr
      obtain ⟨k, hk⟩ := List.mem_iff_getElem?.1 hr
      obtain ⟨i, e1, e2⟩ := picks_get hq hk
      obtain ⟨hi, hfirst⟩ := (u1 i).1 (List.mem_of_getElem? e1)
      obtain ⟨hlt, e3⟩ := List.getElem?_eq_some_iff.1 e2
      refine ⟨rs.take i, rs.drop (i + 1), ?_, ?_⟩
      · rw [← e3, List.getElem_cons_drop, List.take_append_drop]
      · intro r' hr'
        obtain ⟨j, hj⟩ := List.mem_iff_getElem?.1 hr'
        rw [List.getElem?_take] at hj
        split_ifs at hj with hji
        have := hfirst j hji
        rw [hv _ _ hj, hv _ _ e2] at this
        exact this
    · rintro ⟨a, b, e, h⟩
      have hget : rs[a.length]? = some r := by rw [e]; simp
      have hmem : a.length ∈ uniqueIndex rs.length (vec (rs.map fun r => r.time.2)) := by
        rw [u1]
        refine ⟨(List.getElem?_eq_some_iff.1 hget).1, ?_⟩
        intro j hj
        have hj' : rs[j]? = some a[j] := by rw [e, List.getElem?_append_left hj]; exact List.getElem?_eq_getElem hj
        rw [hv _ _ hj', hv _ _ hget]
        exact h _ (List.getElem_mem hj)
      unfold pickRows
      rw [List.mem_filterMap]
      exact ⟨_, hmem, hget⟩

/-- **C119.** The output has the first record of each time of the expected date, in the order of time, converted. -/
theorem C119_records [DecidableEq D] (p : RdParsers D ℝ) (d : D) (files : List (List String)) (out : List RdOut)
    (h : rd802nc p (some d) files = .ok out) :
    ∃ rs kept, rdRead p files = .ok rs ∧
      Spec.FirstPerTime (fun r => r.time.2) (rs.filter fun r => decide (r.time.1 = d)) kept ∧
      List.Forall₂ (fun r o => o = rdConvert r) kept out := by
  unfold rd802nc at h
  cases hr : rdRead p files with
  | error e => rw [hr] at h; cases h
  | ok rs =>
    rw [hr] at h
    dsimp only [Except.bind, rdScreen, Except.map] at h
    cases h
    refine ⟨rs, _, rfl, rdUnique_spec _, ?_⟩
    rw [List.forall₂_map_right_iff]
    exact List.forall₂_same.2 fun _ _ => rfl

/-- **C119, finding** Without a date there is no output, although the documentation says that the date is taken from the file. -/
theorem C119_no_date [DecidableEq D] (p : RdParsers D ℝ) (files : List (List String)) : ¬ (rd802nc p none files).isOk := by
  unfold rd802nc
  cases rdRead p files with
  | error e => simp [Except.bind, Except.isOk, Except.toBool]
  | ok rs => simp [Except.bind, Except.map, rdScreen, Except.isOk, Except.toBool]

/-- **C119, finding** Files without a record of the expected date give an output without records; no error is raised. -/
theorem C119_other_day [DecidableEq D] (p : RdParsers D ℝ) (d : D) (files : List (List String)) (rs : List (RdRecord D ℝ))
    (hr : rdRead p files = .ok rs) (hd : ∀ r ∈ rs, r.time.1 ≠ d) : rd802nc p (some d) files = .ok [] := by
  have hf : (rs.filter fun r => decide (r.time.1 = d)) = [] := by
    rw [List.filter_eq_nil_iff]
    intro r hr
    simpa using hd r hr
  unfold rd802nc
  rw [hr]
  dsimp only [Except.bind, rdScreen, Except.map]
  rw [hf]
  rfl

end

/-- **C119.** The classes follow each other without gaps, their spreads are their widths, and their middles are inside. -/
theorem C119_bins :
    rdLow.length = 20 ∧ rdMid.length = 20 ∧ rdSpread.length = 20 ∧ rdUpp.length = 20 ∧ rdSpeed.length = 20 ∧
      (∀ k < 19, rdUpp[k]? = rdLow[k + 1]?) ∧
      ∀ k < 20, ∃ lo mid hi spread, rdLow[k]? = some lo ∧ rdMid[k]? = some mid ∧ rdUpp[k]? = some hi ∧ rdSpread[k]? = some spread ∧
        0 < lo ∧ lo < mid ∧ mid < hi ∧ spread = hi - lo := by
  refine ⟨by decide, by decide, by decide, by decide, by decide, by decide +kernel, ?_⟩
  have : ∀ k < 20, (do
      let lo ← rdLow[k]?
      let mid ← rdMid[k]?
      let hi ← rdUpp[k]?
      let spread ← rdSpread[k]?
      pure (decide (0 < lo ∧ lo < mid ∧ mid < hi ∧ spread = hi - lo))) = some true := by decide +kernel
  intro k hk
  have h := this k hk
  simp only [Option.bind_eq_bind, Option.bind_eq_some_iff, Option.pure_def, Option.some.injEq, decide_eq_true_eq] at h
  obtain ⟨lo, h1, mid, h2, hi, h3, spread, h4, h5⟩ := h
  exact ⟨lo, mid, hi, spread, h1, h2, h3, h4, h5⟩

/-- **C119.** Larger drops fall faster, all at speeds between 1 and 10 m/s. -/
theorem C119_speeds : rdSpeed.Pairwise (· < ·) ∧ ∀ v ∈ rdSpeed, 1 < v ∧ v < 10 := by decide +kernel

theorem rdSpeed_pos : ∀ v ∈ rdSpeed, (0 : ℚ) < v := by decide +kernel

theorem rdSpread_pos : ∀ v ∈ rdSpread, (0 : ℚ) < v := by decide +kernel

theorem rdMid_pos : ∀ v ∈ rdMid, (0 : ℚ) < v := by decide +kernel

/-- **C119.** Particles counted in a class in a time `dt` by an area of 0.005 m² that fall with the speed of the class are their
number concentration, times the width of the class, in the volume they came from. -/
theorem C119_concentration {D : Type} (r : RdRecord D ℝ) (hn : r.n.length = 20) (hdt : r.interval ≠ 0) :
    (rdConvert r).concentration.length = 20 ∧
    ∀ k < 20, ∃ (c : ℝ) (n : ℤ) (v s : ℚ), (rdConvert r).concentration[k]? = some c ∧ r.n[k]? = some n ∧ rdSpeed[k]? = some v ∧
      rdSpread[k]? = some s ∧ (n : ℝ) = c * (s : ℝ) * ((5 / 1000) * (r.interval : ℝ) * (v : ℝ)) := by
  have l1 : rdSpeed.length = 20 := by decide
  have l2 : rdSpread.length = 20 := by decide
  have hlen : (rdConcentration r.n r.interval).length = 20 := by
    unfold rdConcentration
    simp [hn, l1, l2]
  refine ⟨hlen, ?_⟩
  intro k hk
  have h1 : k < r.n.length := by omega
  have h2 : k < rdSpeed.length := by omega
  have h3 : k < rdSpread.length := by omega
  have h4 : k < (rdConvert r).concentration.length := lt_of_lt_of_eq hk hlen.symm
  refine ⟨_, r.n[k], rdSpeed[k], rdSpread[k], List.getElem?_eq_getElem h4, List.getElem?_eq_getElem h1, List.getElem?_eq_getElem h2,
    List.getElem?_eq_getElem h3, ?_⟩
  have hv : ((rdSpeed[k] : ℚ) : ℝ) ≠ 0 := by
    have := rdSpeed_pos _ (List.getElem_mem h2)
    exact_mod_cast this.ne'
  have hs : ((rdSpread[k] : ℚ) : ℝ) ≠ 0 := by
    have := rdSpread_pos _ (List.getElem_mem h3)
    exact_mod_cast this.ne'
  have hd : (r.interval : ℝ) ≠ 0 := by exact_mod_cast hdt
  have e : (rdConvert r).concentration = rdConcentration r.n r.interval := rfl
  simp only [e, rdConcentration, List.getElem_map, List.getElem_zip, rdArea]
  push_cast
  generalize ((rdSpeed[k] : ℚ) : ℝ) = v at hv ⊢
  generalize ((rdSpread[k] : ℚ) : ℝ) = s at hs ⊢
  field_simp

/-- **C119.** The reflectivity is the sixth moment of the number concentration in dBZ; it is missing where it is below -10 dBZ. The
rain rate is in m/s, and the number of particles is the sum over the classes. -/
theorem C119_values {D : Type} (r : RdRecord D ℝ) (hn : r.n.length = 20) (h0 : ∀ n ∈ r.n, 0 ≤ n) (hdt : 0 < r.interval) :
    (rdConvert r).hour = r.time.2 ∧ (rdConvert r).interval = r.interval ∧ (rdConvert r).rate = r.rate / 1000 / 3600 ∧
    (rdConvert r).particles = r.n.sum ∧
    ∃ z : ℝ, z = (((rdConvert r).concentration.zip (rdMid.zip rdSpread)).map fun q => q.1 * (q.2.1 : ℝ) ^ 6 * (q.2.2 : ℝ)).sum ∧
      0 ≤ z ∧ ((rdConvert r).reflectivity = none ↔ z < 1 / 10) ∧
      ∀ db, (rdConvert r).reflectivity = some db → (10 : ℝ) ^ (db / 10) = z := by
  refine ⟨rfl, rfl, ?_, rfl, ?_⟩
  · show r.rate / (3600 / (1 / 1000)) = _
    field_simp
  · have hd : (0 : ℝ) < r.interval := by exact_mod_cast hdt
    have hz : rdZ r.n r.interval
        = (((rdConvert r).concentration.zip (rdMid.zip rdSpread)).map fun q => q.1 * (q.2.1 : ℝ) ^ 6 * (q.2.2 : ℝ)).sum := by
      have e : (rdConvert r).concentration = rdConcentration r.n r.interval := rfl
      rw [e]
      unfold rdZ rdConcentration
      rw [div_eq_mul_inv, ← List.sum_map_mul_right]
      congr 1
      apply List.ext_getElem
      · simp [hn, show rdSpeed.length = 20 by decide, show rdSpread.length = 20 by decide, show rdMid.length = 20 by decide]
      · intro k h1 h2
        simp only [List.getElem_map, List.getElem_zip]
        have h2' : k < rdSpeed.length := by simp at h1; omega
        have h3' : k < rdSpread.length := by simp at h2; omega
        have hv : ((rdSpeed[k] : ℚ) : ℝ) ≠ 0 := by
          have := rdSpeed_pos _ (List.getElem_mem h2')
          exact_mod_cast this.ne'
        have hs : ((rdSpread[k] : ℚ) : ℝ) ≠ 0 := by
          have := rdSpread_pos _ (List.getElem_mem h3')
          exact_mod_cast this.ne'
        have ha : ((rdArea : ℚ) : ℝ) ≠ 0 := by unfold rdArea; norm_num
        field_simp
    have hnn : 0 ≤ rdZ r.n r.interval := by
      unfold rdZ
      refine div_nonneg (List.sum_nonneg ?_) (mul_nonneg (by unfold rdArea; norm_num) hd.le)
      intro x hx
      obtain ⟨q, hq, rfl⟩ := List.mem_map.1 hx
      obtain ⟨q1, q2⟩ := List.of_mem_zip hq
      obtain ⟨q3, q4⟩ := List.of_mem_zip q2
      have a1 : (0 : ℝ) ≤ q.1 := by exact_mod_cast h0 _ q1
      have a2 : (0 : ℝ) ≤ q.2.1 := by exact_mod_cast (rdSpeed_pos _ q3).le
      positivity
    refine ⟨_, hz, hnn, ?_⟩
    show (rdDb (rdZ r.n r.interval) = none ↔ _) ∧ ∀ db, rdDb (rdZ r.n r.interval) = some db → _
    generalize rdZ r.n r.interval = z at hnn
    unfold rdDb
    rcases hnn.eq_or_lt with rfl | hpos
    · simp
    · rw [if_neg hpos.ne']
      have hlog : 10 * Real.logb 10 z < -10 ↔ z < 1 / 10 := by
        have : Real.logb 10 z < -1 ↔ z < 1 / 10 := by
          rw [Real.logb_lt_iff_lt_rpow (by norm_num) hpos]
          norm_num [Real.rpow_neg]
        rw [← this]
        constructor <;> intro h <;> linarith
      by_cases c : z < 1 / 10
      · rw [if_pos (hlog.2 c)]
        exact ⟨⟨fun _ => c, fun _ => rfl⟩, fun db h => by cases h⟩
      · rw [if_neg fun h => c (hlog.1 h)]
        refine ⟨⟨fun h => by (cases h), fun h => absurd h c⟩, ?_⟩
        intro db hdb
        obtain rfl := Option.some.inj hdb
        rw [mul_div_cancel_left₀ _ (by norm_num : (10 : ℝ) ≠ 0)]
        exact Real.rpow_logb (by norm_num) (by norm_num) hpos

/-- Parsers for examples. -/
def rdTest : RdParsers ℕ ℚ where
  time := fun s => if s = "a b" then some (1, 2) else if s = "a c" then some (1, 1) else none
  int := fun s => ["0", "1", "2"].findIdx? (· == s) |>.map fun n : ℕ => (n : ℤ)
  float := fun s => ["0", "1.5", "2"].findIdx? (· == s) |>.map fun n : ℕ => (n : ℚ)

def rdTestHeader : String :=
  "YYYY-MM-DD\thh:mm:ss\tn1\tn2\tn3\tn4\tn5\tn6\tn7\tn8\tn9\tn10\tn11\tn12\tn13\tn14\tn15\tn16\tn17\tn18\tn19\tn20\tInterval [s]\tRI [mm/h]\tRA [mm]\tRAT [mm]\n"

example : ((readRd80 rdTest [rdTestHeader, "a\tb\t1\t2\t0\t0\t0\t0\t0\t0\t0\t0\t0\t0\t0\t0\t0\t0\t0\t0\t0\t0\t2\t1,5\t2\t0\r\n",
    "truncated\t", "a\tc\t0\t0\t0\t0\t0\t0\t0\t0\t0\t0\t0\t0\t0\t0\t0\t0\t0\t0\t0\t1\t2\t0\t2\t0\r\n"]).toOption.map fun rs =>
      (rdUnique rs).map fun r => (r.time, r.n.take 2, r.rate))
    = some [((1, 1), [0, 0], 0), ((1, 2), [1, 2], 1)] := by
  decide +kernel

/-- **C119.** Commas become points, all other characters stay. -/
theorem C119_decimal (s : String) : (commaToPoint s).toList.length = s.toList.length ∧
    ∀ (i : ℕ) c, s.toList[i]? = some c → (commaToPoint s).toList[i]? = some (if c = ',' then '.' else c) := by
  unfold commaToPoint
  simp only [String.toList_ofList, List.length_map, true_and, List.getElem?_map]
  intro i c h
  rw [h]; rfl

example : commaToPoint "1,25" = "1.25" := by decide +kernel

end Cloudnet
