import Mathlib.Tactic
import Verif.Precip.Model
import Verif.Station.Pipeline
import Verif.Times.Props

set_option linter.unusedSimpArgs false

namespace Cloudnet

/-! ## C115: rain gauges and present weather sensors -/

namespace Spec

/-- One record for each time, in order. -/
def OnePerTime {R α : Type} [LT α] (hours : R → α) (rs out : List R) : Prop :=
  (out.Pairwise fun r r' => hours r < hours r') ∧ (∀ r ∈ out, r ∈ rs) ∧ ∀ r ∈ rs, ∃ r' ∈ out, hours r' = hours r

/-- A row of the rain gauge that counts: the number of columns is right and its time is of the expected date. -/
def IsRainRow {T : Type} (p : Talker) (time : String → Option T) (onDate : Option (T → Bool)) (row : List String) : Prop :=
  row.length = p.width ∧ ∃ t, time (p.time row) = some t ∧ ∀ f, onDate = some f → f t = true

/-- The old layout of Lindenberg: date, time, rate and amount are the first of 16 columns. -/
def rainLayout16 : Talker where
  width := 16
  time := fun row => row.getD 0 "" ++ " " ++ row.getD 1 ""
  rate := 2
  amount := 3

/-- The layout of 22 columns: a time stamp first, rate and amount in the fourth and fifth column. -/
def rainLayout22 : Talker where
  width := 22
  time := fun row => row.getD 0 ""
  rate := 3
  amount := 4

/-- One of the values is there. -/
def AnyData {T α : Type} (r : SensorRecord T α) : Prop :=
  r.visibility.isSome ∨ r.synop.isSome ∨ r.rate.isSome ∨ r.amount.isSome ∨ r.snow.isSome

/-- What it says. -/
def IsRainRecord {T α : Type} (p : Talker) (time : String → Option T) (number : String → Option (Option α)) (row : List String)
    (r : RainRecord T α) : Prop :=
  time (p.time row) = some r.time ∧ (∃ v, row[p.rate]? = some v ∧ number v = some r.rate) ∧
    ∃ v, row[p.amount]? = some v ∧ number v = some r.amount

end Spec

section
variable {T α R : Type}

/-- Sorting and removing duplicates leaves one record for each time. -/
theorem sortUnique_spec [Field α] [LinearOrder α] [IsStrictOrderedRing α] (hours : R → α) (order : List ℕ) (rs : List R)
    (ho : order.Perm (List.range rs.length)) : Spec.OnePerTime hours rs (sortUnique hours order rs) := by
  unfold sortUnique
  dsimp only
  set s := pickRows order rs with hs
  have hp : Spec.Picks order rs s := picks_pickRows _ _ fun i hi => List.mem_range.1 (ho.mem_iff.1 hi)
  obtain ⟨u1, u2⟩ := uniqueIndex_spec s.length (vec (s.map hours))
  have hq : Spec.Picks (uniqueIndex s.length (vec (s.map hours))) s (pickRows (uniqueIndex s.length (vec (s.map hours))) s) :=
    picks_pickRows _ _ fun i hi => ((u1 i).1 hi).1
  have hv : ∀ k r, s[k]? = some r → vec (s.map hours) k = hours r := by
    intro k r hk
    simp [vec, hk]
  refine ⟨?_, ?_, ?_⟩
  · rw [List.pairwise_iff_getElem] at u2 ⊢
    intro a b ha hb hab
    obtain ⟨i, e1, e2⟩ := picks_get hq (List.getElem?_eq_getElem ha)
    obtain ⟨j, e3, e4⟩ := picks_get hq (List.getElem?_eq_getElem hb)
    have := u2 a b (List.getElem?_eq_some_iff.1 e1).1 (List.getElem?_eq_some_iff.1 e3).1 hab
    rw [(List.getElem?_eq_some_iff.1 e1).2, (List.getElem?_eq_some_iff.1 e3).2, hv _ _ e2, hv _ _ e4] at this
    exact this
  · intro r hr
    obtain ⟨k, hk⟩ := List.mem_iff_getElem?.1 hr
    obtain ⟨i, -, e2⟩ := picks_get hq hk
    obtain ⟨j, -, e4⟩ := picks_get hp e2
    exact List.mem_of_getElem? e4
  · intro r hr
    obtain ⟨i, hi⟩ := List.mem_iff_getElem?.1 hr
    have him : i ∈ order := ho.mem_iff.2 (List.mem_range.2 (List.getElem?_eq_some_iff.1 hi).1)
    obtain ⟨k, hk⟩ := List.mem_iff_getElem?.1 him
    obtain ⟨r', e1, e2⟩ := picks_get' hp hk
    rw [hi] at e2
    cases e2
    -- the first record with this time
    have hex : ∃ m, m < s.length ∧ vec (s.map hours) m = hours r :=
      ⟨k, (List.getElem?_eq_some_iff.1 e1).1, hv k r e1⟩
    classical
    obtain ⟨hm1, hm2⟩ := Nat.find_spec hex
    have hmem : Nat.find hex ∈ uniqueIndex s.length (vec (s.map hours)) := by
      rw [u1]
      refine ⟨hm1, fun j hj hc => Nat.find_min hex hj ⟨by omega, by rw [hc, hm2]⟩⟩
    obtain ⟨q, hq'⟩ := List.mem_iff_getElem?.1 hmem
    obtain ⟨r', e3, e4⟩ := picks_get' hq hq'
    exact ⟨r', List.mem_of_getElem? e3, by rw [← hv _ _ e4, hm2]⟩

/-! ### rain[e]H3 -/

open Classical in
/-- **C115.** A file of the rain gauge is read exactly if the numbers of all rows that count can be read; rows with another number
of columns, a bad time or of another day are ignored. -/
theorem C115_rain_rows (p : Talker) (hp : p.rate < p.width ∧ p.amount < p.width) (time : String → Option T)
    (number : String → Option (Option α)) (onDate : Option (T → Bool)) (rows : List (List String)) (rs : List (RainRecord T α)) :
    talkerRead p time number onDate rows = .ok rs ↔
      List.Forall₂ (Spec.IsRainRecord p time number) (rows.filter fun r => decide (Spec.IsRainRow p time onDate r)) rs := by
  unfold talkerRead
  have key : ∀ (acc rs : List (RainRecord T α)), rows.foldlM (talkerRow p time number onDate) acc = .ok rs ↔
      ∃ new, rs = acc ++ new ∧
        List.Forall₂ (Spec.IsRainRecord p time number) (rows.filter fun r => decide (Spec.IsRainRow p time onDate r)) new := by
    induction rows with
    | nil =>
      intro acc rs
      constructor
      · intro h; cases h; exact ⟨[], by simp, .nil⟩
      · rintro ⟨new, rfl, h⟩; cases h; simp [pure, Except.pure]
    | cons row rows ih =>
      intro acc rs
      rw [List.foldlM_cons, List.filter_cons, talkerRow]
      by_cases hl : row.length = p.width
      · rw [if_neg (not_not.2 hl)]
        cases ht : time (p.time row) with
        | none =>
          have hn : ¬ Spec.IsRainRow p time onDate row := by
            rintro ⟨-, t, h, -⟩
            rw [ht] at h; cases h
          simp only [hn, decide_false, Bool.false_eq_true, if_false]
          exact ih acc rs
        | some t =>
          dsimp only
          by_cases hd : (onDate.map fun f => f t) = some false
          · have hn : ¬ Spec.IsRainRow p time onDate row := by
              rintro ⟨-, t', h, hf⟩
              rw [ht] at h
              cases h
              rw [Option.map_eq_some_iff] at hd
              obtain ⟨f, h1, h2⟩ := hd
              rw [hf f h1] at h2; cases h2
            rw [if_pos hd]
            simp only [hn, decide_false, Bool.false_eq_true, if_false]
            exact ih acc rs
          · have hn : Spec.IsRainRow p time onDate row := by
              refine ⟨hl, t, ht, ?_⟩
              intro f hf
              subst hf
              simpa using hd
            rw [if_neg hd]
            simp only [hn, decide_true, if_true]
            have g1 : row[p.rate]? = some (row.getD p.rate "") := by
              rw [List.getElem?_eq_getElem (by omega)]; simp [List.getD, show p.rate < row.length by omega]
            have g2 : row[p.amount]? = some (row.getD p.amount "") := by
              rw [List.getElem?_eq_getElem (by omega)]; simp [List.getD, show p.amount < row.length by omega]
            generalize row.getD p.rate "" = v1 at g1
            generalize row.getD p.amount "" = v2 at g2
            have hrec : ∀ r : RainRecord T α, Spec.IsRainRecord p time number row r ↔
                r.time = t ∧ number v1 = some r.rate ∧ number v2 = some r.amount := by
              intro r
              unfold Spec.IsRainRecord
              rw [ht, g1, g2]
              simp [eq_comm]
            cases h1 : number v1 with
            | none =>
              constructor
              · intro h; cases h
              · rintro ⟨new, -, h⟩
                cases h with
                | cons a b => rw [hrec] at a; rw [h1] at a; cases a.2.1
            | some r1 =>
              cases h2 : number v2 with
              | none =>
                constructor
                · intro h; cases h
                · rintro ⟨new, -, h⟩
                  cases h with
                  | cons a b => rw [hrec] at a; rw [h2] at a; cases a.2.2
              | some a1 =>
                refine Iff.trans (ih _ rs) ?_
                constructor
                · rintro ⟨new, rfl, h⟩
                  exact ⟨⟨t, r1, a1⟩ :: new, by simp, .cons ((hrec _).2 ⟨rfl, h1, h2⟩) h⟩
                · rintro ⟨new, rfl, h⟩
                  cases h with
                  | @cons _ r _ new a b =>
                    rw [hrec, h1, h2] at a
                    obtain ⟨e1, e2, e3⟩ := a
                    refine ⟨new, ?_, b⟩
                    cases e1; cases e2; cases e3
                    simp
      · have hn : ¬ Spec.IsRainRow p time onDate row := fun h => hl h.1
        rw [if_pos hl]
        simp only [hn, decide_false, Bool.false_eq_true, if_false]
        exact ih acc rs
  rw [key]
  simp

open Classical in
/-- **C115.** The file has to have rows of 22 or 16 columns in the median, and at least one row that counts. -/
theorem C115_rain_protocol (time16 time22 : String → Option T) (number : String → Option (Option α)) (onDate : Option (T → Bool))
    (rows : List (List String)) (rs : List (RainRecord T α)) :
    rainParse time16 time22 number onDate rows = .ok rs ↔ rs ≠ [] ∧
      ((talkerColumns rows = some 22 ∧ List.Forall₂ (Spec.IsRainRecord Spec.rainLayout22 time22 number)
          (rows.filter fun r => decide (Spec.IsRainRow Spec.rainLayout22 time22 onDate r)) rs) ∨
       (talkerColumns rows = some 16 ∧ List.Forall₂ (Spec.IsRainRecord Spec.rainLayout16 time16 number)
          (rows.filter fun r => decide (Spec.IsRainRow Spec.rainLayout16 time16 onDate r)) rs)) := by
  have e16 : Spec.rainLayout16 = talker16 := rfl
  have e22 : Spec.rainLayout22 = talker22 := rfl
  rw [e16, e22, ← C115_rain_rows talker22 (by decide), ← C115_rain_rows talker16 (by decide)]
  unfold rainParse
  have hb : ∀ x : Except String (List (RainRecord T α)),
      (x.bind fun rs => if rs = [] then .error "ValidTimeStampError" else .ok rs) = .ok rs ↔ rs ≠ [] ∧ x = .ok rs := by
    intro x
    cases x with
    | error e =>
      constructor
      · intro h; cases h
      · rintro ⟨-, h⟩; cases h
    | ok l =>
      dsimp only [Except.bind]
      constructor
      · intro h
        split at h
        · cases h
        · rename_i hne; cases h; exact ⟨hne, rfl⟩
      · rintro ⟨h1, h2⟩
        cases h2
        rw [if_neg h1]
  by_cases h22 : talkerColumns rows = some 22
  · rw [if_pos h22, hb, h22]
    simp
  · rw [if_neg h22]
    by_cases h16 : talkerColumns rows = some 16
    · rw [if_pos h16, hb, h16]
      simp
    · rw [if_neg h16]
      constructor
      · intro h; cases h
      · rintro ⟨-, h | h⟩
        · exact absurd h.1 h22
        · exact absurd h.1 h16

variable [Field α] [LinearOrder α] [IsStrictOrderedRing α]

/-- **C115.** The output has one record for each time of day, in order: time, rate in m/s and the cumulative amount in m of a row of
the file. -/
theorem C115_rain_records (hours : T → α) (order : List ℕ) (rs : List (RainRecord T α)) (out : List (RainOut α))
    (ho : order.Perm (List.range rs.length)) (h : rainFile hours order rs = .ok out) :
    ∃ amount, (normalizeAmount rs.length fun i => (rs[i]?).bind fun r => r.amount.map (· / 1000)) = .ok amount ∧
      (out.Pairwise fun r r' => r.hour < r'.hour) ∧
      (∀ o ∈ out, ∃ i r, rs[i]? = some r ∧ o.hour = hours r.time ∧ o.rate = r.rate.map (· / 3600000) ∧ o.amount = amount i) ∧
      ∀ r ∈ rs, ∃ o ∈ out, o.hour = hours r.time := by
  unfold rainFile rainConvert at h
  cases ha : normalizeAmount rs.length (fun i => (rs[i]?).bind fun r => r.amount.map (· / 1000)) with
  | error e => rw [ha] at h; cases h
  | ok amount =>
    rw [ha] at h
    cases h
    refine ⟨amount, rfl, ?_⟩
    obtain ⟨g1, g2, g3⟩ := sortUnique_spec RainOut.hour order
      (rs.zipIdx.map fun ri => (⟨hours ri.1.time, ri.1.rate.map fun x => x / 3600 / 1000, amount ri.2⟩ : RainOut α))
      (by simpa using ho)
    refine ⟨g1, ?_, ?_⟩
    · intro o ho'
      obtain ⟨⟨r, i⟩, hri, rfl⟩ := List.mem_map.1 (g2 o ho')
      refine ⟨i, r, List.mem_zipIdx_iff_getElem?.1 hri, rfl, ?_, rfl⟩
      dsimp only
      cases r.rate with
      | none => rfl
      | some x => simp only [Option.map_some, Option.some.injEq]; ring
    · intro r hr
      obtain ⟨i, hi⟩ := List.mem_iff_getElem?.1 hr
      obtain ⟨o, h1, h2⟩ := g3 _ (List.mem_map.2 ⟨(r, i), List.mem_zipIdx_iff_getElem?.2 hi, rfl⟩)
      exact ⟨o, h1, h2⟩

/-- **C115.** If the rows of the file are in order of time and no amount is negative, the amount written never decreases with
time. -/
theorem C115_rain_monotone (hours : T → α) (order : List ℕ) (rs : List (RainRecord T α)) (out : List (RainOut α))
    (ho : order.Perm (List.range rs.length)) (h : rainFile hours order rs = .ok out)
    (hsorted : rs.Pairwise fun r r' => hours r.time < hours r'.time) (hpos : ∀ r ∈ rs, ∀ v, r.amount = some v → 0 ≤ v) :
    ∀ o ∈ out, ∀ o' ∈ out, o.hour ≤ o'.hour → ∀ a b, o.amount = some a → o'.amount = some b → a ≤ b := by
  obtain ⟨amount, h1, -, h3, -⟩ := C115_rain_records hours order rs out ho h
  intro o ho o' ho' hle a b ha hb
  obtain ⟨i, r, e1, e2, -, e4⟩ := h3 o ho
  obtain ⟨j, r', f1, f2, -, f4⟩ := h3 o' ho'
  have hij : i ≤ j := by
    by_contra hc
    have := List.pairwise_iff_getElem.1 hsorted j i (List.getElem?_eq_some_iff.1 f1).1 (List.getElem?_eq_some_iff.1 e1).1 (by omega)
    rw [(List.getElem?_eq_some_iff.1 f1).2, (List.getElem?_eq_some_iff.1 e1).2] at this
    rw [e2, f2] at hle
    exact absurd hle (not_le.2 this)
  refine C53_monotone _ _ _ h1 ?_ i j hij a b (by rw [← e4, ha]) (by rw [← f4, hb])
  intro k v hk
  rw [Option.bind_eq_some_iff] at hk
  obtain ⟨r, hr, hv⟩ := hk
  rw [Option.map_eq_some_iff] at hv
  obtain ⟨w, hw, rfl⟩ := hv
  exact div_nonneg (hpos r (List.mem_of_getElem? hr) w hw) (by norm_num)

/-! ### FD12P -/

omit [Field α] [LinearOrder α] [IsStrictOrderedRing α] in
/-- **C115.** A line of the sensor gives a record exactly if it has 13 columns and the ones used can be read, where a slash
marks a missing value. -/
theorem C115_sensor_line (p : SensorParsers T α) (columns : List String) (r : SensorRecord T α) :
    sensorLine p columns = some r ↔ columns.length = 13 ∧
      ∃ date time visibility synop rate amount snow,
        columns[0]? = some date ∧ columns[1]? = some time ∧ columns[4]? = some visibility ∧ columns[7]? = some synop ∧
        columns[10]? = some rate ∧ columns[11]? = some amount ∧ columns[12]? = some snow ∧
        p.time date time = some r.time ∧
        (∀ v x, (v, x) ∈ [(visibility, r.visibility), (synop, r.synop), (snow, r.snow)] →
          ('/' ∈ v.toList ∧ x = none) ∨ ('/' ∉ v.toList ∧ ∃ y, p.int v = some y ∧ x = some y)) ∧
        ∀ v x, (v, x) ∈ [(rate, r.rate), (amount, r.amount)] →
          ('/' ∈ v.toList ∧ x = none) ∨ ('/' ∉ v.toList ∧ p.float v = some x) := by
  have hint : ∀ v x, p.parseInt v = some x ↔
      ('/' ∈ v.toList ∧ x = none) ∨ ('/' ∉ v.toList ∧ ∃ y, p.int v = some y ∧ x = some y) := by
    intro v x
    unfold SensorParsers.parseInt
    by_cases h : '/' ∈ v.toList
    · simp [h, eq_comm]
    · simp [h, eq_comm]
  have hfloat : ∀ v x, p.parseFloat v = some x ↔
      ('/' ∈ v.toList ∧ x = none) ∨ ('/' ∉ v.toList ∧ p.float v = some x) := by
    intro v x
    unfold SensorParsers.parseFloat
    by_cases h : '/' ∈ v.toList
    · simp [h, eq_comm]
    · simp [h]
  unfold sensorLine
  constructor
  · intro h
    split at h
    · rename_i date time _ _ visibility _ _ synop _ _ rate amount snow
      simp only [Option.bind_eq_some_iff, Option.map_eq_some_iff] at h
      obtain ⟨t, h1, v, h2, s, h3, x, h4, a, h5, n, h6, rfl⟩ := h
      refine ⟨rfl, date, time, visibility, synop, rate, amount, snow, rfl, rfl, rfl, rfl, rfl, rfl, rfl, h1, ?_, ?_⟩
      · intro w y hw
        rw [← hint]
        simp only [List.mem_cons, Prod.mk.injEq, List.not_mem_nil, or_false] at hw
        rcases hw with ⟨rfl, rfl⟩ | ⟨rfl, rfl⟩ | ⟨rfl, rfl⟩ <;> assumption
      · intro w y hw
        rw [← hfloat]
        simp only [List.mem_cons, Prod.mk.injEq, List.not_mem_nil, or_false] at hw
        rcases hw with ⟨rfl, rfl⟩ | ⟨rfl, rfl⟩ <;> assumption
    · cases h
  · rintro ⟨hlen, date, time, visibility, synop, rate, amount, snow, c0, c1, c4, c7, c10, c11, c12, ht, hi, hf⟩
    match columns, hlen with
    | [x0, x1, x2, x3, x4, x5, x6, x7, x8, x9, x10, x11, x12], _ =>
      cases c0; cases c1; cases c4; cases c7; cases c10; cases c11; cases c12
      dsimp only
      rw [ht, (hint _ _).2 (hi visibility r.visibility (by simp)), (hint _ _).2 (hi synop r.synop (by simp)),
        (hfloat _ _).2 (hf rate r.rate (by simp)), (hfloat _ _).2 (hf amount r.amount (by simp)),
        (hint _ _).2 (hi snow r.snow (by simp))]
      rfl

omit [Field α] [LinearOrder α] [IsStrictOrderedRing α] in
theorem hasData_iff (r : SensorRecord T α) : r.hasData = true ↔ Spec.AnyData r := by
  unfold SensorRecord.hasData Spec.AnyData
  simp [or_assoc]

open Classical in
omit [Field α] [LinearOrder α] [IsStrictOrderedRing α] in
/-- **C115.** The lines of the sensor are read exactly if all readable ones are of the expected date and one of them has data;
records without any data are dropped. So **a single line of another day rejects the file**. -/
theorem C115_sensor_accepted (p : SensorParsers T α) (onDate : Option (T → Bool)) (lines : List (List String))
    (rs : List (SensorRecord T α)) :
    sensorParse p onDate lines = .ok rs ↔
      (∀ line ∈ lines, ∀ r, sensorLine p line = some r → ∀ f, onDate = some f → f r.time = true) ∧
      rs = ((lines.filterMap (sensorLine p)).filter fun r => decide (Spec.AnyData r)) ∧ rs ≠ [] := by
  have hd : (fun r : SensorRecord T α => decide (Spec.AnyData r)) = SensorRecord.hasData := by
    funext r
    rw [Bool.eq_iff_iff, hasData_iff]
    simp
  rw [hd]
  unfold sensorParse
  dsimp only
  have hall : (∀ line ∈ lines, ∀ r, sensorLine p line = some r → ∀ f, onDate = some f → f r.time = true) ↔
      ∀ r ∈ lines.filterMap (sensorLine p), ∀ f, onDate = some f → f r.time = true := by
    constructor
    · intro h r hr
      obtain ⟨line, h1, h2⟩ := List.mem_filterMap.1 hr
      exact h line h1 r h2
    · intro h line h1 r h2
      exact h r (List.mem_filterMap.2 ⟨line, h1, h2⟩)
  rw [hall]
  generalize lines.filterMap (sensorLine p) = l
  have hsel : ∀ t, (decide ((onDate.map fun f => f t) ≠ some false)) = true ↔ ∀ f, onDate = some f → f t = true := by
    intro t
    cases onDate <;> simp
  have hfl : ((l.map SensorRecord.time).filter fun t => decide ((onDate.map fun f => f t) ≠ some false)).length = l.length ↔
      ∀ r ∈ l, ∀ f, onDate = some f → f r.time = true := by
    have := List.length_filter_eq_length_iff (p := fun t => decide ((onDate.map fun f => f t) ≠ some false))
      (l := l.map SensorRecord.time)
    rw [List.length_map] at this
    rw [this]
    constructor
    · intro h r hr
      exact (hsel _).1 (h _ (List.mem_map.2 ⟨r, hr, rfl⟩))
    · intro h t ht
      obtain ⟨r, hr, rfl⟩ := List.mem_map.1 ht
      exact (hsel _).2 (h r hr)
  rw [← hfl]
  by_cases h0 : (l.map SensorRecord.time).filter (fun t => decide ((onDate.map fun f => f t) ≠ some false)) = []
  · rw [if_pos h0, h0]
    constructor
    · intro h; cases h
    · rintro ⟨h1, rfl, h3⟩
      have : l = [] := List.length_eq_zero_iff.1 (by rw [← h1]; rfl)
      rw [this] at h3
      exact absurd rfl h3
  · rw [if_neg h0]
    by_cases h1 : ((l.map SensorRecord.time).filter fun t => decide ((onDate.map fun f => f t) ≠ some false)).length = l.length
    · rw [if_neg (not_not.2 h1)]
      by_cases h2 : (l.all fun r => !r.hasData) = true
      · rw [if_pos h2]
        constructor
        · intro h; cases h
        · rintro ⟨-, rfl, h3⟩
          exfalso
          apply h3
          rw [List.filter_eq_nil_iff]
          intro r hr
          simpa using List.all_eq_true.1 h2 r hr
      · rw [if_neg h2]
        constructor
        · intro h
          cases h
          refine ⟨h1, rfl, ?_⟩
          intro hc
          rw [List.filter_eq_nil_iff] at hc
          apply h2
          rw [List.all_eq_true]
          intro r hr
          simpa using hc r hr
        · rintro ⟨-, rfl, -⟩; rfl
    · rw [if_pos h1]
      constructor
      · intro h; cases h
      · rintro ⟨h, -⟩; exact absurd h h1

/-- **C115.** The output of the sensor has one record for each time of day, in order: the values of a line, with rates in m/s, and
amounts in m, which are made cumulative in order of time. -/
theorem C115_sensor_records (hours : T → α) (order : List ℕ) (rs : List (SensorRecord T α)) (out : List (SensorOut α))
    (ho : order.Perm (List.range rs.length)) (h : sensorFile hours order rs = .ok out) :
    ∃ kept amount snow, Spec.OnePerTime (fun r => hours r.time) rs kept ∧
      (normalizeAmount kept.length fun i => (kept[i]?).bind fun r => r.amount.map (· / 1000)) = .ok amount ∧
      (normalizeAmount kept.length fun i => (kept[i]?).bind fun r => r.snow.map (· / 1000)) = .ok snow ∧
      out.length = kept.length ∧
      ∀ i r o, kept[i]? = some r → out[i]? = some o → o.hour = hours r.time ∧ o.visibility = r.visibility ∧ o.synop = r.synop ∧
        o.rate = r.rate.map (· / 3600000) ∧ o.amount = amount i ∧ o.snow = snow i := by
  unfold sensorFile sensorConvert at h
  refine ⟨sortUnique (fun r => hours r.time) order rs, ?_⟩
  have hspec := sortUnique_spec (fun r : SensorRecord T α => hours r.time) order rs ho
  generalize sortUnique (fun r : SensorRecord T α => hours r.time) order rs = kept at h hspec
  cases ha : normalizeAmount kept.length (fun i => (kept[i]?).bind fun r => r.amount.map (· / 1000)) with
  | error e => rw [ha] at h; cases h
  | ok amount =>
    cases hn : normalizeAmount kept.length (fun i => (kept[i]?).bind fun r => r.snow.map (· / 1000)) with
    | error e => rw [ha, hn] at h; cases h
    | ok snow =>
      rw [ha, hn] at h
      cases h
      refine ⟨amount, snow, hspec, rfl, rfl, by simp, ?_⟩
      intro i r o hr ho
      rw [List.getElem?_map, List.getElem?_zipIdx, hr] at ho
      simp only [Option.map_some, Option.some.injEq, zero_add] at ho
      subst ho
      refine ⟨rfl, rfl, rfl, ?_, rfl, rfl⟩
      dsimp only
      cases r.rate with
      | none => rfl
      | some x => simp only [Option.map_some, Option.some.injEq]; ring

end

/-! ### Concrete files -/

/-- A file of the rain gauge with the later row first. -/
def unsortedRain : List (RainRecord ℚ ℚ) := [⟨2, some 0, some 5000⟩, ⟨1, some 0, some 3000⟩]

/-- **C115 finding.** The amount is made cumulative before the records are sorted. If the rows of a file are not in order of time the
smaller amount of the earlier time counts as a reset of the gauge: the amount written falls from 3 m to 0. -/
theorem C115_unsorted : rainFile id [1, 0] unsortedRain = .ok [⟨1, some 0, some 3⟩, ⟨2, some 0, some 0⟩] := by
  have : (rainFile id [1, 0] unsortedRain).toOption = some [⟨1, some 0, some 3⟩, ⟨2, some 0, some 0⟩] := by decide +kernel
  cases h : rainFile id [1, 0] unsortedRain with
  | error e => rw [h] at this; cases this
  | ok out => rw [h] at this; cases this; rfl

example : (rainFile id [0, 1, 2] ([⟨1, some 36, some 5⟩, ⟨2, none, some 7⟩, ⟨2, none, some 8⟩] : List (RainRecord ℚ ℚ))).toOption =
    some [⟨1, some (1 / 100000), some 0⟩, ⟨2, none, some (2 / 1000)⟩] := by decide +kernel

/-- A few numbers. -/
def fewNumbers (v : String) : Option (Option ℚ) :=
  if v = "5" then some (some 5) else if v = "7" then some (some 7) else if v = "nan" then some none else none

example : (rainParse (fun v => if v = "a b" then some 1 else none) (fun _ => (none : Option ℕ)) fewNumbers none
    [["a", "b", "5", "7", "", "", "", "", "", "", "", "", "", "", "", ""], [],
     ["a", "c", "oops", "7", "", "", "", "", "", "", "", "", "", "", "", ""],
     ["a", "b", "7", "nan", "", "", "", "", "", "", "", "", "", "", "", ""]]).toOption =
    some [⟨1, some 5, some 7⟩, ⟨1, some 7, none⟩] := by decide +kernel

/-- A sensor that measures little. -/
def fewParsers : SensorParsers ℕ ℚ :=
  ⟨fun _ t => if t = "b" then some 1 else if t = "c" then some 2 else none, fun v => (fewNumbers v).getD none, fewNumbers⟩

example : (sensorParse fewParsers (some fun t => t == 1)
    [["a", "b", "-", "-", "5", "-", "-", "//", "-", "-", "7", "5", "///"], ["a"],
     ["a", "b", "-", "-", "//", "-", "-", "//", "-", "-", "nan", "//", "///"]]).toOption =
    some [⟨1, some 5, none, some 7, some 5, none⟩] := by decide +kernel

/-- **C115 finding.** The expected date removes times but not the values of other days: one such line rejects the file. -/
theorem C115_other_day :
    (sensorParse fewParsers (some fun t => t == 1)
      [["a", "b", "-", "-", "5", "-", "-", "//", "-", "-", "7", "5", "///"],
       ["a", "c", "-", "-", "5", "-", "-", "//", "-", "-", "7", "5", "///"]]).isOk = false ∧
    (sensorParse fewParsers (some fun t => t == 1)
      [["a", "b", "-", "-", "5", "-", "-", "//", "-", "-", "7", "5", "///"]]).isOk = true := by decide +kernel

example : (sensorFile (fun t : ℕ => (t : ℚ)) [1, 0] [⟨2, some 5, none, some 36, some 5, none⟩, ⟨1, none, none, none, some 3, some 1⟩]).toOption =
    some [⟨1, none, none, none, some 0, some 0⟩, ⟨2, some 5, none, some (1 / 100000), some (2 / 1000), none⟩] := by decide +kernel

end Cloudnet
