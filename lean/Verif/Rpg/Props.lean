import Mathlib.Tactic.Linarith
import Mathlib.Tactic.Ring
import Mathlib.Tactic.NormNum
import Mathlib.Tactic.FieldSimp
import Mathlib.Data.Rat.Floor
import Verif.Rpg.Model
import Verif.Arrays.Lemmas
import Verif.RadarError.Props
import Verif.Disdro.Props

namespace Cloudnet

/-! ## C55: angles -/

section
variable {α : Type} [Field α] [LinearOrder α] [IsStrictOrderedRing α] [FloorRing α]

namespace Spec

/-- The first encoding of elevation `el` and azimuth `k / 10` degrees. -/
def encode1 (el : α) (k : ℕ) : α :=
  if 100 ≤ el then 1000000 + ((el - 100) + 1000 * ((k : α) / 10))
  else (if el < 0 then -1 else 1) * (|el| + 1000 * ((k : α) / 10))

/-- The second encoding of elevation `e / 100` (negative if `neg`) and azimuth `a / 100` degrees: an integer whose last
five digits are the azimuth. -/
def encode2 (neg : Bool) (e a : ℕ) : ℤ := (if neg then -1 else 1) * ((e : ℤ) * 100000 + a)

end Spec

theorem floor_hundred (r : α) (k : ℕ) (h0 : 0 ≤ r) (h1 : r < 100) : ⌊(r + 100 * (k : α)) / 100⌋ = (k : ℤ) := by
  rw [Int.floor_eq_iff]
  push_cast
  constructor
  · rw [le_div_iff₀ (by norm_num)]; linarith
  · rw [div_lt_iff₀ (by norm_num)]; linarith

/-- **C55.** Decoding inverts the first encoding, for every elevation between -100 and 200 degrees and every azimuth that is
a multiple of a tenth of a degree. -/
theorem C55_version1 (el : α) (k : ℕ) (hlo : -100 < el) (hhi : el < 200) (hk : k < 3600) :
    decodeAngles 1 (Spec.encode1 el k) = .ok (el, (k : α) / 10) := by
  have hk' : (k : α) ≤ 3599 := by exact_mod_cast Nat.lt_succ_iff.mp hk
  have hk0 : (0 : α) ≤ k := Nat.cast_nonneg k
  unfold decodeAngles
  rw [if_pos rfl]
  dsimp only
  have hcore : ∀ r : α, 0 ≤ r → r < 100 → ∀ x : α, x = r + 1000 * ((k : α) / 10) →
      ((⌊|x| / 100⌋ : ℤ) : α) / 10 = (k : α) / 10 ∧ x - npSign x * ((k : α) / 10) * 1000 = r := by
    intro r h0 h1 x hx
    have hx0 : 0 ≤ x := by rw [hx]; positivity
    have hx' : x = r + 100 * (k : α) := by rw [hx]; ring
    constructor
    · rw [abs_of_nonneg hx0, hx', floor_hundred r k h0 h1]; simp
    · unfold npSign
      rw [if_neg (not_lt.mpr hx0)]
      split
      · rw [hx]; ring
      · rename_i hp
        have : x = 0 := le_antisymm (not_lt.mp hp) hx0
        have hr : r = 0 := by nlinarith
        rw [this, hr]; ring
  unfold Spec.encode1
  by_cases h100 : 100 ≤ el
  · rw [if_pos h100]
    have hge : (1000000 : α) ≤ 1000000 + ((el - 100) + 1000 * ((k : α) / 10)) := by
      have : (0 : α) ≤ 1000 * ((k : α) / 10) := by positivity
      linarith
    rw [if_pos hge, if_pos hge]
    obtain ⟨c1, c2⟩ := hcore (el - 100) (by linarith) (by linarith) _
      (show 1000000 + (el - 100 + 1000 * ((k : α) / 10)) - 1000000 = el - 100 + 1000 * ((k : α) / 10) by ring)
    rw [c1, c2]
    simp
  · rw [if_neg h100]
    push Not at h100
    by_cases hneg : el < 0
    · rw [if_pos hneg, abs_of_neg hneg]
      have hlt : -1 * (-el + 1000 * ((k : α) / 10)) < 0 := by
        have : (0 : α) ≤ 1000 * ((k : α) / 10) := by positivity
        linarith
      rw [if_neg (by linarith), if_neg (by linarith), abs_of_neg hlt]
      have hfl : ⌊-(-1 * (-el + 1000 * ((k : α) / 10))) / 100⌋ = (k : ℤ) := by
        rw [show -(-1 * (-el + 1000 * ((k : α) / 10))) = -el + 100 * (k : α) by ring]
        exact floor_hundred _ _ (by linarith) (by linarith)
      rw [hfl, npSign, if_pos hlt]
      rw [Int.cast_natCast]
      congr 2
      ring
    · push Not at hneg
      rw [if_neg (not_lt.mpr hneg), abs_of_nonneg hneg, one_mul]
      have hlt : el + 1000 * ((k : α) / 10) < 1000000 := by
        have : (k : α) / 10 ≤ 3599 / 10 := div_le_div_of_nonneg_right hk' (by norm_num)
        linarith
      rw [if_neg (not_le.mpr hlt), if_neg (not_le.mpr hlt)]
      obtain ⟨c1, c2⟩ := hcore el hneg h100 _ rfl
      rw [c1, c2]
      simp

/-- **C55.** Decoding inverts the second encoding, for every elevation that is a multiple of a hundredth of a degree (the
sign of the elevation zero does not matter). -/
theorem C55_version2 (neg : Bool) (e a : ℕ) (ha : a < 100000) :
    decodeAngles 2 ((Spec.encode2 neg e a : ℤ) : α) =
      .ok ((if neg then -1 else 1) * ((e : α) / 100), (a : α) / 100) := by
  unfold decodeAngles
  rw [if_neg (by norm_num), if_pos rfl]
  dsimp only
  have ha' : (a : α) < 100000 := by exact_mod_cast ha
  have ha0 : (0 : α) ≤ a := Nat.cast_nonneg a
  have he0 : (0 : α) ≤ e := Nat.cast_nonneg e
  have hsum0 : (0 : α) ≤ e * 100000 + a := by positivity
  have habs : |((Spec.encode2 neg e a : ℤ) : α)| = e * 100000 + a := by
    unfold Spec.encode2
    cases neg
    · simp only [Bool.false_eq_true, if_false, one_mul]
      push_cast
      exact abs_of_nonneg hsum0
    · simp only [if_true]
      push_cast
      rw [show (-1 : α) * ((e : α) * 100000 + a) = -(e * 100000 + a) by ring, abs_neg]
      exact abs_of_nonneg hsum0
  have hfl : ⌊((e : α) * 100000 + a) / 100000⌋ = (e : ℤ) := by
    rw [Int.floor_eq_iff]
    push_cast
    constructor
    · rw [le_div_iff₀ (by norm_num)]; linarith
    · rw [div_lt_iff₀ (by norm_num)]; linarith
  rw [habs, hfl]
  push_cast
  have hele : npSign ((Spec.encode2 neg e a : ℤ) : α) * (e : α) / 100 = (if neg then -1 else 1) * ((e : α) / 100) := by
    rcases Nat.eq_zero_or_pos e with rfl | hpos
    · simp
    · have hpos' : (0 : α) < e := by exact_mod_cast hpos
      have : npSign ((Spec.encode2 neg e a : ℤ) : α) = if neg then -1 else 1 := by
        unfold npSign Spec.encode2
        cases neg
        · simp only [Bool.false_eq_true, if_false, one_mul]
          push_cast
          rw [if_neg (not_lt.mpr hsum0), if_pos (by linarith)]
        · simp only [if_true]
          push_cast
          rw [if_pos (by linarith)]
      rw [this]
      ring
  rw [hele]
  congr 2
  have : |(if neg then (-1 : α) else 1) * ((e : α) / 100)| = (e : α) / 100 := by
    cases neg
    · simp only [Bool.false_eq_true, if_false, one_mul]
      exact abs_of_nonneg (by positivity)
    · simp only [if_true]
      rw [neg_one_mul, abs_neg]
      exact abs_of_nonneg (by positivity)
  rw [this]
  ring

example : decodeAngles 1 (1267438 + 5 / 10 : ℚ) = .ok (138 + 5 / 10, 267 + 4 / 10) ∧
    decodeAngles 2 (1453031045 : ℚ) = .ok (145 + 3 / 10, 310 + 45 / 100) ∧
    decodeAngles 2 (-900001232 : ℚ) = .ok (-90, 12 + 32 / 100) := by decide +kernel

/-- **C55.** Whatever is decoded by the first version, the azimuth is not negative and the elevation is between -100 and 200
degrees. Other versions than 1 and 2 raise. -/
theorem C55_range (x : α) :
    (∃ el az, decodeAngles 1 x = .ok (el, az) ∧ 0 ≤ az ∧ -100 < el ∧ el < 200) ∧
    ∀ v, v ≠ 1 → v ≠ 2 → ∃ e, decodeAngles v x = .error e := by
  constructor
  · unfold decodeAngles
    rw [if_pos rfl]
    dsimp only
    refine ⟨_, _, rfl, ?_, ?_⟩
    · have : (0 : ℤ) ≤ ⌊|if 1000000 ≤ x then x - 1000000 else x| / 100⌋ := Int.floor_nonneg.mpr (by positivity)
      have : (0 : α) ≤ (⌊|if 1000000 ≤ x then x - 1000000 else x| / 100⌋ : ℤ) := by exact_mod_cast this
      positivity
    · have key : ∀ y : α, |y - npSign y * (((⌊|y| / 100⌋ : ℤ) : α) / 10) * 1000| < 100 ∧
          (0 ≤ y → 0 ≤ y - npSign y * (((⌊|y| / 100⌋ : ℤ) : α) / 10) * 1000) := by
        intro y
        have f1 := Int.floor_le (|y| / 100)
        have f2 := Int.lt_floor_add_one (|y| / 100)
        rw [le_div_iff₀ (by norm_num)] at f1
        rw [div_lt_iff₀ (by norm_num)] at f2
        generalize ((⌊|y| / 100⌋ : ℤ) : α) = f at f1 f2
        unfold npSign
        rcases lt_trichotomy y 0 with h | h | h
        · rw [if_pos h]
          rw [abs_of_neg h] at f1 f2
          exact ⟨by rw [abs_lt]; constructor <;> linarith, fun h' => absurd h (not_lt.mpr h')⟩
        · rw [if_neg (by rw [h]; exact lt_irrefl _), if_neg (by rw [h]; exact lt_irrefl _), h]
          simp
        · rw [if_neg (not_lt.mpr h.le), if_pos h]
          rw [abs_of_pos h] at f1 f2
          exact ⟨by rw [abs_lt]; constructor <;> linarith, fun _ => by linarith⟩
      by_cases hx : 1000000 ≤ x
      · rw [if_pos hx, if_pos hx]
        obtain ⟨k1, k2⟩ := key (x - 1000000)
        rw [abs_lt] at k1
        have := k2 (by linarith)
        constructor <;> linarith [k1.1, k1.2]
      · rw [if_neg hx, if_neg hx]
        obtain ⟨k1, _⟩ := key x
        rw [abs_lt] at k1
        constructor <;> linarith [k1.1, k1.2]
  · intro v h1 h2
    unfold decodeAngles
    rw [if_neg h1, if_neg h2]
    exact ⟨_, rfl⟩

end

/-! ## C56: chirps -/

section
variable {α : Type}

namespace Spec

/-- Gate `g` lies in chirp `k`: the chirp starts at or below the gate, and no later chirp does. -/
def GateInChirp (starts : List ℤ) (g k : ℕ) : Prop :=
  (∃ s, starts[k]? = some s ∧ s ≤ g) ∧ ∀ j s, k < j → starts[j]? = some s → (g : ℤ) < s

end Spec

/-- Segments of a list of increasing starts. -/
theorem npRepeat_segments (v : List α) (starts : List ℤ) (n : ℤ) (hlen : v.length = starts.length)
    (hs : (starts ++ [n]).Pairwise (· ≤ ·)) :
    ∃ row, npRepeat v (List.zipWith (fun e s => e - s) (starts.tail ++ [n]) starts) = .ok row ∧
      (row.length : ℤ) = n - starts.headD n ∧
      ∀ g k : ℕ, Spec.GateInChirp starts (g + (starts.headD n).toNat) k → 0 ≤ starts.headD n →
        (g : ℤ) + starts.headD n < n → row[g]? = v[k]? := by
  induction starts generalizing v with
  | nil =>
    cases v with
    | nil => exact ⟨[], rfl, by simp, by simp [Spec.GateInChirp]⟩
    | cons _ _ => simp at hlen
  | cons s starts ih =>
    cases v with
    | nil => simp at hlen
    | cons x v =>
      rw [List.cons_append, List.pairwise_cons] at hs
      obtain ⟨row, h1, h2, h3⟩ := ih v (by simpa using hlen) hs.2
      -- the end of the first segment
      have hnext : ∃ e, List.zipWith (fun e s => e - s) ((s :: starts).tail ++ [n]) (s :: starts) =
          (e - s) :: List.zipWith (fun e s => e - s) (starts.tail ++ [n]) starts ∧ s ≤ e ∧ e = starts.headD n := by
        cases starts with
        | nil => exact ⟨n, by simp, hs.1 n (by simp), rfl⟩
        | cons s' rest => exact ⟨s', by simp, hs.1 s' (by simp), rfl⟩
      obtain ⟨e, he, hse, hhead⟩ := hnext
      rw [he, npRepeat, if_neg (by omega), h1]
      refine ⟨_, rfl, ?_, ?_⟩
      · rw [List.length_append, List.length_replicate, List.headD_cons]
        push_cast
        rw [h2, ← hhead]
        omega
      · intro g k hg h0 hn
        rw [List.headD_cons] at hg h0 hn
        rcases Nat.eq_zero_or_pos k with rfl | hk
        · -- the first segment
          have hlt : (g : ℤ) + s < e := by
            cases starts with
            | nil =>
              rw [hhead]
              exact hn
            | cons s' rest =>
              have := hg.2 1 s' (by omega) (by simp)
              rw [hhead]
              simp only [List.headD_cons]
              push_cast at this
              omega
          rw [List.getElem?_append_left (by rw [List.length_replicate]; omega),
            List.getElem?_replicate_of_lt (by omega)]
          rfl
        · obtain ⟨k, rfl⟩ : ∃ k', k = k' + 1 := ⟨k - 1, by omega⟩
          obtain ⟨⟨sk, hsk, hle⟩, hlater⟩ := hg
          rw [List.getElem?_cons_succ] at hsk
          have hesk : e ≤ sk := by
            rw [hhead]
            cases starts with
            | nil => simp at hsk
            | cons s' rest =>
              rw [List.headD_cons]
              cases k with
              | zero => simp at hsk; omega
              | succ k =>
                rw [List.getElem?_cons_succ] at hsk
                have hp := hs.2
                rw [List.cons_append, List.pairwise_cons] at hp
                exact hp.1 sk (by simp [List.mem_of_getElem? hsk])
          push_cast at hle
          have hge : e ≤ (g : ℤ) + s := by omega
          rw [List.getElem?_append_right (by rw [List.length_replicate]; omega), List.length_replicate,
            List.getElem?_cons_succ]
          have hcast : ((g - (e - s).toNat : ℕ) : ℤ) = g - (e - s) := by omega
          refine h3 _ k ?_ (by rw [← hhead]; omega) (by rw [← hhead, hcast]; omega)
          rw [← hhead]
          have hgate : g - (e - s).toNat + e.toNat = g + s.toNat := by omega
          rw [hgate]
          refine ⟨⟨sk, hsk, by push_cast; exact hle⟩, ?_⟩
          intro j sj hj hsj
          exact hlater (j + 1) sj (by omega) (by rw [List.getElem?_cons_succ]; exact hsj)

/-- **C56.** If the chirps start from the first gate and do not start in decreasing order or above the profile, every gate
gets the Nyquist velocity of the chirp that it lies in. Missing chirps are ignored. -/
theorem C56_expand (nRange : ℕ) (starts : List (Option ℤ)) (v : List (Option α))
    (hlen : (v.filterMap id).length = (starts.filterMap id).length) (hfirst : (starts.filterMap id).head? = some 0)
    (hmono : (starts.filterMap id ++ [(nRange : ℤ)]).Pairwise (· ≤ ·)) :
    ∃ row, expandNyquistRow nRange starts v = .ok row ∧ row.length = nRange ∧ ∀ g < nRange,
      (∃ k, Spec.GateInChirp (starts.filterMap id) g k) ∧
      ∀ k, Spec.GateInChirp (starts.filterMap id) g k → row[g]? = (v.filterMap id)[k]? := by
  unfold expandNyquistRow
  dsimp only
  generalize v.filterMap id = w at hlen
  generalize starts.filterMap id = s at hlen hfirst hmono
  obtain ⟨row, h1, h2, h3⟩ := npRepeat_segments w s nRange hlen hmono
  have hhead : s.headD (nRange : ℤ) = 0 := by
    cases s with
    | nil => simp at hfirst
    | cons a s => simpa using hfirst
  rw [hhead] at h2 h3
  rw [h1]
  dsimp only
  have hl : row.length = nRange := by omega
  rw [if_pos hl]
  refine ⟨row, rfl, hl, ?_⟩
  intro g hg
  constructor
  · -- the last chirp that starts at or below the gate
    clear h1 h2 h3 hhead hl hlen hmono
    obtain ⟨s, rfl⟩ : ∃ s', s = 0 :: s' := by
      cases s with
      | nil => simp at hfirst
      | cons a s =>
        rw [List.head?_cons, Option.some.injEq] at hfirst
        exact ⟨s, by rw [hfirst]⟩
    have key : ∀ m, m ≤ (0 :: s).length → 0 < m →
        ∃ k : ℕ, (∃ x, (0 :: s)[k]? = some x ∧ x ≤ g) ∧ ∀ (j : ℕ) (x : ℤ), k < j → j < m → (0 :: s)[j]? = some x → (g : ℤ) < x := by
      intro m
      induction m with
      | zero => omega
      | succ m ih =>
        intro hm _
        rcases Nat.eq_zero_or_pos m with rfl | hpos
        · exact ⟨0, ⟨0, rfl, by omega⟩, by omega⟩
        · obtain ⟨k, hk1, hk2⟩ := ih (by omega) hpos
          have hx := List.getElem?_eq_getElem (l := 0 :: s) (i := m) (by omega)
          by_cases hle : (0 :: s)[m] ≤ (g : ℤ)
          · exact ⟨m, ⟨_, hx, hle⟩, by omega⟩
          · refine ⟨k, hk1, ?_⟩
            intro j x hj hj' hjx
            rcases Nat.lt_or_ge j m with h | h
            · exact hk2 j x hj h hjx
            · obtain rfl : j = m := by omega
              rw [hx, Option.some.injEq] at hjx
              rw [← hjx]
              exact not_le.mp hle
    obtain ⟨k, hk1, hk2⟩ := key (0 :: s).length le_rfl (by simp)
    refine ⟨k, hk1, ?_⟩
    intro j x hj hjx
    exact hk2 j x hj (List.getElem?_eq_some_iff.mp hjx).1 hjx
  · intro k hk
    exact h3 g k (by simpa using hk) le_rfl (by omega)

/-- **C56.** Padding the chirps of a file with missing values does not change the expansion. -/
theorem C56_padding (nRange n : ℕ) (starts : List (Option ℤ)) (v : List (Option α)) :
    expandNyquistRow nRange (padChirps n starts) (padChirps n v) = expandNyquistRow nRange starts v := by
  have key : ∀ {β : Type} (x : List (Option β)), (padChirps n x).filterMap id = x.filterMap id := by
    intro β x
    unfold padChirps
    rw [List.filterMap_append]
    have : (List.replicate (n - x.length) (none : Option β)).filterMap id = [] := by
      rw [List.filterMap_eq_nil_iff]
      intro a ha
      rw [List.eq_of_mem_replicate ha]
      rfl
    rw [this, List.append_nil]
  unfold expandNyquistRow
  rw [key, key]

/-- **C56.** Chirps in decreasing order raise. -/
theorem C56_raises (nRange : ℕ) (starts : List (Option ℤ)) (v : List (Option α)) (k : ℕ) (a b : ℤ)
    (ha : (starts.filterMap id)[k]? = some a) (hb : (starts.filterMap id)[k + 1]? = some b) (hab : b < a) :
    ∃ e, expandNyquistRow nRange starts v = .error e := by
  unfold expandNyquistRow
  dsimp only
  generalize v.filterMap id = w
  generalize starts.filterMap id = s at ha hb
  have key : ∀ (k : ℕ) (s : List ℤ) (w : List α), s[k]? = some a → s[k + 1]? = some b →
      ∃ e, npRepeat w (List.zipWith (fun e s => e - s) (s.tail ++ [(nRange : ℤ)]) s) = .error e := by
    intro k
    induction k with
    | zero =>
      intro s w ha hb
      match s, ha, hb with
      | x :: y :: s, ha, hb =>
        simp only [List.getElem?_cons_zero, Option.some.injEq, Nat.zero_add, List.getElem?_cons_succ] at ha hb
        subst ha hb
        cases w with
        | nil => exact ⟨_, rfl⟩
        | cons w ws =>
          simp only [List.tail_cons, List.cons_append, List.zipWith_cons_cons, npRepeat]
          rw [if_pos (by omega)]
          exact ⟨_, rfl⟩
    | succ k ih =>
      intro s w ha hb
      match s, ha, hb with
      | x :: s, ha, hb =>
        rw [List.getElem?_cons_succ] at ha hb
        cases s with
        | nil => simp at ha
        | cons y s =>
          cases w with
          | nil => exact ⟨_, rfl⟩
          | cons w ws =>
            obtain ⟨e, he⟩ := ih (y :: s) ws ha hb
            simp only [List.tail_cons, List.cons_append, List.zipWith_cons_cons, npRepeat] at he ⊢
            split
            · exact ⟨_, rfl⟩
            · rw [he]; exact ⟨_, rfl⟩
  obtain ⟨e, he⟩ := key k s w ha hb
  rw [he]
  exact ⟨e, rfl⟩

example : expandNyquistRow 6 [some 0, some 2, some 5, none] [some 'a', some 'b', some 'c', none] =
    .ok ['a', 'a', 'b', 'b', 'b', 'c'] := by decide +kernel

/-- **C56.** Chirp starts moved to other gates: there are as many, all of them are gates, the first is the first gate, the
others are the nearest gates, and increasing starts do not decrease on increasing gates. -/
theorem C56_moved [Field α] [LinearOrder α] [IsStrictOrderedRing α] (range : ℕ → α) (m : ℕ) (hm : 0 < m) (target : ℕ → α)
    (starts : List ℕ) (htarget : ∀ i j, i < j → j < m → target i < target j)
    (hrange : (starts.map range).Pairwise (· ≤ ·)) :
    let new := interpolateStarts range m target starts
    new.length = starts.length ∧ (∀ i ∈ new, i < m) ∧ (starts ≠ [] → new.head? = some 0) ∧ new.Pairwise (· ≤ ·) ∧
    ∀ k s i, 0 < k → starts[k]? = some s → new[k]? = some i → ∀ j < m, |target i - range s| ≤ |target j - range s| := by
  intro new
  have hspec := fun s => argmin_spec (fun i => |target i - range s|) (m - 1)
  -- the nearest gate of a higher range is not lower
  have hmono : ∀ s t, range s ≤ range t →
      argmin (fun i => |target i - range s|) (m - 1) ≤ argmin (fun i => |target i - range t|) (m - 1) := by
    intro s t hst
    obtain ⟨a1, a2, a3⟩ := hspec s
    obtain ⟨b1, b2, b3⟩ := hspec t
    set i := argmin (fun i => |target i - range s|) (m - 1)
    set j := argmin (fun i => |target i - range t|) (m - 1)
    by_contra hlt
    push Not at hlt
    have h1 := a3 j hlt
    have h2 := b2 i a1
    have h3 := htarget j i hlt (by omega)
    -- `range s` is beyond the middle of the two gates, `range t` is not
    rcases le_total (target j) (range s) with c | c <;> rcases le_total (target i) (range s) with d | d <;>
      rcases le_total (target j) (range t) with c' | c' <;> rcases le_total (target i) (range t) with d' | d' <;>
      simp only [abs_of_nonneg, abs_of_nonpos, sub_nonneg.mpr, sub_nonpos.mpr, c, d, c', d'] at h1 h2 <;> linarith
  have hnew : new = match starts with
      | [] => []
      | _ :: rest => 0 :: rest.map fun s => argmin (fun i => |target i - range s|) (m - 1) := by
    show interpolateStarts range m target starts = _
    unfold interpolateStarts
    cases starts <;> rfl
  cases starts with
  | nil =>
    rw [hnew]
    simp
  | cons s0 rest =>
    rw [hnew]
    dsimp only
    refine ⟨by simp, ?_, fun _ => rfl, ?_, ?_⟩
    · intro i hi
      rcases List.mem_cons.mp hi with rfl | hi
      · exact hm
      · obtain ⟨s, _, rfl⟩ := List.mem_map.mp hi
        have := (hspec s).1
        omega
    · rw [List.pairwise_cons]
      refine ⟨fun _ _ => Nat.zero_le _, ?_⟩
      rw [List.map_cons, List.pairwise_cons, List.pairwise_map] at hrange
      rw [List.pairwise_map]
      exact hrange.2.imp fun h => hmono _ _ h
    · intro k s i hk hs hi j hj
      obtain ⟨k, rfl⟩ : ∃ k', k = k' + 1 := ⟨k - 1, by omega⟩
      rw [List.getElem?_cons_succ] at hs hi
      rw [List.getElem?_map, hs, Option.map_some, Option.some.injEq] at hi
      rw [← hi]
      exact (hspec s).2.1 j (by omega)

example : interpolateStarts (fun i => (10 * i : ℚ)) 4 (fun i => (15 * i + 5 : ℚ)) [0, 2, 4] = [0, 1, 2] := by
  decide +kernel

end

/-! ## C91, C92: zenith angles and fill values of the radar -/

/-- **C92.** A value of a screened field is masked exactly if it is missing, nearly zero (within `1.0001e-8`) or close to
the fill value -999; other values are kept. -/
theorem C92_fill {α : Type} [Field α] [LinearOrder α] [IsStrictOrderedRing α] (x : Option α) :
    (∀ v, x = some v → maskInvalid x =
      if |v - 1 / 10000000000| ≤ 1 / 100000000 + 1 / 1000000000000000 ∨ |v + 999| ≤ 1 / 100000000 + 999 / 100000
      then none else some v) ∧ (x = none → maskInvalid x = none) := by
  constructor
  · rintro v rfl
    unfold maskInvalid isClose
    simp only [List.foldl_cons, List.foldl_nil, Option.bind_some, decide_eq_true_eq, sub_neg_eq_add]
    have e1 : |(-999 : α)| = 999 := by rw [abs_neg]; exact abs_of_nonneg (by norm_num)
    have e2 : |(1 / 10000000000 : α)| = 1 / 10000000000 := abs_of_nonneg (by norm_num)
    rw [e1, e2, show (1 / 100000 * 999 : α) = 999 / 100000 by ring,
      show (1 / 100000 * (1 / 10000000000) : α) = 1 / 1000000000000000 by norm_num]
    by_cases h0 : v = 0
    · subst h0
      rw [if_pos rfl, if_pos]
      · rfl
      · left
        rw [zero_sub, abs_neg, e2]
        norm_num
    · rw [if_neg h0, Option.bind_some]
      by_cases h1 : v = -999
      · subst h1
        rw [if_pos rfl, if_pos]
        · rfl
        · right
          norm_num
      · rw [if_neg h1, Option.bind_some]
        by_cases h2 : |v + 999| ≤ 1 / 100000000 + 999 / 100000
        · rw [if_pos h2, if_pos (Or.inr h2)]
          rfl
        · rw [if_neg h2, Option.bind_some]
          by_cases h3 : v = 1 / 10000000000
          · subst h3
            rw [if_pos rfl, if_pos]
            · rfl
            · left
              norm_num
          · rw [if_neg h3, Option.bind_some]
            by_cases h4 : |v - 1 / 10000000000| ≤ 1 / 100000000 + 1 / 1000000000000000
            · rw [if_pos h4, if_pos (Or.inl h4)]
            · rw [if_neg h4, if_neg]
              rintro (h | h)
              · exact h4 h
              · exact h2 h
  · rintro rfl
    rfl

example : maskInvalid (some (-999 : ℚ)) = none ∧ maskInvalid (some (3 : ℚ)) = some 3 := by decide +kernel

/-- **C92.** Depolarisation values are masked exactly if they do not exceed the threshold; every variable is masked
where the spectral width is below 0.005 m/s and not changed where it is not. -/
theorem C92_outliers {α : Type} [Field α] [LinearOrder α] [IsStrictOrderedRing α] (threshold : α) (x : Option α) :
    (∀ v, maskInvalidLdr threshold x = some v ↔ x = some v ∧ threshold < v) ∧
    ∀ under w, (w < 1 / 200 → maskInvalidWidth under (some w) x = none) ∧
      (1 / 200 ≤ w → maskInvalidWidth under (some w) x = x) := by
  constructor
  · intro v
    unfold maskInvalidLdr
    cases x with
    | none => simp
    | some u =>
      rw [Option.bind_some]
      by_cases h : u ≤ threshold
      · rw [if_pos h]
        simp only [reduceCtorEq, Option.some.injEq, false_iff]
        rintro ⟨rfl, h'⟩
        exact absurd h (not_le.mpr h')
      · rw [if_neg h]
        simp only [Option.some.injEq]
        exact ⟨fun e => ⟨e, e ▸ not_le.mp h⟩, fun e => e.1⟩
  · intro under w
    unfold maskInvalidWidth
    rw [Option.elim_some, show (5 / 1000 : α) = 1 / 200 by norm_num]
    constructor
    · intro h; rw [if_pos (decide_eq_true h)]
    · intro h; rw [if_neg (by simpa using h)]

/-- **C91.** The zenith angle is 90 degrees minus the elevation. A profile is kept exactly if its zenith angle is known and
within a tenth of a degree (plus `1e-5` of it) of the median of the known zenith angles between -5 and 15 degrees; if
no profile is kept, an error is raised. -/
theorem C91_zenith (elevation : List (Option ℝ)) :
    let close := ((elevation.filterMap id).map fun e => 90 - e).filter fun z => decide (-5 < z ∧ z < 15)
    (∀ zenith valid, addZenithAngle elevation = .ok (zenith, valid) →
      zenith = elevation.map (fun e => e.map fun e => 90 - e) ∧ valid.length = elevation.length ∧ close ≠ [] ∧
      ∃ med, Spec.IsMedian close med ∧ ∀ (k : ℕ) e b, elevation[k]? = some e → valid[k]? = some b →
        (b = true ↔ ∃ v, e = some v ∧ |90 - v - med| ≤ 1 / 10 + |med| / 100000)) ∧
    ((∃ e, addZenithAngle elevation = .error e) ↔
      ∀ med, Spec.IsMedian close med → ∀ v, some v ∈ elevation → ¬|90 - v - med| ≤ 1 / 10 + |med| / 100000) := by
  intro close
  have hclose : (((elevation.map fun e => e.map fun e => 90 - e).filterMap id).filter
      fun v => decide (-5 < v) && decide (v < 15)) = close := by
    show _ = ((elevation.filterMap id).map fun e => 90 - e).filter fun z => decide (-5 < z ∧ z < 15)
    rw [List.filterMap_map, List.map_filterMap]
    congr 1
    funext z
    rw [Bool.decide_and]
  have hempty : (close = [] ↔ ∀ med, ¬Spec.IsMedian close med) := by
    constructor
    · rintro h med ⟨s, hs, _, a, b, ha, _, _⟩
      rw [h] at hs
      rw [hs.eq_nil] at ha
      simp at ha
    · intro h
      by_contra hne
      exact h _ (median_isMedian close hne)
  have huniq : ∀ med, Spec.IsMedian close med → med = median close := by
    intro med hmed
    have hne : close ≠ [] := fun hc => (hempty.mp hc) med hmed
    obtain ⟨s, hs, hsort, a, b, ha, hb, rfl⟩ := hmed
    obtain ⟨s', hs', hsort', a', b', ha', hb', he⟩ := median_isMedian close hne
    have : s = s' := (hs.trans hs'.symm).eq_of_pairwise' hsort hsort'
    subst this
    rw [ha] at ha'
    rw [hb] at hb'
    rw [he, Option.some.inj ha', Option.some.inj hb']
  have hcount : ∀ valid : List Bool, valid.length = elevation.length →
      (valid.length - valid.count true = elevation.length ↔ true ∉ valid) := by
    intro valid hl
    have := List.count_le_length (a := true) (l := valid)
    rw [← List.count_eq_zero]
    constructor
    · intro h
      rcases Nat.eq_zero_or_pos valid.length with h0 | h0
      · omega
      · omega
    · intro h
      rw [h, hl]
      omega
  have hstep : ∀ v : ℝ, isClose (1 / 10) (90 - v) (median close) = true ↔
      |90 - v - median close| ≤ 1 / 10 + |median close| / 100000 := by
    intro v
    unfold isClose
    rw [decide_eq_true_eq, show (1 / 100000 * |median close| : ℝ) = |median close| / 100000 by ring]
  unfold addZenithAngle filterZenith
  dsimp only
  rw [hclose]
  by_cases hc : close = []
  · rw [if_pos hc]
    have hl : ((elevation.map fun e : Option ℝ => e.map fun e => 90 - e).map fun _ => false).length = elevation.length := by
      simp
    rw [List.length_map (fun e : Option ℝ => e.map fun e => 90 - e), if_pos ((hcount _ hl).mpr (by simp))]
    refine ⟨fun _ _ h => by simp at h, ⟨fun _ med hmed => absurd hmed (hempty.mp hc med), fun _ => ⟨_, rfl⟩⟩⟩
  · rw [if_neg hc]
    have hl : ((elevation.map fun e : Option ℝ => e.map fun e => 90 - e).map
        fun v => v.elim false fun v => isClose (1 / 10) v (median close)).length = elevation.length := by simp
    have hmem : true ∈ ((elevation.map fun e : Option ℝ => e.map fun e => 90 - e).map
        fun v => v.elim false fun v => isClose (1 / 10) v (median close)) ↔
        ∃ v, some v ∈ elevation ∧ |90 - v - median close| ≤ 1 / 10 + |median close| / 100000 := by
      rw [List.map_map, List.mem_map]
      constructor
      · rintro ⟨e, he, h⟩
        cases e with
        | none => simp at h
        | some v => exact ⟨v, he, (hstep v).mp (by simpa using h)⟩
      · rintro ⟨v, hv, h⟩
        exact ⟨some v, hv, by simpa using (hstep v).mpr h⟩
    rw [List.length_map (fun e : Option ℝ => e.map fun e => 90 - e)]
    constructor
    · intro zenith valid h
      split at h
      · simp at h
      simp only [Except.ok.injEq, Prod.mk.injEq] at h
      obtain ⟨rfl, rfl⟩ := h
      refine ⟨rfl, hl, hc, median close, median_isMedian close hc, ?_⟩
      intro k e b he hb
      rw [List.getElem?_map, List.getElem?_map, he, Option.map_some, Option.map_some, Option.some.injEq] at hb
      rw [← hb]
      cases e with
      | none => simp
      | some v =>
        rw [Option.map_some, Option.elim_some, hstep]
        constructor
        · intro h; exact ⟨v, rfl, h⟩
        · rintro ⟨w, hw, h⟩
          rw [Option.some.inj hw]
          exact h
    · constructor
      · rintro ⟨e, he⟩ med hmed v hv hle
        rw [huniq med hmed] at hle
        split at he
        · rename_i hcnt
          exact ((hcount _ hl).mp hcnt) (hmem.mpr ⟨v, hv, hle⟩)
        · simp at he
      · intro h
        rw [if_pos]
        · exact ⟨_, rfl⟩
        · rw [hcount _ hl, hmem]
          rintro ⟨v, hv, hle⟩
          exact h _ (median_isMedian close hc) v hv hle

example : (addZenithAngle [some (90 : ℚ), some 85, none, some 90]).map Prod.snd = .ok [true, false, false, true] := by
  decide +kernel

/-- **C91, a limit.** If the radar pointed equally long in two directions close to zenith, all profiles are rejected. -/
theorem C91_two_directions : addZenithAngle [some (90 : ℚ), some 88] = .error "ValidTimeStampError" := by
  decide +kernel

/-! ## C57: HATPRO -/

section
variable {α : Type}

/-- **C57.** A record has low quality exactly if the second and the third bit of its flag are set. -/
theorem C57_flag {β : Type} (r : HatproRec α β) : hatproBad r = true ↔ r.flag.getLsbD 1 = true ∧ r.flag.getLsbD 2 = true := by
  unfold hatproBad
  generalize r.flag = f
  revert f
  decide

/-- **C57.** If all values of a file are zero, all are masked. Otherwise a value is masked exactly if its record has low
quality, and an error is raised exactly if that holds for all records. Times and angles are not changed. -/
theorem C57_screen [Zero α] [DecidableEq α] (recs : List (HatproRec α α)) :
    ((∀ r ∈ recs, r.value = 0) →
      screenHatpro recs = .ok (recs.map fun r => ⟨r.time, r.flag, none, r.zenith⟩)) ∧
    ((∃ r ∈ recs, r.value ≠ 0) →
      ((∃ e, screenHatpro recs = .error e) ↔ ∀ r ∈ recs, hatproBad r = true) ∧
      ∀ out, screenHatpro recs = .ok out → out.length = recs.length ∧ ∀ (k : ℕ) (r : HatproRec α α) (r' : HatproRec α (Option α)),
        recs[k]? = some r → out[k]? = some r' →
        r'.time = r.time ∧ r'.zenith = r.zenith ∧ (hatproBad r = true → r'.value = none) ∧
        (hatproBad r = false → r'.value = some r.value)) := by
  unfold screenHatpro
  constructor
  · intro h
    rw [if_pos (by rw [List.all_eq_true]; intro r hr; exact decide_eq_true (h r hr))]
  · rintro ⟨r0, hr0, h0⟩
    rw [if_neg (by
      rw [List.all_eq_true]
      intro h
      exact h0 (of_decide_eq_true (h r0 hr0)))]
    constructor
    · rw [← List.length_filter_eq_length_iff (p := hatproBad)]
      constructor
      · rintro ⟨e, he⟩
        split at he
        · assumption
        · simp at he
      · intro h
        rw [if_pos h]
        exact ⟨_, rfl⟩
    · intro out ho
      split at ho
      · simp at ho
      obtain rfl := Except.ok.inj ho
      refine ⟨by simp, ?_⟩
      intro k r r' hr hr'
      rw [List.getElem?_map, hr, Option.map_some, Option.some.injEq] at hr'
      rw [← hr']
      refine ⟨rfl, rfl, fun h => by simp [h], fun h => by simp [h]⟩

example : (screenHatpro [⟨0, 6, 5, 0⟩, ⟨1, 4, 7, 0⟩, ⟨2, 1, 0, 0⟩] : Except String (List (HatproRec ℕ (Option ℕ)))).map
    (fun l => l.map HatproRec.value) = .ok [none, some 7, some 0] := by decide +kernel

/-- The sorted list of distinct times of two lists of records. -/
theorem sorted_times (l : List ℤ) : (l.dedup.insertionSort (· ≤ ·)).Pairwise (· < ·) ∧
    ∀ t, t ∈ l.dedup.insertionSort (· ≤ ·) ↔ t ∈ l := by
  constructor
  · have h1 := List.pairwise_insertionSort (· ≤ ·) l.dedup
    have h2 : (l.dedup.insertionSort (· ≤ ·)).Nodup := (List.perm_insertionSort (· ≤ ·) l.dedup).nodup_iff.mpr l.nodup_dedup
    exact (h1.and h2).imp fun h => lt_of_le_of_ne h.1 h.2
  · intro t
    rw [(List.perm_insertionSort (· ≤ ·) l.dedup).mem_iff, List.mem_dedup]

/-- The record found for a time has that time. -/
theorem find_time {β : Type} (recs : List (HatproRec α β)) (t : ℤ) :
    (∀ r, (recs.find? fun r => r.time == t) = some r → r ∈ recs ∧ r.time = t) ∧
    (t ∈ recs.map HatproRec.time → ∃ r, (recs.find? fun r => r.time == t) = some r) := by
  constructor
  · intro r hr
    exact ⟨List.mem_of_find?_eq_some hr, by simpa using List.find?_some hr⟩
  · intro ht
    obtain ⟨r, hr, rfl⟩ := List.mem_map.mp ht
    cases hf : recs.find? fun r' => r'.time == r.time with
    | none =>
      rw [List.find?_eq_none] at hf
      exact absurd (by simp) (hf r hr)
    | some r' => exact ⟨r', rfl⟩

/-- **C57.** Reading a file removes records with duplicate times: the times of the result are increasing and are those of
the file, and each record is the first one of the file with its time. -/
theorem C57_unique (recs : List (HatproRec α α)) :
    (hatproUnique recs).Pairwise (fun a b => a.time < b.time) ∧
    (∀ t, t ∈ (hatproUnique recs).map HatproRec.time ↔ t ∈ recs.map HatproRec.time) ∧
    ∀ r ∈ hatproUnique recs, ∃ before after, recs = before ++ r :: after ∧ ∀ b ∈ before, b.time ≠ r.time := by
  obtain ⟨hs, hm⟩ := sorted_times (recs.map HatproRec.time)
  have hmap : (hatproUnique recs).map HatproRec.time = (recs.map HatproRec.time).dedup.insertionSort (· ≤ ·) := by
    unfold hatproUnique
    have key : ∀ l : List ℤ, (∀ t ∈ l, t ∈ recs.map HatproRec.time) →
        (l.filterMap fun t => recs.find? fun r => r.time == t).map HatproRec.time = l := by
      intro l
      induction l with
      | nil => simp
      | cons t l ih =>
        intro h
        obtain ⟨r, hr⟩ := (find_time recs t).2 (h t (by simp))
        rw [List.filterMap_cons_some (f := fun t => recs.find? fun r => r.time == t) hr, List.map_cons, ((find_time recs t).1 r hr).2,
          ih fun t' ht' => h t' (by simp [ht'])]
    exact key _ fun t ht => (hm t).mp ht
  refine ⟨?_, ?_, ?_⟩
  · rw [← List.pairwise_map (f := HatproRec.time) (R := (· < ·)), hmap]
    exact hs
  · intro t
    rw [hmap, hm]
  · intro r hr
    unfold hatproUnique at hr
    obtain ⟨t, _, ht⟩ := List.mem_filterMap.mp hr
    obtain ⟨hp, before, after, heq, hno⟩ := List.find?_eq_some_iff_append.mp ht
    refine ⟨before, after, heq, fun b hb he => ?_⟩
    have h1 := hno b hb
    have h2 : r.time = t := by simpa using hp
    rw [he, h2] at h1
    simp at h1

/-- **C57.** With an expected date only records of that date are kept, in order; an error is raised exactly if there are none
or the times are not in UTC. -/
theorem C57_date {β : Type} (utc : Bool) (epoch day : ℤ) (recs : List (HatproRec α β)) :
    (∀ out, hatproDate utc epoch day recs = .ok out → utc = true ∧ out.Sublist recs ∧ out ≠ [] ∧
      (∀ r, r ∈ out ↔ r ∈ recs ∧ day * 86400 ≤ r.time + epoch ∧ r.time + epoch < (day + 1) * 86400)) ∧
    ((∃ e, hatproDate utc epoch day recs = .error e) ↔ utc = false ∨
      ∀ r ∈ recs, r.time + epoch < day * 86400 ∨ (day + 1) * 86400 ≤ r.time + epoch) := by
  have hday : ∀ t : ℤ, t / 86400 = day ↔ day * 86400 ≤ t ∧ t < (day + 1) * 86400 := by
    intro t
    omega
  have hnil : recs.filter (fun r => decide ((r.time + epoch) / 86400 = day)) = [] ↔
      ∀ r ∈ recs, r.time + epoch < day * 86400 ∨ (day + 1) * 86400 ≤ r.time + epoch := by
    rw [List.filter_eq_nil_iff]
    refine forall₂_congr fun r _ => ?_
    rw [decide_eq_true_eq, hday]
    omega
  unfold hatproDate
  cases utc with
  | false =>
    simp only [Bool.not_false, if_true, true_or, iff_true]
    exact ⟨fun out h => by simp at h, ⟨_, rfl⟩⟩
  | true =>
    simp only [Bool.not_true, Bool.false_eq_true, if_false, Bool.true_eq_false, false_or]
    rw [← hnil]
    constructor
    · intro out h
      split at h
      · simp at h
      rename_i hne
      obtain rfl := Except.ok.inj h
      refine ⟨trivial, List.filter_sublist, hne, fun r => ?_⟩
      rw [List.mem_filter, decide_eq_true_eq, hday]
    · split
      · rename_i h; exact ⟨fun _ => h, fun _ => ⟨_, rfl⟩⟩
      · rename_i h; exact ⟨fun ⟨e, he⟩ => (nomatch he), fun h' => absurd h' h⟩

/-- **C57.** Two files with the same stem are joined by time. Every time of either file has exactly one row, in increasing
order; a row has the value of the record of each file with that time, or nothing. The zenith angle is that of the first
file if it has the time, else that of the second. An error is raised exactly if the angles differ at a common time. -/
theorem C57_join [DecidableEq α] (f1 f2 : List (HatproRec α (Option α)))
    (h1 : f1.Pairwise fun a b => a.time < b.time) (h2 : f2.Pairwise fun a b => a.time < b.time) :
    (∀ rows, hatproJoin f1 f2 = .ok rows → rows.Pairwise (fun a b => a.time < b.time) ∧
      (∀ t, t ∈ rows.map HatproRow.time ↔ t ∈ f1.map HatproRec.time ∨ t ∈ f2.map HatproRec.time) ∧
      ∀ row ∈ rows, (∀ r ∈ f1, r.time = row.time → row.value1 = r.value ∧ row.zenith = some r.zenith) ∧
        (∀ r ∈ f2, r.time = row.time → row.value2 = r.value ∧
          (row.time ∉ f1.map HatproRec.time → row.zenith = some r.zenith)) ∧
        (row.time ∉ f1.map HatproRec.time → row.value1 = none) ∧
        (row.time ∉ f2.map HatproRec.time → row.value2 = none)) ∧
    ((∃ e, hatproJoin f1 f2 = .error e) ↔ ∃ a ∈ f1, ∃ b ∈ f2, a.time = b.time ∧ a.zenith ≠ b.zenith) := by
  have hfind : ∀ (f : List (HatproRec α (Option α))), f.Pairwise (fun a b => a.time < b.time) → ∀ r ∈ f,
      (f.find? fun r' => r'.time == r.time) = some r := by
    intro f hf r hr
    obtain ⟨r', hr'⟩ := (find_time f r.time).2 (List.mem_map_of_mem hr)
    obtain ⟨hm, ht⟩ := (find_time f r.time).1 r' hr'
    rw [hr']
    congr 1
    by_contra hne
    rcases List.pairwise_iff_forall_sublist.mp hf, List.mem_iff_get.mp hr, List.mem_iff_get.mp hm with ⟨_, ⟨i, hi⟩, ⟨j, hj⟩⟩
    rcases lt_trichotomy i j with hij | hij | hij
    · have := List.pairwise_iff_get.mp hf i j hij
      rw [hi, hj] at this
      omega
    · subst hij
      exact hne (hj.symm.trans hi)
    · have := List.pairwise_iff_get.mp hf j i hij
      rw [hi, hj] at this
      omega
  have hnone : ∀ (f : List (HatproRec α (Option α))) t, t ∉ f.map HatproRec.time →
      (f.find? fun r => r.time == t) = none := by
    intro f t ht
    rw [List.find?_eq_none]
    intro r hr he
    exact ht (List.mem_map.mpr ⟨r, hr, by simpa using he⟩)
  obtain ⟨hs, hm⟩ := sorted_times (f1.map HatproRec.time ++ f2.map HatproRec.time)
  unfold hatproJoin
  dsimp only
  generalize (f1.map HatproRec.time ++ f2.map HatproRec.time).dedup.insertionSort (· ≤ ·) = times at hs hm
  have hall : ((times.map fun t => (t, f1.find? (fun r => r.time == t), f2.find? (fun r => r.time == t))).all
      fun r => r.2.1.all fun a => r.2.2.all fun b => decide (a.zenith = b.zenith)) = true ↔
      ¬∃ a ∈ f1, ∃ b ∈ f2, a.time = b.time ∧ a.zenith ≠ b.zenith := by
    rw [List.all_eq_true]
    constructor
    · rintro h ⟨a, ha, b, hb, hab, hne⟩
      have ht : a.time ∈ times := (hm _).mpr (List.mem_append_left _ (List.mem_map_of_mem ha))
      have := h _ (List.mem_map_of_mem ht)
      dsimp only at this
      have hb' := hfind f2 h2 b hb
      rw [← hab] at hb'
      rw [hfind f1 h1 a ha, hb'] at this
      exact hne (by simpa using this)
    · intro h x hx
      obtain ⟨t, ht, rfl⟩ := List.mem_map.mp hx
      dsimp only
      cases ha : f1.find? fun r => r.time == t with
      | none => rfl
      | some a =>
        cases hb : f2.find? fun r => r.time == t with
        | none => rfl
        | some b =>
          obtain ⟨ha1, ha2⟩ := (find_time f1 t).1 a ha
          obtain ⟨hb1, hb2⟩ := (find_time f2 t).1 b hb
          simp only [Option.all_some, decide_eq_true_eq]
          by_contra hne
          exact h ⟨a, ha1, b, hb1, ha2.trans hb2.symm, hne⟩
  constructor
  · intro rows hr
    split at hr
    swap
    · simp at hr
    obtain rfl := Except.ok.inj hr
    rw [List.map_map]
    refine ⟨?_, ?_, ?_⟩
    · rw [List.pairwise_map]
      exact hs
    · intro t
      rw [List.map_map]
      show t ∈ times.map id ↔ _
      rw [List.map_id, hm, List.mem_append]
    · intro row hrow
      obtain ⟨t, ht, rfl⟩ := List.mem_map.mp hrow
      dsimp only [Function.comp_apply]
      refine ⟨?_, ?_, ?_, ?_⟩
      · rintro r hr rfl
        rw [hfind f1 h1 r hr]
        exact ⟨rfl, rfl⟩
      · rintro r hr rfl
        rw [hfind f2 h2 r hr]
        refine ⟨rfl, fun hno => ?_⟩
        rw [hnone f1 _ hno]
        rfl
      · intro hno
        rw [hnone f1 _ hno]
        rfl
      · intro hno
        rw [hnone f2 _ hno]
        rfl
  · constructor
    · rintro ⟨e, he⟩
      split at he
      · simp at he
      · rename_i hc
        rw [hall, not_not] at hc
        exact hc
    · intro h
      rw [if_neg (by rw [hall, not_not]; exact h)]
      exact ⟨_, rfl⟩

/-- **C57.** The order of the two files of a stem does not matter: the same error or the same times and columns. -/
theorem C57_order [DecidableEq α] (n1 n2 : String) (hn : n1 ≠ n2) (f1 f2 : List (HatproRec α (Option α)))
    (h1 : f1.Pairwise fun a b => a.time < b.time) (h2 : f2.Pairwise fun a b => a.time < b.time) :
    match hatproCombined [(n1, f1), (n2, f2)], hatproCombined [(n2, f2), (n1, f1)] with
    | .ok a, .ok b => a.times = b.times ∧ ∀ name, a.columns.lookup name = b.columns.lookup name
    | .error _, .error _ => True
    | _, _ => False := by
  unfold hatproCombined
  dsimp only
  have e1 := (C57_join f1 f2 h1 h2).2
  have e2 := (C57_join f2 f1 h2 h1).2
  have j1 := (C57_join f1 f2 h1 h2).1
  have j2 := (C57_join f2 f1 h2 h1).1
  have hsym : (∃ a ∈ f1, ∃ b ∈ f2, a.time = b.time ∧ a.zenith ≠ b.zenith) ↔
      ∃ a ∈ f2, ∃ b ∈ f1, a.time = b.time ∧ a.zenith ≠ b.zenith := by
    constructor <;>
    · rintro ⟨a, ha, b, hb, h, h'⟩
      exact ⟨b, hb, a, ha, h.symm, h'.symm⟩
  cases hj1 : hatproJoin f1 f2 with
  | error e =>
    obtain ⟨e', he'⟩ := e2.mpr (hsym.mp (e1.mp ⟨e, hj1⟩))
    rw [he']
    trivial
  | ok rows =>
    cases hj2 : hatproJoin f2 f1 with
    | error e =>
      obtain ⟨e', he'⟩ := e1.mpr (hsym.mpr (e2.mp ⟨e, hj2⟩))
      rw [hj1] at he'
      simp at he'
    | ok rows' =>
      dsimp only
      obtain ⟨s1, m1, r1⟩ := j1 rows hj1
      obtain ⟨s2, m2, r2⟩ := j2 rows' hj2
      -- rows and rows' have the same times and swapped values
      have hrows : rows' = rows.map fun r => ⟨r.time, r.value2, r.value1, r.zenith⟩ := by
        have htimes : rows'.map HatproRow.time = rows.map HatproRow.time := by
          refine List.Perm.eq_of_pairwise' (r := (· < ·)) ?_ ?_ ?_
          · rw [List.pairwise_map]; exact s2
          · rw [List.pairwise_map]; exact s1
          · rw [List.perm_ext_iff_of_nodup]
            · intro t; rw [m1, m2, or_comm]
            · exact (List.pairwise_map.mpr s2).imp fun h => ne_of_lt h
            · exact (List.pairwise_map.mpr s1).imp fun h => ne_of_lt h
        have hlen : rows'.length = rows.length := by simpa using congrArg List.length htimes
        apply List.ext_getElem
        · rw [List.length_map, hlen]
        · intro k hk hk'
          rw [List.getElem_map]
          have hkr : k < rows.length := by omega
          have ht : rows'[k].time = rows[k].time := by
            have := congrArg (fun l => l[k]?) htimes
            simpa [hk, hkr] using this
          obtain ⟨a1, a2, a3, a4⟩ := r1 rows[k] (List.getElem_mem hkr)
          obtain ⟨b1, b2, b3, b4⟩ := r2 rows'[k] (List.getElem_mem hk)
          have hin := (m1 rows[k].time).mp (List.mem_map_of_mem (List.getElem_mem hkr))
          rw [ht] at b1 b2 b3 b4
          have hv1 : rows'[k].value2 = rows[k].value1 := by
            by_cases hh : rows[k].time ∈ f1.map HatproRec.time
            · obtain ⟨r, hr, hrt⟩ := List.mem_map.mp hh
              rw [(b2 r hr hrt).1, (a1 r hr hrt).1]
            · rw [b4 hh, a3 hh]
          have hv2 : rows'[k].value1 = rows[k].value2 := by
            by_cases hh : rows[k].time ∈ f2.map HatproRec.time
            · obtain ⟨r, hr, hrt⟩ := List.mem_map.mp hh
              rw [(b1 r hr hrt).1, (a2 r hr hrt).1]
            · rw [b3 hh, a4 hh]
          have hz : rows'[k].zenith = rows[k].zenith := by
            by_cases hh1 : rows[k].time ∈ f1.map HatproRec.time
            · obtain ⟨r, hr, hrt⟩ := List.mem_map.mp hh1
              rw [(a1 r hr hrt).2]
              by_cases hh2 : rows[k].time ∈ f2.map HatproRec.time
              · obtain ⟨q, hq, hqt⟩ := List.mem_map.mp hh2
                rw [(b1 q hq hqt).2]
                by_contra hne
                have := e1.mpr ⟨r, hr, q, hq, hrt.trans hqt.symm, fun h => hne (by rw [h])⟩
                rw [hj1] at this
                obtain ⟨e, he⟩ := this
                simp at he
              · rw [(b2 r hr hrt).2 hh2]
            · have hh2 := hin.resolve_left hh1
              obtain ⟨q, hq, hqt⟩ := List.mem_map.mp hh2
              rw [(b1 q hq hqt).2, (a2 q hq hqt).2 hh1]
          calc rows'[k] = ⟨rows'[k].time, rows'[k].value1, rows'[k].value2, rows'[k].zenith⟩ := rfl
            _ = _ := by rw [ht, hv1, hv2, hz]
      rw [hrows]
      simp only [List.map_map]
      refine ⟨rfl, fun name => ?_⟩
      simp only [List.lookup_cons]
      by_cases c1 : name = n1
      · subst c1
        simp [beq_false_of_ne hn, Function.comp_def]
      · by_cases c2 : name = n2
        · subst c2
          simp [beq_false_of_ne c1, Function.comp_def]
        · simp [beq_false_of_ne c1, beq_false_of_ne c2, Function.comp_def]

/-- **C57.** The columns of the two files of a stem hold, at every time, the value of the record of the file with that
time, or nothing if the file has no such record. A single file is taken as it is. -/
theorem C57_columns [DecidableEq α] (n1 n2 : String) (hn : n1 ≠ n2) (f1 f2 : List (HatproRec α (Option α)))
    (h1 : f1.Pairwise fun a b => a.time < b.time) (h2 : f2.Pairwise fun a b => a.time < b.time) :
    (∀ o, hatproCombined [(n1, f1), (n2, f2)] = .ok o → ∃ c1 c2, o.columns.lookup n1 = some c1 ∧
      o.columns.lookup n2 = some c2 ∧ c1.length = o.times.length ∧ c2.length = o.times.length ∧
      ∀ (k : ℕ) (t : ℤ), o.times[k]? = some t →
        (∀ r ∈ f1, r.time = t → c1[k]? = some r.value) ∧ (t ∉ f1.map HatproRec.time → c1[k]? = some none) ∧
        (∀ r ∈ f2, r.time = t → c2[k]? = some r.value) ∧ (t ∉ f2.map HatproRec.time → c2[k]? = some none)) ∧
    ∀ o, hatproCombined [(n1, f1)] = .ok o → o.times = f1.map HatproRec.time ∧
      o.columns.lookup n1 = some (f1.map HatproRec.value) := by
  constructor
  · intro o ho
    unfold hatproCombined at ho
    dsimp only at ho
    cases hj : hatproJoin f1 f2 with
    | error e => rw [hj] at ho; simp at ho
    | ok rows =>
      rw [hj] at ho
      obtain rfl := Except.ok.inj ho
      obtain ⟨_, _, hr⟩ := (C57_join f1 f2 h1 h2).1 rows hj
      refine ⟨rows.map HatproRow.value1, rows.map HatproRow.value2, by simp, ?_, by simp, by simp, ?_⟩
      · rw [List.lookup_cons, beq_false_of_ne hn.symm]
        simp
      · intro k t ht
        rw [List.getElem?_map] at ht
        obtain ⟨row, hrow, rfl⟩ := Option.map_eq_some_iff.mp ht
        obtain ⟨a1, a2, a3, a4⟩ := hr row (List.mem_of_getElem? hrow)
        rw [List.getElem?_map, List.getElem?_map, hrow]
        simp only [Option.map_some, Option.some.injEq]
        exact ⟨fun r hr he => (a1 r hr he).1, a3, fun r hr he => (a2 r hr he).1, a4⟩
  · intro o ho
    obtain rfl := Except.ok.inj ho
    exact ⟨rfl, by simp⟩

example : (hatproCombined [("lwp", [⟨1, 0, some 5, 0⟩, ⟨2, 0, none, 0⟩]), ("iwv", [⟨2, 0, some 7, 0⟩, ⟨4, 0, some 8, 1⟩])] :
    Except String (HatproObject ℕ)).map (fun o => (o.times, o.columns)) =
    .ok ([1, 2, 4], [("lwp", [some 5, none, none]), ("iwv", [none, some 7, some 8]),
      ("zenith_angle", [some 0, some 0, some 1])]) := by decide +kernel

/-- **C57.** More than two files of a stem (or none) raise. -/
theorem C57_too_many [DecidableEq α] (files : List (String × List (HatproRec α (Option α)))) (h : 2 < files.length) :
    ∃ e, hatproCombined files = .error e := by
  match files, h with
  | _ :: _ :: _ :: _, _ => exact ⟨_, rfl⟩

/-- **C57.** Over a day the measured columns stay aligned with the times: after adding missing variables, the column of
each variable is made of the columns of the objects, with nothing for the records of objects that lack it. -/
theorem C57_aligned (keys : List String) (objects : List (HatproObject α)) (hne : objects ≠ [])
    (hnd : ∀ o ∈ objects, (o.columns.map Prod.fst).Nodup)
    (hlen : ∀ o ∈ objects, ∀ name col, o.columns.lookup name = some col → col.length = o.times.length)
    (name : String) (hname : name ∈ keys) :
    let day := stackHatpro (objects.map (addMissingVariables keys))
    day.times = objects.flatMap HatproObject.times ∧ ∃ col, day.columns.lookup name = some col ∧
      col = objects.flatMap (fun o => (o.columns.lookup name).getD (List.replicate o.times.length none)) ∧
      col.length = day.times.length := by
  -- the columns of an object after adding the missing ones
  have hadd : ∀ (keys : List String) (n : ℕ) (cols : List (String × List (Option α))), (cols.map Prod.fst).Nodup →
      ((keys.foldl (fun cols key => if cols.any fun p => p.1 == key then cols
        else dictSet cols key (List.replicate n none)) cols).map Prod.fst).Nodup ∧
      (keys.foldl (fun cols key => if cols.any fun p => p.1 == key then cols
        else dictSet cols key (List.replicate n none)) cols).lookup name =
        if name ∈ keys then some ((cols.lookup name).getD (List.replicate n none)) else cols.lookup name := by
    intro keys n
    induction keys with
    | nil => intro cols h; exact ⟨h, by simp⟩
    | cons key keys ih =>
      intro cols h
      rw [List.foldl_cons]
      by_cases ha : (cols.any fun p => p.1 == key) = true
      · rw [if_pos ha]
        obtain ⟨i1, i2⟩ := ih cols h
        refine ⟨i1, ?_⟩
        rw [i2]
        by_cases hk : name = key
        · rw [any_key_iff, ← hk] at ha
          obtain ⟨c, hc⟩ := Option.isSome_iff_exists.mp ha
          subst hk
          simp [hc]
        · simp [hk]
      · rw [if_neg ha]
        obtain ⟨i1, i2⟩ := ih (dictSet cols key (List.replicate n none)) (keys_dictSet _ _ _ h)
        refine ⟨i1, ?_⟩
        rw [i2, lookup_dictSet]
        by_cases hk : name = key
        · subst hk
          rw [any_key_iff] at ha
          have : cols.lookup name = none := Option.not_isSome_iff_eq_none.mp ha
          simp [this]
        · simp [hk]
  intro day
  have htimes : day.times = objects.flatMap HatproObject.times := by
    show (objects.map (addMissingVariables keys)).flatMap HatproObject.times = _
    rw [List.flatMap_map]
    rfl
  refine ⟨htimes, objects.flatMap fun o => (o.columns.lookup name).getD (List.replicate o.times.length none), ?_, rfl, ?_⟩
  · show (combineFiles ((objects.map (addMissingVariables keys)).map HatproObject.columns)).lookup name = _
    rw [List.map_map]
    have hlook : ∀ o ∈ objects, (addMissingVariables keys o).columns.lookup name =
        some ((o.columns.lookup name).getD (List.replicate o.times.length none)) := by
      intro o ho
      unfold addMissingVariables
      dsimp only
      rw [(hadd keys o.times.length o.columns (hnd o ho)).2, if_pos hname]
    rw [C54_files]
    · obtain ⟨o, ho⟩ := List.exists_mem_of_ne_nil objects hne
      rw [if_pos ⟨_, List.mem_map_of_mem ho, by simp [hlook o ho]⟩, List.flatMap_map]
      congr 1
      apply List.flatMap_congr
      intro o ho
      simp [hlook o ho]
    · intro f hf
      obtain ⟨o, ho, rfl⟩ := List.mem_map.mp hf
      exact (hadd keys o.times.length o.columns (hnd o ho)).1
  · rw [htimes, List.length_flatMap, List.length_flatMap]
    congr 1
    apply List.map_congr_left
    intro o ho
    cases hc : o.columns.lookup name with
    | none => simp
    | some c => simp [hlen o ho name c hc]

example : (stackHatpro ([⟨[1, 2], [("lwp", [some 5, none])]⟩, ⟨[3], [("iwv", [some 6])]⟩].map
    (addMissingVariables ["lwp", "iwv"])) : HatproObject ℕ).columns =
    [("lwp", [some 5, none, none]), ("iwv", [none, none, some 6])] := by decide +kernel

end

end Cloudnet
