import Verif.Helpers.Model
import Mathlib.Tactic

/-! C171 (identifiers of files) and C172 (helper functions). -/

set_option linter.unusedVariables false

namespace Cloudnet

namespace Spec

/-- The value of a hexadecimal digit, in lower or upper case. -/
def hexOf (c : Char) : Option ℕ :=
  if '0' ≤ c ∧ c ≤ '9' then some (c.toNat - 48) else if 'a' ≤ c ∧ c ≤ 'f' then some (c.toNat - 87)
  else if 'A' ≤ c ∧ c ≤ 'F' then some (c.toNat - 55) else none

/-- A hexadecimal digit. -/
def IsHex (c : Char) : Prop := (hexOf c).isSome

/-- The number with the given hexadecimal digits. -/
def hexNumber (cs : List Char) : ℕ := cs.foldl (fun n c => 16 * n + (hexOf c).getD 0) 0

/-- What is assumed of `int(text, 16)`: digits are read as a number. -/
def ReadsHex (int16 : List Char → Option ℤ) : Prop := ∀ cs, cs ≠ [] → (∀ c ∈ cs, IsHex c) → int16 cs = some (hexNumber cs : ℤ)

end Spec

theorem hexDigit_table : ∀ n < 16, Spec.hexOf (hexDigit n) = some n ∧ hexDigit n ≠ '-' ∧ hexDigit n ≠ '{' ∧ hexDigit n ≠ '}' ∧ hexDigit n ≠ 'u' ∧
    hexDigit n ∈ "0123456789abcdef".toList := by decide

theorem hexChars_length (k n : ℕ) : (hexChars k n).length = k := by
  induction k generalizing n with
  | zero => rfl
  | succ k ih => rw [hexChars, List.length_append, ih]; rfl

theorem hexChars_mem (k n : ℕ) : ∀ c ∈ hexChars k n, ∃ d < 16, c = hexDigit d := by
  induction k generalizing n with
  | zero => intro c hc; simp [hexChars] at hc
  | succ k ih =>
    intro c hc
    rw [hexChars, List.mem_append, List.mem_singleton] at hc
    rcases hc with hc | hc
    · exact ih _ c hc
    · exact ⟨n % 16, Nat.mod_lt _ (by norm_num), hc⟩

theorem hexNumber_append (a : List Char) (c : Char) : Spec.hexNumber (a ++ [c]) = 16 * Spec.hexNumber a + (Spec.hexOf c).getD 0 := by
  unfold Spec.hexNumber
  rw [List.foldl_append]
  rfl

theorem hexNumber_hexChars (k n : ℕ) (h : n < 16 ^ k) : Spec.hexNumber (hexChars k n) = n := by
  induction k generalizing n with
  | zero =>
    have : n = 0 := by simpa using h
    subst this
    rfl
  | succ k ih =>
    rw [hexChars, hexNumber_append, (hexDigit_table (n % 16) (Nat.mod_lt _ (by norm_num))).1,
      ih (n / 16) (by rw [Nat.div_lt_iff_lt_mul (by norm_num)]; rw [pow_succ] at h; exact h), Option.getD_some]
    omega

theorem removeText_absent (p : Char) (ps : List Char) (fuel : ℕ) (cs : List Char) (h : p ∉ cs) : removeText (p :: ps) fuel cs = cs := by
  induction fuel generalizing cs with
  | zero => rfl
  | succ fuel ih =>
    cases cs with
    | nil => rfl
    | cons c cs =>
      have hc : ¬ (p :: ps).isPrefixOf (c :: cs) = true := by
        rw [List.isPrefixOf_cons_cons, Bool.and_eq_true, beq_iff_eq]
        rintro ⟨rfl, -⟩
        simp at h
      rw [removeText, if_neg hc, ih cs fun hm => h (by simp [hm])]

theorem removeText_prefix (p : Char) (ps : List Char) (fuel : ℕ) (cs : List Char) (hf : 1 ≤ fuel) (h : p ∉ cs) :
    removeText (p :: ps) fuel ((p :: ps) ++ cs) = cs := by
  obtain ⟨f, rfl⟩ : ∃ f, fuel = f + 1 := ⟨fuel - 1, by omega⟩
  rw [List.cons_append, removeText, if_pos (by rw [List.isPrefixOf_iff_prefix, ← List.cons_append]; exact List.prefix_append ..)]
  rw [← List.cons_append, List.drop_left, removeText_absent p ps f cs h]

theorem dropWhile_none {p : Char → Bool} (cs : List Char) (h : ∀ c ∈ cs, p c = false) : cs.dropWhile p = cs := by
  cases cs with
  | nil => rfl
  | cons c cs => rw [List.dropWhile_cons, if_neg (by rw [h c (by simp)]; decide)]

theorem stripBraces_none (cs : List Char) (h : ∀ c ∈ cs, c ≠ '{' ∧ c ≠ '}') : stripBraces cs = cs := by
  unfold stripBraces
  rw [dropWhile_none cs fun c hc => by simpa using h c hc, dropWhile_none cs.reverse fun c hc => by simpa using h c (List.mem_reverse.1 hc),
    List.reverse_reverse]

theorem stripBraces_braced (cs : List Char) (h : ∀ c ∈ cs, c ≠ '{' ∧ c ≠ '}') : stripBraces ('{' :: cs ++ ['}']) = cs := by
  cases cs with
  | nil => decide
  | cons d ds =>
    unfold stripBraces
    have h1 : ('{' :: (d :: ds) ++ ['}']).dropWhile (fun c => decide (c = '{' ∨ c = '}')) = (d :: ds) ++ ['}'] := by
      rw [List.cons_append, List.dropWhile_cons, if_pos (by decide), List.cons_append, List.dropWhile_cons,
        if_neg (by simpa using h d (by simp))]
    rw [h1, List.reverse_append, List.reverse_singleton, List.singleton_append, List.dropWhile_cons, if_pos (by decide),
      dropWhile_none _ fun c hc => by simpa using h c (List.mem_reverse.1 hc), List.reverse_reverse]

/-- A text of hexadecimal digits and hyphens. -/
def Spec.HexText (s : List Char) : Prop := ∀ c ∈ s, Spec.IsHex c ∨ c = '-'

theorem hexText_free {s : List Char} (h : Spec.HexText s) : 'u' ∉ s ∧ ∀ c ∈ s, c ≠ '{' ∧ c ≠ '}' := by
  refine ⟨fun hu => ?_, fun c hc => ⟨?_, ?_⟩⟩
  · rcases h _ hu with h | h
    · revert h; unfold Spec.IsHex; decide
    · revert h; decide
  · rintro rfl
    rcases h _ hc with h | h
    · revert h; unfold Spec.IsHex; decide
    · revert h; decide
  · rintro rfl
    rcases h _ hc with h | h
    · revert h; unfold Spec.IsHex; decide
    · revert h; decide

theorem uuidDigits_plain (s : List Char) (h : Spec.HexText s) : uuidDigits s = s.filter fun c => c ≠ '-' := by
  obtain ⟨h1, h2⟩ := hexText_free h
  unfold uuidDigits
  dsimp only
  rw [show "urn:".toList = 'u' :: ['r', 'n', ':'] from rfl, show "uuid:".toList = 'u' :: ['u', 'i', 'd', ':'] from rfl,
    removeText_absent _ _ _ _ h1, removeText_absent _ _ _ _ h1, stripBraces_none s h2]

theorem uuidDigits_braced (s : List Char) (h : Spec.HexText s) : uuidDigits ('{' :: s ++ ['}']) = s.filter fun c => c ≠ '-' := by
  obtain ⟨h1, h2⟩ := hexText_free h
  have h3 : 'u' ∉ '{' :: s ++ ['}'] := by simp [h1]
  unfold uuidDigits
  dsimp only
  rw [show "urn:".toList = 'u' :: ['r', 'n', ':'] from rfl, show "uuid:".toList = 'u' :: ['u', 'i', 'd', ':'] from rfl,
    removeText_absent _ _ _ _ h3, removeText_absent _ _ _ _ h3, stripBraces_braced s h2]

theorem uuidDigits_urn (s : List Char) (h : Spec.HexText s) : uuidDigits ("urn:uuid:".toList ++ s) = s.filter fun c => c ≠ '-' := by
  obtain ⟨h1, h2⟩ := hexText_free h
  have e0 : ∀ fuel, removeText ['u', 'r', 'n', ':'] (fuel + 6) (['u', 'r', 'n', ':'] ++ (['u', 'u', 'i', 'd', ':'] ++ s)) = ['u', 'u', 'i', 'd', ':'] ++ s := by
    intro fuel
    have := removeText_absent 'u' ['r', 'n', ':'] fuel s h1
    simp [removeText, List.isPrefixOf, this]
  unfold uuidDigits
  dsimp only
  rw [show "urn:".toList = ['u', 'r', 'n', ':'] from rfl, show "uuid:".toList = 'u' :: ['u', 'i', 'd', ':'] from rfl,
    show "urn:uuid:".toList ++ s = ['u', 'r', 'n', ':'] ++ (['u', 'u', 'i', 'd', ':'] ++ s) from rfl,
    show (['u', 'r', 'n', ':'] ++ (['u', 'u', 'i', 'd', ':'] ++ s)).length = s.length + 3 + 6 from by simp, e0,
    removeText_prefix _ _ _ _ (by simp) h1, stripBraces_none s h2]

/-- **C171.** How an identifier is read: 32 hexadecimal digits, in lower or upper case, with hyphens anywhere, also in braces or with the
prefix `urn:uuid:`, are the identifier with this number. -/
theorem C171_forms (int16 : List Char → Option ℤ) (hint : Spec.ReadsHex int16) (random : ℕ) (s : List Char) (hs : Spec.HexText s)
    (hlen : (s.filter fun c => c ≠ '-').length = 32) :
    getUuid int16 random (.text s) = .ok (Spec.hexNumber (s.filter fun c => c ≠ '-')) ∧
    getUuid int16 random (.text ('{' :: s ++ ['}'])) = .ok (Spec.hexNumber (s.filter fun c => c ≠ '-')) ∧
    getUuid int16 random (.text ("urn:uuid:".toList ++ s)) = .ok (Spec.hexNumber (s.filter fun c => c ≠ '-')) := by
  have hhex : ∀ c ∈ s.filter (fun c => decide (c ≠ '-')), Spec.IsHex c := by
    intro c hc
    obtain ⟨h1, h2⟩ := List.mem_filter.1 hc
    exact (hs c h1).resolve_right (by simpa using h2)
  have hlt : Spec.hexNumber (s.filter fun c => c ≠ '-') < 2 ^ 128 := by
    have key : ∀ l : List Char, (∀ c ∈ l, Spec.IsHex c) → Spec.hexNumber l < 16 ^ l.length := by
      intro l
      induction l using List.reverseRecOn with
      | nil => intro _; simp [Spec.hexNumber]
      | append_singleton l c ih =>
        intro hl
        rw [hexNumber_append, List.length_append, List.length_singleton, pow_succ]
        have h1 := ih fun x hx => hl x (by simp [hx])
        have h2 : (Spec.hexOf c).getD 0 < 16 := by
          have h3 : ∀ v, Spec.hexOf c = some v → v < 16 := by
            intro v hv
            unfold Spec.hexOf at hv
            split_ifs at hv with a1 a2 a3
            · cases hv
              have : c.toNat ≤ 57 := a1.2
              omega
            · cases hv
              have : c.toNat ≤ 102 := a2.2
              omega
            · cases hv
              have : c.toNat ≤ 70 := a3.2
              omega
          cases hc : Spec.hexOf c with
          | none => simp
          | some v => simpa using h3 v hc
        omega
    have := key _ hhex
    rw [hlen] at this
    calc _ < 16 ^ 32 := this
      _ = 2 ^ 128 := by norm_num
  have hne : s.filter (fun c => decide (c ≠ '-')) ≠ [] := by intro h; rw [h] at hlen; simp at hlen
  have key : ∀ t, uuidDigits t = s.filter (fun c => c ≠ '-') → getUuid int16 random (.text t) = .ok (Spec.hexNumber (s.filter fun c => c ≠ '-')) := by
    intro t ht
    unfold getUuid parseUuid
    dsimp only
    rw [ht, if_neg (by rw [hlen]; decide), hint _ hne hhex]
    dsimp only
    rw [if_pos ⟨by positivity, by exact_mod_cast hlt⟩, Int.toNat_natCast]
  exact ⟨key _ (uuidDigits_plain s hs), key _ (uuidDigits_braced s hs), key _ (uuidDigits_urn s hs)⟩

theorem uuidText_filter (n : ℕ) : (uuidText n).filter (fun c => c ≠ '-') = hexChars 32 n ∧ Spec.HexText (uuidText n) := by
  have hno : ∀ c ∈ hexChars 32 n, c ≠ '-' ∧ Spec.IsHex c := by
    intro c hc
    obtain ⟨d, hd, rfl⟩ := hexChars_mem 32 n c hc
    exact ⟨(hexDigit_table d hd).2.1, by unfold Spec.IsHex; rw [(hexDigit_table d hd).1]; rfl⟩
  have hself : ∀ l : List Char, (∀ c ∈ l, c ∈ hexChars 32 n) → l.filter (fun c => decide (c ≠ '-')) = l := by
    intro l hl
    rw [List.filter_eq_self]
    intro c hc
    simpa using (hno c (hl c hc)).1
  have t : ∀ a b, ∀ c ∈ ((hexChars 32 n).drop a).take b, c ∈ hexChars 32 n := fun a b c hc => List.mem_of_mem_drop (List.mem_of_mem_take hc)
  constructor
  · unfold uuidText
    dsimp only
    simp only [List.filter_append]
    rw [hself _ fun c hc => List.mem_of_mem_take hc, hself _ (t 8 4), hself _ (t 12 4), hself _ (t 16 4), hself _ fun c hc => List.mem_of_mem_drop hc,
      show ['-'].filter (fun c => decide (c ≠ '-')) = [] from rfl]
    simp only [List.append_nil]
    conv_rhs => rw [← List.take_append_drop 8 (hexChars 32 n), ← List.take_append_drop 4 ((hexChars 32 n).drop 8), List.drop_drop,
      ← List.take_append_drop 4 ((hexChars 32 n).drop 12), List.drop_drop, ← List.take_append_drop 4 ((hexChars 32 n).drop 16), List.drop_drop]
    simp only [List.append_assoc]
  · intro c hc
    unfold uuidText at hc
    simp only [List.mem_append, List.mem_singleton] at hc
    by_cases h : c = '-'
    · exact Or.inr h
    · simp only [h, or_false] at hc
      refine Or.inl (hno c ?_).2
      rcases hc with (((hc | hc) | hc) | hc) | hc
      · exact List.mem_of_mem_take hc
      · exact t 8 4 c hc
      · exact t 12 4 c hc
      · exact t 16 4 c hc
      · exact List.mem_of_mem_drop hc

/-- **C171.** The text of an identifier, as it is written to the attribute `file_uuid`, gives the same identifier when it is used again. -/
theorem C171_read_back (int16 : List Char → Option ℤ) (hint : Spec.ReadsHex int16) (random n : ℕ) (hn : n < 2 ^ 128) :
    getUuid int16 random (.text (uuidText n)) = .ok n := by
  obtain ⟨h1, h2⟩ := uuidText_filter n
  rw [(C171_forms int16 hint random (uuidText n) h2 (by rw [h1, hexChars_length])).1, h1, hexNumber_hexChars 32 n (by calc n < 2 ^ 128 := hn
    _ = 16 ^ 32 := by norm_num)]

/-- **C171.** Two identifiers with the same text are the same. -/
theorem C171_distinct (n m : ℕ) (hn : n < 2 ^ 128) (hm : m < 2 ^ 128) (h : uuidText n = uuidText m) : n = m := by
  have e : hexChars 32 n = hexChars 32 m := by rw [← (uuidText_filter n).1, ← (uuidText_filter m).1, h]
  have k : (2 : ℕ) ^ 128 = 16 ^ 32 := by norm_num
  rw [k] at hn hm
  rw [← hexNumber_hexChars 32 n hn, ← hexNumber_hexChars 32 m hm, e]

/-- **C171.** The text of an identifier: 36 characters, lower-case hexadecimal digits with hyphens at the places 9, 14, 19 and 24. -/
theorem C171_canonical (n : ℕ) : (uuidText n).length = 36 ∧
    ∀ i (c : Char), (uuidText n)[i]? = some c → (c = '-' ↔ i = 8 ∨ i = 13 ∨ i = 18 ∨ i = 23) ∧ (c ≠ '-' → c ∈ "0123456789abcdef".toList) := by
  have hl : (hexChars 32 n).length = 32 := hexChars_length 32 n
  have hno : ∀ c ∈ hexChars 32 n, c ≠ '-' ∧ c ∈ "0123456789abcdef".toList := by
    intro c hc
    obtain ⟨d, hd, rfl⟩ := hexChars_mem 32 n c hc
    exact ⟨(hexDigit_table d hd).2.1, (hexDigit_table d hd).2.2.2.2.2⟩
  obtain ⟨l, hle⟩ : ∃ l, hexChars 32 n = l := ⟨_, rfl⟩
  have hu : uuidText n = l.take 8 ++ ['-'] ++ (l.drop 8).take 4 ++ ['-'] ++ (l.drop 12).take 4 ++ ['-'] ++ (l.drop 16).take 4 ++ ['-'] ++ l.drop 20 := by
    rw [← hle]; rfl
  rw [hle] at hl hno
  have hget : ∀ i (c : Char), l[i]? = some c → c ≠ '-' ∧ c ∈ "0123456789abcdef".toList := fun i c h => hno c (List.mem_of_getElem? h)
  rw [hu]
  refine ⟨by simp [hl], fun i c hc => ?_⟩
  simp only [List.getElem?_append, List.length_append, List.length_take, List.length_drop, hl, List.length_singleton, List.getElem?_take,
    List.getElem?_drop, List.length_cons, List.length_nil] at hc
  norm_num at hc
  have hdash : ∀ k (c : Char), (['-'] : List Char)[k]? = some c → k = 0 ∧ c = '-' := by
    intro k c h
    cases k with
    | zero => simp at h; exact ⟨rfl, h.symm⟩
    | succ k => simp at h
  split_ifs at hc with h1 h2 h3 h4 h5 h6 h7 h8
  all_goals first
    | (have hg := hget _ _ hc
       exact ⟨⟨fun h => absurd h hg.1, fun h => by omega⟩, fun _ => hg.2⟩)
    | (obtain ⟨hk, rfl⟩ := hdash _ _ hc
       exact ⟨⟨fun _ => by omega, fun _ => rfl⟩, fun h => absurd rfl h⟩)

/-- **C171.** A text that is not an identifier is refused: hexadecimal digits and hyphens, but not 32 digits. -/
theorem C171_refused (int16 : List Char → Option ℤ) (random : ℕ) (s : List Char) (hs : Spec.HexText s)
    (hlen : (s.filter fun c => c ≠ '-').length ≠ 32) :
    getUuid int16 random (.text s) = .error "ValueError: badly formed hexadecimal UUID string" := by
  unfold getUuid parseUuid
  dsimp only
  rw [uuidDigits_plain s hs, if_pos hlen]

/-- **C171.** An identifier that is given is used as it is, and a random one if none is given; whatever text is accepted, the identifier is
below `2 ^ 128`, so that its text can be read back. -/
theorem C171_given (int16 : List Char → Option ℤ) (hint : Spec.ReadsHex int16) (random : ℕ) :
    (∀ n, getUuid int16 random (.uuid n) = .ok n) ∧ getUuid int16 random .none = .ok random ∧
    ∀ s n, getUuid int16 random (.text s) = .ok n → n < 2 ^ 128 ∧ ∀ random', getUuid int16 random' (.text (uuidText n)) = .ok n := by
  refine ⟨fun n => rfl, rfl, fun s n h => ?_⟩
  have hn : n < 2 ^ 128 := by
    unfold getUuid parseUuid at h
    dsimp only at h
    split_ifs at h
    split at h
    · cases h
    · split_ifs at h with hr
      cases h
      omega
  exact ⟨hn, fun random' => C171_read_back int16 hint random' n hn⟩

/-- A reader of hexadecimal numbers. -/
example : ∃ int16, Spec.ReadsHex int16 := ⟨fun cs => some (Spec.hexNumber cs : ℤ), fun cs _ _ => rfl⟩

example : uuidText 0x123e4567e89b12d3a456426614174000 = "123e4567-e89b-12d3-a456-426614174000".toList := by decide +kernel

/-! ### C172 -/

/-- **C172.** The days of a range: the start and the days after it, in order, as long as a whole day is left before the end. The end itself is
not one of them. -/
theorem C172_dates (day : ℤ) (hday : 0 < day) (start stop : ℤ) :
    (∀ x, x ∈ dateRange day start stop ↔ (∃ n : ℕ, x = start + n * day) ∧ x + day ≤ stop) ∧
    (dateRange day start stop).Pairwise (· < ·) ∧ stop ∉ dateRange day start stop := by
  have hmem : ∀ x, x ∈ dateRange day start stop ↔ (∃ n : ℕ, x = start + n * day) ∧ x + day ≤ stop := by
    intro x
    unfold dateRange
    rw [List.mem_map]
    constructor
    · rintro ⟨n, hn, rfl⟩
      rw [List.mem_range] at hn
      refine ⟨⟨n, rfl⟩, ?_⟩
      have h1 : (n : ℤ) + 1 ≤ (stop - start) / day := by omega
      have h2 := (Int.le_ediv_iff_mul_le hday).1 h1
      linarith
    · rintro ⟨⟨n, rfl⟩, h⟩
      refine ⟨n, List.mem_range.2 ?_, rfl⟩
      have : (n : ℤ) + 1 ≤ (stop - start) / day := (Int.le_ediv_iff_mul_le hday).2 (by linarith)
      omega
  refine ⟨hmem, ?_, fun h => ?_⟩
  · unfold dateRange
    rw [List.pairwise_map]
    refine List.pairwise_lt_range.imp fun {a b} hab => ?_
    have : (a : ℤ) < b := by exact_mod_cast hab
    nlinarith
  · have := ((hmem stop).1 h).2
    omega

example : dateRange 1 10 13 = [10, 11, 12] := by decide

theorem delKeysLoop_ok {V : Type} (data : List (String × V)) (keys : List String) (temp : List (String × V))
    (ht : ∀ k ∈ keys, k ∈ data.map Prod.fst → k ∈ temp.map Prod.fst) (hk : ∀ k ∈ data.map Prod.fst, keys.count k ≤ 1)
    (hsub : ∀ e ∈ temp, e ∈ data) : delKeysLoop data keys temp = .ok (temp.filter fun e => e.1 ∉ keys) := by
  induction keys generalizing temp with
  | nil => simp [delKeysLoop]
  | cons k keys ih =>
    rw [delKeysLoop]
    by_cases hkd : k ∈ data.map Prod.fst
    · rw [if_pos hkd]
      unfold dictDel
      rw [if_pos (ht k (by simp) hkd)]
      dsimp only
      have hnot : k ∉ keys := by
        have := hk k hkd
        rw [List.count_cons_self] at this
        exact List.count_eq_zero.1 (by omega)
      rw [ih]
      · rw [List.filter_filter]
        congr 1
        apply List.filter_congr
        intro e _
        rw [Bool.eq_iff_iff]
        simp only [Bool.and_eq_true, decide_eq_true_eq, List.mem_cons]
        tauto
      · intro x hx hxd
        have h := ht x (by simp [hx]) hxd
        obtain ⟨e, he, rfl⟩ := List.mem_map.1 h
        refine List.mem_map.2 ⟨e, List.mem_filter.2 ⟨he, ?_⟩, rfl⟩
        simp only [ne_eq, decide_eq_true_eq]
        rintro heq
        rw [heq] at hx
        exact hnot hx
      · intro x hx
        have := hk x hx
        rw [List.count_cons] at this
        omega
      · intro e he
        exact hsub e (List.mem_filter.1 he).1
    · rw [if_neg hkd, ih]
      · congr 1
        apply List.filter_congr
        intro e he
        rw [Bool.eq_iff_iff]
        simp only [decide_eq_true_eq, List.mem_cons]
        have : e.1 ≠ k := by rintro rfl; exact hkd (List.mem_map_of_mem (hsub e he))
        tauto
      · intro x hx hxd
        exact ht x (by simp [hx]) hxd
      · intro x hx
        have := hk x hx
        rw [List.count_cons] at this
        omega
      · exact hsub

theorem delKeysLoop_error {V : Type} (data : List (String × V)) (keys : List String) (temp : List (String × V))
    (h : ∃ k ∈ data.map Prod.fst, k ∈ keys ∧ (k ∉ temp.map Prod.fst ∨ 2 ≤ keys.count k)) : delKeysLoop data keys temp = .error "KeyError" := by
  induction keys generalizing temp with
  | nil => obtain ⟨k, -, hk, -⟩ := h; simp at hk
  | cons a keys ih =>
    obtain ⟨k, hkd, hk, hor⟩ := h
    rw [delKeysLoop]
    by_cases had : a ∈ data.map Prod.fst
    · rw [if_pos had]
      unfold dictDel
      by_cases hat : a ∈ temp.map Prod.fst
      · rw [if_pos hat]
        dsimp only
        apply ih
        by_cases hka : k = a
        · subst hka
          rcases hor with h | h
          · exact absurd hat h
          · rw [List.count_cons_self] at h
            refine ⟨k, hkd, List.count_pos_iff.1 (by omega), Or.inl ?_⟩
            intro hm
            obtain ⟨e, he, hek⟩ := List.mem_map.1 hm
            have := (List.mem_filter.1 he).2
            simp [hek] at this
        · refine ⟨k, hkd, (List.mem_cons.1 hk).resolve_left hka, ?_⟩
          rcases hor with h | h
          · refine Or.inl fun hm => h ?_
            obtain ⟨e, he, hek⟩ := List.mem_map.1 hm
            exact List.mem_map.2 ⟨e, (List.mem_filter.1 he).1, hek⟩
          · rw [List.count_cons_of_ne (fun h => hka h.symm)] at h
            exact Or.inr h
      · rw [if_neg hat]
    · rw [if_neg had]
      have hka : k ≠ a := by rintro rfl; exact had hkd
      refine ih _ ⟨k, hkd, (List.mem_cons.1 hk).resolve_left hka, hor.imp_right fun h => ?_⟩
      rwa [List.count_cons_of_ne (fun h => hka h.symm)] at h

/-- **C172.** Deleting keys from a dictionary keeps the other entries in their order; keys that are not there are ignored. A key of the dictionary
that is listed twice is a `KeyError`. -/
theorem C172_del_keys {V : Type} (data : List (String × V)) (keys : List String) :
    ((∀ k ∈ data.map Prod.fst, keys.count k ≤ 1) → delDictKeys data keys = .ok (data.filter fun e => e.1 ∉ keys)) ∧
    ((∃ k ∈ data.map Prod.fst, 2 ≤ keys.count k) → delDictKeys data keys = .error "KeyError") :=
  ⟨fun h => delKeysLoop_ok data keys data (fun k _ hk => hk) h fun e he => he,
    fun ⟨k, hk, hc⟩ => delKeysLoop_error data keys data ⟨k, hk, List.count_pos_iff.1 (by omega), Or.inr hc⟩⟩

example : delDictKeys [("a", 1), ("b", 2)] ["a", "c"] = .ok [("b", 2)] := by decide

example : delDictKeys [("a", 1), ("b", 2)] ["a", "a"] = .error "KeyError" := by decide

/-- Appending several arrays, one after the other. -/
def Spec.appended {α : Type} (data : String → Option (List α)) (arrays : List (String × List α)) : String → Option (List α) :=
  arrays.foldl (fun d a => appendField d a.1 a.2) data

/-- **C172.** After any number of arrays have been appended, a field has its old values followed by the arrays given under its name, in order;
a field that was not there and for which nothing was given is still not there. -/
theorem C172_append {α : Type} (data : String → Option (List α)) (arrays : List (String × List α)) (key : String) :
    let given := (arrays.filter fun a => a.1 = key).map Prod.snd
    (∀ old, data key = some old → Spec.appended data arrays key = some (old ++ given.flatten)) ∧
    (data key = none → Spec.appended data arrays key = if given = [] then none else some given.flatten) := by
  have hstep : ∀ (d : String → Option (List α)) (a : String × List α), appendField d a.1 a.2 key =
      if a.1 = key then some ((d key).getD [] ++ a.2) else d key := by
    intro d a
    unfold appendField
    by_cases h : key = a.1
    · subst h
      rw [if_pos rfl, if_pos rfl]
      cases d a.1 <;> rfl
    · rw [if_neg h, if_neg fun h' => h h'.symm]
  dsimp only
  induction arrays generalizing data with
  | nil => exact ⟨fun old h => by simp [Spec.appended, h], fun h => by simp [Spec.appended, h]⟩
  | cons a arrays ih =>
    obtain ⟨i1, i2⟩ := ih (appendField data a.1 a.2)
    have e : Spec.appended data (a :: arrays) = Spec.appended (appendField data a.1 a.2) arrays := rfl
    rw [e]
    by_cases ha : a.1 = key
    · have hf : ((a :: arrays).filter fun a => decide (a.1 = key)) = a :: arrays.filter fun a => decide (a.1 = key) := by
        rw [List.filter_cons, if_pos (by simpa using ha)]
      rw [hf, List.map_cons, List.flatten_cons]
      refine ⟨fun old h => ?_, fun h => ?_⟩
      · rw [i1 (old ++ a.2) (by rw [hstep, if_pos ha, h]; rfl), List.append_assoc]
      · rw [i1 a.2 (by rw [hstep, if_pos ha, h]; rfl), if_neg (by simp)]
    · have hf : ((a :: arrays).filter fun a => decide (a.1 = key)) = arrays.filter fun a => decide (a.1 = key) := by
        rw [List.filter_cons, if_neg (by simpa using ha)]
      rw [hf]
      have h0 : appendField data a.1 a.2 key = data key := by rw [hstep, if_neg ha]
      exact ⟨fun old h => i1 old (by rw [h0, h]), fun h => i2 (by rw [h0, h])⟩

example : Spec.appended (fun _ => none) [("time", [1, 2]), ("z", [5]), ("time", [3])] "time" = some [1, 2, 3] := by decide

/-- **C172.** Files with all needed variables: they are found, in the order given, if all files can be read; otherwise the first error is raised. -/
theorem C172_files {F : Type} (read : F → Except String (List String)) (needed : List String) (files : List F) (names : F → List String) :
    ((∀ f ∈ files, read f = .ok (names f)) →
      filesWithVariables read needed files = .ok (files.filter fun f => decide (∀ v ∈ needed, v ∈ names f))) ∧
    (∀ before f after e, files = before ++ f :: after → (∀ g ∈ before, read g = .ok (names g)) → read f = .error e →
      filesWithVariables read needed files = .error e) := by
  constructor
  · intro h
    induction files with
    | nil => rfl
    | cons f fs ih =>
      rw [filesWithVariables, h f (by simp)]
      dsimp only
      rw [ih fun x hx => h x (by simp [hx])]
      dsimp only
      rw [List.filter_cons]
      have : (needed.all fun v => (names f).contains v) = decide (∀ v ∈ needed, v ∈ names f) := by
        rw [Bool.eq_iff_iff, List.all_eq_true]
        simp
      rw [this]
      split <;> rfl
  · rintro before f after e rfl hb hf
    induction before with
    | nil => rw [List.nil_append, filesWithVariables, hf]
    | cons g gs ih =>
      rw [List.cons_append, filesWithVariables, hb g (by simp)]
      dsimp only
      rw [ih fun x hx => hb x (by simp [hx])]

example : filesWithVariables (fun f => if f = 3 then .error "OSError" else if f = 1 then .ok ["Z", "v"] else .ok ["v"]) ["Z"] [0, 1, 2] = .ok [1] := by
  decide

/-- `k` digits. -/
def Spec.DigitText (digit : Char → Bool) (k : ℕ) (s : List Char) : Prop := s.length = k ∧ ∀ c ∈ s, digit c = true

/-- A character that a place of the pattern allows. -/
def patternFits (digit : Char → Bool) (q : Option Char) (c : Char) : Prop := match q with
  | none => digit c = true
  | some x => c = x

theorem fits_digit {digit : Char → Bool} {ps : List (Option Char)} {a : List Char} (h : List.Forall₂ (patternFits digit) (none :: ps) a) :
    ∃ c a', a = c :: a' ∧ digit c = true ∧ List.Forall₂ (patternFits digit) ps a' := by
  cases h with
  | cons h1 h2 => exact ⟨_, _, rfl, h1, h2⟩

theorem fits_char {digit : Char → Bool} {x : Char} {ps : List (Option Char)} {a : List Char} (h : List.Forall₂ (patternFits digit) (some x :: ps) a) :
    ∃ a', a = x :: a' ∧ List.Forall₂ (patternFits digit) ps a' := by
  cases h with
  | cons h1 h2 => exact ⟨_, by rw [show _ = x from h1], h2⟩

theorem matchPattern_iff (digit : Char → Bool) (p : List (Option Char)) (s : List Char) : matchPattern digit p s = true ↔
    ∃ a rest, s = a ++ rest ∧ List.Forall₂ (patternFits digit) p a := by
  induction p generalizing s with
  | nil => simp [matchPattern]
  | cons q ps ih =>
    cases s with
    | nil =>
      simp only [matchPattern, Bool.false_eq_true, false_iff]
      rintro ⟨a, rest, h, hf⟩
      cases hf
      simp at h
    | cons c cs =>
      constructor
      · intro h
        have hq : patternFits digit q c ∧ matchPattern digit ps cs = true := by
          cases q with
          | none => simpa [matchPattern, patternFits] using h
          | some x => simpa [matchPattern, patternFits] using h
        obtain ⟨a, rest, rfl, hf⟩ := (ih cs).1 hq.2
        exact ⟨c :: a, rest, rfl, .cons hq.1 hf⟩
      · rintro ⟨a, rest, h, hf⟩
        cases hf with
        | cons hq hf =>
          rename_i c' a'
          rw [List.cons_append, List.cons.injEq] at h
          obtain ⟨rfl, rfl⟩ := h
          have := (ih (a' ++ rest)).2 ⟨a', rest, rfl, hf⟩
          cases q with
          | none => simpa [matchPattern, patternFits, this] using hq
          | some x => simpa [matchPattern, patternFits, this] using hq

theorem digits_one {digit : Char → Bool} {c : Char} (h : digit c = true) : Spec.DigitText digit 1 [c] := ⟨rfl, by simpa using h⟩

/-- **C172.** A text is taken for a time stamp exactly if it starts with a hyphen, a date and a time, each number with the right count of digits.
What follows is not looked at, and neither are the values: there is no month 99. -/
theorem C172_timestamp (digit : Char → Bool) (s : List Char) : isTimestamp digit s = true ↔
    ∃ year month day hour minute second rest, Spec.DigitText digit 4 year ∧ Spec.DigitText digit 2 month ∧ Spec.DigitText digit 2 day ∧
      Spec.DigitText digit 2 hour ∧ Spec.DigitText digit 2 minute ∧ Spec.DigitText digit 2 second ∧
      s = ['-'] ++ year ++ ['-'] ++ month ++ ['-'] ++ day ++ [' '] ++ hour ++ [':'] ++ minute ++ [':'] ++ second ++ rest := by
  unfold isTimestamp
  rw [matchPattern_iff]
  constructor
  · rintro ⟨a, rest, rfl, hf⟩
    unfold stampPattern at hf
    obtain ⟨_, rfl, f0⟩ := fits_char hf
    obtain ⟨y1, _, rfl, h1, f1⟩ := fits_digit f0
    obtain ⟨y2, _, rfl, h2, f2⟩ := fits_digit f1
    obtain ⟨y3, _, rfl, h3, f3⟩ := fits_digit f2
    obtain ⟨y4, _, rfl, h4, f4⟩ := fits_digit f3
    obtain ⟨_, rfl, f5⟩ := fits_char f4
    obtain ⟨m1, _, rfl, h5, f6⟩ := fits_digit f5
    obtain ⟨m2, _, rfl, h6, f7⟩ := fits_digit f6
    obtain ⟨_, rfl, f8⟩ := fits_char f7
    obtain ⟨d1, _, rfl, h7, f9⟩ := fits_digit f8
    obtain ⟨d2, _, rfl, h8, f10⟩ := fits_digit f9
    obtain ⟨_, rfl, f11⟩ := fits_char f10
    obtain ⟨k1, _, rfl, h9, f12⟩ := fits_digit f11
    obtain ⟨k2, _, rfl, h10, f13⟩ := fits_digit f12
    obtain ⟨_, rfl, f14⟩ := fits_char f13
    obtain ⟨n1, _, rfl, h11, f15⟩ := fits_digit f14
    obtain ⟨n2, _, rfl, h12, f16⟩ := fits_digit f15
    obtain ⟨_, rfl, f17⟩ := fits_char f16
    obtain ⟨s1, _, rfl, h13, f18⟩ := fits_digit f17
    obtain ⟨s2, _, rfl, h14, f19⟩ := fits_digit f18
    cases f19
    exact ⟨[y1, y2, y3, y4], [m1, m2], [d1, d2], [k1, k2], [n1, n2], [s1, s2], rest, ⟨rfl, by simp [h1, h2, h3, h4]⟩, ⟨rfl, by simp [h5, h6]⟩,
      ⟨rfl, by simp [h7, h8]⟩, ⟨rfl, by simp [h9, h10]⟩, ⟨rfl, by simp [h11, h12]⟩, ⟨rfl, by simp [h13, h14]⟩, by simp⟩
  · rintro ⟨year, month, day, hour, minute, second, rest, hy, hm, hd, hh, hn, hs, rfl⟩
    have two : ∀ l, Spec.DigitText digit 2 l → ∃ a b, l = [a, b] ∧ digit a = true ∧ digit b = true := by
      rintro l ⟨h1, h2⟩
      obtain ⟨a, b, rfl⟩ := List.length_eq_two.1 h1
      exact ⟨a, b, rfl, h2 a (by simp), h2 b (by simp)⟩
    obtain ⟨m1, m2, rfl, g1, g2⟩ := two _ hm
    obtain ⟨d1, d2, rfl, g3, g4⟩ := two _ hd
    obtain ⟨k1, k2, rfl, g5, g6⟩ := two _ hh
    obtain ⟨n1, n2, rfl, g7, g8⟩ := two _ hn
    obtain ⟨s1, s2, rfl, g9, g10⟩ := two _ hs
    obtain ⟨hy1, hy2⟩ := hy
    match year, hy1, hy2 with
    | [y1, y2, y3, y4], _, hy2 =>
      refine ⟨['-', y1, y2, y3, y4, '-', m1, m2, '-', d1, d2, ' ', k1, k2, ':', n1, n2, ':', s1, s2], rest, by simp, ?_⟩
      have e1 := hy2 y1 (by simp)
      have e2 := hy2 y2 (by simp)
      have e3 := hy2 y3 (by simp)
      have e4 := hy2 y4 (by simp)
      unfold stampPattern
      simp [patternFits, g1, g2, g3, g4, g5, g6, g7, g8, g9, g10, e1, e2, e3, e4]

example : isTimestamp Char.isDigit "-2020-99-01 10:11:12 and so on".toList = true := by decide +kernel

/-- **C172.** A text is read as an integer if it is one, otherwise as a decimal number; an error means that it is neither. -/
theorem C172_numeric {α : Type} (int : String → Option ℤ) (float : String → Option α) (s : String) :
    (∀ n, int s = some n → strToNumeric int float s = .ok (.int n)) ∧
    (int s = none → ∀ x, float s = some x → strToNumeric int float s = .ok (.float x)) ∧
    ((∃ e, strToNumeric int float s = .error e) ↔ int s = none ∧ float s = none) := by
  unfold strToNumeric
  cases hi : int s with
  | some n => simp
  | none =>
    cases hf : float s with
    | some x => simp
    | none => simp

end Cloudnet
