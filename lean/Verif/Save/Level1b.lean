import Mathlib.Tactic
import Verif.Save.Lemmas

/-!
Property C129: Level 1b files on disk.
-/

namespace Cloudnet

variable {β : Type}

namespace Spec

/-- The size of a dimension of a Level 1b file. -/
def dimension (o : L1bObject β) (name : String) : Option ℕ :=
  if name = "time" ∨ name = "range" then (o.data.lookup name).bind fun a => a.data.shape.head?
  else if name = "chirp_sequence" then
    (o.data.lookup "chirp_start_indices").bind fun a => (a.data.shape.take 2).getLast?
  else if name = "diameter" then (o.nVelocity).bind fun _ => o.nDiameter
  else if name = "velocity" then (o.nDiameter).bind fun _ => o.nVelocity
  else if name = "nv" then (o.nDiameter).bind fun _ => o.nVelocity.map fun _ => 2
  else if name = "frequency" then (o.data.lookup "tb").bind fun a => a.data.shape[1]?
  else if name = "receiver_nb" then (o.data.lookup "tb").bind fun _ => (o.data.lookup "receiver_nb").bind fun a => a.data.shape.head?
  else if name = "band" ∨ name = "t_amb_nb" then (o.data.lookup "tb").map fun _ => 2
  else if name = "ir_channel" then (o.data.lookup "irt").bind fun a => a.data.shape[1]?
  else none

/-- The arrays that dimensions are read from have enough of them. -/
def DimensionsKnown (o : L1bObject β) : Prop :=
  (∀ name ∈ ["time", "range", "chirp_start_indices"], ∀ a, o.data.lookup name = some a → a.data.shape ≠ []) ∧
  (∀ name ∈ ["tb", "irt"], ∀ a, o.data.lookup name = some a → 2 ≤ a.data.shape.length) ∧
  ((o.data.lookup "tb").isSome = true → ∃ a, o.data.lookup "receiver_nb" = some a ∧ a.data.shape ≠ [])

end Spec

theorem firstSize_ok (a : CloudnetArray (FileArray β)) (n : ℕ) : firstSize a = .ok n ↔ a.data.shape.head? = some n := by
  unfold firstSize
  split
  · next h => simp [h]
  · next h => simp [h]

theorem secondSize_ok (a : CloudnetArray (FileArray β)) (n : ℕ) : secondSize a = .ok n ↔ a.data.shape[1]? = some n := by
  unfold secondSize
  rcases a.data.shape with _ | ⟨x, _ | ⟨y, l⟩⟩ <;> simp

theorem bind_ok {A B : Type} (x : Except String A) (f : A → Except String B) (b : B) :
    x.bind f = .ok b ↔ ∃ a, x = .ok a ∧ f a = .ok b := by
  cases x <;> simp [Except.bind]

theorem map_ok {A B : Type} (x : Except String A) (f : A → B) (b : B) :
    x.map f = .ok b ↔ ∃ a, x = .ok a ∧ f a = b := by
  cases x <;> simp [Except.map]

theorem coordinateSizes_ok (data : List (String × CloudnetArray (FileArray β))) (l : List (String × ℕ)) :
    coordinateSizes data ["time", "range"] = .ok l →
      (∀ name, l.lookup name = if name = "time" ∨ name = "range" then (data.lookup name).bind fun a => a.data.shape.head? else none) ∧
      (∀ name ∈ ["time", "range"], ∀ a, data.lookup name = some a → a.data.shape ≠ []) := by
  intro h
  unfold coordinateSizes at h
  have hne : ∀ (a : CloudnetArray (FileArray β)) n, firstSize a = .ok n → a.data.shape ≠ [] := by
    intro a n h he
    rw [firstSize_ok, he] at h
    cases h
  have two : ∀ (lt lr : Option (CloudnetArray (FileArray β))) (t r : Option ℕ) (name : String),
      data.lookup "time" = lt → data.lookup "range" = lr → (lt.bind fun a => a.data.shape.head?) = t →
      (lr.bind fun a => a.data.shape.head?) = r →
      (if name = "time" ∨ name = "range" then (data.lookup name).bind fun a => a.data.shape.head? else none) =
        if name = "time" then t else if name = "range" then r else none := by
    intro lt lr t r name h1 h2 h3 h4
    by_cases n1 : name = "time"
    · subst n1; simp [h1, h3]
    · by_cases n2 : name = "range"
      · subst n2; simp [h2, h4]
      · simp [n1, n2]
  have look : ∀ (name k : String) (n : ℕ) (l : List (String × ℕ)),
      List.lookup name ((k, n) :: l) = if name = k then some n else l.lookup name := by
    intro name k n l
    rw [List.lookup_cons]
    by_cases hk : name = k
    · simp [hk]
    · rw [show (name == k) = false by simpa using hk, if_neg hk]
  cases ht : data.lookup "time" with
  | none =>
    rw [ht] at h
    dsimp only at h
    unfold coordinateSizes at h
    cases hr : data.lookup "range" with
    | none =>
      rw [hr] at h
      cases h
      refine ⟨fun name => ?_, ?_⟩
      · rw [two _ _ none none name ht hr rfl rfl]; simp
      · simp [ht, hr]
    | some b =>
      rw [hr] at h
      dsimp only at h
      rw [bind_ok] at h
      obtain ⟨n, hn, h⟩ := h
      cases h
      refine ⟨fun name => ?_, ?_⟩
      · rw [two _ _ none (some n) name ht hr rfl ((firstSize_ok _ _).1 hn), look]
        by_cases n1 : name = "time"
        · subst n1; simp
        · simp [n1]
      · simp [ht, hr]
        exact hne b n hn
  | some a =>
    rw [ht] at h
    dsimp only at h
    rw [bind_ok] at h
    obtain ⟨m, hm, h⟩ := h
    unfold coordinateSizes at h
    cases hr : data.lookup "range" with
    | none =>
      rw [hr] at h
      cases h
      refine ⟨fun name => ?_, ?_⟩
      · rw [two _ _ (some m) none name ht hr ((firstSize_ok _ _).1 hm) rfl, look]; simp
      · simp [ht, hr]
        exact hne a m hm
    | some b =>
      rw [hr] at h
      dsimp only at h
      rw [map_ok] at h
      obtain ⟨l', h', rfl⟩ := h
      rw [bind_ok] at h'
      obtain ⟨n, hn, h'⟩ := h'
      cases h'
      refine ⟨fun name => ?_, ?_⟩
      · rw [two _ _ (some m) (some n) name ht hr ((firstSize_ok _ _).1 hm) ((firstSize_ok _ _).1 hn), look, look]; simp
      · simp [ht, hr]
        exact ⟨hne a m hm, hne b n hn⟩

theorem coordinateSizes_total (data : List (String × CloudnetArray (FileArray β)))
    (h : ∀ name ∈ ["time", "range"], ∀ a, data.lookup name = some a → a.data.shape ≠ []) :
    ∃ l, coordinateSizes data ["time", "range"] = .ok l := by
  have hf : ∀ (a : CloudnetArray (FileArray β)), a.data.shape ≠ [] → ∃ n, firstSize a = .ok n := by
    intro a ha
    unfold firstSize
    split
    · next he => exact absurd he ha
    · exact ⟨_, rfl⟩
  have h1 := h "time" (by simp)
  have h2 := h "range" (by simp)
  unfold coordinateSizes
  cases ht : data.lookup "time" with
  | none =>
    dsimp only
    unfold coordinateSizes
    cases hr : data.lookup "range" with
    | none => exact ⟨_, rfl⟩
    | some b =>
      obtain ⟨n, hn⟩ := hf b (h2 b hr)
      exact ⟨[("range", n)], by simp [hn, Except.bind, coordinateSizes, Except.map]⟩
  | some a =>
    obtain ⟨m, hm⟩ := hf a (h1 a ht)
    dsimp only
    unfold coordinateSizes
    cases hr : data.lookup "range" with
    | none => exact ⟨[("time", m)], by simp [hm, Except.bind, coordinateSizes, Except.map]⟩
    | some b =>
      obtain ⟨n, hn⟩ := hf b (h2 b hr)
      exact ⟨[("time", m), ("range", n)], by simp [hm, hn, Except.bind, coordinateSizes, Except.map]⟩

/-- Names with more than one entry are looked up one by one. -/
theorem lookup_pair (name k : String) (n : ℕ) (l : List (String × ℕ)) :
    List.lookup name ((k, n) :: l) = if name = k then some n else l.lookup name := by
  rw [List.lookup_cons]
  by_cases hk : name = k
  · simp [hk]
  · rw [show (name == k) = false by simpa using hk, if_neg hk]

theorem netcdfDimensions_ok (o : L1bObject β) (dims : List (String × ℕ)) (h : netcdfDimensions o = .ok dims) :
    (∀ name, dims.lookup name = Spec.dimension o name) ∧ Spec.DimensionsKnown o := by
  unfold netcdfDimensions at h
  simp only [bind_ok, map_ok] at h
  obtain ⟨a, ha, b, hb, d, hd, e, he, rfl⟩ := h
  obtain ⟨a1, a2⟩ := coordinateSizes_ok o.data a ha
  have b1 : (∀ name, b.lookup name = if name = "chirp_sequence" then
      (o.data.lookup "chirp_start_indices").bind fun a => (a.data.shape.take 2).getLast? else none) ∧
      ∀ a, o.data.lookup "chirp_start_indices" = some a → a.data.shape ≠ [] := by
    unfold chirpSize at hb
    cases hc : o.data.lookup "chirp_start_indices" with
    | none => rw [hc] at hb; cases hb; simp
    | some x =>
      rw [hc] at hb
      dsimp only at hb
      split at hb
      · cases hb
      · next n hs => cases hb; simp [hs, lookup_pair]
      · next m n l hs => cases hb; simp [hs, lookup_pair]
  have d1 : (∀ name, d.lookup name = if name = "frequency" then (o.data.lookup "tb").bind fun a => a.data.shape[1]?
      else if name = "receiver_nb" then
        (o.data.lookup "tb").bind fun _ => (o.data.lookup "receiver_nb").bind fun a => a.data.shape.head?
      else if name = "band" ∨ name = "t_amb_nb" then (o.data.lookup "tb").map fun _ => 2 else none) ∧
      (∀ a, o.data.lookup "tb" = some a → 2 ≤ a.data.shape.length) ∧
      ((o.data.lookup "tb").isSome = true → ∃ a, o.data.lookup "receiver_nb" = some a ∧ a.data.shape ≠ []) := by
    unfold tbSizes at hd
    cases hc : o.data.lookup "tb" with
    | none => rw [hc] at hd; cases hd; simp
    | some x =>
      rw [hc] at hd
      simp only [bind_ok] at hd
      obtain ⟨n, hn, hd⟩ := hd
      rw [secondSize_ok] at hn
      cases hr : o.data.lookup "receiver_nb" with
      | none => rw [hr] at hd; cases hd
      | some r =>
        rw [hr] at hd
        simp only [map_ok] at hd
        obtain ⟨m, hm, rfl⟩ := hd
        rw [firstSize_ok] at hm
        refine ⟨fun name => ?_, ?_, ?_⟩
        · simp only [lookup_pair, Option.bind_some, hn, hm, Option.map_some, List.lookup_nil]
          split_ifs <;> simp_all
        · intro a ha
          cases ha
          have := (List.getElem?_eq_some_iff.1 hn).1
          omega
        · intro _
          exact ⟨r, rfl, fun h0 => by rw [h0] at hm; cases hm⟩
  have e1 : (∀ name, e.lookup name = if name = "ir_channel" then (o.data.lookup "irt").bind fun a => a.data.shape[1]? else none) ∧
      ∀ a, o.data.lookup "irt" = some a → 2 ≤ a.data.shape.length := by
    unfold irtSize at he
    cases hc : o.data.lookup "irt" with
    | none => rw [hc] at he; cases he; simp
    | some x =>
      rw [hc] at he
      simp only [map_ok] at he
      obtain ⟨n, hn, rfl⟩ := he
      rw [secondSize_ok] at hn
      refine ⟨fun name => by simp [lookup_pair, hn], fun a ha => ?_⟩
      cases ha
      have := (List.getElem?_eq_some_iff.1 hn).1
      omega
  constructor
  · intro name
    have hm : ∀ name, (disdrometerSizes o).lookup name =
        if name = "diameter" then o.nVelocity.bind fun _ => o.nDiameter else if name = "velocity" then o.nDiameter.bind fun _ => o.nVelocity
        else if name = "nv" then o.nDiameter.bind fun _ => o.nVelocity.map fun _ => 2 else none := by
      intro name
      unfold disdrometerSizes
      cases o.nDiameter <;> cases o.nVelocity <;> simp [lookup_pair]
    rw [List.lookup_append, List.lookup_append, List.lookup_append, List.lookup_append, a1, b1.1, d1.1, e1.1, hm]
    unfold Spec.dimension
    generalize (o.data.lookup "chirp_start_indices").bind (fun a => (a.data.shape.take 2).getLast?) = c1
    generalize ((o.data.lookup "tb").bind fun a => a.data.shape[1]?) = c2
    generalize ((o.data.lookup "tb").bind fun _ => (o.data.lookup "receiver_nb").bind fun a => a.data.shape.head?) = c3
    generalize ((o.data.lookup "tb").map fun _ => 2) = c4
    generalize ((o.data.lookup "irt").bind fun a => a.data.shape[1]?) = c5
    generalize ((o.data.lookup name).bind fun a => a.data.shape.head?) = c6
    generalize o.nDiameter = p
    generalize o.nVelocity = q
    by_cases n1 : name = "time" ∨ name = "range"
    · rcases n1 with rfl | rfl <;> simp
    · rw [if_neg n1, if_neg n1]
      by_cases n2 : name = "chirp_sequence"
      · subst n2; simp
      · rw [if_neg n2, if_neg n2]
        by_cases n3 : name = "diameter"
        · subst n3; simp
        · by_cases n4 : name = "velocity"
          · subst n4; simp
          · by_cases n5 : name = "nv"
            · subst n5; simp
            · by_cases n6 : name = "frequency"
              · subst n6; simp
              · by_cases n7 : name = "receiver_nb"
                · subst n7; simp
                · by_cases n8 : name = "band" ∨ name = "t_amb_nb"
                  · rcases n8 with rfl | rfl <;> simp
                  · simp [n3, n4, n5, n6, n7, n8]
  · refine ⟨?_, ?_, d1.2.2⟩
    · intro name hm a ha
      simp only [List.mem_cons, List.not_mem_nil, or_false] at hm
      rcases hm with rfl | rfl | rfl
      · exact a2 "time" (by simp) a ha
      · exact a2 "range" (by simp) a ha
      · exact b1.2 a ha
    · intro name hm a ha
      simp only [List.mem_cons, List.not_mem_nil, or_false] at hm
      rcases hm with rfl | rfl
      · exact d1.2.1 a ha
      · exact e1.2 a ha

theorem netcdfDimensions_total (o : L1bObject β) (h : Spec.DimensionsKnown o) : ∃ dims, netcdfDimensions o = .ok dims := by
  obtain ⟨h1, h2, h3⟩ := h
  have hsec : ∀ a : CloudnetArray (FileArray β), 2 ≤ a.data.shape.length → ∃ n, secondSize a = .ok n := by
    intro a ha
    unfold secondSize
    match a.data.shape, ha with
    | _ :: n :: _, _ => exact ⟨n, rfl⟩
  obtain ⟨a, ha⟩ := coordinateSizes_total o.data fun name hn => h1 name (by
    simp only [List.mem_cons, List.not_mem_nil, or_false] at hn ⊢; tauto)
  have hb : ∃ b, chirpSize o.data = .ok b := by
    unfold chirpSize
    cases hc : o.data.lookup "chirp_start_indices" with
    | none => exact ⟨_, rfl⟩
    | some x =>
      have := h1 _ (by simp) x hc
      dsimp only
      match x.data.shape, this with
      | [n], _ => exact ⟨_, rfl⟩
      | _ :: n :: _, _ => exact ⟨_, rfl⟩
  have hd : ∃ d, tbSizes o.data = .ok d := by
    unfold tbSizes
    cases hc : o.data.lookup "tb" with
    | none => exact ⟨_, rfl⟩
    | some x =>
      obtain ⟨n, hn⟩ := hsec x (h2 _ (by simp) x hc)
      obtain ⟨r, hr, hr2⟩ := h3 (by rw [hc]; rfl)
      obtain ⟨m, hm⟩ : ∃ m, firstSize r = .ok m := by
        unfold firstSize
        split
        · next he => exact absurd he hr2
        · exact ⟨_, rfl⟩
      simp only [hn, hr, hm, Except.bind, Except.map]
      exact ⟨_, rfl⟩
  have he : ∃ e, irtSize o.data = .ok e := by
    unfold irtSize
    cases hc : o.data.lookup "irt" with
    | none => exact ⟨_, rfl⟩
    | some x =>
      obtain ⟨n, hn⟩ := hsec x (h2 _ (by simp) x hc)
      simp only [hn, Except.map]
      exact ⟨_, rfl⟩
  obtain ⟨b, hb⟩ := hb
  obtain ⟨d, hd⟩ := hd
  obtain ⟨e, he⟩ := he
  unfold netcdfDimensions
  simp only [ha, hb, hd, he, Except.bind, Except.map]
  exact ⟨_, rfl⟩

theorem level1bGlobals_vars (stamp : String) (o : L1bObject β) (f : DiskFile β) :
    (level1bGlobals stamp o f).1.vars = f.vars ∧ (level1bGlobals stamp o f).1.dims = f.dims := by
  unfold level1bGlobals
  split
  · exact ⟨rfl, rfl⟩
  · exact setAll_vars _ _

theorem level1bGlobals_none (stamp : String) (o : L1bObject β) (f : DiskFile β) :
    (level1bGlobals stamp o f).2 = none ↔ o.siteName ≠ none := by
  unfold level1bGlobals
  split
  · next h => simp [h]
  · next h => simp [h]

/-- Attributes for software do not replace others. -/
theorem version_ne (s k : String) (h : ¬ "_version".toList <:+ k.toList) : s ++ "_version" ≠ k := by
  rintro rfl
  exact h ⟨s.toList, by simp⟩

theorem software_lookup (software : List (String × String)) (k : String) (h : ¬ "_version".toList <:+ k.toList) :
    (software.map fun sv => (sv.1 ++ "_version", sv.2)).reverse.lookup k = none := by
  rw [List.lookup_eq_none_iff]
  intro p hp
  rw [List.mem_reverse, List.mem_map] at hp
  obtain ⟨sv, _, rfl⟩ := hp
  simpa [bne_iff_ne] using (version_ne sv.1 k h).symm

/-- **C129.** A Level 1b file is written exactly if the arrays that give the dimensions have enough of them, no variable name is used
twice, all dimensions of the variables are known and fit to the data, and the name of the site is given. -/
theorem C129_saved_iff (fits : List ℕ → List ℕ → Bool) (version stamp : String) (o : L1bObject β) (uuid : String)
    (old : Option (DiskFile β)) :
    (saveLevel1b fits version stamp o uuid old).2 = none ↔
      Spec.DimensionsKnown o ∧ Spec.Writable fits (Spec.dimension o) (o.data.map Prod.snd) ∧ o.siteName ≠ none := by
  unfold saveLevel1b
  cases hd : netcdfDimensions o with
  | error e =>
    simp only [reduceCtorEq, false_iff]
    rintro ⟨h, _⟩
    obtain ⟨dims, h'⟩ := netcdfDimensions_total o h
    rw [hd] at h'
    cases h'
  | ok dims =>
    obtain ⟨h1, h2⟩ := netcdfDimensions_ok o dims hd
    dsimp only
    rw [next_none, level1bGlobals_none, (initFile_spec fits version dims o.data uuid).1,
      show (fun d => dims.lookup d) = Spec.dimension o from funext h1]
    exact ⟨fun ⟨a, b⟩ => ⟨h2, a, b⟩, fun ⟨_, a, b⟩ => ⟨a, b⟩⟩

/-- **C129.** A file that was written has the dimensions, all variables with everything they have, in order, and the global
attributes. -/
theorem C129_file (fits : List ℕ → List ℕ → Bool) (version stamp : String) (o : L1bObject β) (uuid : String)
    (old disk : Option (DiskFile β)) (h : saveLevel1b fits version stamp o uuid old = (disk, none)) :
    ∃ f location, disk = some f ∧ o.siteName = some location ∧ (∀ name, f.dims.lookup name = Spec.dimension o name) ∧
      List.Forall₂ (Spec.WrittenAs fits (Spec.dimension o)) (o.data.map Prod.snd) f.vars ∧
      f.globals.lookup "Conventions" = some "CF-1.8" ∧ f.globals.lookup "file_uuid" = some uuid ∧
      ((∀ sv ∈ o.software, sv.1 ≠ "cloudnetpy") → f.globals.lookup "cloudnetpy_version" = some version) ∧
      f.globals.lookup "cloudnet_file_type" = some o.instrument.domain ∧
      f.globals.lookup "location" = some location ∧
      f.globals.lookup "year" = some (toString o.year) ∧ f.globals.lookup "month" = some (zfill2 o.month) ∧
      f.globals.lookup "day" = some (zfill2 o.day) ∧
      f.globals.lookup "history" = some (stamp ++ " - " ++ o.instrument.domain ++ " file created") ∧
      f.globals.lookup "title" = some (l1bTitle o.instrument location) ∧
      f.globals.lookup "source" = some (l1bSource o.instrument) ∧
      f.globals.lookup "serial_number" = o.serial ∧
      f.globals.lookup "references" = some "https://doi.org/10.21105/joss.02123" ∧
      (∀ k, ¬ "_version".toList <:+ k.toList → k ∉ ["Conventions", "file_uuid", "cloudnet_file_type", "location", "year", "month", "day",
        "history", "title", "source", "serial_number", "references"] → f.globals.lookup k = none) ∧
      ((o.software.map Prod.fst).Nodup → ∀ sv ∈ o.software, f.globals.lookup (sv.1 ++ "_version") = some sv.2) := by
  have hnone : (saveLevel1b fits version stamp o uuid old).2 = none := by rw [h]
  obtain ⟨hk, hw, hs⟩ := (C129_saved_iff fits version stamp o uuid old).1 hnone
  obtain ⟨location, hl⟩ := Option.ne_none_iff_exists'.1 hs
  unfold saveLevel1b at h
  cases hd : netcdfDimensions o with
  | error e => rw [hd] at h; simp at h
  | ok dims =>
    rw [hd] at h
    dsimp only at h
    obtain ⟨h1, h2⟩ := netcdfDimensions_ok o dims hd
    have hdim : (fun d => dims.lookup d) = Spec.dimension o := funext h1
    have hi := (initFile_spec fits version dims o.data uuid).1
    rw [hdim] at hi
    have hi0 := hi.2 hw
    obtain ⟨i1, i2, i3⟩ := (initFile_spec fits version dims o.data uuid).2.1 hi0
    rw [next_eq _ _ hi0] at h
    generalize (initFile fits version dims o.data uuid).1 = g at h i1 i2 i3
    have hdisk : disk = some (level1bGlobals stamp o g).1 := by rw [← (Prod.mk.inj h).1]
    have hv := level1bGlobals_vars stamp o g
    rw [hdim] at i2
    have hlook : ∀ k, ¬ "_version".toList <:+ k.toList → (level1bGlobals stamp o g).1.globals.lookup k =
        if k = "references" then some (references none []) else
        ((match o.serial with | some s => [("serial_number", s)] | none => []).lookup k).or
        (([("cloudnet_file_type", o.instrument.domain), ("title", l1bTitle o.instrument location),
      ("year", toString o.year), ("month", zfill2 o.month), ("day", zfill2 o.day), ("location", location),
      ("history", stamp ++ " - " ++ o.instrument.domain ++ " file created"), ("source", l1bSource o.instrument)].reverse.lookup k).or
        (g.globals.lookup k)) := by
      intro k hkk
      unfold level1bGlobals
      rw [hl]
      dsimp only
      rw [setAll_lookup, List.reverse_append, List.reverse_append, List.reverse_append, List.lookup_append, List.lookup_append,
        List.lookup_append, software_lookup _ _ hkk]
      by_cases hr : k = "references"
      · subst hr; rfl
      · rw [if_neg hr, show [("references", references none [])].reverse.lookup k = none by
          simp [List.lookup_cons, show (k == "references") = false by simpa using hr]]
        cases o.serial with
        | none => simp
        | some s => simp [Option.or_assoc]
    refine ⟨_, location, hdisk, hl, fun name => by rw [hv.2, i1, h1], by rw [hv.1]; exact i2, ?_, ?_, ?_, ?_, ?_, ?_, ?_, ?_, ?_, ?_, ?_, ?_, ?_, ?_, ?_⟩
    · rw [hlook _ (by decide), i3]
      cases o.serial <;> rfl
    · rw [hlook _ (by decide), i3]
      cases o.serial <;> rfl
    · intro hsw
      unfold level1bGlobals
      rw [hl]
      dsimp only
      rw [setAll_lookup, List.reverse_append, List.reverse_append, List.reverse_append, List.lookup_append, List.lookup_append,
        List.lookup_append, i3]
      rw [show (o.software.map fun sv => (sv.1 ++ "_version", sv.2)).reverse.lookup "cloudnetpy_version" = none by
        rw [List.lookup_eq_none_iff]
        intro p hp
        rw [List.mem_reverse, List.mem_map] at hp
        obtain ⟨sv, hm, rfl⟩ := hp
        rw [bne_iff_ne]
        intro he
        apply hsw sv hm
        have : "cloudnetpy".toList ++ "_version".toList = sv.1.toList ++ "_version".toList := by
          rw [← String.toList_append, ← String.toList_append]
          exact congrArg String.toList he
        exact (String.toList_injective (List.append_cancel_right this)).symm]
      cases o.serial <;> rfl
    all_goals first
      | (rw [hlook _ (by decide)]; cases o.serial <;> rfl)
      | skip
    · rw [hlook _ (by decide), i3]
      cases o.serial <;> rfl
    · intro k hkv hkn
      simp only [List.mem_cons, List.not_mem_nil, or_false] at hkn
      push Not at hkn
      obtain ⟨k1, k2, k3, k4, k5, k6, k7, k8, k9, k10, k11, k12⟩ := hkn
      have k13 : k ≠ "cloudnetpy_version" := fun he => hkv (by rw [he]; decide)
      have hn : ∀ t, k ≠ t → (k == t) = false := fun t h => by simpa using h
      rw [hlook k hkv, if_neg k12, i3, if_neg k1, if_neg k13, if_neg k2]
      cases o.serial <;>
        simp [List.lookup_cons, hn _ k3, hn _ k4, hn _ k5, hn _ k6, hn _ k7, hn _ k8, hn _ k9, hn _ k10, hn _ k11]
    · intro hnd sv hsv
      unfold level1bGlobals
      rw [hl]
      dsimp only
      rw [setAll_lookup, List.reverse_append, List.reverse_append, List.reverse_append, List.lookup_append, List.lookup_append]
      have href : sv.1 ++ "_version" ≠ "references" := version_ne _ _ (by decide)
      rw [show [("references", references none [])].reverse.lookup (sv.1 ++ "_version") = none by
          simp [List.lookup_cons, show (sv.1 ++ "_version" == "references") = false by simpa using href]]
      rw [show (o.software.map fun sv => (sv.1 ++ "_version", sv.2)).reverse.lookup (sv.1 ++ "_version") = some sv.2 by
        rw [lookup_iff_mem_nodup]
        · rw [List.mem_reverse, List.mem_map]
          exact ⟨sv, hsv, rfl⟩
        · rw [List.map_reverse, List.nodup_reverse, List.map_map]
          rw [show (Prod.fst ∘ fun sv : String × String => (sv.1 ++ "_version", sv.2)) = (· ++ "_version") ∘ Prod.fst from rfl,
            ← List.map_map]
          refine hnd.map fun a b hab => ?_
          have : a.toList ++ "_version".toList = b.toList ++ "_version".toList := by
            rw [← String.toList_append, ← String.toList_append]
            exact congrArg String.toList hab
          exact String.toList_injective (List.append_cancel_right this)]
      rfl

/-- **C129.** The title names the model, if there is one, and the category; the source is manufacturer and model, as far as they are
known, or else the category. -/
theorem C129_title (domain category location : String) (manufacturer : Option String) (model : String) (hm : model ≠ "") :
    l1bTitle ⟨domain, category, some model, manufacturer⟩ location = model ++ " " ++ category ++ " from " ++ location ∧
    l1bTitle ⟨domain, category, none, manufacturer⟩ location = capitalize category ++ " from " ++ location ∧
    l1bTitle ⟨domain, category, some "", manufacturer⟩ location = capitalize category ++ " from " ++ location ∧
    (∀ maker, l1bSource ⟨domain, category, some model, some maker⟩ = maker ++ " " ++ model) ∧
    l1bSource ⟨domain, category, some model, none⟩ = model ∧
    (∀ maker, l1bSource ⟨domain, category, none, some maker⟩ = maker) ∧
    l1bSource ⟨domain, category, none, none⟩ = capitalize category := by
  refine ⟨?_, rfl, rfl, fun _ => rfl, rfl, fun _ => rfl, rfl⟩
  simp [l1bTitle, hm]

/-- **C129.** Months and days are written with two digits. -/
theorem C129_digits : ∀ n < 100, (zfill2 n).toList = [Nat.digitChar (n / 10), Nat.digitChar (n % 10)] := by decide +kernel

/-- **C129**, a finding. If writing fails, a file that was there before is only kept if the dimensions could not be found out;
otherwise it is lost, and an incomplete file is left: the variables up to the one that failed (which can be there without values and
attributes), or all variables without the global attributes if the site has no name. -/
theorem C129_failure (fits : List ℕ → List ℕ → Bool) (version stamp : String) (o : L1bObject β) (uuid : String)
    (old : Option (DiskFile β)) (h : (saveLevel1b fits version stamp o uuid old).2 ≠ none) :
    (¬ Spec.DimensionsKnown o → (saveLevel1b fits version stamp o uuid old).1 = old) ∧
    (Spec.DimensionsKnown o → ∃ f, (saveLevel1b fits version stamp o uuid old).1 = some f ∧
      f.globals.lookup "cloudnet_file_type" = none ∧ f.globals.lookup "title" = none ∧
      ∃ done rest new bad, o.data.map Prod.snd = done ++ rest ∧ f.vars = new ++ bad ∧
        List.Forall₂ (Spec.WrittenAs fits (Spec.dimension o)) done new ∧ (bad.length ≤ 1 ∧ ∀ v ∈ bad, v.content = none ∧ ∀ k, v.attr k = none) ∧
        (rest = [] → o.siteName = none)) := by
  constructor
  · intro hk
    unfold saveLevel1b
    cases hd : netcdfDimensions o with
    | error e => rfl
    | ok dims => exact absurd (netcdfDimensions_ok o dims hd).2 hk
  · intro hk
    obtain ⟨dims, hd⟩ := netcdfDimensions_total o hk
    have h1 := (netcdfDimensions_ok o dims hd).1
    have hdim : (fun d => dims.lookup d) = Spec.dimension o := funext h1
    unfold saveLevel1b at h ⊢
    rw [hd] at h ⊢
    dsimp only at h ⊢
    obtain ⟨i0, i1, i2⟩ := initFile_spec fits version dims o.data uuid
    rw [hdim] at i1 i2
    cases hi : (initFile fits version dims o.data uuid).2 with
    | none =>
      rw [next_eq _ _ hi] at h ⊢
      have hs : o.siteName = none := by
        by_contra hs
        exact h ((level1bGlobals_none stamp o _).2 hs)
      obtain ⟨_, i4, i5⟩ := i1 hi
      generalize (initFile fits version dims o.data uuid).1 = g at i4 i5
      have hg : level1bGlobals stamp o g = (g, some "KeyError") := by
        unfold level1bGlobals
        rw [hs]
      rw [hg]
      refine ⟨g, rfl, by rw [i5]; rfl, by rw [i5]; rfl, _, [], g.vars, [], by simp, by simp, i4, by simp, fun _ => hs⟩
    | some e =>
      rw [next_error _ _ e hi]
      obtain ⟨_, i4, done, a, rest, new, bad, i5, i6, i7, i8⟩ := i2 (by rw [hi]; simp)
      exact ⟨_, rfl, by rw [i4]; rfl, by rw [i4]; rfl, done, a :: rest, new, bad, i5, i7, i6, i8, by simp⟩

/-! ## Examples -/

/-- An array. -/
def exampleArray (name : String) (shape : List ℕ) (dims : List String) : CloudnetArray (FileArray ℕ) :=
  { name := name, data := ⟨shape, true, 7⟩, dataType := "f4", dimensions := some dims, attr := fun _ => none }

/-- A radar with three profiles of two gates. -/
def exampleL1b (site : Option String) (width : List ℕ) : L1bObject ℕ :=
  { data := [("time", exampleArray "time" [3] ["time"]), ("range", exampleArray "range" [2] ["range"]),
      ("Zh", exampleArray "Zh" [3, 2] ["time", "range"]), ("width", exampleArray "width" width ["time", "range"])]
    instrument := ⟨"radar", "cloud radar", some "MIRA-35", some "METEK"⟩, siteName := site, year := 2024, month := 3, day := 12
    serial := none, software := [("mira", "2.1")], nDiameter := none, nVelocity := none }

example : (saveLevel1b (· == ·) "1.0" "now" (exampleL1b (some "Munich") [3, 2]) "u" none).2 = none ∧
    (saveLevel1b (· == ·) "1.0" "now" (exampleL1b (some "Munich") [3, 2]) "u" none).1.map (fun f => (f.dims, f.globals)) =
      some ([("time", 3), ("range", 2)], [("Conventions", "CF-1.8"), ("cloudnetpy_version", "1.0"), ("file_uuid", "u"),
        ("cloudnet_file_type", "radar"), ("title", "MIRA-35 cloud radar from Munich"), ("year", "2024"), ("month", "03"),
        ("day", "12"), ("location", "Munich"), ("history", "now - radar file created"), ("source", "METEK MIRA-35"),
        ("mira_version", "2.1"), ("references", "https://doi.org/10.21105/joss.02123")]) := by
  decide +kernel

/-- A variable with the wrong shape: the old file is replaced by one with three variables and an empty one. -/
example : (saveLevel1b (· == ·) "1.0" "now" (exampleL1b (some "Munich") [3, 1]) "u" (some ⟨[], [], [("title", "old")]⟩)).2 =
      some "IndexError" ∧
    (saveLevel1b (· == ·) "1.0" "now" (exampleL1b (some "Munich") [3, 1]) "u" (some ⟨[], [], [("title", "old")]⟩)).1.map
      (fun f => (f.vars.map fun v => (v.name, v.content), f.globals)) =
      some ([("time", some 7), ("range", some 7), ("Zh", some 7), ("width", none)], []) := by
  decide +kernel

end Cloudnet
