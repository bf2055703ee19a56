import Mathlib.Tactic
import Verif.Alias.Model

/-!
C178: variables and the arrays that they share with the caller.
-/

namespace Cloudnet

namespace Spec

/-- What is in a variable. -/
def heldBy (m : VariableMemory) (key : String) : Option UnitArray := (m.objects key).map fun o => ⟨m.cells o.data, o.units⟩

/-- What a method does to the values and units of a variable that nothing else refers to. -/
noncomputable def afterOp (a : UnitArray) : VariableOp → UnitArray
  | .lin2db => a.lin2db
  | .db2lin => a.db2lin
  | .mask ind => ⟨fun i => if ind i then none else a.data i, a.units⟩
  | .rebin f => ⟨f a.data, a.units⟩
  | .filter f => ⟨fun i => if f (fun i => (a.data i).isSome) i then a.data i else none, a.units⟩

/-- Values and units of a variable that is made; arrays of the caller are as in `arrays`. -/
noncomputable def made (parse : String → Option ℝ) (arrays : ℕ → ℕ → Option ℝ) (input : VariableInput) (units : Option String) : Option UnitArray :=
  let given : String → String := fun own => if units = none ∨ units = some "" then own else units.getD ""
  match input with
  | .netcdf values u => some ⟨values, given (u.getD "")⟩
  | .array a => some ⟨arrays a, given ""⟩
  | .number x => some ⟨fun i => if i = 0 then some x else none, given ""⟩
  | .text s => (parse s).map fun x => ⟨fun i => if i = 0 then some x else none, given ""⟩
  | .other => none

/-- The history of one variable: what other variables do is left out. -/
noncomputable def ownEvent (parse : String → Option ℝ) (arrays : ℕ → ℕ → Option ℝ) (key : String) (a : Option UnitArray) : VariableEvent → Option UnitArray
  | .create k input units => if k = key then made parse arrays input units else a
  | .call k op => if k = key then a.map fun a => afterOp a op else a

/-- The arrays of the caller of which variables are made. -/
def handedOver (events : List VariableEvent) : List ℕ := events.filterMap fun
  | .create _ (.array a) _ => some a
  | _ => none

end Spec

theorem unitsOr_eq (units : Option String) (own : String) : unitsOr units own = if units = none ∨ units = some "" then own else units.getD "" := by
  unfold unitsOr
  cases units with
  | none => simp
  | some u =>
    by_cases h : u = ""
    · simp [h]
    · simp [h]

/-- All variables have arrays of their own; the arrays in `pending` belong to nobody and are as in `arrays`. -/
structure Separate (arrays : ℕ → ℕ → Option ℝ) (pending : List ℕ) (m : VariableMemory) : Prop where
  used : ∀ k o, m.objects k = some o → o.data < m.next
  distinct : ∀ k k' o o', m.objects k = some o → m.objects k' = some o' → o.data = o'.data → k = k'
  known : ∀ a ∈ pending, a < m.next
  free : ∀ a ∈ pending, ∀ k o, m.objects k = some o → o.data ≠ a
  same : ∀ a ∈ pending, m.cells a = arrays a

theorem put_separate {arrays : ℕ → ℕ → Option ℝ} {pending : List ℕ} {m : VariableMemory} (h : Separate arrays pending m) (key : String)
    (values : ℕ → Option ℝ) (units : String) : Separate arrays pending (m.put key values units) := by
  unfold VariableMemory.put
  refine ⟨fun k o ho => ?_, fun k k' o o' ho ho' e => ?_, fun a ha => ?_, fun a ha k o ho => ?_, fun a ha => ?_⟩
  · dsimp only at ho ⊢
    by_cases hk : k = key
    · rw [hk, Function.update_self] at ho; cases ho; exact Nat.lt_succ_self _
    · rw [Function.update_of_ne hk] at ho; exact (h.used k o ho).trans (Nat.lt_succ_self _)
  · dsimp only at ho ho'
    by_cases hk : k = key
    · by_cases hk' : k' = key
      · rw [hk, hk']
      · rw [hk, Function.update_self] at ho
        rw [Function.update_of_ne hk'] at ho'
        cases ho
        have := h.used k' o' ho'
        dsimp only at e
        omega
    · by_cases hk' : k' = key
      · rw [hk', Function.update_self] at ho'
        rw [Function.update_of_ne hk] at ho
        cases ho'
        have := h.used k o ho
        dsimp only at e
        omega
      · rw [Function.update_of_ne hk] at ho
        rw [Function.update_of_ne hk'] at ho'
        exact h.distinct k k' o o' ho ho' e
  · exact (h.known a ha).trans (Nat.lt_succ_self _)
  · dsimp only at ho
    by_cases hk : k = key
    · rw [hk, Function.update_self] at ho
      cases ho
      have := h.known a ha
      dsimp only
      omega
    · rw [Function.update_of_ne hk] at ho
      exact h.free a ha k o ho
  · dsimp only
    rw [Function.update_of_ne (Nat.ne_of_lt (h.known a ha))]
    exact h.same a ha

theorem put_variable {arrays : ℕ → ℕ → Option ℝ} {pending : List ℕ} {m : VariableMemory} (h : Separate arrays pending m) (key : String)
    (values : ℕ → Option ℝ) (units : String) (k : String) :
    Spec.heldBy (m.put key values units) k = if key = k then some ⟨values, units⟩ else Spec.heldBy m k := by
  unfold VariableMemory.put Spec.heldBy
  dsimp only
  by_cases hk : key = k
  · subst hk
    rw [Function.update_self, if_pos rfl, Option.map_some, Function.update_self]
  · rw [Function.update_of_ne (Ne.symm hk), if_neg hk]
    cases ho : m.objects k with
    | none => rfl
    | some o =>
      rw [Option.map_some, Option.map_some, Function.update_of_ne (Nat.ne_of_lt (h.used k o ho))]

theorem write_separate {arrays : ℕ → ℕ → Option ℝ} {pending : List ℕ} {m : VariableMemory} (h : Separate arrays pending m) (key : String)
    (o : VariableObject) (ho : m.objects key = some o) (values : ℕ → Option ℝ) :
    Separate arrays pending { m with cells := Function.update m.cells o.data values } := by
  refine ⟨h.used, h.distinct, h.known, h.free, fun a ha => ?_⟩
  dsimp only
  rw [Function.update_of_ne (h.free a ha key o ho).symm]
  exact h.same a ha

theorem write_variable {arrays : ℕ → ℕ → Option ℝ} {pending : List ℕ} {m : VariableMemory} (h : Separate arrays pending m) (key : String)
    (o : VariableObject) (ho : m.objects key = some o) (values : ℕ → Option ℝ) (k : String) :
    Spec.heldBy { m with cells := Function.update m.cells o.data values } k = if key = k then some ⟨values, o.units⟩ else Spec.heldBy m k := by
  unfold Spec.heldBy
  dsimp only
  by_cases hk : key = k
  · subst hk
    rw [ho, if_pos rfl, Option.map_some, Function.update_self]
  · rw [if_neg hk]
    cases ho' : m.objects k with
    | none => rfl
    | some o' =>
      have : o'.data ≠ o.data := fun e => hk (h.distinct k key o' o ho' ho e).symm
      rw [Option.map_some, Option.map_some, Function.update_of_ne this]

theorem call_separate {arrays : ℕ → ℕ → Option ℝ} {pending : List ℕ} {m m' : VariableMemory} (h : Separate arrays pending m) (key : String)
    (op : VariableOp) (hm : m.call key op = .ok m') :
    Separate arrays pending m' ∧ ∀ k, Spec.heldBy m' k = if key = k then (Spec.heldBy m k).map (fun a => Spec.afterOp a op) else Spec.heldBy m k := by
  unfold VariableMemory.call at hm
  cases ho : m.objects key with
  | none => rw [ho] at hm; cases hm
  | some o =>
    rw [ho] at hm
    have hv : Spec.heldBy m key = some ⟨m.cells o.data, o.units⟩ := by unfold Spec.heldBy; rw [ho]; rfl
    have same : ∀ (a : UnitArray), (∀ k, Spec.heldBy m' k = if key = k then some a else Spec.heldBy m k) →
        Spec.afterOp ⟨m.cells o.data, o.units⟩ op = a →
        ∀ k, Spec.heldBy m' k = if key = k then (Spec.heldBy m k).map (fun a => Spec.afterOp a op) else Spec.heldBy m k := by
      intro a h1 h2 k
      rw [h1]
      by_cases hk : key = k
      · subst hk
        rw [if_pos rfl, if_pos rfl, hv, Option.map_some, h2]
      · rw [if_neg hk, if_neg hk]
    have keep : Spec.afterOp ⟨m.cells o.data, o.units⟩ op = ⟨m.cells o.data, o.units⟩ → m' = m → Separate arrays pending m' ∧
        ∀ k, Spec.heldBy m' k = if key = k then (Spec.heldBy m k).map (fun a => Spec.afterOp a op) else Spec.heldBy m k := by
      intro e1 e2
      subst e2
      refine ⟨h, same ⟨m'.cells o.data, o.units⟩ (fun k => ?_) e1⟩
      by_cases hk : key = k
      · subst hk; rw [if_pos rfl, hv]
      · rw [if_neg hk]
    cases op with
    | lin2db =>
      dsimp only at hm
      split_ifs at hm with hu
      · cases hm
        exact ⟨put_separate h _ _ _, same _ (put_variable h key _ _) rfl⟩
      · cases hm
        exact keep (by unfold Spec.afterOp UnitArray.lin2db; dsimp only; rw [if_neg hu]) rfl
    | db2lin =>
      dsimp only at hm
      split_ifs at hm with hu
      · cases hm
        exact ⟨put_separate h _ _ _, same _ (put_variable h key _ _) rfl⟩
      · cases hm
        exact keep (by unfold Spec.afterOp UnitArray.db2lin; dsimp only; rw [if_neg hu]) rfl
    | mask ind =>
      cases hm
      exact ⟨write_separate h key o ho _, same _ (write_variable h key o ho _) rfl⟩
    | rebin f =>
      cases hm
      exact ⟨put_separate h _ _ _, same _ (put_variable h key _ _) rfl⟩
    | filter f =>
      cases hm
      exact ⟨write_separate h key o ho _, same _ (write_variable h key o ho _) rfl⟩

theorem Separate.sublist {arrays : ℕ → ℕ → Option ℝ} {pending pending' : List ℕ} {m : VariableMemory} (h : Separate arrays pending m)
    (hs : ∀ a ∈ pending', a ∈ pending) : Separate arrays pending' m :=
  ⟨h.used, h.distinct, fun a ha => h.known a (hs a ha), fun a ha => h.free a (hs a ha), fun a ha => h.same a (hs a ha)⟩

theorem create_separate {arrays : ℕ → ℕ → Option ℝ} (parse : String → Option ℝ) (events : List VariableEvent) {m m' : VariableMemory} (key : String)
    (input : VariableInput) (units : Option String) (hn : (Spec.handedOver (.create key input units :: events)).Nodup)
    (h : Separate arrays (Spec.handedOver (.create key input units :: events)) m) (hm : m.create parse key input units = .ok m') :
    Separate arrays (Spec.handedOver events) m' ∧
    ∀ k, Spec.heldBy m' k = if key = k then Spec.made parse arrays input units else Spec.heldBy m k := by
  have put : ∀ (values : ℕ → Option ℝ) (u : String), (∀ a ∈ Spec.handedOver events, a ∈ Spec.handedOver (.create key input units :: events)) →
      m' = m.put key values u → Spec.made parse arrays input units = some ⟨values, u⟩ → Separate arrays (Spec.handedOver events) m' ∧
      ∀ k, Spec.heldBy m' k = if key = k then Spec.made parse arrays input units else Spec.heldBy m k := by
    intro values u hs e1 e2
    subst e1
    rw [e2]
    exact ⟨put_separate (h.sublist hs) _ _ _, put_variable h key _ _⟩
  unfold VariableMemory.create at hm
  cases input with
  | netcdf values u =>
    cases hm
    exact put _ _ (fun a ha => ha) rfl (by unfold Spec.made; rw [unitsOr_eq])
  | number x =>
    cases hm
    exact put _ _ (fun a ha => ha) rfl (by unfold Spec.made; rw [unitsOr_eq])
  | text s =>
    dsimp only at hm
    cases hp : parse s with
    | none => rw [hp] at hm; cases hm
    | some x =>
      rw [hp] at hm
      cases hm
      exact put _ _ (fun a ha => ha) rfl (by unfold Spec.made; dsimp only; rw [hp, unitsOr_eq]; rfl)
  | other => cases hm
  | array a =>
    cases hm
    have hc : Spec.handedOver (.create key (.array a) units :: events) = a :: Spec.handedOver events := rfl
    rw [hc] at hn h
    have hnot : a ∉ Spec.handedOver events := (List.nodup_cons.1 hn).1
    have hmem : a ∈ a :: Spec.handedOver events := List.mem_cons_self
    refine ⟨⟨fun k o ho => ?_, fun k k' o o' ho ho' e => ?_, fun b hb => h.known b (List.mem_cons_of_mem _ hb), fun b hb k o ho => ?_,
      fun b hb => h.same b (List.mem_cons_of_mem _ hb)⟩, fun k => ?_⟩
    · dsimp only at ho ⊢
      by_cases hk : k = key
      · rw [hk, Function.update_self] at ho; cases ho; exact h.known a hmem
      · rw [Function.update_of_ne hk] at ho; exact h.used k o ho
    · dsimp only at ho ho'
      by_cases hk : k = key
      · by_cases hk' : k' = key
        · rw [hk, hk']
        · rw [hk, Function.update_self] at ho
          rw [Function.update_of_ne hk'] at ho'
          cases ho
          exact absurd e.symm (h.free a hmem k' o' ho')
      · by_cases hk' : k' = key
        · rw [hk', Function.update_self] at ho'
          rw [Function.update_of_ne hk] at ho
          cases ho'
          exact absurd e (h.free a hmem k o ho)
        · rw [Function.update_of_ne hk] at ho
          rw [Function.update_of_ne hk'] at ho'
          exact h.distinct k k' o o' ho ho' e
    · dsimp only at ho
      by_cases hk : k = key
      · rw [hk, Function.update_self] at ho
        cases ho
        exact fun e => hnot (by dsimp only at e; rw [e]; exact hb)
      · rw [Function.update_of_ne hk] at ho
        exact h.free b (List.mem_cons_of_mem _ hb) k o ho
    · unfold Spec.heldBy Spec.made
      dsimp only
      by_cases hk : key = k
      · subst hk
        rw [Function.update_self, if_pos rfl, Option.map_some, h.same a hmem, unitsOr_eq]
      · rw [Function.update_of_ne (Ne.symm hk), if_neg hk]

/-- **C178.** Variables are independent: in any history of variables that are made, converted, masked, filtered and rebinned, if no array of the caller is
given to two variables (or to one twice), each variable holds what follows from its own history, and arrays of the caller are as at the
beginning when a variable is made of them. -/
theorem C178_independent (parse : String → Option ℝ) (m m' : VariableMemory) (events : List VariableEvent) (hm : m.run parse events = .ok m')
    (h0 : ∀ k, m.objects k = none) (hn : (Spec.handedOver events).Nodup) (hk : ∀ a ∈ Spec.handedOver events, a < m.next) (key : String) :
    Spec.heldBy m' key = events.foldl (Spec.ownEvent parse m.cells key) none := by
  have main : ∀ (events : List VariableEvent) (s : VariableMemory), s.run parse events = .ok m' → (Spec.handedOver events).Nodup →
      Separate m.cells (Spec.handedOver events) s → Spec.heldBy m' key = events.foldl (Spec.ownEvent parse m.cells key) (Spec.heldBy s key) := by
    intro events
    induction events with
    | nil => intro s hs _ _; cases hs; rfl
    | cons e events ih =>
      intro s hs hn h
      cases e with
      | create k input units =>
        unfold VariableMemory.run at hs
        cases hc : s.create parse k input units with
        | error e => rw [hc] at hs; cases hs
        | ok s' =>
          rw [hc] at hs
          obtain ⟨h1, h2⟩ := create_separate parse events k input units hn h hc
          have hn' : (Spec.handedOver events).Nodup := by
            cases input with
            | array a => exact (List.nodup_cons.1 hn).2
            | netcdf _ _ => exact hn
            | number _ => exact hn
            | text _ => exact hn
            | other => exact hn
          rw [ih s' hs hn' h1, h2 key, List.foldl_cons]
          rfl
      | call k op =>
        unfold VariableMemory.run at hs
        cases hc : s.call k op with
        | error e => rw [hc] at hs; cases hs
        | ok s' =>
          rw [hc] at hs
          have hn' : (Spec.handedOver events).Nodup := hn
          obtain ⟨h1, h2⟩ := call_separate (pending := Spec.handedOver events) h k op hc
          rw [ih s' hs hn' h1, h2 key, List.foldl_cons]
          rfl
  have := main events m hm hn ⟨fun k o ho => (by rw [h0 k] at ho; cases ho), fun k _ o _ ho => (by rw [h0 k] at ho; cases ho), hk,
    fun _ _ k o ho => (by rw [h0 k] at ho; cases ho), fun _ _ => rfl⟩
  rw [this]
  unfold Spec.heldBy
  rw [h0 key]
  rfl

/-! ### The arrays of the caller -/

theorem put_cells (m : VariableMemory) (key : String) (values : ℕ → Option ℝ) (units : String) (a : ℕ) (ha : a < m.next) :
    (m.put key values units).cells a = m.cells a ∧ a < (m.put key values units).next := by
  unfold VariableMemory.put
  dsimp only
  rw [Function.update_of_ne (Nat.ne_of_lt ha)]
  exact ⟨rfl, by omega⟩

/-- **C178.** An array of the caller is only ever masked, whatever happens to variables, also if several of them share it: no value changes and nothing
masked becomes known. An array that is not given to a variable does not change. -/
theorem C178_caller (parse : String → Option ℝ) (m m' : VariableMemory) (events : List VariableEvent) (hm : m.run parse events = .ok m') (a : ℕ)
    (ha : a < m.next) :
    (∀ i, m'.cells a i = m.cells a i ∨ m'.cells a i = none) ∧
    ((∀ k o, m.objects k = some o → o.data ≠ a) → a ∉ Spec.handedOver events → m'.cells a = m.cells a) := by
  induction events generalizing m with
  | nil => cases hm; exact ⟨fun i => Or.inl rfl, fun _ _ => rfl⟩
  | cons e events ih =>
    have chain : ∀ s : VariableMemory, s.run parse events = .ok m' → a < s.next → (∀ i, s.cells a i = m.cells a i ∨ s.cells a i = none) →
        ((∀ k o, m.objects k = some o → o.data ≠ a) → a ∉ Spec.handedOver (e :: events) → s.cells a = m.cells a ∧
          (∀ k o, s.objects k = some o → o.data ≠ a) ∧ a ∉ Spec.handedOver events) →
        (∀ i, m'.cells a i = m.cells a i ∨ m'.cells a i = none) ∧
        ((∀ k o, m.objects k = some o → o.data ≠ a) → a ∉ Spec.handedOver (e :: events) → m'.cells a = m.cells a) := by
      intro s hs hn h1 h2
      obtain ⟨i1, i2⟩ := ih s hs hn
      refine ⟨fun i => ?_, fun g1 g2 => ?_⟩
      · rcases i1 i with e | e
        · rw [e]; exact h1 i
        · exact Or.inr e
      · obtain ⟨c1, c2, c3⟩ := h2 g1 g2
        rw [i2 c2 c3, c1]
    have putChain : ∀ (key : String) (values : ℕ → Option ℝ) (u : String), (m.put key values u).run parse events = .ok m' →
        (a ∉ Spec.handedOver (e :: events) → a ∉ Spec.handedOver events) →
        (∀ i, m'.cells a i = m.cells a i ∨ m'.cells a i = none) ∧
        ((∀ k o, m.objects k = some o → o.data ≠ a) → a ∉ Spec.handedOver (e :: events) → m'.cells a = m.cells a) := by
      intro key values u hs hsub
      obtain ⟨p1, p2⟩ := put_cells m key values u a ha
      refine chain _ hs p2 (fun i => Or.inl (by rw [p1])) fun g1 g2 => ⟨p1, fun k o ho => ?_, hsub g2⟩
      unfold VariableMemory.put at ho
      dsimp only at ho
      by_cases hk : k = key
      · rw [hk, Function.update_self] at ho; cases ho; exact (Nat.ne_of_lt ha).symm
      · rw [Function.update_of_ne hk] at ho; exact g1 k o ho
    have writeChain : ∀ (key : String) (o : VariableObject) (_ : m.objects key = some o) (values : ℕ → Option ℝ),
        (∀ i, values i = m.cells o.data i ∨ values i = none) →
        ({ m with cells := Function.update m.cells o.data values } : VariableMemory).run parse events = .ok m' →
        (a ∉ Spec.handedOver (e :: events) → a ∉ Spec.handedOver events) →
        (∀ i, m'.cells a i = m.cells a i ∨ m'.cells a i = none) ∧
        ((∀ k o, m.objects k = some o → o.data ≠ a) → a ∉ Spec.handedOver (e :: events) → m'.cells a = m.cells a) := by
      intro key o ho values hv hs hsub
      refine chain _ hs ha (fun i => ?_) fun g1 g2 => ⟨?_, g1, hsub g2⟩
      · dsimp only
        by_cases hd : a = o.data
        · subst hd; rw [Function.update_self]; exact hv i
        · rw [Function.update_of_ne hd]; exact Or.inl rfl
      · dsimp only
        rw [Function.update_of_ne (g1 key o ho).symm]
    cases e with
    | create key input units =>
      unfold VariableMemory.run at hm
      unfold VariableMemory.create at hm
      cases input with
      | netcdf values u => exact putChain _ _ _ hm fun g => g
      | number x => exact putChain _ _ _ hm fun g => g
      | text s =>
        dsimp only at hm
        cases hp : parse s with
        | none => rw [hp] at hm; cases hm
        | some x => rw [hp] at hm; exact putChain _ _ _ hm fun g => g
      | other => cases hm
      | array b =>
        have hc : Spec.handedOver (.create key (.array b) units :: events) = b :: Spec.handedOver events := rfl
        refine chain _ hm ha (fun i => Or.inl rfl) fun g1 g2 => ⟨rfl, fun k o ho => ?_, ?_⟩
        · rw [hc] at g2
          dsimp only at ho
          by_cases hk : k = key
          · rw [hk, Function.update_self] at ho
            cases ho
            exact fun e => g2 (by dsimp only at e; rw [e]; exact List.mem_cons_self)
          · rw [Function.update_of_ne hk] at ho; exact g1 k o ho
        · rw [hc] at g2
          exact fun h => g2 (List.mem_cons_of_mem _ h)
    | call key op =>
      unfold VariableMemory.run VariableMemory.call at hm
      cases ho : m.objects key with
      | none => rw [ho] at hm; cases hm
      | some o =>
        rw [ho] at hm
        cases op with
        | lin2db =>
          dsimp only at hm
          split_ifs at hm with hu
          · exact putChain _ _ _ hm fun g => g
          · exact chain m hm ha (fun i => Or.inl rfl) fun g1 g2 => ⟨rfl, g1, g2⟩
        | db2lin =>
          dsimp only at hm
          split_ifs at hm with hu
          · exact putChain _ _ _ hm fun g => g
          · exact chain m hm ha (fun i => Or.inl rfl) fun g1 g2 => ⟨rfl, g1, g2⟩
        | mask ind =>
          refine writeChain key o ho _ (fun i => ?_) hm fun g => g
          by_cases hi : ind i = true
          · exact Or.inr (if_pos hi)
          · exact Or.inl (if_neg hi)
        | rebin f => exact putChain _ _ _ hm fun g => g
        | filter f =>
          refine writeChain key o ho _ (fun i => ?_) hm fun g => g
          by_cases hi : f (fun i => (m.cells o.data i).isSome) i = true
          · exact Or.inl (if_pos hi)
          · exact Or.inr (if_neg hi)

/-- **C178.** What a variable can be made of: a variable of a file, an array, a number of the known types, or text that is a number. Everything else is an
error. -/
theorem C178_inputs (parse : String → Option ℝ) (m : VariableMemory) (key : String) (input : VariableInput) (units : Option String) :
    (∃ m', m.create parse key input units = .ok m') ↔ input ≠ .other ∧ ∀ s, input = .text s → ∃ x, parse s = some x := by
  unfold VariableMemory.create
  cases input with
  | text s => cases h : parse s <;> simp [h]
  | netcdf _ _ => simp
  | array _ => simp
  | number _ => simp
  | other => simp

/-- **C178 (exception).** An array of the caller is not copied: masking a variable masks the array, and another variable made of it. After rebinning (or a
conversion, `C178_caller` and `C178_independent` for the new array) the variable has an array of its own. -/
theorem C178_shared (parse : String → Option ℝ) (m : VariableMemory) (a : ℕ) (ha : a < m.next) (ind : ℕ → Bool)
    (f : (ℕ → Option ℝ) → ℕ → Option ℝ) :
    (∃ m', m.run parse [.create "v" (.array a) none, .create "copy" (.array a) none, .call "v" (.mask ind)] = .ok m' ∧
      ∀ i, ind i = true → m'.cells a i = none ∧ ∃ u, Spec.heldBy m' "copy" = some u ∧ u.data i = none) ∧
    (∃ m', m.run parse [.create "v" (.array a) none, .create "copy" (.array a) none, .call "v" (.rebin f), .call "v" (.mask ind)] = .ok m' ∧
      m'.cells a = m.cells a ∧ ∃ u, Spec.heldBy m' "copy" = some u ∧ u.data = m.cells a) := by
  have hne : "copy" ≠ "v" := by decide
  have hne' : "v" ≠ "copy" := by decide
  have hlt := Nat.ne_of_lt ha
  constructor
  · simp only [VariableMemory.run, VariableMemory.create, VariableMemory.call, Except.bind, Function.update_self, Function.update_of_ne hne']
    refine ⟨_, rfl, fun i hi => ⟨?_, ?_⟩⟩
    · simp [hi]
    · unfold Spec.heldBy
      simp [hi]
  · simp only [VariableMemory.run, VariableMemory.create, VariableMemory.call, VariableMemory.put, Except.bind, Function.update_self,
      Function.update_of_ne hne']
    refine ⟨_, rfl, ?_, ?_⟩
    · simp [hlt]
    · unfold Spec.heldBy
      simp [hlt]

/-- A history that meets the conditions of `C178_independent`: two variables of two arrays, one of a file. -/
example : ∃ m m' : VariableMemory, ∃ parse, (∀ k, m.objects k = none) ∧
    (Spec.handedOver [.create "a" (.array 0) none, .create "b" (.array 1) (some "dB"), .call "a" (.mask fun i => i == 0), .create "c" (.number 5) none,
      .call "b" (.rebin id)]).Nodup ∧
    m.run parse [.create "a" (.array 0) none, .create "b" (.array 1) (some "dB"), .call "a" (.mask fun i => i == 0), .create "c" (.number 5) none,
      .call "b" (.rebin id)] = .ok m' := by
  refine ⟨⟨fun _ _ => some 1, 2, fun _ => none⟩, ?_⟩
  simp [VariableMemory.run, VariableMemory.create, VariableMemory.call, VariableMemory.put, Except.bind, Spec.handedOver]

end Cloudnet
