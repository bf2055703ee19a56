import Mathlib.Tactic
import Verif.Folding.Model
import Verif.Times.Props
import Verif.RadarError.Props
import Verif.Station.Csv

/-!
C173: the Nyquist velocity reaches the pixels it belongs to.
-/

namespace Cloudnet

namespace Spec

/-- The profiles of the raw file that are left, in order, after selections one after another, none of which is empty. -/
def profilesLeft : List Selector → List ℕ → Option (List ℕ)
  | [], ks => some ks
  | s :: ss, ks => if s.isEmpty ks.length then none else match s.take ks with
    | .ok kept => profilesLeft ss kept
    | .error _ => none

end Spec

/-! ### Selections -/

theorem take_map {β γ : Type} (s : Selector) (f : β → γ) (xs : List β) : s.take (xs.map f) = (s.take xs).map (List.map f) := by
  cases s with
  | idx ind =>
    unfold Selector.take
    dsimp only
    rw [List.length_map]
    by_cases h : (ind.all fun i => decide (i < xs.length)) = true
    · rw [if_pos h, if_pos h]
      simp only [Except.map]
      congr 1
      rw [List.map_filterMap]
      congr 1
      funext i
      rw [List.getElem?_map]
    · rw [if_neg h, if_neg h]; rfl
  | mask keep =>
    unfold Selector.take
    dsimp only
    rw [List.length_map]
    by_cases h : keep.length = xs.length
    · rw [if_pos h, if_pos h]
      simp only [Except.map]
      congr 1
      clear h
      induction xs generalizing keep with
      | nil => simp
      | cons x xs ih =>
        cases keep with
        | nil => simp
        | cons b keep =>
          simp only [List.map_cons, List.zip_cons_cons, List.filter_cons]
          cases b <;> simp [ih keep]
    · rw [if_neg h, if_neg h]; rfl

theorem take_subset {β : Type} (s : Selector) (xs ys : List β) (h : s.take xs = .ok ys) : ∀ y ∈ ys, y ∈ xs := by
  cases s with
  | idx ind =>
    unfold Selector.take at h
    dsimp only at h
    split_ifs at h
    cases h
    intro y hy
    obtain ⟨i, -, hi⟩ := List.mem_filterMap.1 hy
    exact List.mem_of_getElem? hi
  | mask keep =>
    unfold Selector.take at h
    dsimp only at h
    split_ifs at h
    cases h
    intro y hy
    obtain ⟨p, hp, rfl⟩ := List.mem_map.1 hy
    exact (List.of_mem_zip (List.mem_of_mem_filter hp)).1

/-- The number of times after a selection, from the profiles left. -/
theorem take_range {β : Type} (s : Selector) (ks kept : List β) (h : s.take ks = .ok kept) :
    ∃ r, s.take (List.range ks.length) = .ok r ∧ r.length = kept.length := by
  have e : s.take ((List.range ks.length).map fun i => ks[i]?) = (s.take (List.range ks.length)).map (List.map fun i => ks[i]?) := take_map _ _ _
  have e2 : ((List.range ks.length).map fun i => ks[i]?) = ks.map some := by
    apply List.ext_getElem?
    intro i
    rw [List.getElem?_map, List.getElem?_map]
    by_cases hi : i < ks.length
    · rw [List.getElem?_range hi, List.getElem?_eq_getElem hi]
      simp [hi]
    · rw [List.getElem?_eq_none (by simpa using hi), List.getElem?_eq_none (by simpa using hi)]; rfl
  rw [e2, take_map, h] at e
  cases hr : s.take (List.range ks.length) with
  | error m => rw [hr] at e; simp [Except.map] at e
  | ok r =>
    rw [hr] at e
    simp only [Except.map, Except.ok.injEq] at e
    refine ⟨r, rfl, ?_⟩
    have := congrArg List.length e
    simpa using this.symm

/-- An array that belongs to the profiles `ks`: an entry for each of them, or a single entry that is that of all of them. -/
def Belongs {γ : Type} (f : ℕ → γ) (ks : List ℕ) (ys : List γ) : Prop := ys = ks.map f ∨ ∃ i, ys = [f i] ∧ ∀ k ∈ ks, k = i

theorem screenings_belong {γ δ : Type} (mk : List δ → NdArray γ) (hlen : ∀ ys, (mk ys).len? = some ys.length)
    (hsel : ∀ s ys, (mk ys).select s = (s.take ys).map mk) (f : ℕ → δ) (ss : List Selector) :
    ∀ ks left, Spec.profilesLeft ss ks = some left → ∀ ys, Belongs f ks ys →
      ∃ zs, screenings ks.length ss (mk ys) = .ok (left.length, mk zs) ∧ Belongs f left zs := by
  induction ss with
  | nil =>
    intro ks left h ys hy
    cases h
    exact ⟨ys, rfl, hy⟩
  | cons s ss ih =>
    intro ks left h ys hy
    rw [Spec.profilesLeft] at h
    split_ifs at h with he
    cases hk : s.take ks with
    | error e => rw [hk] at h; simp at h
    | ok kept =>
      rw [hk] at h
      dsimp only at h
      obtain ⟨r, hr, hrl⟩ := take_range s ks kept hk
      rw [screenings, if_neg he, hr]
      by_cases hf : (mk ys).followsTime ks.length = true
      · rw [if_pos hf]
        have hl : ys.length ≠ 1 ∧ ys.length = ks.length := by
          unfold NdArray.followsTime at hf
          rw [hlen] at hf
          simpa using hf
        have hy' : ys = ks.map f := by
          rcases hy with hy | ⟨i, hi, -⟩
          · exact hy
          · rw [hi] at hl; simp at hl
        rw [hsel, hy', take_map, hk]
        dsimp only [Except.map]
        rw [hrl]
        exact ih kept left h _ (Or.inl rfl)
      · rw [if_neg hf]
        dsimp only
        rw [hrl]
        refine ih kept left h _ ?_
        have hsub := take_subset s ks kept hk
        rcases hy with hy | ⟨i, hi, hall⟩
        · have hl : ys.length = ks.length := by rw [hy, List.length_map]
          have h1 : ks.length = 1 := by
            unfold NdArray.followsTime at hf
            rw [hlen] at hf
            simp only [Bool.and_eq_true, bne_iff_ne, ne_eq, beq_iff_eq, not_and] at hf
            by_contra hne
            exact hf (by omega) hl
          obtain ⟨i, rfl⟩ := List.length_eq_one_iff.1 h1
          exact Or.inr ⟨i, by rw [hy]; rfl, fun k hk' => by simpa using hsub k hk'⟩
        · exact Or.inr ⟨i, hi, fun k hk' => hall k (hsub k hk')⟩

/-! ### Broadcasting -/

/-- **C173.** What is written for a Nyquist velocity with the dimensions `time` and `range`: a number at all pixels, a column with one value for each
profile at all gates, a field as it is. -/
theorem C173_written {β : Type} (nT nH : ℕ) :
    (∀ x : β, broadcastTo nT nH (.d0 x) = .ok (List.replicate nT (List.replicate nH x))) ∧
    (∀ xs : List β, xs.length = nT → broadcastTo nT nH (.d2 (xs.map fun x => [x])) = .ok (xs.map fun x => List.replicate nH x)) ∧
    (∀ rows : List (List β), rows.length = nT → (∀ r ∈ rows, r.length = nH) → broadcastTo nT nH (.d2 rows) = .ok rows) := by
  refine ⟨fun x => rfl, fun xs hx => ?_, fun rows hr hw => ?_⟩
  · unfold broadcastTo
    have : (xs.map fun x => [x]).mapM (stretch nH) = .ok ((xs.map fun x => [x]).map fun r => r.flatMap fun x => List.replicate nH x) := by
      refine mapM_ok _ _ _ fun r hr => ?_
      obtain ⟨x, -, rfl⟩ := List.mem_map.1 hr
      unfold stretch
      by_cases h : [x].length = nH
      · rw [if_pos h, ← h]; simp
      · rw [if_neg h]; simp
    dsimp only
    rw [this]
    dsimp only [Except.bind]
    unfold stretch
    rw [if_pos (by simpa using hx), List.map_map]
    congr 1
    refine List.map_congr_left fun x _ => ?_
    simp
  · unfold broadcastTo
    dsimp only
    rw [mapM_ok (stretch nH) id rows fun r h => by unfold stretch; rw [if_pos (hw r h)]; rfl]
    dsimp only [Except.bind]
    unfold stretch
    rw [List.map_id, if_pos hr]

theorem stretch_ok_iff {β : Type} (n : ℕ) (xs ys : List β) :
    stretch n xs = .ok ys ↔ (xs.length = n ∧ ys = xs) ∨ (n ≠ 1 ∧ ∃ x, xs = [x] ∧ ys = List.replicate n x) := by
  unfold stretch
  by_cases h : xs.length = n
  · rw [if_pos h]
    constructor
    · intro e; cases e; exact Or.inl ⟨h, rfl⟩
    · rintro (⟨-, rfl⟩ | ⟨hn, x, rfl, -⟩)
      · rfl
      · exact absurd h.symm hn
  · rw [if_neg h]
    match xs with
    | [] =>
      constructor
      · intro e; cases e
      · rintro (⟨h', -⟩ | ⟨-, y, e, -⟩)
        · exact absurd h' h
        · cases e
    | [x] =>
      constructor
      · intro e; cases e; exact Or.inr ⟨fun hn => h (by rw [hn]; rfl), x, rfl, rfl⟩
      · rintro (⟨h', -⟩ | ⟨-, x', e, rfl⟩)
        · exact absurd h' h
        · cases e; rfl
    | x :: x' :: rest =>
      constructor
      · intro e; cases e
      · rintro (⟨h', -⟩ | ⟨-, y, e, -⟩)
        · exact absurd h' h
        · cases e

/-- **C173.** Nothing else is written: a list must have a value for each gate or a single one, a field must have rows of that kind, for each profile or
a single one. All other shapes are errors. -/
theorem C173_shapes {β : Type} (nT nH : ℕ) (a : NdArray β) (rows : List (List β)) (h : broadcastTo nT nH a = .ok rows) :
    (rows.length = nT ∧ ∀ r ∈ rows, r.length = nH) ∧
    ((∃ x, a = .d0 x) ∨ (∃ xs, a = .d1 xs ∧ (xs.length = nH ∨ xs.length = 1)) ∨
      ∃ rs, a = .d2 rs ∧ (rs.length = nT ∨ rs.length = 1) ∧ ∀ r ∈ rs, r.length = nH ∨ r.length = 1) := by
  have key : ∀ {γ : Type} (n : ℕ) (xs ys : List γ), stretch n xs = .ok ys →
      ys.length = n ∧ (xs.length = n ∨ xs.length = 1) ∧ ∀ y ∈ ys, y ∈ xs := by
    intro γ n xs ys e
    rcases (stretch_ok_iff n xs ys).1 e with ⟨h1, rfl⟩ | ⟨-, x, rfl, rfl⟩
    · exact ⟨h1, Or.inl h1, fun _ h => h⟩
    · exact ⟨by simp, Or.inr rfl, fun y hy => by rw [List.eq_of_mem_replicate hy]; simp⟩
  match a, h with
  | .d0 x, h =>
    cases h
    exact ⟨⟨by simp, fun r hr => by rw [List.eq_of_mem_replicate hr]; simp⟩, Or.inl ⟨x, rfl⟩⟩
  | .d1 xs, h =>
    unfold broadcastTo at h
    dsimp only at h
    cases e : stretch nH xs with
    | error m => rw [e] at h; cases h
    | ok ys =>
      rw [e] at h
      cases h
      obtain ⟨h1, h2, -⟩ := key nH xs ys e
      exact ⟨⟨by simp, fun r hr => by rw [List.eq_of_mem_replicate hr]; exact h1⟩, Or.inr (Or.inl ⟨xs, rfl, h2⟩)⟩
  | .d2 rs, h =>
    unfold broadcastTo at h
    dsimp only at h
    cases e : rs.mapM (stretch nH) with
    | error m => rw [e] at h; cases h
    | ok ys =>
      rw [e] at h
      dsimp only [Except.bind] at h
      have hf := (mapM_except (stretch nH) rs ys).1 e
      obtain ⟨h1, h2, h3⟩ := key nT ys rows h
      rw [← hf.length_eq] at h2
      refine ⟨⟨h1, fun r hr => ?_⟩, Or.inr (Or.inr ⟨rs, rfl, h2, fun r hr => ?_⟩)⟩
      · obtain ⟨k, hk, rfl⟩ := List.getElem_of_mem (h3 r hr)
        exact (key nH _ _ (hf.get (by rw [hf.length_eq]; exact hk) hk)).1
      · obtain ⟨k, hk, rfl⟩ := List.getElem_of_mem hr
        exact (key nH _ _ (hf.get hk (by rw [← hf.length_eq]; exact hk))).2.1

example : broadcastTo 2 3 (.d1 [5, 6]) = .error "ValueError: operands could not be broadcast together" := rfl

theorem columns_belong {β : Type} (nH : ℕ) (f : ℕ → β) (left : List ℕ) (zs : List (List β)) (h : Belongs (fun i => [f i]) left zs) :
    broadcastTo left.length nH (.d2 zs) = .ok (left.map fun i => List.replicate nH (f i)) := by
  rcases h with rfl | ⟨i, rfl, hall⟩
  · have := (C173_written left.length nH).2.1 (left.map f) (by simp)
    rw [List.map_map, List.map_map] at this
    exact this
  · have hleft : left = List.replicate left.length i := List.eq_replicate_iff.2 ⟨rfl, hall⟩
    unfold broadcastTo
    have e : [[f i]].mapM (stretch nH) = .ok [List.replicate nH (f i)] := by
      rw [mapM_ok _ (fun _ => List.replicate nH (f i)) _ fun r hr => ?_]
      · rfl
      · rw [List.mem_singleton] at hr
        subst hr
        unfold stretch
        by_cases h : [f i].length = nH
        · rw [if_pos h, ← h]; simp
        · rw [if_neg h]
    dsimp only
    rw [e]
    dsimp only [Except.bind]
    rw [hleft, List.map_replicate, List.length_replicate]
    unfold stretch
    by_cases h : [List.replicate nH (f i)].length = left.length
    · rw [if_pos h, ← h]; simp
    · rw [if_neg h]

/-- **C173.** Several MIRA files: the raw profiles have their Nyquist velocities, one number each. In the Level 1b file every profile that is left has
its own at all gates, whatever was removed or reordered. The mask is dropped: for a raw profile without a Nyquist velocity it is the number below the
mask. -/
theorem C173_mira {β : Type} (nRange : ℕ) (before after : List Selector) (raw : List (MaCell β)) (left : List ℕ)
    (hleft : Spec.profilesLeft (before ++ after) (List.range raw.length) = some left) (d : MaCell β) :
    miraNyquist raw.length nRange before after (.d1 raw) =
      .ok (left.map fun i => List.replicate nRange ⟨false, (raw.getD i d).number⟩) := by
  obtain ⟨mid, h1, h2⟩ : ∃ mid, Spec.profilesLeft before (List.range raw.length) = some mid ∧ Spec.profilesLeft after mid = some left := by
    have key : ∀ ss ks, Spec.profilesLeft (ss ++ after) ks = some left →
        ∃ mid, Spec.profilesLeft ss ks = some mid ∧ Spec.profilesLeft after mid = some left := by
      intro ss
      induction ss with
      | nil => exact fun ks h => ⟨ks, rfl, h⟩
      | cons s ss ih =>
        intro ks h
        rw [List.cons_append, Spec.profilesLeft] at h
        rw [Spec.profilesLeft]
        split_ifs at h with he
        rw [if_neg he]
        cases hk : s.take ks with
        | error e => rw [hk] at h; simp at h
        | ok kept =>
          rw [hk] at h
          exact ih kept h
    exact key before _ hleft
  have hb : Belongs (fun i => raw.getD i d) (List.range raw.length) raw := by
    left
    apply List.ext_getElem?
    intro i
    rw [List.getElem?_map]
    by_cases hi : i < raw.length
    · rw [List.getElem?_range hi, List.getElem?_eq_getElem hi]
      simp [hi]
    · rw [List.getElem?_eq_none (by simpa using hi), List.getElem?_eq_none (by simpa using hi)]; rfl
  obtain ⟨zs, hz, hzb⟩ := screenings_belong NdArray.d1 (fun _ => rfl) (fun _ _ => rfl) _ before _ mid h1 raw hb
  rw [List.length_range] at hz
  unfold miraNyquist
  rw [hz]
  dsimp only [broadcastNyquist]
  have hb2 : Belongs (fun i => [(⟨false, (raw.getD i d).number⟩ : MaCell β)]) mid (zs.map fun c => [⟨false, c.number⟩]) := by
    rcases hzb with rfl | ⟨i, rfl, hall⟩
    · left; rw [List.map_map]; rfl
    · exact Or.inr ⟨i, rfl, hall⟩
  obtain ⟨ws, hw, hwb⟩ := screenings_belong NdArray.d2 (fun _ => rfl) (fun _ _ => rfl) _ after _ left h2 _ hb2
  rw [hw]
  dsimp only
  exact columns_belong nRange (fun i => (⟨false, (raw.getD i d).number⟩ : MaCell β)) left ws hwb

/-- **C173.** A single MIRA file: its Nyquist velocity is one number, which is written at all pixels of the profiles that are left. -/
theorem C173_mira_single {β : Type} (nTime nRange : ℕ) (before after : List Selector) (x : MaCell β) (left : List ℕ)
    (hleft : Spec.profilesLeft (before ++ after) (List.range nTime) = some left) :
    miraNyquist nTime nRange before after (.d0 x) = .ok (List.replicate left.length (List.replicate nRange x)) := by
  have key : ∀ ss ks left', Spec.profilesLeft ss ks = some left' → screenings ks.length ss (.d0 x) = .ok (left'.length, .d0 x) := by
    intro ss
    induction ss with
    | nil => intro ks left' h; cases h; rfl
    | cons s ss ih =>
      intro ks left' h
      rw [Spec.profilesLeft] at h
      split_ifs at h with he
      cases hk : s.take ks with
      | error e => rw [hk] at h; simp at h
      | ok kept =>
        rw [hk] at h
        obtain ⟨r, hr, hrl⟩ := take_range s ks kept hk
        rw [screenings, if_neg he, hr, if_neg (by simp [NdArray.followsTime, NdArray.len?])]
        dsimp only
        rw [hrl]
        exact ih kept left' h
  have split : ∀ ss ks, Spec.profilesLeft (ss ++ after) ks = some left →
      ∃ mid, Spec.profilesLeft ss ks = some mid ∧ Spec.profilesLeft after mid = some left := by
    intro ss
    induction ss with
    | nil => exact fun ks h => ⟨ks, rfl, h⟩
    | cons s ss ih =>
      intro ks h
      rw [List.cons_append, Spec.profilesLeft] at h
      rw [Spec.profilesLeft]
      split_ifs at h with he
      rw [if_neg he]
      cases hk : s.take ks with
      | error e => rw [hk] at h; simp at h
      | ok kept =>
        rw [hk] at h
        exact ih kept h
  obtain ⟨mid, h1, h2⟩ := split before _ hleft
  have k1 := key before _ mid h1
  rw [List.length_range] at k1
  unfold miraNyquist
  rw [k1]
  dsimp only [broadcastNyquist]
  rw [key after mid left h2]
  rfl

/-! ### Categorize -/

section
variable {β : Type} [Field β]

theorem rowsAt_replicate {γ : Type} (nT nH : ℕ) (x d : γ) (t h : ℕ) (ht : t < nT) (hh : h < nH) :
    rowsAt (List.replicate nT (List.replicate nH x)) d t h = x := by
  unfold rowsAt
  simp [ht, hh]

/-- **C173.** A Nyquist velocity with the dimensions of time and range, as all converters here write it, is used at its own pixels; chirps and pulse
repetition frequencies in the file do not matter then. -/
theorem C173_own_pixels (f : FoldingFile β) (rows : List (List β)) (hn : f.nyquist = some (.d2 rows)) (hT : rows.length = f.nT)
    (hH : ∀ r ∈ rows, r.length = f.nH) : ∃ g, expandedFolding f = .ok g ∧ ∀ t h r x, rows[t]? = some r → r[h]? = some x → g t h = x := by
  refine ⟨rowsAt rows 0, ?_, fun t h r x hr hx => ?_⟩
  · unfold expandedFolding foldingVelocity
    rw [hn]
    dsimp only [Except.bind, fullRows]
    rw [if_pos ⟨hT, hH⟩]
  · unfold rowsAt
    have e1 : rows.getD t [] = r := by rw [List.getD_eq_getElem?_getD, hr]; rfl
    rw [e1, List.getD_eq_getElem?_getD, hx]
    rfl

/-- **C173.** Other forms: a single number is used at all pixels, a single pulse repetition frequency gives `c PRF / (4 f)`. -/
theorem C173_single (f : FoldingFile β) :
    (∀ x, f.nyquist = some (.d0 x) → ∃ g, expandedFolding f = .ok g ∧ ∀ t < f.nT, ∀ h < f.nH, g t h = x) ∧
    (∀ x, f.nyquist = some (.d1 [x]) → ∃ g, expandedFolding f = .ok g ∧ ∀ t < f.nT, ∀ h < f.nH, g t h = x) ∧
    (∀ p, f.nyquist = none → f.prf = some [p] → ∃ g, expandedFolding f = .ok g ∧
      ∀ t < f.nT, ∀ h < f.nH, g t h = 299792458 * p / (4 * (f.frequency * 10 ^ 9))) := by
  refine ⟨fun x hx => ⟨rowsAt (List.replicate f.nT (List.replicate f.nH x)) 0, ?_, fun t ht h hh => rowsAt_replicate _ _ _ _ _ _ ht hh⟩,
    fun x hx => ⟨rowsAt (List.replicate f.nT (List.replicate f.nH x)) 0, ?_, fun t ht h hh => rowsAt_replicate _ _ _ _ _ _ ht hh⟩, fun p hn hp =>
    ⟨rowsAt (List.replicate f.nT (List.replicate f.nH (p * 299792458 / (4 * f.frequency * 1000000000)))) 0, ?_, fun t ht h hh => ?_⟩⟩
  · unfold expandedFolding foldingVelocity
    rw [hx]
    rfl
  · unfold expandedFolding foldingVelocity
    rw [hx]
    dsimp only [Except.bind, fullRows, singleValue, NdArray.len?, broadcastTo, stretch]
    simp only [List.length_singleton, beq_self_eq_true, if_true]
    by_cases h : 1 = f.nH
    · rw [if_pos h, ← h]; rfl
    · rw [if_neg h]; rfl
  · unfold expandedFolding foldingVelocity
    rw [hn, hp]
    rfl
  · rw [rowsAt_replicate _ _ _ _ _ _ ht hh]
    congr 1
    · ring
    · norm_num; ring

/-- **C173.** Chirps: a file with the first gates of the chirps and a Nyquist velocity for each chirp of each profile (`C86_chirps` for what is at a
gate). -/
theorem C173_chirps (f : FoldingFile β) (rows : List (List β)) (starts : List ℤ) (hn : f.nyquist = some (.d2 rows)) (hs : f.starts = some (.d1 starts))
    (hT : rows.length = f.nT) (h2 : 2 ≤ f.nT) (hH : ∀ r ∈ rows, r.length = starts.length) (hne : starts.length ≠ f.nH) (hpos : starts ≠ [])
    (hfirst : starts[0]? = some 0 ∨ starts[0]? = some 1) (hmono : starts.Pairwise (· ≤ ·))
    (hlast : ∀ x ∈ starts, x ≤ f.nH + starts.getD 0 0) :
    ∃ g, expandedFolding f = .ok g ∧ ∀ t < f.nT, ∀ h < f.nH, (∃ s, Spec.InChirp starts.length (fun s => starts.getD s 0) (starts.getD 0 0) h s) ∧
      ∀ s, Spec.InChirp starts.length (fun s => starts.getD s 0) (starts.getD 0 0) h s → ∀ r x, rows[t]? = some r → r[s]? = some x → g t h = x := by
  have hlen : 0 < starts.length := List.length_pos_of_ne_nil hpos
  have e : expandedFolding f = expandFolding f.nT f.nH starts.length (rowsAt (List.replicate f.nT starts) 0) (rowsAt rows 0) 0 := by
    unfold expandedFolding foldingVelocity
    rw [hn, hs]
    have h1 : fullRows f.nT f.nH (.d2 rows) = none := by
      unfold fullRows
      dsimp only
      rw [if_neg]
      rintro ⟨-, hw⟩
      obtain ⟨r, hr⟩ := List.exists_mem_of_length_pos (l := rows) (by omega)
      exact hne (by rw [← hH r hr, hw r hr])
    have h3 : singleValue (.d2 rows) = false := by
      unfold singleValue
      dsimp only [NdArray.len?]
      rw [hT]
      simp only [beq_eq_false_iff_ne]
      omega
    have h4 := (C173_written (β := β) f.nT starts.length).2.2 rows hT hH
    have h5 : broadcastTo f.nT starts.length (.d1 starts) = .ok (List.replicate f.nT starts) := by
      unfold broadcastTo stretch
      dsimp only
      rw [if_pos rfl]; rfl
    dsimp only [Except.bind]
    rw [h1]
    dsimp only
    rw [h3]
    dsimp only [chirpCount, Except.bind]
    rw [h5]
    dsimp only
    rw [h4]
    dsimp only
    have hz : ¬ starts.length = 0 := by omega
    simp only [hz, if_false, Bool.false_eq_true]
  have hat : ∀ t < f.nT, ∀ s, rowsAt (List.replicate f.nT starts) 0 t s = starts.getD s 0 := by
    intro t ht s
    unfold rowsAt
    simp [ht]
  obtain ⟨g, hg, hv⟩ := C86_chirps f.nT f.nH starts.length hlen (rowsAt (List.replicate f.nT starts) 0) (rowsAt rows 0) 0
    (fun t ht => by
      rw [hat t ht]
      rcases hfirst with h | h
      · left; rw [List.getD_eq_getElem?_getD, h]; rfl
      · right; rw [List.getD_eq_getElem?_getD, h]; rfl)
    (fun t ht s hs' => by
      rw [hat t ht, hat t ht, List.getD_eq_getElem _ _ (by omega), List.getD_eq_getElem _ _ hs']
      exact List.pairwise_iff_getElem.1 hmono s (s + 1) (by omega) hs' (by omega))
    (fun t ht => by
      rw [hat t ht, hat t ht]
      refine hlast _ ?_
      rw [List.getD_eq_getElem _ _ (by omega)]
      exact List.getElem_mem _)
  refine ⟨g, by rw [e]; exact hg, fun t ht h hh => ?_⟩
  have hfun : rowsAt (List.replicate f.nT starts) 0 t = fun s => starts.getD s 0 := funext fun s => hat t ht s
  obtain ⟨v1, v2⟩ := hv t ht h hh
  rw [hfun] at v1 v2
  refine ⟨v1, fun s hs' r x hr hx => ?_⟩
  rw [v2 s hs']
  unfold rowsAt
  have e1 : rows.getD t [] = r := by rw [List.getD_eq_getElem?_getD, hr]; rfl
  rw [e1, List.getD_eq_getElem?_getD, hx]
  rfl

/-- **C173.** Without a Nyquist velocity and without exactly one pulse repetition frequency there is an error. -/
theorem C173_unknown (f : FoldingFile β) (hn : f.nyquist = none) :
    (∃ e, expandedFolding f = .error e) ↔ ∀ p, f.prf ≠ some [p] := by
  constructor
  · rintro ⟨e, he⟩ p hp
    obtain ⟨g, hg, -⟩ := (C173_single f).2.2 p hn hp
    rw [hg] at he
    cases he
  · intro h
    unfold expandedFolding foldingVelocity
    rw [hn]
    rcases hp : f.prf with _ | l
    · exact ⟨_, rfl⟩
    · rcases l with _ | ⟨p, _ | ⟨q, l⟩⟩
      · exact ⟨_, rfl⟩
      · exact absurd hp (h p)
      · exact ⟨_, rfl⟩

end

/-- **C173.** From several raw MIRA files to the categorize file: at every pixel the Nyquist velocity is the number of the raw profile that it comes
from. -/
theorem C173_mira_categorize {β : Type} [Field β] (nRange : ℕ) (before after : List Selector) (raw : List (MaCell β)) (left : List ℕ)
    (hleft : Spec.profilesLeft (before ++ after) (List.range raw.length) = some left) (prf : Option (List β)) (frequency : β)
    (starts : Option (NdArray ℤ)) :
    ∃ rows g, miraNyquist raw.length nRange before after (.d1 raw) = .ok rows ∧
      expandedFolding ⟨left.length, nRange, some (.d2 (rows.map fun r => r.map MaCell.number)), prf, frequency, starts⟩ = .ok g ∧
      ∀ k i c, left[k]? = some i → raw[i]? = some c → ∀ h < nRange, g k h = c.number := by
  obtain ⟨g, hg, hv⟩ := C173_own_pixels (⟨left.length, nRange, some (.d2 (left.map fun i =>
    List.replicate nRange (raw.getD i ⟨true, 0⟩).number)), prf, frequency, starts⟩ : FoldingFile β) _ rfl (by simp) (by simp)
  refine ⟨_, g, C173_mira nRange before after raw left hleft ⟨true, 0⟩, ?_, fun k i c hk hc h hh => ?_⟩
  · rw [List.map_map]
    have : ((fun r => List.map MaCell.number r) ∘ fun i => List.replicate nRange (⟨false, (raw.getD i ⟨true, 0⟩).number⟩ : MaCell β)) =
        fun i => List.replicate nRange (raw.getD i ⟨true, 0⟩).number := by
      funext i
      simp
    rw [this]
    exact hg
  · refine hv k h (List.replicate nRange c.number) c.number ?_ (by simp [hh])
    rw [List.getElem?_map, hk]
    simp [hc]

/-- Two raw files with two profiles each, of which the second one is removed and the last two change places. -/
example : Spec.profilesLeft [.mask [true, false, true, true], .idx [0, 2, 1]] (List.range 4) = some [0, 3, 2] := by decide

example : (match miraNyquist 4 2 [.mask [true, false, true, true]] [.idx [0, 2, 1]] (.d1 [⟨false, 5⟩, ⟨false, 5⟩, ⟨false, 8⟩, ⟨true, 9⟩]) with
    | .ok rows => decide ((rows.map fun r => r.map MaCell.number) = [[5, 5], [9, 9], [8, 8]])
    | .error _ => false) = true := by decide

example : ∃ g, expandedFolding (⟨2, 3, some (.d2 [[5, 7], [6, 8]]), none, 94, some (.d1 [0, 1])⟩ : FoldingFile ℚ) = .ok g ∧ g 1 0 = 6 ∧ g 1 2 = 8 := by
  obtain ⟨g, hg, hv⟩ := C173_chirps (⟨2, 3, some (.d2 [[5, 7], [6, 8]]), none, 94, some (.d1 [0, 1])⟩ : FoldingFile ℚ) [[5, 7], [6, 8]] [0, 1] rfl rfl
    rfl (by norm_num) (by simp) (by simp) (by simp) (by simp) (by simp) (by simp)
  exact ⟨g, hg, (hv 1 (by norm_num) 0 (by norm_num)).2 0 ⟨by simp, by simp, fun s' h1 h2 => by
      obtain rfl : s' = 1 := by simp at h2; omega
      simp⟩ _ _ rfl rfl,
    (hv 1 (by norm_num) 2 (by norm_num)).2 1 ⟨by simp, by simp, fun s' h1 h2 => by simp at h2; omega⟩ _ _ rfl rfl⟩

end Cloudnet
