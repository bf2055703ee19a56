import Verif.Droplet.Model
import Verif.Atmos.Lemmas
import Verif.Arrays.Lemmas
import Verif.Interp.Props

namespace Cloudnet

/-! C23 (base and top of a liquid layer), C24 (liquid tops), C79 (`n_elements`), C80 (`find_liquid`),
C81 (`interpolate_lwp`). -/

namespace Spec

section
variable {α : Type} [Field α] [LinearOrder α]

/-- `b` is the base below the peak: the first of the `dist` gates below the peak after which the profile
jumps by more than `1/lim` of the largest jump there, that jump being positive. -/
def IsBase (d : ℕ → α) (peak dist : ℕ) (lim : α) (b : ℕ) : Prop :=
  peak - dist ≤ b ∧ b < peak ∧ ∃ M, 0 < M ∧ (∃ i, peak - dist ≤ i ∧ i < peak ∧ d i = M) ∧
    (∀ i, peak - dist ≤ i → i < peak → d i ≤ M) ∧ M / lim < d b ∧
    ∀ i, peak - dist ≤ i → i < b → d i ≤ M / lim

/-- `top` is the top above the peak: the gate after the last jump (among the `dist` jumps above the peak and
the `m` jumps of the profile) that falls by more than `1/lim` of the largest fall there. -/
def IsTop (m : ℕ) (d : ℕ → α) (peak dist : ℕ) (lim : α) (top : ℕ) : Prop :=
  peak < top ∧ top ≤ peak + dist ∧ top ≤ m ∧ ∃ W, W < 0 ∧
    (∃ i, peak ≤ i ∧ i < peak + dist ∧ i < m ∧ d i = W) ∧
    (∀ i, peak ≤ i → i < peak + dist → i < m → W ≤ d i) ∧ d (top - 1) < W / lim ∧
    ∀ i, top ≤ i → i < peak + dist → i < m → W / lim ≤ d i

end

end Spec

section
variable {α : Type} [Field α] [LinearOrder α] [IsStrictOrderedRing α]

theorem find_range_some {n k : ℕ} {p : ℕ → Bool} :
    (List.range n).find? p = some k ↔ p k = true ∧ k < n ∧ ∀ i < k, p i = false := by
  rw [List.find?_range_eq_some]
  simp

theorem find_range_none {n : ℕ} {p : ℕ → Bool} :
    (List.range n).find? p = none ↔ ∀ i < n, p i = false := by
  rw [List.find?_range_eq_none]
  simp

/-- C23. `ind_base` returns the base if there is one. -/
theorem C23_base (m : ℕ) (d : ℕ → α) (peak dist : ℕ) (lim : α) (hlim : 1 < lim) (hd : 0 < dist)
    (hp : 0 < peak) (hm : peak ≤ m) (b : ℕ) :
    indBase m d peak dist lim = .ok b ↔ Spec.IsBase d peak dist lim b := by
  have hl0 : 0 < lim := lt_trans one_pos hlim
  unfold indBase
  simp only
  rw [min_eq_left hm, if_neg (by omega)]
  obtain ⟨a1, a2, -⟩ := argmax_spec (fun i => d (peak - dist + i)) (peak - (peak - dist) - 1)
  generalize argmax (fun i => d (peak - dist + i)) (peak - (peak - dist) - 1) = k at a1 a2
  have hmax : ∀ i, peak - dist ≤ i → i < peak → d i ≤ d (peak - dist + k) := by
    intro i h1 h2
    have := a2 (i - (peak - dist)) (by omega)
    rwa [show peak - dist + (i - (peak - dist)) = i by omega] at this
  rcases hf : (List.range (peak - (peak - dist))).find?
      (fun i => decide (d (peak - dist + k) / lim < d (peak - dist + i))) with _ | i
  · rw [find_range_none] at hf
    simp only [reduceCtorEq, false_iff]
    rintro ⟨h1, h2, M, hM, ⟨j, j1, j2, j3⟩, hall, hb, -⟩
    have hle : d (peak - dist + k) ≤ M := hall _ (by omega) (by omega)
    have hge : M ≤ d (peak - dist + k) := by rw [← j3]; exact hmax j j1 j2
    have heq : d (peak - dist + k) = M := le_antisymm hle hge
    have := hf (b - (peak - dist)) (by omega)
    rw [show peak - dist + (b - (peak - dist)) = b by omega, heq] at this
    simp only [decide_eq_false_iff_not] at this
    exact this hb
  · rw [find_range_some] at hf
    obtain ⟨f1, f2, f3⟩ := hf
    simp only [decide_eq_true_eq] at f1
    simp only [decide_eq_false_iff_not] at f3
    simp only [Except.ok.injEq]
    constructor
    · rintro rfl
      have hpos : 0 < d (peak - dist + k) := by
        have hle := hmax (peak - dist + i) (by omega) (by omega)
        by_contra hc
        push Not at hc
        have : d (peak - dist + k) ≤ d (peak - dist + k) / lim := by
          rw [le_div_iff₀ hl0]
          nlinarith
        exact absurd (lt_of_lt_of_le f1 hle) (not_lt.2 this)
      refine ⟨by omega, by omega, _, hpos, ⟨peak - dist + k, by omega, by omega, rfl⟩, hmax, f1, ?_⟩
      intro j h1 h2
      have := f3 (j - (peak - dist)) (by omega)
      rw [show peak - dist + (j - (peak - dist)) = j by omega] at this
      exact not_lt.1 this
    · rintro ⟨h1, h2, M, hM, ⟨j, j1, j2, j3⟩, hall, hb, hbelow⟩
      have hle : d (peak - dist + k) ≤ M := hall _ (by omega) (by omega)
      have hge : M ≤ d (peak - dist + k) := by rw [← j3]; exact hmax j j1 j2
      have heq : d (peak - dist + k) = M := le_antisymm hle hge
      rw [heq] at f1 f3
      rcases Nat.lt_trichotomy (peak - dist + i) b with h | h | h
      · exact absurd f1 (not_lt.2 (hbelow _ (by omega) h))
      · exact h
      · have := f3 (b - (peak - dist)) (by omega)
        rw [show peak - dist + (b - (peak - dist)) = b by omega] at this
        exact absurd hb this

/-- C23. Without a base, that is if no gate of the window jumps upwards, `ind_base` raises `IndexError`. -/
theorem C23_base_raises (m : ℕ) (d : ℕ → α) (peak dist : ℕ) (lim : α) (hlim : 1 < lim) (hd : 0 < dist)
    (hp : 0 < peak) (hm : peak ≤ m) :
    indBase m d peak dist lim = .error "IndexError" ↔ ∀ i, peak - dist ≤ i → i < peak → d i ≤ 0 := by
  have hl0 : 0 < lim := lt_trans one_pos hlim
  unfold indBase
  simp only
  rw [min_eq_left hm, if_neg (by omega)]
  obtain ⟨a1, a2, -⟩ := argmax_spec (fun i => d (peak - dist + i)) (peak - (peak - dist) - 1)
  generalize argmax (fun i => d (peak - dist + i)) (peak - (peak - dist) - 1) = k at a1 a2
  have hmax : ∀ i, peak - dist ≤ i → i < peak → d i ≤ d (peak - dist + k) := by
    intro i h1 h2
    have := a2 (i - (peak - dist)) (by omega)
    rwa [show peak - dist + (i - (peak - dist)) = i by omega] at this
  rcases hf : (List.range (peak - (peak - dist))).find?
      (fun i => decide (d (peak - dist + k) / lim < d (peak - dist + i))) with _ | i
  · rw [find_range_none] at hf
    simp only [true_iff]
    have := hf k (by omega)
    simp only [decide_eq_false_iff_not, not_lt] at this
    have hnonpos : d (peak - dist + k) ≤ 0 := by
      by_contra hc
      push Not at hc
      rw [le_div_iff₀ hl0] at this
      nlinarith
    exact fun i h1 h2 => le_trans (hmax i h1 h2) hnonpos
  · rw [find_range_some] at hf
    obtain ⟨f1, f2, f3⟩ := hf
    simp only [decide_eq_true_eq] at f1
    simp only [reduceCtorEq, false_iff]
    intro hall
    have h1 := hall (peak - dist + k) (by omega) (by omega)
    have h2 := hmax (peak - dist + i) (by omega) (by omega)
    have : d (peak - dist + k) ≤ d (peak - dist + k) / lim := by
      rw [le_div_iff₀ hl0]
      nlinarith
    exact absurd (lt_of_lt_of_le f1 h2) (not_lt.2 this)

theorem getLast_filter_range {n : ℕ} {p : ℕ → Bool} :
    (∀ k, ((List.range n).filter p).getLast? = some k ↔ k < n ∧ p k = true ∧ ∀ i, k < i → i < n → p i = false) ∧
    (((List.range n).filter p).getLast? = none ↔ ∀ i < n, p i = false) := by
  induction n with
  | zero => simp
  | succ n ih =>
    obtain ⟨h1, h2⟩ := ih
    rw [List.range_succ, List.filter_append]
    cases hp : p n with
    | true =>
      have : [n].filter p = [n] := by simp [hp]
      rw [this]
      constructor
      · intro k
        rw [List.getLast?_append]
        simp only [List.getLast?_singleton, Option.some_or, Option.some.injEq]
        constructor
        · rintro rfl
          exact ⟨by omega, hp, by omega⟩
        · rintro ⟨a1, a2, a3⟩
          by_contra hc
          have := a3 n (by omega) (by omega)
          rw [hp] at this; cases this
      · simp only [List.getLast?_append, List.getLast?_singleton, Option.some_or, reduceCtorEq, false_iff]
        intro h
        have := h n (by omega)
        rw [hp] at this; cases this
    | false =>
      have : [n].filter p = [] := by simp [hp]
      rw [this, List.append_nil]
      constructor
      · intro k
        rw [h1]
        constructor
        · rintro ⟨a1, a2, a3⟩
          refine ⟨by omega, a2, fun i b1 b2 => ?_⟩
          rcases Nat.lt_or_ge i n with h | h
          · exact a3 i b1 h
          · rw [show i = n by omega]; exact hp
        · rintro ⟨a1, a2, a3⟩
          refine ⟨?_, a2, fun i b1 b2 => a3 i b1 (by omega)⟩
          rcases Nat.lt_or_ge k n with h | h
          · exact h
          · rw [show k = n by omega, hp] at a2; cases a2
      · rw [h2]
        constructor
        · intro h i hi
          rcases Nat.lt_or_ge i n with h' | h'
          · exact h i h'
          · rw [show i = n by omega]; exact hp
        · exact fun h i hi => h i (by omega)

/-- C23. `ind_top` returns the top if there is one. -/
theorem C23_top (m : ℕ) (d : ℕ → α) (peak nprof dist : ℕ) (lim : α) (hlim : 1 < lim) (hd : 0 < dist)
    (hp : peak < m) (hm : m ≤ nprof) (top : ℕ) :
    indTop m d peak nprof dist lim = .ok top ↔ Spec.IsTop m d peak dist lim top := by
  have hl0 : 0 < lim := lt_trans one_pos hlim
  unfold indTop
  simp only
  rw [if_neg (by omega)]
  have hmn : min (min (peak + dist) nprof) m = min (peak + dist) m := by omega
  rw [hmn]
  obtain ⟨a1, a2, -⟩ := argmin_spec (fun i => d (peak + i)) (min (peak + dist) m - peak - 1)
  generalize argmin (fun i => d (peak + i)) (min (peak + dist) m - peak - 1) = k at a1 a2
  have hmin : ∀ i, peak ≤ i → i < peak + dist → i < m → d (peak + k) ≤ d i := by
    intro i h1 h2 h3
    have := a2 (i - peak) (by omega)
    rwa [show peak + (i - peak) = i by omega] at this
  rcases hf : ((List.range (min (peak + dist) m - peak)).filter
      (fun i => decide (d (peak + i) < d (peak + k) / lim))).getLast? with _ | i
  · rw [getLast_filter_range.2] at hf
    simp only [reduceCtorEq, false_iff]
    rintro ⟨h1, h2, h3, W, hW, ⟨j, j1, j2, j2', j3⟩, hall, hb, -⟩
    have hle : W ≤ d (peak + k) := hall _ (by omega) (by omega) (by omega)
    have hge : d (peak + k) ≤ W := by rw [← j3]; exact hmin j j1 j2 j2'
    have heq : d (peak + k) = W := le_antisymm hge hle
    have := hf (top - 1 - peak) (by omega)
    rw [show peak + (top - 1 - peak) = top - 1 by omega, heq] at this
    simp only [decide_eq_false_iff_not] at this
    exact this hb
  · rw [getLast_filter_range.1] at hf
    obtain ⟨f1, f2, f3⟩ := hf
    simp only [decide_eq_true_eq] at f2
    simp only [decide_eq_false_iff_not, not_lt] at f3
    simp only [Except.ok.injEq]
    constructor
    · rintro rfl
      have hneg : d (peak + k) < 0 := by
        have hle := hmin (peak + i) (by omega) (by omega) (by omega)
        by_contra hc
        push Not at hc
        have : d (peak + k) / lim ≤ d (peak + k) := by
          rw [div_le_iff₀ hl0]
          nlinarith
        exact absurd (lt_of_lt_of_le f2 this) (not_lt.2 hle)
      refine ⟨by omega, by omega, by omega, _, hneg, ⟨peak + k, by omega, by omega, by omega, rfl⟩, hmin,
        by simpa using f2, ?_⟩
      intro j h1 h2 h3
      have := f3 (j - peak) (by omega) (by omega)
      rwa [show peak + (j - peak) = j by omega] at this
    · rintro ⟨h1, h2, h3, W, hW, ⟨j, j1, j2, j2', j3⟩, hall, hb, habove⟩
      have hle : W ≤ d (peak + k) := hall _ (by omega) (by omega) (by omega)
      have hge : d (peak + k) ≤ W := by rw [← j3]; exact hmin j j1 j2 j2'
      have heq : d (peak + k) = W := le_antisymm hge hle
      rw [heq] at f2 f3
      rcases Nat.lt_trichotomy (peak + i + 1) top with h | h | h
      · have := f3 (top - 1 - peak) (by omega) (by omega)
        rw [show peak + (top - 1 - peak) = top - 1 by omega] at this
        exact absurd hb (not_lt.2 this)
      · exact h
      · exact absurd f2 (not_lt.2 (habove _ (by omega) (by omega) (by omega)))

/-- C23. Without a top, that is if no gate of the window falls, `ind_top` raises `IndexError`. -/
theorem C23_top_raises (m : ℕ) (d : ℕ → α) (peak nprof dist : ℕ) (lim : α) (hlim : 1 < lim) (hd : 0 < dist)
    (hp : peak < m) (hm : m ≤ nprof) :
    indTop m d peak nprof dist lim = .error "IndexError" ↔
      ∀ i, peak ≤ i → i < peak + dist → i < m → 0 ≤ d i := by
  have hl0 : 0 < lim := lt_trans one_pos hlim
  unfold indTop
  simp only
  rw [if_neg (by omega)]
  have hmn : min (min (peak + dist) nprof) m = min (peak + dist) m := by omega
  rw [hmn]
  obtain ⟨a1, a2, -⟩ := argmin_spec (fun i => d (peak + i)) (min (peak + dist) m - peak - 1)
  generalize argmin (fun i => d (peak + i)) (min (peak + dist) m - peak - 1) = k at a1 a2
  have hmin : ∀ i, peak ≤ i → i < peak + dist → i < m → d (peak + k) ≤ d i := by
    intro i h1 h2 h3
    have := a2 (i - peak) (by omega)
    rwa [show peak + (i - peak) = i by omega] at this
  rcases hf : ((List.range (min (peak + dist) m - peak)).filter
      (fun i => decide (d (peak + i) < d (peak + k) / lim))).getLast? with _ | i
  · rw [getLast_filter_range.2] at hf
    simp only [true_iff]
    have := hf k (by omega)
    simp only [decide_eq_false_iff_not, not_lt] at this
    have hnn : 0 ≤ d (peak + k) := by
      by_contra hc
      push Not at hc
      rw [div_le_iff₀ hl0] at this
      nlinarith
    exact fun i h1 h2 h3 => le_trans hnn (hmin i h1 h2 h3)
  · rw [getLast_filter_range.1] at hf
    obtain ⟨f1, f2, f3⟩ := hf
    simp only [decide_eq_true_eq] at f2
    simp only [reduceCtorEq, false_iff]
    intro hall
    have h1 := hall (peak + k) (by omega) (by omega) (by omega)
    have h2 := hmin (peak + i) (by omega) (by omega) (by omega)
    have : d (peak + k) / lim ≤ d (peak + k) := by
      rw [div_le_iff₀ hl0]
      nlinarith
    exact absurd (lt_of_lt_of_le f2 this) (not_lt.2 h2)

end

/-- The example of the docstring of `ind_base`: differences 0.5, 0.5, 0, 0, 4, -3 and the peak at 5. -/
def exampleDiffs : ℕ → ℚ := fun i => [1 / 2, 1 / 2, 0, 0, 4, -3].getD i 0

example : (match indBase 6 exampleDiffs 5 4 2, indBase 6 exampleDiffs 5 4 10,
      indTop 6 exampleDiffs 5 7 3 2 with
    | .ok a, .ok b, .ok c => decide (a = 4 ∧ b = 1 ∧ c = 6)
    | _, _, _ => false) = true ∧
    Spec.IsBase exampleDiffs 5 4 2 4 := by
  refine ⟨by decide +kernel, ?_⟩
  rw [← C23_base 6 _ _ _ _ (by norm_num) (by norm_num) (by norm_num) (by norm_num)]
  decide +kernel

/-! ### C24 -/

theorem foldlM_region (step : Grid Bool → Pixel → Except String (Grid Bool)) (reg : Pixel → ℕ → ℕ → Prop) :
    ∀ (l : List Pixel) (g : Grid Bool),
      (∀ px ∈ l, ∀ g, ∃ g', step g px = .ok g' ∧ ∀ t h, g' t h = true ↔ g t h = true ∨ reg px t h) →
      ∃ out, l.foldlM step g = .ok out ∧
        ∀ t h, out t h = true ↔ g t h = true ∨ ∃ px ∈ l, reg px t h
  | [], g, _ => ⟨g, rfl, by simp⟩
  | px :: l, g, hs => by
    obtain ⟨g', h1, h2⟩ := hs px (by simp) g
    obtain ⟨out, h3, h4⟩ := foldlM_region step reg l g' fun q hq => hs q (by simp [hq])
    refine ⟨out, ?_, ?_⟩
    · rw [List.foldlM_cons, h1]; exact h3
    · intro t h
      rw [h4, h2, or_assoc]
      simp

theorem foldlM_error {β γ : Type} (step : β → γ → Except String β) :
    ∀ (l : List γ) (g : β), (∃ px ∈ l, ∀ g, ∃ e, step g px = .error e) → ∃ e, l.foldlM step g = .error e
  | [], _, h => by simp at h
  | px :: l, g, h => by
    rw [List.foldlM_cons]
    rcases hs : step g px with e | g'
    · exact ⟨e, rfl⟩
    · obtain ⟨q, hq, he⟩ := h
      rw [List.mem_cons] at hq
      rcases hq with rfl | hq
      · obtain ⟨e, he⟩ := he g
        rw [hs] at he; cases he
      · exact foldlM_error step l g' ⟨q, hq, he⟩

namespace Spec

/-- `top` is the topmost gate of a liquid layer of a profile of `n` gates. -/
def LiquidTop (n : ℕ) (liq : ℕ → Bool) (top : ℕ) : Prop :=
  top < n ∧ liq top = true ∧ (top + 1 = n ∨ liq (top + 1) = false)

/-- `f` is the first freezing gate at or above `top`. -/
def FirstFreezing (n : ℕ) (freezing : ℕ → Bool) (top f : ℕ) : Prop :=
  top ≤ f ∧ f < n ∧ freezing f = true ∧ ∀ i, top ≤ i → i < f → freezing i = false

/-- The radar sees all gates from `top` to `h`, and there is a gate without echo above `h` but not above
the gate `last`. -/
def EchoUpTo {β : Type} (z : ℕ → Option β) (top last h : ℕ) : Prop :=
  top ≤ h ∧ (∀ i, top ≤ i → i ≤ h → z i ≠ none) ∧ ∃ i, h < i ∧ i ≤ last ∧ z i = none

end Spec

theorem findIndAboveTop_ok {n : ℕ} {freezing : ℕ → Bool} {top f k : ℕ} (hf : Spec.FirstFreezing n freezing top f) :
    findIndAboveTop n freezing top k = .ok (min (n - 1) (f + k) - top) := by
  obtain ⟨h1, h2, h3, h4⟩ := hf
  unfold findIndAboveTop
  have : (List.range (n - top)).find? (fun i => freezing (top + i)) = some (f - top) := by
    rw [find_range_some]
    refine ⟨by rw [show top + (f - top) = f by omega]; exact h3, by omega, ?_⟩
    intro i hi
    exact h4 _ (by omega) (by omega)
  rw [this]
  simp only [Except.ok.injEq]
  omega

theorem findIndAboveTop_error {n : ℕ} {freezing : ℕ → Bool} {top k : ℕ}
    (hf : ∀ f, top ≤ f → f < n → freezing f = false) :
    findIndAboveTop n freezing top k = .error "IndexError" := by
  unfold findIndAboveTop
  have : (List.range (n - top)).find? (fun i => freezing (top + i)) = none := by
    rw [find_range_none]
    intro i hi
    exact hf _ (by omega) (by omega)
  rw [this]

theorem exists_firstFreezing {n : ℕ} {freezing : ℕ → Bool} {top : ℕ}
    (h : ∃ f, top ≤ f ∧ f < n ∧ freezing f = true) : ∃ f, Spec.FirstFreezing n freezing top f := by
  classical
  have hs := Nat.find_spec h
  refine ⟨Nat.find h, hs.1, hs.2.1, hs.2.2, fun i h1 h2 => ?_⟩
  have := Nat.find_min h h2
  have hn := hs.2.1
  simp only [not_and, Bool.not_eq_true] at this
  exact this h1 (by omega)

theorem mem_liquidTops (nT nH : ℕ) (liq : Grid Bool) (p : Pixel) :
    p ∈ whereGrid nT nH (findCloudTops nH liq) ↔ p.1 < nT ∧ Spec.LiquidTop nH (liq p.1) p.2 := by
  rw [mem_whereGrid]
  unfold Spec.LiquidTop findCloudTops
  constructor
  · rintro ⟨h1, h2, h3⟩
    rw [findCloudTopsRow_iff nH _ h2] at h3
    exact ⟨h1, h2, h3⟩
  · rintro ⟨h1, h2, h3⟩
    rw [← findCloudTopsRow_iff nH _ h2] at h3
    exact ⟨h1, h2, h3⟩

theorem head_filter_range {n : ℕ} {p : ℕ → Bool} (h : ((List.range n).filter p).length ≠ 0) :
    ((List.range n).filter p).headD 0 < n ∧ p (((List.range n).filter p).headD 0) = true ∧
      ∀ i < ((List.range n).filter p).headD 0, p i = false := by
  have hh : ((List.range n).filter p).head? = (List.range n).find? p := by
    rw [List.head?_filter]
  have hd : ((List.range n).filter p).headD 0 = ((List.range n).find? p).getD 0 := by
    rw [← hh]; cases (List.range n).filter p <;> rfl
  rcases hf : (List.range n).find? p with _ | k
  · rw [hf] at hh
    rw [List.head?_eq_none_iff] at hh
    rw [hh] at h; exact absurd rfl h
  · rw [hd, hf]
    rw [find_range_some] at hf
    exact ⟨hf.2.1, hf.1, hf.2.2⟩

/-- C24. Tops can be corrected if every liquid top has a freezing gate at or above it. Then the liquid pixels
are the old ones and, above each liquid top, those which the radar sees without interruption from the top on,
provided a gate without echo follows not later than `topAbove` gates above the first freezing gate. -/
theorem C24_correct_liquid_top {β : Type} (nT nH : ℕ) (z : Grid (Option β)) (topAbove : ℕ)
    (liq freezing : Grid Bool)
    (hf : ∀ t < nT, ∀ top, Spec.LiquidTop nH (liq t) top →
      ∃ f, top ≤ f ∧ f < nH ∧ freezing t f = true) :
    ∃ out, correctLiquidTop nT nH z topAbove liq freezing = .ok out ∧
      ∀ t h, out t h = true ↔ liq t h = true ∨ (t < nT ∧ ∃ top f, Spec.LiquidTop nH (liq t) top ∧
        Spec.FirstFreezing nH (freezing t) top f ∧
        Spec.EchoUpTo (z t) top (min (nH - 1) (f + topAbove)) h) := by
  obtain ⟨out, h1, h2⟩ := foldlM_region (fun (corrected : Grid Bool) (px : Pixel) => do
    let ind ← findIndAboveTop nH (freezing px.1) px.2 topAbove
    let masked := (List.range (ind + 1)).filter fun i => (z px.1 (px.2 + i)).isNone
    return if masked.length = ind + 1 ∨ masked.length = 0 then corrected
      else fun t h => if t = px.1 ∧ px.2 ≤ h ∧ h < px.2 + masked.headD 0 then true else corrected t h)
    (fun px t h => t = px.1 ∧ ∃ f, Spec.FirstFreezing nH (freezing t) px.2 f ∧
        Spec.EchoUpTo (z t) px.2 (min (nH - 1) (f + topAbove)) h)
    (whereGrid nT nH (findCloudTops nH liq)) liq (by
      intro px hpx g
      rw [mem_liquidTops] at hpx
      obtain ⟨f, hff⟩ := exists_firstFreezing (hf px.1 hpx.1 px.2 hpx.2)
      have huniq : ∀ f', Spec.FirstFreezing nH (freezing px.1) px.2 f' → f' = f := by
        intro f' h'
        obtain ⟨a1, a2, a3, a4⟩ := h'
        obtain ⟨b1, b2, b3, b4⟩ := hff
        rcases Nat.lt_trichotomy f' f with h | h | h
        · rw [b4 f' a1 h] at a3; cases a3
        · exact h
        · rw [a4 f b1 h] at b3; cases b3
      have hw : px.2 ≤ min (nH - 1) (f + topAbove) := by
        have := hff.1; have := hpx.2.1; omega
      simp only [findIndAboveTop_ok hff, bind, Except.bind, pure, Except.pure]
      refine ⟨_, rfl, ?_⟩
      intro t h
      generalize hwd : min (nH - 1) (f + topAbove) = w at hw
      have hreg : (t = px.1 ∧ ∃ f', Spec.FirstFreezing nH (freezing t) px.2 f' ∧
          Spec.EchoUpTo (z t) px.2 (min (nH - 1) (f' + topAbove)) h) ↔
          t = px.1 ∧ Spec.EchoUpTo (z px.1) px.2 w h := by
        constructor
        · rintro ⟨rfl, f', h1, h2⟩
          rw [huniq f' h1, hwd] at h2
          exact ⟨rfl, h2⟩
        · rintro ⟨rfl, h2⟩
          exact ⟨rfl, f, hff, by rw [hwd]; exact h2⟩
      rw [hreg]
      split
      · next hc =>
        rw [iff_self_or]
        rintro ⟨_, e1, e2, i, e3, e4, e5⟩
        exfalso
        rcases hc with hc | hc
        · have hall : ∀ i ∈ List.range (w - px.2 + 1), (z px.1 (px.2 + i)).isNone = true := by
            have := List.length_filter_eq_length_iff
              (p := fun i => (z px.1 (px.2 + i)).isNone) (l := List.range (w - px.2 + 1))
            rw [List.length_range] at this
            exact this.1 hc
          have := hall 0 (by simp)
          rw [Option.isNone_iff_eq_none] at this
          exact e2 px.2 le_rfl e1 this
        · rw [List.length_eq_zero_iff, List.filter_eq_nil_iff] at hc
          have := hc (i - px.2) (by rw [List.mem_range]; omega)
          rw [show px.2 + (i - px.2) = i by omega, e5] at this
          exact this rfl
      · next hc =>
        push Not at hc
        obtain ⟨k1, k2, k3⟩ := head_filter_range hc.2
        generalize ((List.range (w - px.2 + 1)).filter fun i => (z px.1 (px.2 + i)).isNone).headD 0 = k at k1 k2 k3
        rw [Option.isNone_iff_eq_none] at k2
        have : (if t = px.1 ∧ px.2 ≤ h ∧ h < px.2 + k then true else g t h) = true ↔
            g t h = true ∨ (t = px.1 ∧ px.2 ≤ h ∧ h < px.2 + k) := by
          split
          · next h' => simp [h']
          · next h' => simp [h']
        rw [this]
        apply or_congr Iff.rfl
        apply and_congr Iff.rfl
        constructor
        · rintro ⟨e1, e2⟩
          refine ⟨e1, ?_, px.2 + k, e2, by omega, k2⟩
          intro i i1 i2 hi
          have := k3 (i - px.2) (by omega)
          rw [show px.2 + (i - px.2) = i by omega, hi] at this
          cases this
        · rintro ⟨e1, e2, -⟩
          refine ⟨e1, ?_⟩
          by_contra hcon
          exact e2 (px.2 + k) (by omega) (by omega) k2)
  refine ⟨out, h1, ?_⟩
  intro t h
  rw [h2]
  apply or_congr Iff.rfl
  constructor
  · rintro ⟨px, hpx, rfl, f, hff, he⟩
    rw [mem_liquidTops] at hpx
    exact ⟨hpx.1, px.2, f, hpx.2, hff, he⟩
  · rintro ⟨ht, top, f, htop, hff, he⟩
    exact ⟨(t, top), (mem_liquidTops nT nH liq (t, top)).2 ⟨ht, htop⟩, rfl, f, hff, he⟩

/-- C24. If some liquid top has no freezing gate at or above it, the correction fails. -/
theorem C24_raises {β : Type} (nT nH : ℕ) (z : Grid (Option β)) (topAbove : ℕ) (liq freezing : Grid Bool)
    (t top : ℕ) (ht : t < nT) (htop : Spec.LiquidTop nH (liq t) top)
    (hf : ∀ f, top ≤ f → f < nH → freezing t f = false) :
    ∃ e, correctLiquidTop nT nH z topAbove liq freezing = .error e := by
  unfold correctLiquidTop
  apply foldlM_error
  refine ⟨(t, top), (mem_liquidTops nT nH liq (t, top)).2 ⟨ht, htop⟩, fun g => ⟨"IndexError", ?_⟩⟩
  simp only [findIndAboveTop_error hf, bind, Except.bind]

/-- C24, code disagreement. The docstring calls `limit` the maximum correction distance above the cloud top,
but it is counted from the first freezing gate: here the limit is 2 gates and the top moves up by 5. -/
theorem C24_exceeds_limit :
    ∃ (liq freezing : Grid Bool) (z : Grid (Option ℚ)) (out : Grid Bool),
      correctLiquidTop 1 10 z 2 liq freezing = .ok out ∧ Spec.LiquidTop 10 (liq 0) 1 ∧
        Spec.LiquidTop 10 (out 0) 6 ∧ ∀ h < 10, out 0 h = true ↔ 1 ≤ h ∧ h ≤ 6 := by
  have h := C24_correct_liquid_top 1 10 (fun _ h => if h ≤ 6 then some (0 : ℚ) else none) 2
    (fun _ h => h = 1) (fun _ h => decide (6 ≤ h)) (by
      intro t _ top _
      rcases Nat.lt_or_ge top 7 with h | h
      · exact ⟨6, by omega, by omega, by simp⟩
      · rename_i hT
        exact ⟨top, le_rfl, hT.1, by simp; omega⟩)
  obtain ⟨out, h1, h2⟩ := h
  have key : ∀ h, h < 10 → (out 0 h = true ↔ 1 ≤ h ∧ h ≤ 6) := by
    intro h hh
    rw [h2]
    constructor
    · rintro (e | ⟨-, top, f, ⟨t1, t2, -⟩, -, e1, e2, -⟩)
      · have : h = 1 := by simpa using e
        omega
      · have ht : top = 1 := by simpa using t2
        have := e2 h e1 le_rfl
        by_cases hle : h ≤ 6
        · omega
        · simp [hle] at this
    · intro hr
      refine Or.inr ⟨by omega, 1, 6, ⟨by omega, by simp, Or.inr (by simp)⟩,
        ⟨by omega, by omega, by simp, fun i a b => by simp; omega⟩, hr.1, ?_, 7, by omega, by omega, by simp⟩
      intro i a b
      simp [show i ≤ 6 by omega]
  refine ⟨_, _, _, out, h1, ⟨by omega, by simp, Or.inr (by simp)⟩, ⟨by omega, (key 6 (by omega)).2 (by omega),
    Or.inr ?_⟩, key⟩
  have := key 7 (by omega)
  cases hb : out 0 7 with
  | false => rfl
  | true => have := this.1 hb; omega

/-! ### C79 -/

section
variable {α : Type} [Field α] [LinearOrder α] [IsStrictOrderedRing α]

/-- C79. `np.round` gives a nearest integer, the even one in a tie. -/
theorem C79_round [FloorRing α] (x : α) :
    |x - npRound x| ≤ 1 / 2 ∧ (|x - npRound x| = 1 / 2 → npRound x % 2 = 0) := by
  have h1 := Int.floor_le x
  have h2 := Int.lt_floor_add_one x
  unfold npRound
  simp only
  split
  · next h =>
    rw [abs_of_nonneg (by linarith)]
    exact ⟨h.le, fun he => by linarith⟩
  · next h =>
    push Not at h
    split
    · next h' =>
      push_cast
      rw [abs_of_nonpos (by linarith)]
      exact ⟨by linarith, fun he => by linarith⟩
    · next h' =>
      push Not at h'
      have hx : x - ⌊x⌋ = 1 / 2 := le_antisymm h' h
      split
      · next h0 =>
        rw [hx, abs_of_pos (by norm_num)]
        exact ⟨le_rfl, fun _ => h0⟩
      · next h0 =>
        push_cast
        rw [show x - ((⌊x⌋ : α) + 1) = -(1 / 2) by linarith, abs_neg, abs_of_pos (by norm_num)]
        exact ⟨le_rfl, fun _ => by omega⟩

theorem median_bounds (l : List α) (hl : l ≠ []) (lo hi : α) (h : ∀ x ∈ l, lo ≤ x ∧ x ≤ hi) :
    lo ≤ median l ∧ median l ≤ hi := by
  have hlen : 0 < l.length := List.length_pos_iff.2 hl
  have hm : ∀ i < l.length, lo ≤ (l.insertionSort (· ≤ ·)).getD i 0 ∧
      (l.insertionSort (· ≤ ·)).getD i 0 ≤ hi := by
    intro i hi'
    have hi'' : i < (l.insertionSort (· ≤ ·)).length := by rwa [List.length_insertionSort]
    rw [List.getD_eq_getElem _ _ hi'']
    exact h _ ((List.perm_insertionSort (· ≤ ·) l).mem_iff.1 (List.getElem_mem hi''))
  unfold median
  simp only
  split
  · exact hm _ (by omega)
  · have a := hm (l.length / 2 - 1) (by omega)
    have b := hm (l.length / 2) (by omega)
    constructor
    · linarith [a.1, b.1]
    · linarith [a.2, b.2]

/-- C79. The median step of a grid lies between its smallest and largest step. -/
theorem C79_median_step (n : ℕ) (hn : 2 ≤ n) (x : ℕ → α) (lo hi : α)
    (h : ∀ i, i + 1 < n → lo ≤ x (i + 1) - x i ∧ x (i + 1) - x i ≤ hi) :
    lo ≤ mdiff n x ∧ mdiff n x ≤ hi := by
  unfold mdiff
  apply median_bounds
  · simp; omega
  · intro y hy
    obtain ⟨i, hi', rfl⟩ := List.mem_map.1 hy
    exact h i (by have := List.mem_range.1 hi'; omega)

/-- C79. On a uniform grid with step `d` the number of elements returned for a distance spans the distance to
within half a step. -/
theorem C79_n_elements [FloorRing α] (n : ℕ) (hn : 2 ≤ n) (x : ℕ → α) (d dist : α) (hd : 0 < d)
    (h : ∀ i, i + 1 < n → x (i + 1) - x i = d) :
    |(nElements n x dist : α) * d - dist| ≤ d / 2 := by
  have hm : mdiff n x = d := by
    have := C79_median_step n hn x d d fun i hi => by rw [h i hi]; exact ⟨le_rfl, le_rfl⟩
    exact le_antisymm this.2 this.1
  unfold nElements
  rw [hm]
  have := (C79_round (dist / d)).1
  have e : (npRound (dist / d) : α) * d - dist = -(dist / d - npRound (dist / d)) * d := by
    field_simp
    ring
  rw [e, abs_mul, abs_neg, abs_of_pos hd]
  nlinarith

end

example : nElements 4 (fun i => (50 * i : ℚ)) 200 = 4 ∧ nElements 4 (fun i => (50 * i : ℚ)) 150 = 3 ∧
    nElements 4 (fun i => (100 * i : ℚ)) 150 = 2 ∧ nElements 4 (fun i => (100 * i : ℚ)) 250 = 2 := by
  decide +kernel

/-! ### C80 -/

namespace Spec

section
variable {α : Type} [Field α] [LinearOrder α]

/-- Gate `i` of a profile of `n` gates is a peak: neither the first nor the last gate, above the threshold, and
larger than all its neighbours up to four gates away. -/
def StrongPeak (n : ℕ) (x : ℕ → α) (threshold : α) (i : ℕ) : Prop :=
  0 < i ∧ i + 1 < n ∧ threshold < x i ∧ ∀ j < n, j ≠ i → i ≤ j + 4 → j ≤ i + 4 → x j < x i

/-- The gates `base` to `top` form the liquid layer around the gate `peak`: `beta` is the profile with masked
values 0, `diff` its differences, `below` and `above` the sizes of the search windows. -/
structure LiquidLayer (p : LiquidParameters α) (n : ℕ) (height beta diff : ℕ → α) (lwp : α) (below above : ℕ)
    (peak base top : ℕ) : Prop where
  strong : StrongPeak n beta p.peakAmp peak
  isBase : IsBase diff peak below p.lim base
  isTop : IsTop (n - 1) diff peak above p.lim top
  points : p.minPoints ≤ ((Finset.Icc base top).filter fun i => beta i ≠ 0).card
  width : height top - height base < p.maxWidth
  decrease : p.minTopDer < (beta peak - beta top) / (height top - height peak)
  lwp_ge : p.minLwp ≤ lwp
  altitude : p.minAlt < height peak - height 0

end

end Spec

section
variable {α : Type} [Field α] [LinearOrder α] [IsStrictOrderedRing α]

theorem strongPeak_iff (n : ℕ) (x : ℕ → α) (thr : α) (i : ℕ) (hi : i < n) :
    (isLocalMax n x i && decide (thr < x i)) = true ↔ Spec.StrongPeak n x thr i := by
  unfold isLocalMax Spec.StrongPeak
  simp only [Bool.and_eq_true, List.all_eq_true, List.mem_range, decide_eq_true_eq]
  constructor
  · rintro ⟨h, ht⟩
    have h0 : i ≠ 0 := by
      rintro rfl
      exact lt_irrefl _ (h 0 (by omega)).2
    have h1 : i ≠ n - 1 := by
      rintro rfl
      have := (h 0 (by omega)).1
      rw [show min (n - 1 + (0 + 1)) (n - 1) = n - 1 by omega] at this
      exact lt_irrefl _ this
    refine ⟨by omega, by omega, ht, ?_⟩
    intro j hj hne h2 h3
    rcases Nat.lt_or_gt_of_ne hne with hlt | hgt
    · have := (h (i - j - 1) (by omega)).2
      rwa [show i - (i - j - 1 + 1) = j by omega] at this
    · have := (h (j - i - 1) (by omega)).1
      rwa [show min (i + (j - i - 1 + 1)) (n - 1) = j by omega] at this
  · rintro ⟨h0, h1, ht, h⟩
    refine ⟨fun k hk => ⟨?_, ?_⟩, ht⟩
    · exact h _ (by omega) (by omega) (by omega) (by omega)
    · exact h _ (by omega) (by omega) (by omega) (by omega)

theorem count_points (x : ℕ → α) (base top : ℕ) (h : base ≤ top) :
    ((List.range (top + 1 - base)).filter fun i => decide (x (base + i) ≠ 0)).length =
      ((Finset.Icc base top).filter fun i => x i ≠ 0).card := by
  have h1 : ((List.range (top + 1 - base)).filter fun i => decide (x (base + i) ≠ 0)).length =
      ((Finset.range (top + 1 - base)).filter fun i => x (base + i) ≠ 0).card := by
    rfl
  rw [h1]
  apply Finset.card_bij (fun i _ => base + i)
  · intro i hi
    simp only [Finset.mem_filter, Finset.mem_range, Finset.mem_Icc] at hi ⊢
    exact ⟨by omega, hi.2⟩
  · intro a _ b _ hab
    omega
  · intro b hb
    simp only [Finset.mem_filter, Finset.mem_Icc] at hb
    refine ⟨b - base, ?_, by omega⟩
    simp only [Finset.mem_filter, Finset.mem_range]
    rw [show base + (b - base) = b by omega]
    exact ⟨by omega, hb.2⟩

theorem indBase_cases (m : ℕ) (d : ℕ → α) (peak dist : ℕ) (lim : α) (hd : 0 < dist) (hp : 0 < peak)
    (hm : peak ≤ m) : (∃ b, indBase m d peak dist lim = .ok b) ∨ indBase m d peak dist lim = .error "IndexError" := by
  unfold indBase
  simp only
  rw [if_neg (by omega)]
  split
  · exact Or.inr rfl
  · exact Or.inl ⟨_, rfl⟩

theorem indTop_cases (m : ℕ) (d : ℕ → α) (peak nprof dist : ℕ) (lim : α) (hd : 0 < dist) (hp : peak < m)
    (hm : m ≤ nprof) :
    (∃ b, indTop m d peak nprof dist lim = .ok b) ∨ indTop m d peak nprof dist lim = .error "IndexError" := by
  unfold indTop
  simp only
  rw [if_neg (by omega)]
  split
  · exact Or.inr rfl
  · exact Or.inl ⟨_, rfl⟩

theorem Spec.IsBase.unique {d : ℕ → α} {peak dist : ℕ} {lim : α} (hlim : 1 < lim) {b b' : ℕ}
    (h : Spec.IsBase d peak dist lim b) (h' : Spec.IsBase d peak dist lim b') : b = b' := by
  have hb := h
  have hd : 0 < dist := by have := h.1; have := h.2.1; omega
  have hp : 0 < peak := by have := h.2.1; omega
  rw [← C23_base peak d peak dist lim hlim hd hp le_rfl] at h h'
  rw [h] at h'
  exact Except.ok.inj h'

theorem Spec.IsTop.unique {m : ℕ} {d : ℕ → α} {peak dist : ℕ} {lim : α} (hlim : 1 < lim) {b b' : ℕ}
    (h : Spec.IsTop m d peak dist lim b) (h' : Spec.IsTop m d peak dist lim b') : b = b' := by
  have hd : 0 < dist := by have := h.1; have := h.2.1; omega
  have hp : peak < m := by have := h.1; have := h.2.2.1; omega
  rw [← C23_top m d peak m dist lim hlim hd hp le_rfl] at h h'
  rw [h] at h'
  exact Except.ok.inj h'

theorem peakLayer_spec (p : LiquidParameters α) (hlim : 1 < p.lim) (n : ℕ) (height beta diff : ℕ → α) (lwp : α)
    (below above peak : ℕ) (hb : 0 < below) (ha : 0 < above) (hs : Spec.StrongPeak n beta p.peakAmp peak) :
    (peakLayer p n height beta diff lwp below above peak = .ok none ∧
      ¬ ∃ base top, Spec.LiquidLayer p n height beta diff lwp below above peak base top) ∨
    ∃ base top, peakLayer p n height beta diff lwp below above peak = .ok (some (base, top)) ∧
      ∀ base' top', Spec.LiquidLayer p n height beta diff lwp below above peak base' top' ↔
        base' = base ∧ top' = top := by
  have hB := C23_base (n - 1) diff peak below p.lim hlim hb hs.1 (by have := hs.2.1; omega)
  have hT := C23_top (n - 1) diff peak n above p.lim hlim ha (by have := hs.2.1; omega) (by omega)
  unfold peakLayer
  rcases indBase_cases (n - 1) diff peak below p.lim hb hs.1 (by have := hs.2.1; omega) with ⟨base, h1⟩ | h1
  · rcases indTop_cases (n - 1) diff peak n above p.lim ha (by have := hs.2.1; omega) (by omega) with
      ⟨top, h2⟩ | h2
    · simp only [h1, h2]
      have hbase := (hB base).1 h1
      have htop := (hT top).1 h2
      have hbt : base ≤ top := by have := hbase.2.1; have := htop.1; omega
      rw [count_points beta base top hbt]
      split
      · next hc =>
        right
        refine ⟨base, top, rfl, fun base' top' => ⟨?_, ?_⟩⟩
        · intro hl
          exact ⟨Spec.IsBase.unique hlim hl.isBase hbase, Spec.IsTop.unique hlim hl.isTop htop⟩
        · rintro ⟨rfl, rfl⟩
          obtain ⟨c1, c2, c3, c4, c5⟩ := hc
          exact ⟨hs, hbase, htop, c1, c2, c3, c4, c5⟩
      · next hc =>
        left
        refine ⟨rfl, ?_⟩
        rintro ⟨base', top', hl⟩
        have e1 := Spec.IsBase.unique hlim hl.isBase hbase
        have e2 := Spec.IsTop.unique hlim hl.isTop htop
        subst e1 e2
        exact hc ⟨hl.points, hl.width, hl.decrease, hl.lwp_ge, hl.altitude⟩
    · left
      simp only [h1, h2, if_true, true_and]
      rintro ⟨base', top', hl⟩
      rw [(hT top').2 hl.isTop] at h2
      cases h2
  · left
    simp only [h1, if_true, true_and]
    rintro ⟨base', top', hl⟩
    rw [(hB base').2 hl.isBase] at h1
    cases h1

theorem mem_strongPeaks (nT nH : ℕ) (data : Grid α) (thr : α) (px : Pixel) :
    px ∈ findStrongPeaks nT nH data thr ↔ px.1 < nT ∧ Spec.StrongPeak nH (data px.1) thr px.2 := by
  unfold findStrongPeaks
  rw [mem_whereGrid]
  constructor
  · rintro ⟨h1, h2, h3⟩
    exact ⟨h1, (strongPeak_iff nH _ thr _ h2).1 h3⟩
  · rintro ⟨h1, h3⟩
    have h2 : px.2 < nH := by have := h3.2.1; omega
    exact ⟨h1, h2, (strongPeak_iff nH _ thr _ h2).2 h3⟩

/-- C80. If the search windows contain at least one gate, `find_liquid` succeeds and marks exactly the pixels of
the liquid layers around the strong peaks. -/
theorem C80_find_liquid [FloorRing α] (p : LiquidParameters α) (hlim : 1 < p.lim) (nT nH : ℕ)
    (time height : ℕ → α) (beta : Grid (Option α)) (lwp : ℕ → Option α)
    (hb : 0 < nElements nH height p.baseDistance) (ha : 0 < nElements nH height p.topDistance) :
    ∃ liquid, findLiquid p nT nH time height beta lwp = .ok liquid ∧
      ∀ t h, liquid t h = true ↔ t < nT ∧ ∃ peak base top,
        Spec.LiquidLayer p nH height (fun i => (beta t i).getD 0) (betaDiff beta t)
          (interpolateLwp nT time lwp t) (nElements nH height p.baseDistance).toNat
          (nElements nH height p.topDistance).toNat peak base top ∧ base ≤ h ∧ h ≤ top := by
  have hb' : 0 < (nElements nH height p.baseDistance).toNat := by omega
  have ha' : 0 < (nElements nH height p.topDistance).toNat := by omega
  unfold findLiquid
  generalize (nElements nH height p.baseDistance).toNat = below at hb'
  generalize (nElements nH height p.topDistance).toNat = above at ha'
  obtain ⟨out, h1, h2⟩ := foldlM_region _
    (fun px t h => t = px.1 ∧ ∃ base top, Spec.LiquidLayer p nH height (fun i => (beta t i).getD 0)
      (betaDiff beta t) (interpolateLwp nT time lwp t) below above px.2 base top ∧ base ≤ h ∧ h ≤ top)
    (findStrongPeaks nT nH (fun t h => (beta t h).getD 0) p.peakAmp) (fun _ _ => false)
    (by
      intro px hpx g
      show ∃ g', (do
        let layer ← peakLayer p nH height ((fun t h => (beta t h).getD 0) px.1) (betaDiff beta px.1)
          (interpolateLwp nT time lwp px.1) below above px.2
        return match layer with
          | none => g
          | some (base, top) => fun t h => if t = px.1 ∧ base ≤ h ∧ h ≤ top then true else g t h :
            Except String (Grid Bool)) = .ok g' ∧ _
      rw [mem_strongPeaks] at hpx
      rcases peakLayer_spec p hlim nH height (fun i => (beta px.1 i).getD 0) (betaDiff beta px.1)
        (interpolateLwp nT time lwp px.1) below above px.2 hb' ha' hpx.2 with ⟨e, hno⟩ | ⟨base, top, e, hiff⟩
      · simp only [e, bind, Except.bind, pure, Except.pure]
        refine ⟨g, rfl, fun t h => ?_⟩
        rw [iff_self_or]
        rintro ⟨rfl, base, top, hl, -⟩
        exact absurd ⟨base, top, hl⟩ hno
      · simp only [e, bind, Except.bind, pure, Except.pure]
        refine ⟨_, rfl, fun t h => ?_⟩
        have hor : (if t = px.1 ∧ base ≤ h ∧ h ≤ top then true else g t h) = true ↔
            g t h = true ∨ (t = px.1 ∧ base ≤ h ∧ h ≤ top) := by
          split
          · next h' => simp [h']
          · next h' => simp [h']
        rw [hor]
        apply or_congr Iff.rfl
        constructor
        · rintro ⟨rfl, hr⟩
          exact ⟨rfl, base, top, (hiff base top).2 ⟨rfl, rfl⟩, hr⟩
        · rintro ⟨rfl, base', top', hl, hr⟩
          obtain ⟨rfl, rfl⟩ := (hiff base' top').1 hl
          exact ⟨rfl, hr⟩)
  refine ⟨out, h1, fun t h => ?_⟩
  rw [h2]
  constructor
  · rintro (hf | ⟨px, hpx, rfl, base, top, hl, hr⟩)
    · cases hf
    · rw [mem_strongPeaks] at hpx
      exact ⟨hpx.1, px.2, base, top, hl, hr⟩
  · rintro ⟨ht, peak, base, top, hl, hr⟩
    exact Or.inr ⟨(t, peak), (mem_strongPeaks _ _ _ _ _).2 ⟨ht, hl.strong⟩, rfl, base, top, hl, hr⟩

/-- C80. With gates so coarse that the window below a peak is empty, a single strong peak makes the
function fail. -/
theorem C80_raises [FloorRing α] (p : LiquidParameters α) (nT nH : ℕ)
    (time height : ℕ → α) (beta : Grid (Option α)) (lwp : ℕ → Option α)
    (hb : nElements nH height p.baseDistance = 0) (t peak : ℕ) (ht : t < nT)
    (hp : Spec.StrongPeak nH (fun i => (beta t i).getD 0) p.peakAmp peak) :
    ∃ e, findLiquid p nT nH time height beta lwp = .error e := by
  unfold findLiquid
  apply foldlM_error
  refine ⟨(t, peak), (mem_strongPeaks _ _ _ _ _).2 ⟨ht, hp⟩, fun g => ⟨"ValueError", ?_⟩⟩
  have : indBase (nH - 1) (betaDiff beta t) peak 0 p.lim = .error "ValueError" := by
    unfold indBase
    simp only
    rw [if_pos (by omega)]
  simp only [hb, Int.toNat_zero, peakLayer, this, bind, Except.bind]
  rfl

/-- C80. On a uniform grid of step `d`, a liquid pixel lies at most `baseDistance` below and `topDistance` above
a strong peak, up to half a gate, and the layer around that peak is thinner than the maximum width. -/
theorem C80_distance [FloorRing α] (p : LiquidParameters α) (hlim : 1 < p.lim) (nT nH : ℕ)
    (time height : ℕ → α) (beta : Grid (Option α)) (lwp : ℕ → Option α) (d : α) (hd : 0 < d) (hn : 2 ≤ nH)
    (hgrid : ∀ i, height i = height 0 + i * d)
    (hb : d ≤ p.baseDistance) (ha : d ≤ p.topDistance) (liquid : Grid Bool)
    (hl : findLiquid p nT nH time height beta lwp = .ok liquid) (t h : ℕ) (hth : liquid t h = true) :
    ∃ peak, Spec.StrongPeak nH (fun i => (beta t i).getD 0) p.peakAmp peak ∧
      height peak - (p.baseDistance + d / 2) ≤ height h ∧
      height h ≤ height peak + (p.topDistance + d / 2) ∧
      ∃ base top, base ≤ h ∧ h ≤ top ∧ base ≤ peak ∧ peak ≤ top ∧ height top - height base < p.maxWidth := by
  have hstep : ∀ i, i + 1 < nH → height (i + 1) - height i = d := by
    intro i _
    rw [hgrid (i + 1), hgrid i]
    push_cast
    ring
  have eb := C79_n_elements nH hn height d p.baseDistance hd hstep
  have ea := C79_n_elements nH hn height d p.topDistance hd hstep
  have hpos : ∀ dist : α, d ≤ dist → |(nElements nH height dist : α) * d - dist| ≤ d / 2 →
      0 < nElements nH height dist := by
    intro dist h1 h2
    by_contra hc
    push Not at hc
    have hc' : (nElements nH height dist : α) ≤ 0 := by exact_mod_cast hc
    have := (abs_le.1 h2).1
    nlinarith
  have hB := hpos _ hb eb
  have hA := hpos _ ha ea
  obtain ⟨liquid', e1, e2⟩ := C80_find_liquid p hlim nT nH time height beta lwp hB hA
  rw [hl] at e1
  have e1 := Except.ok.inj e1
  subst e1
  obtain ⟨-, peak, base, top, hL, h1, h2⟩ := (e2 t h).1 hth
  have hcast : ∀ z : ℤ, 0 < z → ((z.toNat : ℕ) : α) = (z : α) := by
    intro z hz
    have : ((z.toNat : ℕ) : ℤ) = z := Int.toNat_of_nonneg hz.le
    exact_mod_cast congrArg (Int.cast : ℤ → α) this
  refine ⟨peak, hL.strong, ?_, ?_, base, top, h1, h2, hL.isBase.2.1.le, hL.isTop.1.le, hL.width⟩
  · rw [hgrid peak, hgrid h]
    have k1 : peak ≤ h + (nElements nH height p.baseDistance).toNat := by have := hL.isBase.1; omega
    have k2 : (peak : α) ≤ h + (nElements nH height p.baseDistance : α) := by
      rw [← hcast _ hB]; exact_mod_cast k1
    have := (abs_le.1 eb).2
    nlinarith
  · rw [hgrid peak, hgrid h]
    have k1 : h ≤ peak + (nElements nH height p.topDistance).toNat := by have := hL.isTop.2.1; omega
    have k2 : (h : α) ≤ peak + (nElements nH height p.topDistance : α) := by
      rw [← hcast _ hA]; exact_mod_cast k1
    have := (abs_le.1 ea).2
    nlinarith

end

/-- Example: a peak at gate 5 of 12, gates of 50 m. -/
def exampleBeta : Grid (Option ℚ) := fun _ h =>
  [none, none, some (1 / 1000000), some (1 / 1000000), some (5 / 1000000), some (90 / 1000000),
    some (10 / 1000000), some (1 / 1000000), none, none, none, none].getD h none

example : (match findLiquid defaultLiquidParameters 1 12 (fun t => (t : ℚ)) (fun h => 50 * h) exampleBeta
      (fun _ => none) with
    | .ok l => decide ((List.range 12).map (l 0) =
        [false, false, false, false, true, true, true, false, false, false, false, false])
    | .error _ => false) = true ∧
    0 < nElements 12 (fun h : ℕ => (50 * h : ℚ)) 200 ∧ 0 < nElements 12 (fun h : ℕ => (50 * h : ℚ)) 150 ∧
    nElements 12 (fun h : ℕ => (500 * h : ℚ)) 200 = 0 := by
  decide +kernel

/-! ### C81 -/

section
variable {α : Type} [Field α] [LinearOrder α] [IsStrictOrderedRing α]

/-- A measured, non-zero value of the liquid water path of `n` profiles. -/
def Spec.LwpSample (n : ℕ) (lwp : ℕ → Option α) (t : ℕ) (v : α) : Prop := t < n ∧ lwp t = some v ∧ v ≠ 0

theorem lwpSample_mem (n : ℕ) (lwp : ℕ → Option α) (t : ℕ) :
    t ∈ (List.range n).filter (fun t => decide ((lwp t).getD 0 ≠ 0)) ↔ ∃ v, Spec.LwpSample n lwp t v := by
  rw [List.mem_filter, List.mem_range]
  unfold Spec.LwpSample
  cases h : lwp t with
  | none => simp
  | some v => simp

theorem lwp_index (n : ℕ) (lwp : ℕ → Option α) (time : ℕ → α) (htime : Spec.Increasing n time) :
    let ind := (List.range n).filter (fun t => decide ((lwp t).getD 0 ≠ 0))
    Spec.Increasing ind.length (fun i => time (ind.getD i 0)) ∧
    (∀ t v, Spec.LwpSample n lwp t v → ∃ i < ind.length, ind.getD i 0 = t) ∧
    (∀ i < ind.length, ∃ v, Spec.LwpSample n lwp (ind.getD i 0) v) ∧
    (∀ i j, i < j → j < ind.length → ind.getD i 0 < ind.getD j 0) := by
  intro ind
  have hs : ind.Pairwise (· < ·) := List.Pairwise.filter _ List.pairwise_lt_range
  have hmono : ∀ i j, i < j → j < ind.length → ind.getD i 0 < ind.getD j 0 := by
    intro i j hij hj
    rw [List.getD_eq_getElem _ _ (by omega), List.getD_eq_getElem _ _ hj]
    exact List.pairwise_iff_getElem.1 hs i j (by omega) hj hij
  have hsample : ∀ i < ind.length, ∃ v, Spec.LwpSample n lwp (ind.getD i 0) v := by
    intro i hi
    rw [List.getD_eq_getElem _ _ hi]
    exact (lwpSample_mem n lwp _).1 (List.getElem_mem hi)
  refine ⟨?_, ?_, hsample, hmono⟩
  · intro i j hij hj
    obtain ⟨v, hv⟩ := hsample j hj
    exact htime _ _ (hmono i j hij hj) hv.1
  · intro t v hv
    have := (lwpSample_mem n lwp t).2 ⟨v, hv⟩
    obtain ⟨i, hi, e⟩ := List.getElem_of_mem this
    exact ⟨i, hi, by rw [List.getD_eq_getElem _ _ hi]; exact e⟩

/-- C81. Where the series is not all masked and its sum is not zero, a measured non-zero value is kept; between
two consecutive ones the interpolation is linear in time; before the first and after the last one it is
constant. -/
theorem C81_interpolate_lwp (n : ℕ) (time : ℕ → α) (htime : Spec.Increasing n time) (lwp : ℕ → Option α)
    (hsum : ∑ t ∈ Finset.range n, (lwp t).getD 0 ≠ 0) :
    (∀ t v, Spec.LwpSample n lwp t v → interpolateLwp n time lwp t = v) ∧
    (∀ t a b va vb, Spec.LwpSample n lwp a va → Spec.LwpSample n lwp b vb → a < t → t < b →
      (∀ i, a < i → i < b → ¬ ∃ v, Spec.LwpSample n lwp i v) →
      interpolateLwp n time lwp t = va + (time t - time a) / (time b - time a) * (vb - va)) ∧
    (∀ t a va, t < n → Spec.LwpSample n lwp a va → t < a → (∀ i < a, ¬ ∃ v, Spec.LwpSample n lwp i v) →
      interpolateLwp n time lwp t = va) ∧
    (∀ t a va, t < n → Spec.LwpSample n lwp a va → a < t → (∀ i, a < i → ¬ ∃ v, Spec.LwpSample n lwp i v) →
      interpolateLwp n time lwp t = va) := by
  have hcond : ¬ ((∀ t < n, lwp t = none) ∨ ∑ t ∈ Finset.range n, (lwp t).getD 0 = 0) := by
    rintro (h | h)
    · apply hsum
      apply Finset.sum_eq_zero
      intro t ht
      rw [h t (Finset.mem_range.1 ht)]; rfl
    · exact hsum h
  have hunfold : ∀ t, interpolateLwp n time lwp t =
      interpLinear ((List.range n).filter (fun t => decide ((lwp t).getD 0 ≠ 0))).length
        (fun i => time (((List.range n).filter (fun t => decide ((lwp t).getD 0 ≠ 0))).getD i 0))
        (fun i => (lwp (((List.range n).filter (fun t => decide ((lwp t).getD 0 ≠ 0))).getD i 0)).getD 0)
        (time t) := by
    intro t
    unfold interpolateLwp
    rw [if_neg hcond]
  obtain ⟨hinc, hex, hsam, hmono⟩ := lwp_index n lwp time htime
  generalize (List.range n).filter (fun t => decide ((lwp t).getD 0 ≠ 0)) = ind at hunfold hinc hex hsam hmono
  have hnode : ∀ t v, Spec.LwpSample n lwp t v → interpolateLwp n time lwp t = v := by
    intro t v hv
    obtain ⟨i, hi, e⟩ := hex t v hv
    rw [hunfold]
    have := interpLinear_node hinc (fun i => (lwp (ind.getD i 0)).getD 0) hi
    simp only [e] at this
    rw [this, hv.2.1]
    rfl
  refine ⟨hnode, ?_, ?_, ?_⟩
  · intro t a b va vb hva hvb hat htb hno
    obtain ⟨i, hi, ei⟩ := hex a va hva
    obtain ⟨j, hj, ej⟩ := hex b vb hvb
    have hij : i < j := by
      by_contra hc
      rcases Nat.lt_or_ge j i with h | h
      · have := hmono j i h hi
        omega
      · have : i = j := by omega
        subst this
        omega
    have hj1 : j = i + 1 := by
      by_contra hc
      have h1 := hmono i (i + 1) (by omega) (by omega)
      have h2 := hmono (i + 1) j (by omega) hj
      exact hno (ind.getD (i + 1) 0) (by omega) (by omega) (hsam (i + 1) (by omega))
    subst hj1
    rw [hunfold]
    have := interpLinear_between hinc (fun i => (lwp (ind.getD i 0)).getD 0) hj (v := time t)
      (by rw [ei]; exact htime a t hat (by have := hvb.1; omega)) (by rw [ej]; exact htime t b htb hvb.1)
    simp only [ei, ej] at this
    rw [this, hva.2.1, hvb.2.1]
    rfl
  · intro t a va ht hva hta hno
    obtain ⟨i, hi, ei⟩ := hex a va hva
    have hi0 : i = 0 := by
      by_contra hc
      have := hmono 0 i (by omega) hi
      exact hno _ (by omega) (hsam 0 (by omega))
    subst hi0
    rw [hunfold]
    unfold interpLinear
    have h1 : time t < time (ind.getD 0 0) := by rw [ei]; exact htime t a hta hva.1
    rw [if_pos h1]
    show (lwp (ind.getD 0 0)).getD 0 = va
    rw [ei, hva.2.1]
    rfl
  · intro t a va ht hva hat hno
    obtain ⟨i, hi, ei⟩ := hex a va hva
    have hil : i = ind.length - 1 := by
      by_contra hc
      have := hmono i (ind.length - 1) (by omega) (by omega)
      exact hno _ (by omega) (hsam (ind.length - 1) (by omega))
    rw [hunfold]
    unfold interpLinear
    have h0 : ¬ time t < time (ind.getD 0 0) := by
      have : ind.getD 0 0 ≤ a := by
        rcases Nat.eq_zero_or_pos i with h | h
        · rw [← ei, h]
        · have := hmono 0 i h hi; omega
      exact not_lt.2 (htime.le (by omega) ht)
    have h1 : time (ind.getD (ind.length - 1) 0) < time t := by rw [← hil, ei]; exact htime a t hat ht
    rw [if_neg h0, if_pos h1]
    show (lwp (ind.getD (ind.length - 1) 0)).getD 0 = va
    rw [← hil, ei, hva.2.1]
    rfl

/-- C81. If everything is masked or the measured values sum to zero, the result is zero everywhere. -/
theorem C81_zero (n : ℕ) (time : ℕ → α) (lwp : ℕ → Option α)
    (h : (∀ t < n, lwp t = none) ∨ ∑ t ∈ Finset.range n, (lwp t).getD 0 = 0) (t : ℕ) :
    interpolateLwp n time lwp t = 0 := by
  unfold interpolateLwp
  rw [if_pos h]

end

/-- C81, code disagreement: only masked values should be filled, but a measured 0 is replaced by interpolation,
and measured values whose sum is 0 are all replaced by 0. -/
theorem C81_measured_values_replaced :
    interpolateLwp 3 (fun t => (t : ℚ)) (fun t => some (if t = 1 then 0 else 2)) 1 = 2 ∧
    interpolateLwp 2 (fun t => (t : ℚ)) (fun t => some (if t = 0 then 1 else -1)) 0 = 0 := by
  constructor
  · have h := C81_interpolate_lwp 3 (fun t => (t : ℚ)) (by
        intro i j h _
        show (i : ℚ) < j
        exact_mod_cast h)
      (fun t => some (if t = 1 then 0 else 2)) (by decide +kernel)
    rw [h.2.1 1 0 2 2 2 ⟨by omega, by simp, by norm_num⟩ ⟨by omega, by simp, by norm_num⟩ (by omega) (by omega)
      (by
        intro i h1 h2
        have : i = 1 := by omega
        subst this
        rintro ⟨v, -, hv, hv0⟩
        simp at hv
        exact hv0 hv.symm)]
    norm_num
  · exact C81_zero _ _ _ (Or.inr (by decide +kernel)) 0

/-- C80. The parameters of `classify`: peaks above 10⁻⁶ sr⁻¹ m⁻¹, layers narrower than 300 m with at least 3 known gates, a base at most 200 m below and a top at most 150 m above the peak at
gradients of a quarter of the largest. A layer found with them fulfils these conditions. -/
theorem C80_defaults (nH : ℕ) (height : ℕ → ℚ) (l d : ℕ → ℚ) (lwp : ℚ) (below above peak base top : ℕ) :
    Spec.LiquidLayer defaultLiquidParameters nH height l d lwp below above peak base top ↔
      Spec.LiquidLayer ⟨1 / 10 ^ 6, 300, 3, 1 / 10 ^ 7, 0, 100, 200, 150, 4⟩ nH height l d lwp below above peak base top := by
  have : (defaultLiquidParameters : LiquidParameters ℚ) = ⟨1 / 10 ^ 6, 300, 3, 1 / 10 ^ 7, 0, 100, 200, 150, 4⟩ := by
    unfold defaultLiquidParameters
    norm_num
  rw [this]

end Cloudnet
