import Mathlib.Tactic
import Verif.Chilbolton.Model
import Verif.NcRadar.Props
import Verif.Times.Props

namespace Cloudnet

/-! ## C109: Copernicus, Galileo and BASTA -/

section
variable {α : Type} [Field α] [LinearOrder α] [IsStrictOrderedRing α]

namespace Spec

/-- `out` consists of the range gates `gates` of some data. -/
def IsGates (gates : List ℕ) (P : ℕ → Prop) (nGates nOut : ℕ) : Prop :=
  gates.Pairwise (· < ·) ∧ (∀ g, g ∈ gates ↔ g < nGates ∧ P g) ∧ nOut = gates.length

/-- The range that is written for a raw range of Copernicus. -/
def copernicusHeight (o : CopernicusOptions α) (r : α) : α := r - o.rangeApplied + o.rangeOffset.getD (-720)

/-- A pixel of Copernicus is written: it has reflectivity and velocity, plausible width and velocity, is not among the first
gates, and its signal is 2 dB above the mean of the top 50 gates. -/
def CopernicusPixel (o : CopernicusOptions α) (d : GateData α) (t g : ℕ) : Prop :=
  d.zh t g ≠ none ∧ (∃ v, d.v t g = some v ∧ |v| ≤ 9) ∧ |(d.width t g).getD (o.widthUnder t g)| ≤ 3 ∧ 150 ≤ d.range g ∧
  ∀ s m, d.snr t g = some s →
    IsMeanOf (d.snr t) ((List.range d.nGates).filter fun k => decide (d.nGates ≤ k + 50)) m → m + 2 ≤ s

end Spec

theorem select_get {β : Type} (gates : List ℕ) (k g : ℕ) (h : gates[k]? = some g) (x : ℕ → ℕ → Option β) (t : ℕ) :
    ((gates[k]?).bind fun h => x t h) = x t g := by rw [h]; rfl

theorem mean_exists (x : ℕ → Option α) (gates : List ℕ) (g : ℕ) (hg : g ∈ gates) (h : ∀ k ∈ gates, x k ≠ none) :
    ∃ m, Spec.IsMeanOf x gates m := by
  have hne : gates.filterMap x ≠ [] := by
    obtain ⟨v, hv⟩ := Option.ne_none_iff_exists'.1 (h g hg)
    intro hc
    have := List.mem_filterMap.2 ⟨g, hg, hv⟩
    rw [hc] at this
    cases this
  have hpos : ((gates.filterMap x).length : α) ≠ 0 := by
    exact_mod_cast (List.length_pos_iff.2 hne).ne'
  exact ⟨(gates.filterMap x).sum / (gates.filterMap x).length, hne, by rw [div_mul_cancel₀ _ hpos]⟩

theorem mean_unique (x : ℕ → Option α) (gates : List ℕ) (m m' : α) (h : Spec.IsMeanOf x gates m)
    (h' : Spec.IsMeanOf x gates m') : m = m' := by
  have hpos : ((gates.filterMap x).length : α) ≠ 0 := by
    exact_mod_cast (List.length_pos_iff.2 h.1).ne'
  exact mul_right_cancel₀ hpos (h.2.trans h'.2.symm)

/-- **C109.** Copernicus: the gates that are written are those at a non-negative corrected range, in order. Reflectivities are
calibrated, all variables have data at the same pixels, and nothing else changes. (The SNR is known everywhere.) -/
theorem C109_copernicus (o : CopernicusOptions α) (d : GateData α) (hsnr : ∀ t h, h < d.nGates → d.snr t h ≠ none) :
    ∃ gates, Spec.IsGates gates (fun g => 0 ≤ Spec.copernicusHeight o (d.range g)) d.nGates (copernicusProcess o d).nGates ∧
      ∀ k g, gates[k]? = some g →
        (copernicusProcess o d).range k = Spec.copernicusHeight o (d.range g) ∧
        ∀ t, (Spec.CopernicusPixel o d t g →
            (copernicusProcess o d).zh t k =
              (d.zh t g).map (fun z => z - o.zhApplied + o.zhOffset.getD (-(1495 / 10))) ∧
            (copernicusProcess o d).v t k = d.v t g ∧ (copernicusProcess o d).width t k = d.width t g ∧
            (copernicusProcess o d).ldr t k = d.ldr t g ∧ (copernicusProcess o d).snr t k = d.snr t g) ∧
          (¬ Spec.CopernicusPixel o d t g →
            (copernicusProcess o d).zh t k = none ∧ (copernicusProcess o d).v t k = none ∧
            (copernicusProcess o d).width t k = none ∧ (copernicusProcess o d).ldr t k = none ∧
            (copernicusProcess o d).snr t k = none) := by
  refine ⟨(List.range d.nGates).filter fun h => decide (0 ≤ Spec.copernicusHeight o (d.range h)),
    ⟨List.pairwise_lt_range.filter _, fun g => by simp, rfl⟩, ?_⟩
  intro k g hk
  have hg : g < d.nGates := by
    have := List.mem_of_getElem? hk
    simp only [List.mem_filter, List.mem_range] at this
    exact this.1
  have hk' : ((List.range d.nGates).filter fun h =>
      decide (0 ≤ d.range h - o.rangeApplied + o.rangeOffset.getD (-720)))[k]? = some g := hk
  constructor
  · show d.range (((List.range d.nGates).filter fun h =>
      decide (0 ≤ d.range h - o.rangeApplied + o.rangeOffset.getD (-720))).getD k 0) - _ + _ = _
    rw [List.getD_eq_getElem?_getD, hk']
    rfl
  · intro t
    -- the masks before the gates are selected
    set zh1 : Grid (Option α) := screenTopGates d.nGates 2 o.junk d.snr
      (fun t h => (d.zh t h).map fun z => z - o.zhApplied + o.zhOffset.getD (-(1495 / 10))) with hzh1
    set v1 : Grid (Option α) := maskFirstGates 150 d.range fun t h =>
      (if 3 < |(d.width t h).getD (o.widthUnder t h)| then none else d.v t h).bind fun x => if 9 < |x| then none else some x
      with hv1
    have hout : ∀ x : Grid (Option α), ((((List.range d.nGates).filter fun h =>
        decide (0 ≤ d.range h - o.rangeApplied + o.rangeOffset.getD (-720)))[k]?).bind fun h =>
          if ((zh1 t h).isNone || (v1 t h).isNone) = true then none else x t h) =
        if ((zh1 t g).isNone || (v1 t g).isNone) = true then none else x t g := by
      intro x; rw [hk']; rfl
    obtain ⟨s, hs⟩ := Option.ne_none_iff_exists'.1 (hsnr t g hg)
    obtain ⟨m, hm⟩ := mean_exists (d.snr t) ((List.range d.nGates).filter fun k => decide (d.nGates ≤ k + 50)) (d.nGates - 1)
      (by rw [List.mem_filter, List.mem_range, decide_eq_true_eq]; omega)
      (fun k hk => hsnr t k (List.mem_range.1 (List.mem_filter.1 hk).1))
    have hz : zh1 t g = if s < m + 2 then none else
        (d.zh t g).map fun z => z - o.zhApplied + o.zhOffset.getD (-(1495 / 10)) :=
      C93_top_gates d.nGates 2 o.junk d.snr _ t g s m hs hm
    have hv : v1 t g = if d.range g < 150 then none else
      (if 3 < |(d.width t g).getD (o.widthUnder t g)| then none else d.v t g).bind fun x => if 9 < |x| then none else some x := rfl
    have hpix : Spec.CopernicusPixel o d t g ↔ ((zh1 t g).isNone || (v1 t g).isNone) = false := by
      rw [hz, hv]
      unfold Spec.CopernicusPixel
      have hsig : (∀ s m, d.snr t g = some s →
          Spec.IsMeanOf (d.snr t) ((List.range d.nGates).filter fun k => decide (d.nGates ≤ k + 50)) m → m + 2 ≤ s) ↔
          ¬ s < m + 2 := by
        rw [not_lt]
        constructor
        · intro h; exact h s m hs hm
        · intro h s' m' hs' hm'
          rw [hs] at hs'
          cases hs'
          rw [mean_unique _ _ _ _ hm' hm]
          exact h
      rw [hsig]
      by_cases h1 : s < m + 2
      · simp [h1]
      by_cases h2 : d.range g < 150
      · simp [h2, not_le.2 h2]
      by_cases h3 : 3 < |(d.width t g).getD (o.widthUnder t g)|
      · simp [h3, not_le.2 h3]
      cases h4 : d.zh t g with
      | none => simp
      | some z =>
        cases h5 : d.v t g with
        | none => simp [h3]
        | some w =>
          by_cases h6 : 9 < |w|
          · simp [h3, h6, not_le.2 h6]
          · simp [h1, h2, h3, h6, not_lt.1 h6, not_lt.1 h3, not_lt.1 h2]
    constructor
    · intro hp
      have hb := hpix.1 hp
      have hgood := hpix.1 hp
      simp only [Bool.or_eq_false_iff, Option.isNone_eq_false_iff] at hgood
      have hzz : zh1 t g = (d.zh t g).map fun z => z - o.zhApplied + o.zhOffset.getD (-(1495 / 10)) := by
        rw [hz]
        by_cases h1 : s < m + 2
        · rw [hz, if_pos h1] at hgood; simp at hgood
        · rw [if_neg h1]
      have hvv : v1 t g = d.v t g := by
        rw [hv]
        rw [hv] at hgood
        by_cases h2 : d.range g < 150
        · simp [h2] at hgood
        by_cases h3 : 3 < |(d.width t g).getD (o.widthUnder t g)|
        · simp [h2, h3] at hgood
        cases h5 : d.v t g with
        | none => simp [h2, h3, h5] at hgood
        | some w =>
          by_cases h6 : 9 < |w|
          · simp [h2, h3, h5, h6] at hgood
          · simp [h2, h3, h6]
      refine ⟨?_, ?_, ?_, ?_, ?_⟩
      · exact (hout zh1).trans (by rw [hb, if_neg (by simp), hzz])
      · exact (hout v1).trans (by rw [hb, if_neg (by simp), hvv])
      · exact (hout d.width).trans (by rw [hb, if_neg (by simp)])
      · exact (hout d.ldr).trans (by rw [hb, if_neg (by simp)])
      · exact (hout d.snr).trans (by rw [hb, if_neg (by simp)])
    · intro hp
      have hb : ((zh1 t g).isNone || (v1 t g).isNone) = true := by
        cases hc : ((zh1 t g).isNone || (v1 t g).isNone) with
        | true => rfl
        | false => exact absurd (hpix.2 hc) hp
      refine ⟨?_, ?_, ?_, ?_, ?_⟩
      · exact (hout zh1).trans (by rw [hb, if_pos rfl])
      · exact (hout v1).trans (by rw [hb, if_pos rfl])
      · exact (hout d.width).trans (by rw [hb, if_pos rfl])
      · exact (hout d.ldr).trans (by rw [hb, if_pos rfl])
      · exact (hout d.snr).trans (by rw [hb, if_pos rfl])

/-- C109, a finding. The first 150 metres of Copernicus are looked for before the range offset is applied. If ranges are
decreased by at least 150 metres, as by default, gates written are never among them: nothing near the ground is masked. -/
theorem C109_first_gates (o : CopernicusOptions α) (r : α) (ho : o.rangeOffset.getD (-720) - o.rangeApplied ≤ -150)
    (hr : 0 ≤ Spec.copernicusHeight o r) : 150 ≤ r := by
  unfold Spec.copernicusHeight at hr
  linarith

namespace Spec

/-- A pixel of Galileo (gate `g` of the file, number `k` of the gates written) is written: it has reflectivity and velocity,
its SNR reaches the limit, and it is not clutter. -/
def GalileoPixel (limit : α) (snrUnder ldrUnder : Grid α) (d : GateData α) (t g k : ℕ) : Prop :=
  d.zh t g ≠ none ∧ d.v t g ≠ none ∧ limit ≤ (d.snr t g).getD (snrUnder t k) ∧
  ¬ (k < 15 ∧ -5 < (d.ldr t g).getD (ldrUnder t k))

end Spec

/-- The masks of Galileo for data whose gates are selected already. -/
theorem galileo_masks (limit : α) (su lu : Grid α) (d : GateData α) (t k : ℕ) :
    let e := (galileoClutter lu (d.mask fun t h => decide ((d.snr t h).getD (su t h) < limit))).maskInvalid
    (Spec.GalileoPixel limit su lu d t k k → e.zh t k = d.zh t k ∧ e.v t k = d.v t k ∧ e.width t k = d.width t k ∧
      e.ldr t k = d.ldr t k ∧ e.snr t k = d.snr t k) ∧
    (¬ Spec.GalileoPixel limit su lu d t k k → e.zh t k = none ∧ e.v t k = none ∧ e.width t k = none ∧
      e.ldr t k = none ∧ e.snr t k = none) := by
  simp only [Spec.GalileoPixel, galileoClutter, GateData.mask, GateData.maskInvalid, decide_eq_true_eq]
  by_cases h1 : (d.snr t k).getD (su t k) < limit
  · simp [h1, not_le.2 h1]
  · simp only [h1, if_false, not_lt.1 h1, true_and]
    by_cases h2 : k < 15 ∧ -5 < (d.ldr t k).getD (lu t k)
    · simp [h2]
    · simp only [h2, if_false, not_false_eq_true, and_true]
      cases d.zh t k <;> cases d.v t k <;> simp

/-- **C109.** Galileo: the gates that are written are those at a positive range, in order, and there is at least one. All
variables have data at the same pixels, and values are not changed. -/
theorem C109_galileo (snrLimit : Option α) (su lu : Grid α) (d out : GateData α)
    (h : galileoProcess snrLimit su lu d = .ok out) :
    ∃ gates, Spec.IsGates gates (fun g => 0 < d.range g) d.nGates out.nGates ∧ gates ≠ [] ∧
      ∀ k g, gates[k]? = some g → out.range k = d.range g ∧
        ∀ t, (Spec.GalileoPixel (snrLimit.getD 3) su lu d t g k →
            out.zh t k = d.zh t g ∧ out.v t k = d.v t g ∧ out.width t k = d.width t g ∧
            out.ldr t k = d.ldr t g ∧ out.snr t k = d.snr t g) ∧
          (¬ Spec.GalileoPixel (snrLimit.getD 3) su lu d t g k →
            out.zh t k = none ∧ out.v t k = none ∧ out.width t k = none ∧ out.ldr t k = none ∧ out.snr t k = none) := by
  refine ⟨(List.range d.nGates).filter fun h => decide (0 < d.range h), ?_⟩
  unfold galileoProcess galileoPositive at h
  simp only [bind, Except.bind, pure, Except.pure] at h
  by_cases h0 : (List.range d.nGates).filter (fun h => decide (0 < d.range h)) = []
  · rw [if_pos h0] at h; cases h
  rw [if_neg h0] at h
  have hval : ∀ g, g ∈ (List.range d.nGates).filter (fun h => decide (0 < d.range h)) ↔ g < d.nGates ∧ 0 < d.range g := by
    intro g; simp
  have hpw : ((List.range d.nGates).filter fun h => decide (0 < d.range h)).Pairwise (· < ·) :=
    List.pairwise_lt_range.filter _
  by_cases hl : ((List.range d.nGates).filter fun h => decide (0 < d.range h)).length = d.nGates
  · rw [if_pos hl] at h
    have he : (List.range d.nGates).filter (fun h => decide (0 < d.range h)) = List.range d.nGates := by
      refine List.filter_sublist.eq_of_length ?_
      rw [hl, List.length_range]
    cases h
    refine ⟨⟨hpw, hval, hl.symm⟩, h0, ?_⟩
    intro k g hk
    rw [he] at hk
    obtain ⟨hk, hk'⟩ := List.getElem?_eq_some_iff.1 hk
    rw [List.getElem_range] at hk'
    subst hk'
    exact ⟨rfl, fun t => galileo_masks (snrLimit.getD 3) su lu d t k⟩
  · rw [if_neg hl] at h
    cases h
    refine ⟨⟨hpw, hval, rfl⟩, h0, ?_⟩
    generalize (List.range d.nGates).filter (fun h => decide (0 < d.range h)) = gates
    intro k g hk
    constructor
    · show d.range (gates.getD k 0) = _
      rw [List.getD_eq_getElem?_getD, hk]; rfl
    · intro t
      have hm := galileo_masks (snrLimit.getD 3) su lu (d.select gates) t k
      have hx : ∀ x : Grid (Option α), ((gates[k]?).bind fun h => x t h) = x t g := fun x => by rw [hk]; rfl
      simp only [Spec.GalileoPixel, GateData.select] at hm ⊢
      rw [hx, hx, hx, hx, hx] at hm
      exact hm

/-- **C109.** Galileo files are refused exactly if no gate is at a positive range. -/
theorem C109_galileo_error (snrLimit : Option α) (su lu : Grid α) (d : GateData α) :
    (∃ e, galileoProcess snrLimit su lu d = .error e) ↔ ∀ g < d.nGates, d.range g ≤ 0 := by
  unfold galileoProcess galileoPositive
  simp only [bind, Except.bind, pure, Except.pure]
  by_cases h0 : (List.range d.nGates).filter (fun h => decide (0 < d.range h)) = []
  · rw [if_pos h0]
    rw [List.filter_eq_nil_iff] at h0
    simpa using h0
  · rw [if_neg h0]
    constructor
    · rintro ⟨e, he⟩
      split_ifs at he <;> cases he
    · intro hall
      refine absurd ?_ h0
      rw [List.filter_eq_nil_iff]
      simpa using hall

/-- **C109.** BASTA: pixels are written unchanged where the background mask of the file is 1, and masked elsewhere. -/
theorem C109_basta (background : Grid ℤ) (x : Grid (Option α)) (t h : ℕ) :
    (background t h = 1 → bastaScreen background x t h = x t h) ∧
    (background t h ≠ 1 → bastaScreen background x t h = none) := by
  constructor <;> intro hb <;> simp [bastaScreen, hb]

end

/-- Three gates, one profile: the first gate is below the ground, the second 50 m and the third 110 m above it. -/
def exampleGates : GateData ℚ :=
  ⟨3, fun h => [700, 770, 830].getD h 0, fun _ _ => some 160, fun _ _ => some 1, fun _ _ => some 1, fun _ _ => some (-20),
    fun _ h => some ([0, 20, 0].getD h 0)⟩

/-- The default options. -/
def exampleCopernicus : CopernicusOptions ℚ := ⟨0, none, 0, none, fun _ _ => 0, fun _ _ => false⟩

example : (copernicusProcess exampleCopernicus exampleGates).nGates = 2 ∧
    (List.range 2).map (copernicusProcess exampleCopernicus exampleGates).range = [50, 110] ∧
    (List.range 2).map ((copernicusProcess exampleCopernicus exampleGates).zh 0) = [some (21 / 2), none] ∧
    (List.range 2).map ((copernicusProcess exampleCopernicus exampleGates).ldr 0) = [some (-20), none] := by decide +kernel

/-- Two gates above the antenna and one below; strong echoes whose linear depolarisation ratio is -4 dB. -/
def exampleGalileo : GateData ℚ :=
  ⟨3, fun h => [-20, 40, 100].getD h 0, fun _ h => some ([-30, 10, 10].getD h 0), fun _ _ => some 1, fun _ _ => some 1,
    fun _ h => some ([-20, -4, -20].getD h 0), fun _ _ => some 10⟩

/-- C109, a finding. `mask_clutter` is written to look for pixels with weak reflectivity *and* high depolarisation, but the
reflectivity has no effect: the echo of 10 dBZ at the first gate is removed. -/
example : (galileoProcess none (fun _ _ => 0) (fun _ _ => 0) exampleGalileo).toOption.map (fun o =>
    (o.nGates, (List.range 2).map o.range, (List.range 2).map (o.zh 0))) = some (2, [40, 100], [none, some 10]) := by
  decide +kernel

/-- C109, a finding: among the first 15 gates, a depolarisation ratio above -5 dB removes a pixel whatever its
reflectivity is. -/
theorem C109_clutter_ignores_reflectivity {α : Type} [Field α] [LinearOrder α] [IsStrictOrderedRing α] (lu : Grid α)
    (d : GateData α) (zh : Grid (Option α)) : (galileoClutter lu { d with zh := zh }).v = (galileoClutter lu d).v := rfl

/-! ## C110: times are selected along the first dimension of every array that has the right length -/

section
variable {α : Type} [Field α] [LinearOrder α] [IsStrictOrderedRing α]

theorem lookup_map_val {β γ : Type} (f : β → γ) (l : List (String × β)) (key : String) :
    (l.map fun kv => (kv.1, f kv.2)).lookup key = (l.lookup key).map f := by
  induction l with
  | nil => rfl
  | cons kv l ih =>
    obtain ⟨k, x⟩ := kv
    simp only [List.map_cons, List.lookup_cons]
    cases key == k <;> simp [ih]

/-- **C110.** Selecting time stamps (sorting, removing duplicates, removing profiles) leaves the ranges alone if their number is
not the number of time stamps. -/
theorem C110_range_kept (d out : Instrument α) (ind : List ℕ) (r : List α)
    (hr : d.data.lookup "range" = some (.d1 r)) (h2 : 2 ≤ d.getTime.length)
    (ht : d.time = [] ∨ d.time.length = d.getTime.length) (hne : ind ≠ []) (hlt : ∀ i ∈ ind, i < d.getTime.length)
    (hsq : r.length ≠ d.getTime.length) (h : d.screenTimeIndices (.idx ind) = .ok out) :
    out.data.lookup "range" = some (.d1 r) := by
  rw [screenTimeIndices_idx d ind _ rfl h2 ht hne hlt] at h
  cases h
  rw [lookup_map_val, hr]
  simp [Spec.keepRecords, hsq]

/-- C110, a finding. If there are as many time stamps as gates, ranges are selected like times; increasing ranges stay as they
are only if nothing at all is removed or moved. -/
theorem C110_square (d out : Instrument α) (ind : List ℕ) (r : List α)
    (hr : d.data.lookup "range" = some (.d1 r)) (h2 : 2 ≤ d.getTime.length)
    (ht : d.time = [] ∨ d.time.length = d.getTime.length) (hne : ind ≠ []) (hlt : ∀ i ∈ ind, i < d.getTime.length)
    (hsq : r.length = d.getTime.length) (hinc : r.Pairwise (· < ·)) (h : d.screenTimeIndices (.idx ind) = .ok out) :
    out.data.lookup "range" = some (.d1 (Spec.records ind r)) ∧
    (out.data.lookup "range" = some (.d1 r) ↔ ind = List.range d.getTime.length) := by
  rw [screenTimeIndices_idx d ind _ rfl h2 ht hne hlt] at h
  cases h
  have he : (d.data.map fun kv => (kv.1, Spec.keepRecords d.getTime.length ind kv.2)).lookup "range" =
      some (.d1 (Spec.records ind r)) := by
    rw [lookup_map_val, hr]
    simp [Spec.keepRecords, hsq]
  refine ⟨he, ?_⟩
  show (d.data.map fun kv => (kv.1, Spec.keepRecords d.getTime.length ind kv.2)).lookup "range" = _ ↔ _
  rw [he]
  simp only [Option.some.injEq, NdArray.d1.injEq]
  have hlt' : ∀ i ∈ ind, i < r.length := by rw [hsq]; exact hlt
  constructor
  · intro heq
    have hlen : ind.length = r.length := by rw [← records_length ind r hlt', heq]
    refine List.ext_getElem (by rw [hlen, hsq, List.length_range]) ?_
    intro i h1 h3
    rw [List.getElem_range]
    rw [records_vec ind r hlt'] at heq
    have h5 : i < r.length := by omega
    have h6 : (ind.map (vec r))[i]? = r[i]? := by rw [heq]
    rw [List.getElem?_map, List.getElem?_eq_getElem h1, List.getElem?_eq_getElem h5] at h6
    simp only [Option.map_some, Option.some.injEq, vec] at h6
    rw [List.getD_eq_getElem _ _ (hlt' _ (List.getElem_mem h1))] at h6
    have hnd : r.Nodup := hinc.imp ne_of_lt
    exact (List.Nodup.getElem_inj_iff hnd).1 h6
  · rintro rfl
    rw [records_vec _ r hlt', ← hsq]
    refine List.ext_getElem (by simp) ?_
    intro i h1 h3
    simp [vec, h3]

/-- **C110.** Galileo, removing gates below the antenna: arrays whose last dimension is not that of the range are unchanged, in
time-height arrays each profile keeps its valid gates. -/
theorem C110_galileo_select (nRange : ℕ) (valid : List ℕ) :
    (∀ x : α, galileoSelect nRange valid (.d0 x) = .d0 x) ∧
    (∀ xs : List α, xs.length ≠ nRange → galileoSelect nRange valid (.d1 xs) = .d1 xs) ∧
    (∀ xs : List (List α), xs.length ≠ 1 → (∀ row ∈ xs, row.length = nRange) →
      galileoSelect nRange valid (.d2 xs) = .d2 (xs.map (Spec.records valid))) := by
  refine ⟨fun _ => rfl, ?_, ?_⟩
  · intro xs h
    simp only [galileoSelect]
    rw [if_neg (fun hc => h hc.2)]
  · intro xs h1 h
    simp only [galileoSelect]
    rw [if_pos ⟨h1, h⟩]
    rfl

/-- C110, a finding. In a file of Galileo with as many time stamps as gates (more than one), the times of the first profiles are
removed with the gates below the antenna, although their data stay: times and profiles no longer correspond. -/
theorem C110_galileo_square (times : List α) (xs : List (List α)) (valid : List ℕ) (h1 : times.length ≠ 1)
    (hx : xs.length = times.length) (hrow : ∀ row ∈ xs, row.length = times.length) (hv : ∀ i ∈ valid, i < times.length)
    (hlt : valid.length < times.length) :
    galileoSelect times.length valid (.d1 times) = .d1 (Spec.records valid times) ∧
    (Spec.records valid times).length = valid.length ∧
    galileoSelect times.length valid (.d2 xs) = .d2 (xs.map (Spec.records valid)) ∧
    (xs.map (Spec.records valid)).length ≠ (Spec.records valid times).length := by
  refine ⟨?_, records_length valid times hv, (C110_galileo_select _ valid).2.2 xs (by omega) hrow, ?_⟩
  · simp only [galileoSelect]
    rw [if_pos ⟨h1, trivial⟩]
    rfl
  · rw [records_length valid times hv, List.length_map]
    omega

end

/-- Three profiles out of order and three gates. -/
def exampleSquare : Instrument ℚ :=
  ⟨[("Zh", .d2 [[-30, -20, -10], [-31, -21, -11], [-32, -22, -12]]), ("range", .d1 [100, 200, 300]), ("time", .d1 [2, 1, 3])], []⟩

/-- Sorting the profiles also exchanges the first two ranges, though not the gates of the data. -/
example : (exampleSquare.sortTimestamps [1, 0, 2]).toOption.map (fun d => d.data.lookup "range" = some (.d1 [200, 100, 300]) ∧
    d.data.lookup "Zh" = some (.d2 [[-31, -21, -11], [-30, -20, -10], [-32, -22, -12]])) = some True := by
  simp [exampleSquare, Instrument.sortTimestamps, Instrument.screenTimeIndices, Instrument.getTime, Selector.isEmpty,
    NdArray.followsTime, NdArray.len?, NdArray.select, Selector.take, List.lookup, bind, Except.bind, pure, Except.pure,
    Except.toOption, Except.map]

example : exampleSquare.data.lookup "range" = some (.d1 [100, 200, 300]) ∧ exampleSquare.getTime = [2, 1, 3] ∧
    Spec.IsArgsort exampleSquare.getTime [1, 0, 2] := by
  refine ⟨rfl, rfl, by decide, ?_⟩
  simp [exampleSquare, Instrument.getTime, List.lookup, vec]; norm_num

end Cloudnet
