import Verif.CeiloDay.Time

namespace Cloudnet

section
variable {α : Type} [Field α] [LinearOrder α] [IsStrictOrderedRing α]

/-- What holds for every profile of the screened data. -/
structure LidarLaws (rangeCorrected : Bool) (out : NcLidarDay α) : Prop where
  beta : rangeCorrected = true → ∀ k j v, Spec.cell out.beta k j = some (some v) ↔
    Spec.cell out.betaRaw k j = some v ∧ 0 < v ∧ Spec.Valid out.betaSmooth k j
  unchanged : ∀ k j v, Spec.cell out.beta k j = some (some v) → Spec.cell out.betaRaw k j = some v
  depol : ∀ raw dep, out.depolRaw = some raw → out.depol = some dep → ∀ k j v,
    (rangeCorrected = true → Spec.cell dep k j = some (some v) → 0 < v ∧ v ≤ 1 ∧ Spec.Valid out.beta k j) ∧
    (rangeCorrected = true → ∀ x, Spec.cell raw k j = some (some x) →
      (Spec.cell dep k j = some (some v) ↔ v = x ∧ 0 < v ∧ v ≤ 1 ∧ Spec.Valid out.beta k j)) ∧
    (rangeCorrected = false → (Spec.cell dep k j = some (some v) ↔ Spec.cell raw k j = some (some v) ∧ 0 < v ∧ v ≤ 1))

theorem model_raw (k : NcLidarKind α) : k.model ∈ Spec.rawModels := by
  cases k with
  | cl61d => simp [NcLidarKind.model, Spec.rawModels]
  | da10 => simp [NcLidarKind.model, Spec.rawModels]
  | lufft kx => cases kx <;> simp [NcLidarKind.model, Spec.rawModels]

/-- The cells of a table made of a grid. -/
theorem cell_rows {β : Type} (n w : ℕ) (g : ℕ → ℕ → β) (k j : ℕ) :
    Spec.cell ((List.range n).map fun t => (List.range w).map (g t)) k j = if k < n ∧ j < w then some (g k j) else none := by
  unfold Spec.cell
  rw [List.getElem?_map]
  by_cases hk : k < n
  · rw [List.getElem?_range hk]
    by_cases hj : j < w
    · simp [hk, hj]
    · simp [hj]
  · rw [List.getElem?_eq_none (by simpa using hk)]
    simp [hk]

theorem rows_matrix {β : Type} (n w : ℕ) (g : ℕ → ℕ → β) : Spec.IsMatrix n w ((List.range n).map fun t => (List.range w).map (g t)) := by
  refine ⟨by simp, fun row hr => ?_⟩
  obtain ⟨t, -, rfl⟩ := List.mem_map.1 hr
  simp

theorem cell_grid {n w : ℕ} {m : List (List α)} (h : Spec.IsMatrix n w m) (k j : ℕ) :
    Spec.cell m k j = if k < n ∧ j < w then some (rowsGrid m k j) else none := by
  by_cases hc : k < n ∧ j < w
  · rw [if_pos hc]
    have hk : k < m.length := by rw [h.1]; exact hc.1
    have hj : j < (m[k]).length := by rw [h.2 _ (List.getElem_mem hk)]; exact hc.2
    refine cell_of (List.getElem?_eq_getElem hk) ?_
    rw [List.getElem?_eq_getElem hj]
    unfold rowsGrid
    rw [List.getD_eq_getElem?_getD, List.getD_eq_getElem?_getD, List.getElem?_eq_getElem hk, Option.getD_some, List.getElem?_eq_getElem hj]
    rfl
  · rw [if_neg hc]
    cases hx : Spec.cell m k j with
    | none => rfl
    | some v => exact absurd (cell_col_lt h hx) hc

theorem cell_pixels {n w : ℕ} {m : List (List (MaPixel α))} (h : Spec.IsMatrix n w m) (k j : ℕ) :
    Spec.cell m k j = if k < n ∧ j < w then some ((m.getD k []).getD j ⟨0, true⟩) else none := by
  by_cases hc : k < n ∧ j < w
  · rw [if_pos hc]
    have hk : k < m.length := by rw [h.1]; exact hc.1
    have hj : j < (m[k]).length := by rw [h.2 _ (List.getElem_mem hk)]; exact hc.2
    refine cell_of (List.getElem?_eq_getElem hk) ?_
    rw [List.getElem?_eq_getElem hj]
    rw [List.getD_eq_getElem?_getD, List.getD_eq_getElem?_getD, List.getElem?_eq_getElem hk, Option.getD_some, List.getElem?_eq_getElem hj]
    rfl
  · rw [if_neg hc]
    cases hx : Spec.cell m k j with
    | none => rfl
    | some v => exact absurd (cell_col_lt h hx) hc

/-- What the screening gives. -/
structure ScreenedLidar (nu : LidarNumerics α) (rangeCorrected : Bool) (altitude : α) (day : ℤ) (d : NcLidarData α) (out : NcLidarDay α) : Prop where
  date : out.date = day
  time : out.time = d.time
  range : out.range = d.range
  height : out.height = d.range.map fun r => altitude + r * nu.cos d.zenith
  zenith : out.zenith = d.zenith
  raw : out.betaRaw = d.beta
  beta : Spec.IsMatrix d.time.length d.range.length out.beta
  smooth : Spec.IsMatrix d.time.length d.range.length out.betaSmooth
  depolRaw : out.depolRaw = d.depol.map fun p => p.map fun row => row.map MaPixel.value
  depol : (∀ dep, out.depol = some dep → Spec.IsMatrix d.time.length d.range.length dep) ∧ (out.depol = none ↔ d.depol = none)
  laws : LidarLaws rangeCorrected out

theorem lidarScreen_spec (nu : LidarNumerics α) (kind : NcLidarKind α) (old rangeCorrected : Bool) (altitude : α) (day : ℤ) (d : NcLidarData α)
    (ht : d.time ≠ []) (hw : 2 ≤ d.range.length) (hb : Spec.IsMatrix d.time.length d.range.length d.beta)
    (hd : ∀ p, d.depol = some p → Spec.IsMatrix d.time.length d.range.length p) (h24 : ∀ h ∈ d.time, h ≤ 24) :
    ((∃ out, lidarScreen nu kind.model old rangeCorrected altitude day d = .ok out) ↔ 2 ≤ d.time.length) ∧
    ∀ out, lidarScreen nu kind.model old rangeCorrected altitude day d = .ok out → ScreenedLidar nu rangeCorrected altitude day d out := by
  have hpos : 0 < d.time.length := List.length_pos_iff.2 ht
  have hhead : (d.beta.headD []).length = d.range.length := by
    cases hbeta : d.beta with
    | nil => rw [hbeta] at hb; have := hb.1; simp at this; omega
    | cons a l => exact hb.2 a (by rw [hbeta]; simp)
  have hsig : ∃ sigma, calcSigmaUnits 1 10 d.time.length (vec d.time) d.range.length (vec d.range) = .ok sigma := by
    unfold calcSigmaUnits
    rw [if_neg]
    · exact ⟨_, rfl⟩
    · rintro (h | h)
      · omega
      · rw [List.any_eq_true] at h
        obtain ⟨i, hi, h⟩ := h
        have hi := List.mem_range.1 hi
        have h := of_decide_eq_true h
        have := h24 (vec d.time i) (by
          unfold vec
          rw [List.getD_eq_getElem?_getD, List.getElem?_eq_getElem hi]
          exact List.getElem_mem hi)
        exact absurd h (not_lt.2 this)
  obtain ⟨sigma, hsig⟩ := hsig
  unfold lidarScreen
  dsimp only
  by_cases h1 : d.beta.length = 1 ∨ (d.beta.headD []).length = 1
  · rw [if_pos h1]
    refine ⟨⟨fun ⟨o, ho⟩ => (by cases ho), fun h => ?_⟩, fun o ho => by cases ho⟩
    rw [hb.1, hhead] at h1
    omega
  · rw [if_neg h1, if_neg (by rw [hhead]; simp), hsig]
    simp only [bind, Except.bind, pure, Except.pure]
    refine ⟨⟨fun _ => ?_, fun _ => ⟨_, rfl⟩⟩, ?_⟩
    · rw [hb.1] at h1
      omega
    · intro out ho
      have ho := Except.ok.inj ho
      generalize betaSmooth nu.sqrt (nu.filter sigma) rangeCorrected (altLimit rangeCorrected (some kind.model)) (4 / 10 ^ 9) 5 d.range.length
        (ceiloNegatives old kind.model) (vec d.range) (rowsGrid d.beta) nu.under (fun t => screenProfile nu.sqrt {} rangeCorrected
          (altLimit rangeCorrected (some kind.model)) (1 / 10 ^ 9) 5 d.range.length (ceiloNegatives old kind.model) (vec d.range)
          (rowsGrid d.beta t) (rowsGrid d.beta t)) = smooth at ho
      subst ho
      refine ⟨rfl, rfl, rfl, rfl, rfl, rfl, rows_matrix _ _ _, rows_matrix _ _ _, rfl, ⟨?_, by simp⟩, ?_⟩
      · intro dep h
        cases hp : d.depol with
        | none => rw [hp] at h; cases h
        | some p =>
          rw [hp] at h
          cases h
          exact rows_matrix _ _ _
      · have hbeta : ∀ k j v sc sm, (∀ v, sc = some v → v = rowsGrid d.beta k j) →
            ceiloBeta kind.model rangeCorrected (some (rowsGrid d.beta k j)) sc sm = some v → v = rowsGrid d.beta k j := by
          intro k j v sc sm hun h
          cases rangeCorrected with
          | true =>
            have := ((C125_beta (some (rowsGrid d.beta k j)) sc sm).1 kind.model (model_raw kind) v).1 h
            exact (Option.some.inj this.1).symm
          | false =>
            rw [(C125_beta (some (rowsGrid d.beta k j)) sc sm).2.2 kind.model] at h
            exact hun v h
        refine ⟨?_, ?_, ?_⟩
        · intro hrc k j v
          subst hrc
          unfold Spec.Valid
          dsimp only
          rw [cell_rows, cell_rows, cell_grid hb]
          by_cases hc : k < d.time.length ∧ j < d.range.length
          · simp only [if_pos hc, Option.some.injEq]
            rw [(C125_beta _ _ (smooth k j)).1 kind.model (model_raw kind) v, Option.some.injEq,
              Option.ne_none_iff_exists']
            tauto
          · simp [if_neg hc]
        · intro k j v
          dsimp only
          rw [cell_rows, cell_grid hb]
          by_cases hc : k < d.time.length ∧ j < d.range.length
          · simp only [if_pos hc, Option.some.injEq]
            exact fun h => (hbeta k j v _ _ (fun v hv => C52_unchanged _ _ _ _ _ _ _ _ _ _ _ _ _ hv) h).symm
          · simp [if_neg hc]
        · intro raw dep hraw hdep k j v
          cases hp : d.depol with
          | none => rw [hp] at hraw; cases hraw
          | some p =>
            rw [hp] at hraw hdep
            cases hraw
            cases hdep
            have hm := hd p hp
            unfold Spec.Valid
            dsimp only
            rw [cell_map_map, cell_pixels hm]
            simp only [cell_rows]
            by_cases hc : k < d.time.length ∧ j < d.range.length
            · simp only [if_pos hc, Option.some.injEq, Option.map_some, C95_depol]
              generalize (p.getD k []).getD j ⟨0, true⟩ = px
              generalize ceiloBeta kind.model rangeCorrected (some (rowsGrid d.beta k j)) _ (smooth k j) = bt
              refine ⟨?_, ?_, ?_⟩
              · intro hrc
                subst hrc
                rw [if_pos (usesSmooth_raw _ (model_raw kind))]
                rintro ⟨h1, h2, h3⟩
                refine ⟨h2, h3, ?_⟩
                cases bt with
                | none => cases h1
                | some b => exact ⟨b, rfl⟩
              · intro hrc x hx
                subst hrc
                rw [if_pos (usesSmooth_raw _ (model_raw kind))]
                have hpx : px.data = x := by
                  unfold MaPixel.value at hx
                  split at hx
                  · cases hx
                  · exact Option.some.inj hx
                cases bt with
                | none => simp [MaPixel.value]
                | some b =>
                  simp only [MaPixel.value, Option.isNone_some, Bool.false_eq_true, if_false, Option.some.injEq, hpx, exists_eq', and_true]
                  constructor
                  · rintro ⟨rfl, h⟩; exact ⟨rfl, h⟩
                  · rintro ⟨rfl, h⟩; exact ⟨rfl, h⟩
              · intro hrc
                subst hrc
                have : ceiloUsesSmooth kind.model false = false := by simp [ceiloUsesSmooth]
                rw [this]
                simp
            · simp [if_neg hc]

theorem cell_pick {β : Type} (keep : List ℕ) (m : List (List β)) (h : ∀ i ∈ keep, i < m.length) (k j : ℕ) :
    Spec.cell (pickRows keep m) k j = keep[k]?.bind fun i => Spec.cell m i j := by
  unfold Spec.cell
  rw [pickRows_get _ _ h]
  cases keep[k]? <;> rfl

theorem pick_matrix {β : Type} {keep : List ℕ} {m : List (List β)} {n w : ℕ} (hm : Spec.IsMatrix n w m) (h : ∀ i ∈ keep, i < n) :
    Spec.IsMatrix keep.length w (pickRows keep m) := by
  refine ⟨by rw [pickRows_length_of_lt _ _ (by rw [hm.1]; exact h)], fun row hr => ?_⟩
  unfold pickRows at hr
  obtain ⟨i, -, hi⟩ := List.mem_filterMap.1 hr
  exact hm.2 row (List.mem_of_getElem? hi)

/-- The laws hold for some of the profiles if they hold for all. -/
theorem laws_pick {rangeCorrected : Bool} {out : NcLidarDay α} (h : LidarLaws rangeCorrected out) {n w : ℕ} (h1 : Spec.IsMatrix n w out.betaRaw)
    (h2 : Spec.IsMatrix n w out.beta) (h3 : Spec.IsMatrix n w out.betaSmooth) (h4 : ∀ p, out.depolRaw = some p → Spec.IsMatrix n w p)
    (h5 : ∀ p, out.depol = some p → Spec.IsMatrix n w p) (keep : List ℕ) (hk : ∀ i ∈ keep, i < n) : LidarLaws rangeCorrected (out.pick keep) := by
  have c1 := cell_pick keep out.betaRaw (by rw [h1.1]; exact hk)
  have c2 := cell_pick keep out.beta (by rw [h2.1]; exact hk)
  have c3 := cell_pick keep out.betaSmooth (by rw [h3.1]; exact hk)
  unfold NcLidarDay.pick
  refine ⟨?_, ?_, ?_⟩
  · intro hrc k j v
    unfold Spec.Valid
    dsimp only
    rw [c1, c2, c3]
    cases keep[k]? with
    | none => simp
    | some i => exact h.beta hrc i j v
  · intro k j v
    dsimp only
    rw [c1, c2]
    cases keep[k]? with
    | none => simp
    | some i => exact h.unchanged i j v
  · intro raw dep hraw hdep k j v
    dsimp only at hraw hdep
    cases hr : out.depolRaw with
    | none => rw [hr] at hraw; cases hraw
    | some raw0 =>
      cases hd : out.depol with
      | none => rw [hd] at hdep; cases hdep
      | some dep0 =>
        rw [hr] at hraw
        rw [hd] at hdep
        cases hraw
        cases hdep
        unfold Spec.Valid
        dsimp only
        rw [cell_pick keep raw0 (by rw [(h4 _ hr).1]; exact hk), cell_pick keep dep0 (by rw [(h5 _ hd).1]; exact hk), c2]
        cases keep[k]? with
        | none => simp
        | some i => exact h.depol raw0 dep0 hr hd i j v

end

end Cloudnet
