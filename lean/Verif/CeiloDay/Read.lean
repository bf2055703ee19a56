import Verif.CeiloDay.Spec
import Verif.HatproDay.Props
import Verif.Lidar.SelectProps
import Verif.Times.Props

namespace Cloudnet

section
variable {α : Type} [Field α] [LinearOrder α]

theorem cell_some {β : Type} {m : List (List β)} {k j : ℕ} {v : β} (h : Spec.cell m k j = some v) : ∃ row, m[k]? = some row ∧ row[j]? = some v := by
  unfold Spec.cell at h
  cases hr : m[k]? with
  | none => rw [hr] at h; cases h
  | some row => rw [hr] at h; exact ⟨row, rfl, h⟩

theorem cell_of {β : Type} {m : List (List β)} {k j : ℕ} {row : List β} {v : β} (h1 : m[k]? = some row) (h2 : row[j]? = some v) : Spec.cell m k j = some v := by
  unfold Spec.cell
  rw [h1]
  exact h2

theorem cell_map_map {β γ : Type} (g : β → γ) (m : List (List β)) (k j : ℕ) :
    Spec.cell (m.map fun row => row.map g) k j = (Spec.cell m k j).map g := by
  unfold Spec.cell
  rw [List.getElem?_map]
  cases m[k]? with
  | none => rfl
  | some row => simp

theorem isMatrix_map {β γ : Type} (g : β → γ) {n w : ℕ} {m : List (List β)} (h : Spec.IsMatrix n w m) : Spec.IsMatrix n w (m.map fun row => row.map g) := by
  refine ⟨by rw [List.length_map]; exact h.1, fun row hr => ?_⟩
  obtain ⟨r, hmem, rfl⟩ := List.mem_map.1 hr
  rw [List.length_map]
  exact h.2 r hmem

/-- What the reader finds. -/
structure ReadLidar (nn : α → α → α) (calibration : Option α) (f : NcLidarFile α) (d : NcLidarData α) : Prop where
  time : d.time = f.times
  range : lidarRange f = .ok d.range
  gates : d.range.length = f.range.length
  zenith : d.zenith = lidarZenith f.tilt
  raw : Spec.IsMatrix f.times.length f.range.length d.beta
  value : ∀ i j b, Spec.cell f.beta i j = some b →
    ∃ r s, d.range[j]? = some r ∧ Spec.LidarScale nn calibration f i r s ∧ Spec.cell d.beta i j = some (b * s)
  depol : match f.kind with
    | .cl61d _ x p => ∃ m, d.depol = some m ∧ Spec.IsMatrix f.times.length f.range.length m ∧
        ∀ i j a b, Spec.cell x i j = some a → Spec.cell p i j = some b → Spec.cell m i j = some (pixelDivide a b)
    | _ => d.depol = none

theorem lidarRange_ok (f : NcLidarFile α) :
    (f.range.length < 2 → ∃ e, lidarRange f = .error e) ∧ (2 ≤ f.range.length → ∃ r, lidarRange f = .ok r ∧ r.length = f.range.length) := by
  unfold lidarRange edges2mid
  constructor
  · intro h
    dsimp only
    rw [if_pos h]
    exact ⟨_, rfl⟩
  · intro h
    dsimp only
    rw [if_neg (by omega)]
    split_ifs <;> exact ⟨_, rfl, by simp⟩

theorem zipWith_cell {β γ δ : Type} (g : β → γ → δ) (x : List (List β)) (p : List (List γ)) (i j : ℕ) (a : β) (b : γ)
    (h1 : Spec.cell x i j = some a) (h2 : Spec.cell p i j = some b) :
    Spec.cell (List.zipWith (fun a b => List.zipWith g a b) x p) i j = some (g a b) := by
  obtain ⟨r1, e1, e1'⟩ := cell_some h1
  obtain ⟨r2, e2, e2'⟩ := cell_some h2
  refine cell_of (row := List.zipWith g r1 r2) ?_ ?_
  · rw [List.getElem?_zipWith, e1, e2]
  · rw [List.getElem?_zipWith, e1', e2']

theorem zipWith_matrix {β γ δ : Type} (g : β → γ → δ) {n w : ℕ} {x : List (List β)} {p : List (List γ)} (h1 : Spec.IsMatrix n w x) (h2 : Spec.IsMatrix n w p) :
    Spec.IsMatrix n w (List.zipWith (fun a b => List.zipWith g a b) x p) := by
  refine ⟨by rw [List.length_zipWith, h1.1, h2.1, min_self], fun row hr => ?_⟩
  obtain ⟨i, hi⟩ := List.mem_iff_getElem?.1 hr
  rw [List.getElem?_zipWith] at hi
  split at hi
  · rename_i a b ha hb
    cases hi
    rw [List.length_zipWith, h1.2 _ (List.mem_of_getElem? ha), h2.2 _ (List.mem_of_getElem? hb), min_self]
  · cases hi

theorem cell_col_lt {β : Type} {n w : ℕ} {m : List (List β)} (h : Spec.IsMatrix n w m) {i j : ℕ} {b : β} (hb : Spec.cell m i j = some b) : i < n ∧ j < w := by
  obtain ⟨row, e1, e2⟩ := cell_some hb
  refine ⟨?_, ?_⟩
  · rw [← h.1]
    exact (List.getElem?_eq_some_iff.1 e1).1
  · rw [← h.2 row (List.mem_of_getElem? e1)]
    exact (List.getElem?_eq_some_iff.1 e2).1

theorem readNcLidar_spec (nn : α → α → α) (calibration : Option α) (f : NcLidarFile α) (hs : Spec.LidarShape f) :
    ((∃ d, readNcLidar nn calibration f = .ok d) ↔ Spec.LidarReadable f) ∧
    ∀ d, readNcLidar nn calibration f = .ok d → ReadLidar nn calibration f d := by
  obtain ⟨hb, hk⟩ := hs
  obtain ⟨kind, times, epochDay, range, tilt, beta⟩ := f
  dsimp only at hb hk
  obtain ⟨r1, r2⟩ := lidarRange_ok (⟨kind, times, epochDay, range, tilt, beta⟩ : NcLidarFile α)
  dsimp only at r1 r2
  unfold readNcLidar Spec.LidarReadable
  by_cases hr : range.length < 2
  · obtain ⟨e, he⟩ := r1 hr
    rw [he]
    refine ⟨⟨fun ⟨d, hd⟩ => (by cases hd), fun h => absurd h.1 (by dsimp only; omega)⟩, fun d hd => by cases hd⟩
  · obtain ⟨r, he, hlen⟩ := r2 (by omega)
    rw [he]
    simp only [bind, Except.bind]
    unfold lidarVariables
    have col : ∀ i j b, Spec.cell beta i j = some b → ∃ x, r[j]? = some x := fun i j b h => by
      have := (cell_col_lt hb h).2
      exact ⟨_, List.getElem?_eq_getElem (by omega)⟩
    have simple : ∀ (c : α), ∀ i j b, Spec.cell beta i j = some b → Spec.cell (beta.map fun row => row.map fun b => b * c) i j = some (b * c) := by
      intro c i j b h
      rw [cell_map_map, h]
      rfl
    cases kind with
    | cl61d allMasked x p =>
      dsimp only at hk ⊢
      cases allMasked with
      | true => exact ⟨⟨fun ⟨d, hd⟩ => (by cases hd), fun h => absurd h.2 (by simp)⟩, fun d hd => by cases hd⟩
      | false =>
        refine ⟨⟨fun _ => ⟨by omega, rfl⟩, fun _ => ⟨_, rfl⟩⟩, fun d hd => ?_⟩
        cases hd
        refine ⟨rfl, he, hlen, rfl, isMatrix_map _ hb, fun i j b h => ?_, ?_⟩
        · obtain ⟨y, hy⟩ := col i j b h
          exact ⟨y, _, hy, rfl, simple _ i j b h⟩
        · exact ⟨_, rfl, zipWith_matrix _ hk.1 hk.2, fun i j a b h1 h2 => zipWith_cell _ _ _ i j a b h1 h2⟩
    | da10 allMasked =>
      dsimp only at hk ⊢
      cases allMasked with
      | true => exact ⟨⟨fun ⟨d, hd⟩ => (by cases hd), fun h => absurd h.2 (by simp)⟩, fun d hd => by cases hd⟩
      | false =>
        refine ⟨⟨fun _ => ⟨by omega, rfl⟩, fun _ => ⟨_, rfl⟩⟩, fun d hd => ?_⟩
        cases hd
        refine ⟨rfl, he, hlen, rfl, isMatrix_map _ hb, fun i j b h => ?_, rfl⟩
        obtain ⟨y, hy⟩ := col i j b h
        exact ⟨y, _, hy, rfl, simple _ i j b h⟩
    | lufft kx version std nn1 =>
      dsimp only at hk ⊢
      cases hv : lufftOld version with
      | error e => exact ⟨⟨fun ⟨d, hd⟩ => (by cases hd), fun h => absurd h.2 (by simp)⟩, fun d hd => by cases hd⟩
      | ok old =>
        cases old with
        | false =>
          refine ⟨⟨fun _ => ⟨by omega, .inl rfl⟩, fun _ => ⟨_, rfl⟩⟩, fun d hd => ?_⟩
          cases hd
          refine ⟨rfl, he, hlen, rfl, isMatrix_map _ hb, fun i j b h => ?_, rfl⟩
          obtain ⟨y, hy⟩ := col i j b h
          exact ⟨y, _, hy, .inl ⟨hv, rfl⟩, simple _ i j b h⟩
        | true =>
          dsimp only
          have hz : (List.zipWith (fun s x => s / nn (median nn1) x) std nn1).length = times.length := by
            rw [List.length_zipWith, hk.1, hk.2, min_self]
          rw [hz]
          by_cases h1 : times.length ≤ 1
          · rw [if_pos h1]
            refine ⟨⟨fun ⟨d, hd⟩ => (by cases hd), fun h => absurd h.2 ?_⟩, fun d hd => by cases hd⟩
            rintro (h | h)
            · cases h
            · omega
          · rw [if_neg h1]
            refine ⟨⟨fun _ => ⟨by omega, .inr ⟨rfl, by omega⟩⟩, fun _ => ⟨_, rfl⟩⟩, fun d hd => ?_⟩
            cases hd
            refine ⟨rfl, he, hlen, rfl, ⟨?_, ?_⟩, fun i j b h => ?_, rfl⟩
            · dsimp only
              rw [List.length_zipWith, hz, hb.1, min_self]
            · intro row hrow
              obtain ⟨i, hi⟩ := List.mem_iff_getElem?.1 hrow
              rw [List.getElem?_zipWith] at hi
              split at hi
              · rename_i a b ha _
                cases hi
                rw [List.length_zipWith, hb.2 _ (List.mem_of_getElem? ha), hlen, min_self]
              · cases hi
            · obtain ⟨y, hy⟩ := col i j b h
              obtain ⟨row, e1, e2⟩ := cell_some h
              have hi := (cell_col_lt hb h).1
              obtain ⟨a, ha⟩ : ∃ a, std[i]? = some a := ⟨_, List.getElem?_eq_getElem (by omega)⟩
              obtain ⟨c, hc⟩ : ∃ c, nn1[i]? = some c := ⟨_, List.getElem?_eq_getElem (by omega)⟩
              refine ⟨y, _, hy, .inr ⟨hv, a, c, ha, hc, rfl⟩, ?_⟩
              refine cell_of (row := List.zipWith (fun b r => b * (a / nn (median nn1) c) * r ^ 2 * calibration.getD (3 / 10 ^ 12)) row r) ?_ ?_
              · rw [List.getElem?_zipWith, e1, List.getElem?_zipWith, ha, hc]
              · rw [List.getElem?_zipWith, e2, hy]
                simp only [Option.some.injEq]
                ring

end

end Cloudnet
