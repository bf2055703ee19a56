import Verif.Concat.Props
import Verif.Mira.Props
import Verif.WRadar.Props
import Verif.Precip.Props
import Mathlib.Tactic

/-! C174: the order in which raw files (and lines of files) are given. -/

namespace Cloudnet

section
variable {α : Type} [Field α] [LinearOrder α] [IsStrictOrderedRing α]

/-- Two strictly sorted lists with the same members are equal. -/
theorem sorted_unique {R : Type} (key : R → α) (l l' : List R) (h : l.Pairwise fun a b => key a < key b)
    (h' : l'.Pairwise fun a b => key a < key b) (hm : ∀ r, r ∈ l ↔ r ∈ l') : l = l' := by
  have hn : l.Nodup := h.imp fun hlt he => absurd (congrArg key he) hlt.ne
  have hn' : l'.Nodup := h'.imp fun hlt he => absurd (congrArg key he) hlt.ne
  exact List.Perm.eq_of_pairwise (fun a b _ _ h1 h2 => absurd h1 (not_lt.2 h2.le)) h h' ((List.perm_ext_iff_of_nodup hn hn').2 hm)

/-- One record for each time is determined by the records if their times are distinct. -/
theorem onePerTime_unique {R : Type} (hours : R → α) (rs rs' out out' : List R) (hp : rs.Perm rs')
    (hd : ∀ r ∈ rs, ∀ s ∈ rs, hours r = hours s → r = s)
    (h : Spec.OnePerTime hours rs out) (h' : Spec.OnePerTime hours rs' out') : out = out' := by
  have mem : ∀ (o l : List R), (∀ r ∈ l, r ∈ rs) → Spec.OnePerTime hours l o → ∀ r, r ∈ o ↔ r ∈ l := by
    intro o l hl ho r
    refine ⟨ho.2.1 r, fun hr => ?_⟩
    obtain ⟨s, hs, he⟩ := ho.2.2 r hr
    rwa [← hd s (hl s (ho.2.1 s hs)) r (hl r hr) he]
  refine sorted_unique hours out out' h.1 h'.1 fun r => ?_
  rw [mem out rs (fun _ h => h) h, mem out' rs' (fun _ h => hp.mem_iff.2 h) h', hp.mem_iff]

/-- C174. Files with distinct names: concatenating them gives the same file, the same names or the same error, in whatever
order they are listed. -/
theorem C174_concatenate {ν : Type} [LinearOrder ν] (files files' : List (ν × NcFile α)) (keep : Option (List String))
    (ignore : List String) (hp : files.Perm files') (hd : (files.map (·.1)).Nodup) :
    concatenateFiles files keep ignore = concatenateFiles files' keep ignore := by
  unfold concatenateFiles
  have : Std.Total (fun a b : ν × NcFile α => a.1 ≤ b.1) := ⟨fun a b => le_total _ _⟩
  have : IsTrans (ν × NcFile α) (fun a b => a.1 ≤ b.1) := ⟨fun a b c => le_trans⟩
  have he : (files.filter fun f => f.2.isValid).insertionSort (fun a b => a.1 ≤ b.1) =
      (files'.filter fun f => f.2.isValid).insertionSort (fun a b => a.1 ≤ b.1) := by
    refine List.Perm.eq_of_pairwise ?_ (List.pairwise_insertionSort _ _) (List.pairwise_insertionSort _ _)
      ((List.perm_insertionSort _ _).trans ((hp.filter _).trans (List.perm_insertionSort _ _).symm))
    intro a b ha hb h1 h2
    have ha : a ∈ files := (List.mem_filter.1 ((List.perm_insertionSort _ _).mem_iff.1 ha)).1
    have hb : b ∈ files := hp.mem_iff.2 (List.mem_filter.1 ((List.perm_insertionSort _ _).mem_iff.1 hb)).1
    exact List.inj_on_of_nodup_map hd ha hb (le_antisymm h1 h2)
  rw [he]

/-- C174. MIRA: a list of files is read in the same order, with the same names of variables or the same error, in whatever
order it is given. -/
theorem C174_mira (paths paths' : List String) (hp : paths.Perm paths') :
    miraInputFiles (.files paths) = miraInputFiles (.files paths') := by
  unfold miraInputFiles
  dsimp only
  have he : paths.insertionSort (· ≤ ·) = paths'.insertionSort (· ≤ ·) :=
    List.Perm.eq_of_pairwise (fun a b _ _ h1 h2 => le_antisymm h1 h2) (List.pairwise_insertionSort _ _) (List.pairwise_insertionSort _ _)
      ((List.perm_insertionSort _ _).trans (hp.trans (List.perm_insertionSort _ _).symm))
  rw [he]

/-- C174. FD12P: lines with distinct times may come in any order, and it does not matter how the sorting arranges them. -/
theorem C174_lines {T : Type} (hours : T → α) (rs rs' : List (SensorRecord T α)) (order order' : List ℕ)
    (ho : order.Perm (List.range rs.length)) (ho' : order'.Perm (List.range rs'.length)) (hp : rs.Perm rs')
    (hd : ∀ r ∈ rs, ∀ s ∈ rs, hours r.time = hours s.time → r = s) :
    sensorFile hours order rs = sensorFile hours order' rs' := by
  unfold sensorFile
  rw [onePerTime_unique (fun r : SensorRecord T α => hours r.time) rs rs' _ _ hp hd
    (sortUnique_spec _ _ _ ho) (sortUnique_spec _ _ _ ho')]

/-! ### Weather radar -/

theorem firstWithTime_iff (fs : List (WrFile α)) (hd : (fs.map (·.time)).Nodup) (f : WrFile α) :
    Spec.FirstWithTime fs f ↔ f ∈ fs := by
  constructor
  · rintro ⟨pre, post, rfl, -⟩
    simp
  · intro hf
    obtain ⟨pre, post, rfl⟩ := List.append_of_mem hf
    refine ⟨pre, post, rfl, fun g hg he => ?_⟩
    rw [List.map_append, List.nodup_append] at hd
    exact hd.2.2 g.time (List.mem_map_of_mem hg) f.time (by simp) he

theorem wrBlock_target (t t' f : WrFile α) (key : String) (h1 : t.nRange = t'.nRange) (h2 : t.range = t'.range) :
    wrBlock t f key = wrBlock t' f key := by
  unfold wrBlock sameRange
  rw [h1, h2]

theorem wrConvert_congr (altitude : α) (date : ℤ) (t t' : WrFile α) (keys keys' : List String) (gs : List (WrFile α))
    (h1 : t.nRange = t'.nRange) (h2 : t.range = t'.range) (hk : ∀ q, q ∈ keys ↔ q ∈ keys') :
    wrConvert altitude date (rawOf t keys gs) = wrConvert altitude date (rawOf t' keys' gs) := by
  have hv : wrVariable (rawOf t keys gs) = wrVariable (rawOf t' keys' gs) := by
    funext nq
    unfold wrVariable rawOf
    dsimp only
    rw [lookup_keys, lookup_keys]
    simp only [hk, wrBlock_target t t' _ _ h1 h2]
  unfold wrConvert
  rw [hv]
  simp only [rawOf, h1, h2]

/-- C174. Weather radar: the files of a date may be given in any order if no two usable ones have the same time and if those
that reach equally far have the same ranges: the output or the error is the same. -/
theorem C174_weather_radar [FloorRing α] (files files' : List (Option (WrFile α))) (date : ℤ) (altitude : α) (under : Grid Bool)
    (hp : files.Perm files') (hd : ((Spec.usable files).map (·.time)).Nodup)
    (hr : ∀ f ∈ Spec.usable files, ∀ g ∈ Spec.usable files, Spec.reach f = Spec.reach g → f.nRange = g.nRange ∧ f.range = g.range) :
    wr2nc files (some date) altitude under = wr2nc files' (some date) altitude under := by
  have hpu : (Spec.usable files).Perm (Spec.usable files') := hp.filterMap id
  suffices h : wrMerge files (some date) altitude = wrMerge files' (some date) altitude by
    unfold wr2nc
    rw [h]
  cases hu : Spec.usable files with
  | nil =>
    have hu' : Spec.usable files' = [] := by rw [hu] at hpu; exact hpu.symm.eq_nil
    unfold Spec.usable at hu hu'
    unfold wrMerge wrReadData
    rw [hu, hu']
  | cons first rest =>
    cases hu' : Spec.usable files' with
    | nil => rw [hu'] at hpu; rw [hpu.eq_nil] at hu; cases hu
    | cons first' rest' =>
      obtain ⟨t, gs, keys, ⟨t1, t2⟩, k, s1, s2, e⟩ := wrMerge_eq files (some date) altitude first rest hu
      obtain ⟨t', gs', keys', ⟨t1', t2'⟩, k', s1', s2', e'⟩ := wrMerge_eq files' (some date) altitude first' rest' hu'
      have hd' : ((Spec.usable files').map (·.time)).Nodup := (hpu.map _).nodup_iff.1 hd
      have hg : gs = gs' := by
        refine sorted_unique (fun f : WrFile α => f.time) gs gs' s1 s1' fun f => ?_
        rw [s2, s2', firstWithTime_iff _ hd, firstWithTime_iff _ hd', hpu.mem_iff]
      obtain ⟨r1, r2⟩ := hr t t1 t' (hpu.mem_iff.2 t1') (le_antisymm (t2' t (hpu.mem_iff.1 t1)) (t2 t' (hpu.mem_iff.2 t1')))
      rw [e, e', hg]
      refine wrConvert_congr _ _ t t' keys keys' gs' r1 r2 fun q => ?_
      rw [k, k']
      simp only [hpu.mem_iff]

end

/-! ### Where order matters -/

/-- A short file of a weather radar: one gate with a reflectivity. -/
def tinyRadar (time z : ℚ) : WrFile ℚ where
  time := time
  nRange := 1
  range := fun _ => 100
  data := ["SNR", "DBZH", "VRADH", "WRADH", "ZDR", "RHOHV"].map fun k => (k, fun _ => some z)

example : wr2nc [some (tinyRadar 60 5), none, some (tinyRadar 0 7)] (some 0) 10 (fun _ _ => false) =
    wr2nc [none, some (tinyRadar 0 7), some (tinyRadar 60 5)] (some 0) 10 (fun _ _ => false) :=
  C174_weather_radar _ _ 0 10 _ (by
      refine (List.perm_append_comm (l₁ := [some (tinyRadar 60 5)]) (l₂ := [none, some (tinyRadar 0 7)]))) (by
      show [(60 : ℚ), 0].Nodup
      decide) (by
      intro f hf g hg _
      have : ∀ f ∈ [tinyRadar 60 5, tinyRadar 0 7], f.nRange = 1 ∧ f.range = fun _ => 100 := by
        intro f hf
        simp only [List.mem_cons, List.not_mem_nil, or_false] at hf
        rcases hf with rfl | rfl <;> exact ⟨rfl, rfl⟩
      exact ⟨(this f hf).1.trans (this g hg).1.symm, (this f hf).2.trans (this g hg).2.symm⟩)

/-- What is asked of an output below: the reflectivity of the first profile. -/
def firstZ (r : Except String (WrOut ℚ)) : Option ℚ := r.toOption.bind fun o => o.field "Zh" 0 0

/-- C174. Of two files of the same time the first one is used: here order matters. -/
theorem C174_ties : ∃ f g : WrFile ℚ, f.time = g.time ∧ f.nRange = g.nRange ∧ f.range = g.range ∧
    wrMerge [some f, some g] (some 0) 0 ≠ wrMerge [some g, some f] (some 0) 0 := by
  refine ⟨tinyRadar 60 5, tinyRadar 60 7, rfl, rfl, rfl, fun h => ?_⟩
  have h1 : firstZ (wrMerge [some (tinyRadar 60 5), some (tinyRadar 60 7)] (some 0) 0) = some 5 := by decide +kernel
  have h2 : firstZ (wrMerge [some (tinyRadar 60 7), some (tinyRadar 60 5)] (some 0) 0) = some 7 := by decide +kernel
  rw [h, h2] at h1
  exact absurd h1 (by decide)

/-- **C174 finding.** The amounts of a rain[e]H3 file depend on the order of its lines, although times are distinct and the
lines are sorted: accumulation comes before sorting. The two orders below are what sorting by time gives. -/
theorem C174_rain_gauge : ∃ a b : RainRecord ℚ ℚ, a.time < b.time ∧
    rainFile id [0, 1] [a, b] ≠ rainFile id [1, 0] [b, a] := by
  refine ⟨⟨1, some 0, some 2000⟩, ⟨2, some 0, some 5000⟩, by decide, fun h => ?_⟩
  have h' := congrArg Except.toOption h
  revert h'
  decide +kernel

example : miraInputFiles (.files ["b.znc", "a.znc"]) = miraInputFiles (.files ["a.znc", "b.znc"]) :=
  C174_mira _ _ (by decide)

example : sensorFile (fun t : ℕ => (t : ℚ)) [1, 0] [⟨2, some 5, none, some 36, some 5, none⟩, ⟨1, none, none, none, some 3, some 1⟩] =
    sensorFile (fun t : ℕ => (t : ℚ)) [0, 1] [⟨1, none, none, none, some 3, some 1⟩, ⟨2, some 5, none, some 36, some 5, none⟩] :=
  C174_lines _ _ _ _ _ (by decide) (by decide) (List.Perm.swap _ _ _) (by decide)

example (f g : NcFile ℚ) : concatenateFiles [("b", f), ("a", g)] none [] = concatenateFiles [("a", g), ("b", f)] none [] :=
  C174_concatenate _ _ _ _ (List.Perm.swap _ _ _) (by simp)

end Cloudnet
