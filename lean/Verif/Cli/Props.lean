import Mathlib.Data.List.TakeWhile
import Verif.Cli.Model
import Verif.Categorize.Props

namespace Cloudnet

/-! ## Specification -/

namespace Spec

/-- A preference names either one instrument by its persistent identifier, or all instruments of a type. -/
def Fits (i : CliInstrument) (value : String) : Prop :=
  if "https://hdl.handle.net/".toList <+: value.toList then i.pid = value else i.instrumentId = value

/-- An order in which a set built from a list may be iterated: any order of its elements, each once. -/
def SetOrder (order : List CliInstrument → List CliInstrument) : Prop :=
  ∀ l, (order l).Nodup ∧ ∀ i, i ∈ order l ↔ i ∈ l

/-- `v` is `p` without surrounding white space. -/
def Stripped (p v : List Char) : Prop :=
  ∃ a b, p = a ++ v ++ b ∧ (∀ c ∈ a ++ b, c.isWhitespace) ∧
    (∀ c, v.head? = some c → ¬c.isWhitespace) ∧ (∀ c, v.getLast? = some c → ¬c.isWhitespace)

/-- The argument `product:value,value,…`, with its non-empty values. -/
def IsPreference (arg : String) (parsed : String × List String) : Prop :=
  ∃ pieces stripped : List (List Char), ':' ∉ parsed.1.toList ∧
    arg.toList = parsed.1.toList ++ ':' :: [','].intercalate pieces ∧ pieces ≠ [] ∧ (∀ p ∈ pieces, ',' ∉ p) ∧
    List.Forall₂ Stripped pieces stripped ∧ parsed.2.map String.toList = stripped.filter (fun v => v ≠ [])

end Spec

/-! ## Selecting an instrument -/

theorem fits_iff (i : CliInstrument) (v : String) : instrumentMatches i v = true ↔ Spec.Fits i v := by
  unfold instrumentMatches isPid Spec.Fits
  by_cases h : "https://hdl.handle.net/".toList <+: v.toList
  · rw [if_pos (List.isPrefixOf_iff_prefix.mpr h), if_pos h, beq_iff_eq]
  · rw [if_neg (fun hh => h (List.isPrefixOf_iff_prefix.mp hh)), if_neg h, beq_iff_eq]

theorem mem_uniqueInstruments {order} (ho : Spec.SetOrder order) (files : List RawFile) (i : CliInstrument) :
    i ∈ uniqueInstruments order files ↔ ∃ f ∈ files, f.instrument = i := by
  unfold uniqueInstruments
  rw [(List.perm_insertionSort _ _).mem_iff, (ho _).2]
  simp

theorem nodup_uniqueInstruments {order} (ho : Spec.SetOrder order) (files : List RawFile) :
    (uniqueInstruments order files).Nodup :=
  (List.perm_insertionSort _ _).nodup_iff.mpr (ho _).1

theorem sorted_uniqueInstruments (order) (files : List RawFile) :
    (uniqueInstruments order files).Pairwise fun a b => a.name ≤ b.name :=
  List.pairwise_insertionSort (r := fun a b : CliInstrument => a.name ≤ b.name) _

/-- **C64.** The instrument of a product, for every order in which the portal lists the files. Nothing is selected
without files. The first preference that some instrument with files fits decides, with the first fitting instrument by
name. If no preference fits, a single instrument is selected, and of several ones the one whose number in the list
sorted by name the user types; nothing is selected for any other answer. -/
theorem C64_select (order : List CliInstrument → List CliInstrument) (ho : Spec.SetOrder order) (files : List RawFile)
    (prefs : List String) (answer : Option ℤ) :
    (files = [] → selectInstrument order files prefs answer = none) ∧
    (∀ before p after, prefs = before ++ p :: after → (∀ q ∈ before, ∀ f ∈ files, ¬Spec.Fits f.instrument q) →
      (∃ f ∈ files, Spec.Fits f.instrument p) →
      ∃ i, selectInstrument order files prefs answer = some i ∧ Spec.Fits i p ∧ (∃ f ∈ files, f.instrument = i) ∧
        ∀ f ∈ files, Spec.Fits f.instrument p → i.name ≤ f.instrument.name) ∧
    ((∀ q ∈ prefs, ∀ f ∈ files, ¬Spec.Fits f.instrument q) → files ≠ [] →
      (∀ i, (∀ f ∈ files, f.instrument = i) → selectInstrument order files prefs answer = some i) ∧
      ((∃ f ∈ files, ∃ g ∈ files, f.instrument ≠ g.instrument) →
        ∃ menu : List CliInstrument, menu.Nodup ∧ menu.Pairwise (fun a b => a.name ≤ b.name) ∧
          (∀ i, i ∈ menu ↔ ∃ f ∈ files, f.instrument = i) ∧
          (answer = none → selectInstrument order files prefs answer = none) ∧
          (∀ a, answer = some a → ¬(1 ≤ a ∧ a ≤ menu.length) → selectInstrument order files prefs answer = none) ∧
          (∀ k (hk : k < menu.length), answer = some (k + 1 : ℤ) →
            selectInstrument order files prefs answer = some menu[k]))) := by
  have hmem := mem_uniqueInstruments ho files
  have hnd := nodup_uniqueInstruments ho files
  have hsort := sorted_uniqueInstruments order files
  unfold selectInstrument
  generalize uniqueInstruments order files = insts at hmem hnd hsort
  have hne : files ≠ [] → insts.length ≠ 0 := by
    intro h
    obtain ⟨f, l, rfl⟩ := List.exists_cons_of_ne_nil h
    have : f.instrument ∈ insts := (hmem _).mpr ⟨f, by simp, rfl⟩
    exact (List.length_pos_of_mem this).ne'
  have hnone : ∀ q, (∀ f ∈ files, ¬Spec.Fits f.instrument q) →
      (insts.filter fun i => instrumentMatches i q).head? = none := by
    intro q hq
    rw [List.head?_eq_none_iff, List.filter_eq_nil_iff]
    intro i hi
    obtain ⟨f, hf, rfl⟩ := (hmem i).mp hi
    rw [fits_iff]
    exact hq f hf
  refine ⟨?_, ?_, ?_⟩
  · rintro rfl
    have : insts = [] := List.eq_nil_iff_forall_not_mem.mpr fun i hi => by simpa using (hmem i).mp hi
    simp [this]
  · rintro before p after rfl hb ⟨f, hf, hfit⟩
    have hl : insts.length ≠ 0 := hne (List.ne_nil_of_mem hf)
    have h1 : before.findSome? (fun pref => (insts.filter fun i => instrumentMatches i pref).head?) = none :=
      List.findSome?_eq_none_iff.mpr fun q hq => hnone q (hb q hq)
    have hfm : f.instrument ∈ insts.filter fun i => instrumentMatches i p :=
      List.mem_filter.mpr ⟨(hmem _).mpr ⟨f, hf, rfl⟩, (fits_iff _ _).mpr hfit⟩
    obtain ⟨i, l, hil⟩ := List.exists_cons_of_ne_nil (List.ne_nil_of_mem hfm)
    have him : i ∈ insts.filter fun i => instrumentMatches i p := by rw [hil]; simp
    obtain ⟨hi1, hi2⟩ := List.mem_filter.mp him
    refine ⟨i, ?_, (fits_iff _ _).mp hi2, (hmem i).mp hi1, ?_⟩
    · simp only [if_neg hl, List.findSome?_append, h1, List.findSome?_cons, hil, List.head?_cons, Option.none_or]
    · intro g hg hgf
      have hgm : g.instrument ∈ insts.filter fun i => instrumentMatches i p :=
        List.mem_filter.mpr ⟨(hmem _).mpr ⟨g, hg, rfl⟩, (fits_iff _ _).mpr hgf⟩
      have hs := hsort.filter (fun i => instrumentMatches i p)
      rw [hil] at hs hgm
      rcases List.mem_cons.mp hgm with h | h
      · rw [h]
      · exact (List.pairwise_cons.mp hs).1 _ h
  · intro hq hf
    have hl := hne hf
    have h1 : prefs.findSome? (fun pref => (insts.filter fun i => instrumentMatches i pref).head?) = none :=
      List.findSome?_eq_none_iff.mpr fun q hqq => hnone q (hq q hqq)
    simp only [if_neg hl, h1]
    refine ⟨?_, ?_⟩
    · intro i hi
      have : insts = [i] := by
        have hall : ∀ j ∈ insts, j = i := by
          intro j hj
          obtain ⟨f, hf, rfl⟩ := (hmem j).mp hj
          exact hi f hf
        match insts, hl, hnd, hall with
        | [j], _, _, h => rw [h j (by simp)]
        | j :: k :: _, _, hn, h =>
          have := h j (by simp)
          have := h k (by simp)
          subst_vars
          simp at hn
      simp [this]
    · rintro ⟨f, hf, g, hg, hfg⟩
      have hlen : 1 < insts.length := by
        have h1 : f.instrument ∈ insts := (hmem _).mpr ⟨f, hf, rfl⟩
        have h2 : g.instrument ∈ insts := (hmem _).mpr ⟨g, hg, rfl⟩
        by_contra hc
        match insts, hc, h1, h2 with
        | [j], _, h1, h2 => exact hfg (by rw [List.mem_singleton.mp h1, List.mem_singleton.mp h2])
        | [], _, h1, _ => simp at h1
        | _ :: _ :: _, hc, _, _ => simp at hc
      refine ⟨insts, hnd, hsort, hmem, ?_, ?_, ?_⟩
      · rintro rfl
        simp [hlen]
      · rintro a rfl ha
        simp only [if_pos hlen]
        rw [if_neg]
        omega
      · rintro k hk rfl
        simp only [if_pos hlen]
        rw [if_pos (by omega)]
        simp [hk]

/-- Two radars, one of them preferred by its type. -/
example : let a : CliInstrument := ⟨"https://hdl.handle.net/1", "mira-35", "A"⟩
    let b : CliInstrument := ⟨"https://hdl.handle.net/2", "rpg-fmcw-94", "B"⟩
    Spec.Fits b "rpg-fmcw-94" ∧ ¬Spec.Fits a "rpg-fmcw-94" ∧
    selectInstrument id [⟨"x", a⟩, ⟨"y", b⟩] ["basta", "rpg-fmcw-94"] none = some b ∧
    selectInstrument id [⟨"x", a⟩, ⟨"y", b⟩] ["basta"] (some 1) = some a ∧
    selectInstrument id [⟨"x", a⟩, ⟨"y", b⟩] ["basta"] (some 0) = none ∧
    selectInstrument id [⟨"x", a⟩] [] none = some a := by
  refine ⟨?_, ?_, ?_⟩
  · unfold Spec.Fits; decide +kernel
  · unfold Spec.Fits; decide +kernel
  · decide +kernel

example : Spec.SetOrder List.dedup := fun l => ⟨List.nodup_dedup l, fun _ => List.mem_dedup⟩

/-! ## The files of an instrument product -/

namespace Spec

/-- The raw files a product is made from, by their names: anything but `.LV0` files for radars, files with `.LWP` or
`.IWV` in their name for `mwr`, anything but NetCDF files for `mwr-l1c`. -/
def Suitable (product filename : String) : Prop :=
  let lower := filename.toList.map Char.toLower
  (product = "radar" → ¬".lv0".toList <:+ lower) ∧
  (product = "mwr" → ".lwp".toList <:+: lower ∨ ".iwv".toList <:+: lower) ∧
  (product = "mwr-l1c" → ¬".nc".toList <:+ lower)

end Spec

theorem suffixOk_iff (product filename : String) : suffixOk product filename = true ↔ Spec.Suitable product filename := by
  unfold suffixOk Spec.Suitable pyLower
  by_cases h1 : product = "radar"
  · subst h1
    rw [if_pos (by decide)]
    simp [List.isSuffixOf_iff_suffix, ← Bool.not_eq_true]
  rw [if_neg (by simpa using h1)]
  by_cases h2 : product = "mwr"
  · subst h2
    rw [if_pos (by decide)]
    simp
  rw [if_neg (by simpa using h2)]
  by_cases h3 : product = "mwr-l1c"
  · subst h3
    rw [if_pos (by decide)]
    simp [List.isSuffixOf_iff_suffix, ← Bool.not_eq_true]
  rw [if_neg (by simpa using h3)]
  simp [h1, h2, h3]

/-- **C64.** An instrument product is made from all the suitable raw files of the selected instrument and no others, in
the order of the portal, and never from files of two instruments. It is not made if nothing is selected or the selected
instrument has no suitable files. -/
theorem C64_files (portal : Portal) (order : List CliInstrument → List CliInstrument)
    (prefs : List (String × List String)) (answer : Option ℤ) (product : String) (possible : List String)
    (hp : possible ≠ []) :
    (∀ i files, instrumentInput portal order prefs answer product possible = some (i, files) →
      selectInstrument order (portal.rawFiles possible) ((prefs.lookup product).getD []) answer = some i ∧
      files ≠ [] ∧ files.Sublist (portal.rawFiles possible) ∧
      (∀ n f, (portal.rawFiles possible).count f = n → f.instrument.pid = i.pid → Spec.Suitable product f.filename →
        files.count f = n) ∧
      (∀ f ∈ files, f.instrument.pid = i.pid ∧ Spec.Suitable product f.filename)) ∧
    (instrumentInput portal order prefs answer product possible = none ↔
      ∀ i, selectInstrument order (portal.rawFiles possible) ((prefs.lookup product).getD []) answer = some i →
        ∀ f ∈ portal.rawFiles possible, f.instrument.pid = i.pid → ¬Spec.Suitable product f.filename) := by
  unfold instrumentInput
  rw [if_neg hp]
  dsimp only
  cases hsel : selectInstrument order (portal.rawFiles possible) ((prefs.lookup product).getD []) answer with
  | none => simp
  | some j =>
    simp only [Option.some.injEq, forall_eq']
    split
    · rename_i hnil
      refine ⟨by simp, by
        simp only [true_iff]
        intro f hf hpid hs
        have : f ∈ ((portal.rawFiles possible).filter fun f => f.instrument.pid == j.pid).filter
            fun f => suffixOk product f.filename := by
          simp [hf, hpid, (suffixOk_iff _ _).mpr hs]
        rw [hnil] at this
        simp at this⟩
    · rename_i hnil
      refine ⟨?_, ?_⟩
      · intro i files h
        simp only [Option.some.injEq, Prod.mk.injEq] at h
        obtain ⟨rfl, rfl⟩ := h
        refine ⟨rfl, hnil, List.filter_sublist.trans List.filter_sublist, ?_, ?_⟩
        · intro n f hn hpid hs
          rw [List.count_filter (by simpa using (suffixOk_iff _ _).mpr hs), List.count_filter (by simpa using hpid), hn]
        · intro f hf
          simp only [List.mem_filter, beq_iff_eq] at hf
          exact ⟨hf.1.2, (suffixOk_iff _ _).mp hf.2⟩
      · simp only [reduceCtorEq, false_iff, not_forall, not_not]
        obtain ⟨f, l, hfl⟩ := List.exists_cons_of_ne_nil hnil
        have hf : f ∈ ((portal.rawFiles possible).filter fun f => f.instrument.pid == j.pid).filter
            fun f => suffixOk product f.filename := by rw [hfl]; simp
        simp only [List.mem_filter, beq_iff_eq] at hf
        exact ⟨f, hf.1.1, hf.1.2, (suffixOk_iff _ _).mp hf.2⟩

/-- Of three files of two radars, the two suitable ones of the preferred radar. -/
example : let a : CliInstrument := ⟨"https://hdl.handle.net/1", "mira-35", "A"⟩
    let b : CliInstrument := ⟨"https://hdl.handle.net/2", "rpg-fmcw-94", "B"⟩
    let portal : Portal := ⟨fun _ => [], fun _ => [⟨"x.LV0", b⟩, ⟨"y.LV1", b⟩, ⟨"z.nc", a⟩], fun _ => [], []⟩
    instrumentInput portal id [("radar", ["rpg-fmcw-94"])] none "radar" ["mira-35", "rpg-fmcw-94"] =
      some (b, [⟨"y.LV1", b⟩]) := by decide +kernel

/-- **C64.** The instruments the portal is asked for: the preferred types (or the type in brackets after the product)
that can make the product, and all types that can make it if there are none of those. -/
theorem C64_asked (portal : Portal) (prefs : List (String × List String)) (product : String) (model : Option String) :
    (∀ m, m ∈ askedInstruments portal prefs product model → m ∈ portal.sourceInstruments product) ∧
    (∀ m, model = some m → m ∈ portal.sourceInstruments product →
      askedInstruments portal prefs product model = [m]) ∧
    (∀ m, model = some m → m ∉ portal.sourceInstruments product →
      askedInstruments portal prefs product model = portal.sourceInstruments product) ∧
    (model = none → ∀ m, m ∈ askedInstruments portal prefs product model ↔
      m ∈ portal.sourceInstruments product ∧
        ((∃ q ∈ (prefs.lookup product).getD [], ¬"https://hdl.handle.net/".toList <+: q.toList ∧
            q ∈ portal.sourceInstruments product) →
          m ∈ (prefs.lookup product).getD [] ∧ ¬"https://hdl.handle.net/".toList <+: m.toList)) := by
  have hpid : ∀ q : String, (!isPid q) = true ↔ ¬"https://hdl.handle.net/".toList <+: q.toList := by
    intro q
    unfold isPid
    generalize "https://hdl.handle.net/".toList = x
    rw [← List.isPrefixOf_iff_prefix]
    rw [Bool.not_eq_true']
    exact Bool.not_eq_true _ ▸ Iff.rfl
  unfold askedInstruments
  simp only
  refine ⟨?_, ?_, ?_, ?_⟩
  · intro m hm
    cases model <;> dsimp only at hm <;> split at hm <;>
      first
      | exact hm
      | (simp only [List.mem_filter, List.contains_iff_mem] at hm; exact hm.2)
  · rintro m rfl hm
    rw [if_pos ⟨List.ne_nil_of_mem hm, by simp [hm]⟩]
    simp [hm]
  · rintro m rfl hm
    rw [if_neg (by simp [hm])]
  · rintro rfl m
    simp only
    split
    · rename_i h
      obtain ⟨q, l, hq⟩ := List.exists_cons_of_ne_nil h.2
      have hqm : q ∈ (((prefs.lookup product).getD []).filter fun p => !isPid p).filter
          fun m => (portal.sourceInstruments product).contains m := by rw [hq]; simp
      simp only [List.mem_filter, List.contains_iff_mem, hpid] at hqm
      simp only [List.mem_filter, List.contains_iff_mem, hpid]
      constructor
      · rintro ⟨⟨a, b⟩, c⟩
        exact ⟨c, fun _ => ⟨a, b⟩⟩
      · rintro ⟨a, b⟩
        exact ⟨b ⟨q, hqm.1.1, hqm.1.2, hqm.2⟩, a⟩
    · rename_i h
      constructor
      · intro hm
        refine ⟨hm, ?_⟩
        rintro ⟨q, hq1, hq2, hq3⟩
        refine absurd ⟨List.ne_nil_of_mem hm, List.ne_nil_of_mem (a := q) ?_⟩ h
        simp only [List.mem_filter, List.contains_iff_mem, hpid]
        exact ⟨⟨hq1, hq2⟩, hq3⟩
      · exact fun hm => hm.1

/-- **C64, a limit.** Preferring one instrument by its identifier and then another by its type never selects the first
one if it has another type, although it has files and stands first: the portal is only asked for files of the type. -/
theorem C64_pid_preference_ignored :
    ∃ (portal : Portal) (a b : CliInstrument) (prefs : List (String × List String)),
      (prefs.lookup "radar") = some [a.pid, b.instrumentId] ∧ isPid a.pid = true ∧
      (∀ ids, portal.rawFiles ids = [⟨"a.nc", a⟩, ⟨"b.nc", b⟩].filter fun f => ids.contains f.instrument.instrumentId) ∧
      (∀ i, i ∈ [a, b] → i.instrumentId ∈ portal.sourceInstruments "radar") ∧
      instrumentInput portal id prefs none "radar" (askedInstruments portal prefs "radar" none) =
        some (b, [⟨"b.nc", b⟩]) :=
  ⟨⟨fun _ => ["mira-35", "rpg-fmcw-94"], fun ids =>
      [⟨"a.nc", "https://hdl.handle.net/1", "mira-35", "A"⟩, ⟨"b.nc", "https://hdl.handle.net/2", "rpg-fmcw-94", "B"⟩].filter
        fun f => ids.contains f.instrument.instrumentId, fun _ => [], []⟩,
    ⟨"https://hdl.handle.net/1", "mira-35", "A"⟩, ⟨"https://hdl.handle.net/2", "rpg-fmcw-94", "B"⟩,
    [("radar", ["https://hdl.handle.net/1", "rpg-fmcw-94"])], by decide +kernel, by decide +kernel, fun _ => rfl,
    by decide +kernel, by decide +kernel⟩

/-! ## Parsing preferences -/

theorem pyStrip_spec (l : List Char) : Spec.Stripped l (pyStrip (String.ofList l)).toList := by
  unfold pyStrip
  rw [String.toList_ofList, String.toList_ofList]
  set r := l.dropWhile Char.isWhitespace with hr
  have hl : l = l.takeWhile Char.isWhitespace ++ r := (List.takeWhile_append_dropWhile).symm
  have hrr : r = (r.reverse.dropWhile Char.isWhitespace).reverse ++ (r.reverse.takeWhile Char.isWhitespace).reverse := by
    rw [← List.reverse_append, List.takeWhile_append_dropWhile, List.reverse_reverse]
  refine ⟨l.takeWhile Char.isWhitespace, (r.reverse.takeWhile Char.isWhitespace).reverse, ?_, ?_, ?_, ?_⟩
  · rw [List.append_assoc, ← hrr]
    exact hl
  · intro c hc
    rcases List.mem_append.mp hc with h | h
    · exact List.mem_takeWhile_imp h
    · exact List.mem_takeWhile_imp (List.mem_reverse.mp h)
  · intro c hc
    have h1 : r.head? = some c := by rw [hrr, List.head?_append, hc]; rfl
    have := List.head?_dropWhile_not Char.isWhitespace l
    rw [← hr, h1] at this
    simpa using this
  · intro c hc
    rw [List.getLast?_reverse] at hc
    have := List.head?_dropWhile_not Char.isWhitespace r.reverse
    rw [hc] at this
    simpa using this

theorem dropWhile_mem {l : List Char} {c : Char} (h : c ∈ l) :
    ∃ r, l.dropWhile (· != c) = c :: r := by
  induction l with
  | nil => simp at h
  | cons x xs ih =>
    by_cases hx : x = c
    · subst hx
      exact ⟨xs, by simp⟩
    · have hx' : (x != c) = true := by simpa using hx
      rw [List.dropWhile_cons_of_pos (p := fun y => y != c) hx']
      exact ih (by simpa [Ne.symm hx] using h)

theorem splitOn_not_mem (c : Char) (l : List Char) : ∀ p ∈ l.splitOn c, c ∉ p := by
  induction l with
  | nil => simp
  | cons x xs ih =>
    rw [List.splitOn_cons_eq_if_modifyHead]
    split
    · intro p hp
      rcases List.mem_cons.mp hp with rfl | hp
      · simp
      · exact ih p hp
    · rename_i hx
      have hx' : x ≠ c := by simpa using hx
      obtain ⟨y, ys, hy⟩ := List.exists_cons_of_ne_nil (List.splitOn_ne_nil c xs)
      rw [hy] at ih ⊢
      intro p hp
      rw [List.modifyHead_cons] at hp
      rcases List.mem_cons.mp hp with rfl | hp
      · have := ih y (by simp)
        simp [this, Ne.symm hx']
      · exact ih p (by simp [hp])

theorem isPreference_parsedArg (arg : String) (h : ':' ∈ arg.toList) : Spec.IsPreference arg (parsedArg arg) := by
  obtain ⟨r, hr⟩ := dropWhile_mem h
  refine ⟨r.splitOn ',', (r.splitOn ',').map fun p => (pyStrip (String.ofList p)).toList, ?_, ?_, ?_, ?_, ?_, ?_⟩
  · unfold parsedArg
    rw [String.toList_ofList]
    intro hc
    simpa using List.mem_takeWhile_imp hc
  · unfold parsedArg
    rw [String.toList_ofList, List.intercalate_splitOn, ← hr, List.takeWhile_append_dropWhile]
  · exact List.splitOn_ne_nil _ _
  · exact splitOn_not_mem _ _
  · rw [List.forall₂_map_right_iff]
    exact List.forall₂_same.mpr fun p _ => pyStrip_spec p
  · unfold parsedArg prefValues splitChar
    simp only [hr, List.drop_succ_cons, List.drop_zero, String.toList_ofList, List.map_map]
    generalize r.splitOn ',' = ps
    induction ps with
    | nil => rfl
    | cons q qs ih =>
      simp only [List.map_cons, Function.comp_apply]
      generalize pyStrip (String.ofList q) = w
      by_cases hw : w = ""
      · subst hw
        rw [List.filter_cons_of_neg (by decide), List.filter_cons_of_neg (by decide), ih]
      · have hw' : w.toList ≠ [] := fun hh => hw (by rw [← String.ofList_toList (s := w), hh])
        rw [List.filter_cons_of_pos (by simpa using hw), List.filter_cons_of_pos (by simpa using hw'), List.map_cons, ih]

theorem parsePreferences_fold (args : List String) (d : List (String × List String)) :
    (∃ prefs, args.foldlM prefStep d = .ok prefs ∧ (∀ arg ∈ args, ':' ∈ arg.toList ∧
        ∀ v ∈ (parsedArg arg).2, ':' ∈ v.toList → isPid v = true) ∧
      (∀ product, prefs.lookup product =
        if d.lookup product = none ∧ product ∉ args.map (fun a => (parsedArg a).1) then none
        else some ((d.lookup product).getD [] ++
          ((args.map parsedArg).filter fun q => q.1 == product).flatMap Prod.snd))) ∨
    (∃ e, args.foldlM prefStep d = .error e ∧ ∃ arg ∈ args, ':' ∉ arg.toList ∨
      ∃ v ∈ (parsedArg arg).2, ':' ∈ v.toList ∧ ¬isPid v = true) := by
  induction args generalizing d with
  | nil =>
    refine Or.inl ⟨d, rfl, by simp, ?_⟩
    intro product
    cases d.lookup product <;> simp
  | cons arg args ih =>
    rw [List.foldlM_cons]
    by_cases h1 : ':' ∈ arg.toList
    · by_cases h2 : (parsedArg arg).2.any (fun v => decide (':' ∈ v.toList) && !isPid v) = true
      · right
        have hstep : prefStep d arg = .error "ArgumentTypeError: Invalid instrument value" := by
          unfold prefStep
          rw [if_pos h1, if_pos h2]
        refine ⟨_, by rw [hstep]; rfl, arg, by simp, Or.inr ?_⟩
        simpa using h2
      · have hstep : prefStep d arg = .ok (dictSet d (parsedArg arg).1
            ((d.lookup (parsedArg arg).1).getD [] ++ (parsedArg arg).2)) := by
          unfold prefStep
          rw [if_pos h1, if_neg h2]
        have h2' : ∀ v ∈ (parsedArg arg).2, ':' ∈ v.toList → isPid v = true := by simpa using h2
        rw [hstep]
        rcases ih (dictSet d (parsedArg arg).1 ((d.lookup (parsedArg arg).1).getD [] ++ (parsedArg arg).2)) with
          ⟨prefs, hp, hall, hl⟩ | ⟨e, he, a, ha, hbad⟩
        · refine Or.inl ⟨prefs, hp, ?_, ?_⟩
          · intro a ha
            rcases List.mem_cons.mp ha with rfl | ha
            · exact ⟨h1, h2'⟩
            · exact hall a ha
          · intro product
            rw [hl, lookup_dictSet]
            by_cases hk : product = (parsedArg arg).1
            · subst hk
              simp
            · have hm : product ∈ List.map (fun a => (parsedArg a).1) (arg :: args) ↔
                  product ∈ List.map (fun a => (parsedArg a).1) args := by simp [hk]
              rw [if_neg hk, List.map_cons (f := parsedArg), List.filter_cons_of_neg (by simpa using Ne.symm hk)]
              simp only [hm]
        · exact Or.inr ⟨e, he, a, by simp [ha], hbad⟩
    · right
      have hstep : prefStep d arg = .error "ArgumentTypeError: Invalid instrument format" := by
        unfold prefStep
        rw [if_neg h1]
      exact ⟨_, by rw [hstep]; rfl, arg, by simp, Or.inl h1⟩

/-- **C64.** The preference arguments `product:value,…` of the command line. They are rejected exactly if an argument
has no colon or a value has a colon and is not a persistent identifier. Otherwise the preferences of a product are the
values of all its arguments in the order given, and a product without arguments has none. -/
theorem C64_preferences (args : List String) :
    (∃ prefs parsed, parsePreferences args = .ok prefs ∧ List.Forall₂ Spec.IsPreference args parsed ∧
      (∀ q ∈ parsed, ∀ v ∈ q.2, ':' ∈ v.toList → "https://hdl.handle.net/".toList <+: v.toList) ∧
      ∀ product, (product ∉ parsed.map Prod.fst → prefs.lookup product = none) ∧
        (product ∈ parsed.map Prod.fst → prefs.lookup product =
          some ((parsed.filter fun q => q.1 == product).flatMap Prod.snd))) ∨
    (∃ e, parsePreferences args = .error e ∧ ∃ arg ∈ args, ':' ∉ arg.toList ∨
      ∃ parsed, Spec.IsPreference arg parsed ∧ ∃ v ∈ parsed.2, ':' ∈ v.toList ∧
        ¬"https://hdl.handle.net/".toList <+: v.toList) := by
  rcases parsePreferences_fold args [] with ⟨prefs, hp, hall, hl⟩ | ⟨e, he, arg, ha, hbad⟩
  · refine Or.inl ⟨prefs, args.map parsedArg, hp, ?_, ?_, ?_⟩
    · rw [List.forall₂_map_right_iff]
      exact List.forall₂_same.mpr fun a ha => isPreference_parsedArg a (hall a ha).1
    · intro q hq v hv hc
      obtain ⟨a, ha, rfl⟩ := List.mem_map.mp hq
      exact List.isPrefixOf_iff_prefix.mp ((hall a ha).2 v hv hc)
    · intro product
      rw [hl product]
      constructor
      · intro h
        rw [if_pos ⟨rfl, by simpa using h⟩]
      · intro h
        rw [if_neg (fun hh => hh.2 (by simpa using h))]
        rfl
  · refine Or.inr ⟨e, he, arg, ha, ?_⟩
    by_cases hc : ':' ∈ arg.toList
    · rcases hbad with h | ⟨v, hv, h1, h2⟩
      · exact absurd hc h
      · exact Or.inr ⟨_, isPreference_parsedArg arg hc, v, hv, h1, fun hh => h2 (List.isPrefixOf_iff_prefix.mpr hh)⟩
    · exact Or.inl hc

example : parsePreferences ["radar:mira-35, https://hdl.handle.net/1", "lidar:chm15k", "radar: ,basta"] =
      .ok [("radar", ["mira-35", "https://hdl.handle.net/1", "basta"]), ("lidar", ["chm15k"])] ∧
    (parsePreferences ["radar:mira-35,lidar:chm15k"]).isOk = false ∧ (parsePreferences ["mira-35"]).isOk = false := by
  decide +kernel

/-- **C64.** The type in brackets after a product: `name[value]` is split at the first bracket, anything else is a
product name. -/
theorem C64_brackets (s : String) :
    (∀ name value : List Char, '[' ∉ name → s.toList = name ++ '[' :: value ++ [']'] →
      parseInstrument s = (String.ofList name, some (String.ofList value))) ∧
    ((¬∃ name value : List Char, '[' ∉ name ∧ s.toList = name ++ '[' :: value ++ [']']) →
      parseInstrument s = (s, none)) := by
  have key : ∀ name r : List Char, '[' ∉ name → (name ++ '[' :: r).takeWhile (· != '[') = name ∧
      (name ++ '[' :: r).dropWhile (· != '[') = '[' :: r := by
    intro name r hn
    have : ∀ a ∈ name, (a != '[') = true := fun a ha => by
      simp only [bne_iff_ne, ne_eq]
      rintro rfl
      exact hn ha
    constructor
    · rw [List.takeWhile_append_of_pos this, List.takeWhile_cons_of_neg (by simp), List.append_nil]
    · rw [List.dropWhile_append_of_pos this, List.dropWhile_cons_of_neg (by simp)]
  constructor
  · intro name value hn hs
    unfold parseInstrument
    rw [hs, List.append_assoc, List.cons_append, if_pos ⟨by simp, by simp [List.getLast?_append, List.getLast?_cons]⟩, (key name _ hn).1, (key name _ hn).2]
    simp
  · intro h
    unfold parseInstrument
    rw [if_neg]
    rintro ⟨h1, h2⟩
    apply h
    obtain ⟨r, hr⟩ := dropWhile_mem h1
    refine ⟨s.toList.takeWhile (· != '['), r.dropLast, fun hc => by simpa using List.mem_takeWhile_imp hc, ?_⟩
    have h3 : s.toList = s.toList.takeWhile (· != '[') ++ '[' :: r := by
      rw [← hr, List.takeWhile_append_dropWhile]
    have h4 : r.getLast? = some ']' := by
      rw [h3] at h2
      cases r with
      | nil => simp at h2
      | cons a r => simpa [List.getLast?_append, List.getLast?_cons] using h2
    conv_lhs => rw [h3]
    rw [List.append_assoc, List.cons_append]
    congr 2
    exact (List.dropLast_append_getLast? _ h4).symm

example : parseInstrument "lidar[cl61d]" = ("lidar", some "cl61d") ∧ parseInstrument "lidar[cl61d" = ("lidar[cl61d", none) ∧
    parseInstrument "radar" = ("radar", none) := by decide +kernel

/-- **C64.** Of a list of products separated by commas, exactly those are processed whose name (before a bracket) is a
product of the portal or of the model evaluation, in the order of the list. -/
theorem C64_products (valid l3 : List String) (names : List String) (hne : names ≠ [])
    (hcomma : ∀ n ∈ names, ',' ∉ n.toList) :
    parseProducts (String.ofList (List.intercalate [','] (names.map String.toList))) valid l3 =
      names.filter fun n => decide ((parseInstrument n).1 ∈ valid ∨ (parseInstrument n).1 ∈ l3) := by
  have hsplit : splitChar ',' (String.ofList (List.intercalate [','] (names.map String.toList))) = names := by
    unfold splitChar
    rw [String.toList_ofList, List.splitOn_intercalate]
    · rw [List.map_map]
      conv_rhs => rw [← List.map_id names]
      apply List.map_congr_left
      intro n _
      simp
    · intro l hl
      obtain ⟨n, hn, rfl⟩ := List.mem_map.mp hl
      exact hcomma n hn
    · simpa using hne
  unfold parseProducts
  rw [hsplit]
  apply List.filter_congr
  intro n _
  rw [Bool.eq_iff_iff]
  simp

example : parseProducts "radar,nothing,lidar[chm15k],l3-cf" ["radar", "lidar"] ["l3-cf"] =
    ["radar", "lidar[chm15k]", "l3-cf"] := by decide +kernel

/-- **C64.** A model is accepted exactly if it is one of the portal and no other model is derived from it; the accepted
name is returned unchanged. -/
theorem C64_model (models : List PortalModel) (id : String) :
    ((∃ m ∈ models, m.id = id) → (∀ m ∈ models, m.sourceModelId = id → m.id = id) → parseModel models id = .ok id) ∧
    ((∀ m ∈ models, m.id ≠ id) ∨ (∃ m ∈ models, m.sourceModelId = id ∧ m.id ≠ id) →
      ∃ e, parseModel models id = .error e) := by
  have key : ∀ (found : Bool), models.foldlM (fun (found : Bool) m =>
      if id = m.sourceModelId ∧ m.id ≠ m.sourceModelId then
        (.error "ArgumentTypeError: Use another model" : Except String Bool)
      else .ok (found || id == m.id)) found =
      if ∃ m ∈ models, m.sourceModelId = id ∧ m.id ≠ id then .error "ArgumentTypeError: Use another model"
      else .ok (found || models.any fun m => id == m.id) := by
    induction models with
    | nil => intro found; simp [pure, Except.pure]
    | cons m ms ih =>
      intro found
      rw [List.foldlM_cons]
      by_cases h : id = m.sourceModelId ∧ m.id ≠ m.sourceModelId
      · rw [if_pos h, if_pos ⟨m, by simp, h.1.symm, h.1 ▸ h.2⟩]
        rfl
      · rw [if_neg h]
        show List.foldlM _ (found || id == m.id) ms = _
        rw [ih]
        by_cases h2 : ∃ m ∈ ms, m.sourceModelId = id ∧ m.id ≠ id
        · rw [if_pos h2, if_pos]
          obtain ⟨x, hx, hh⟩ := h2
          exact ⟨x, by simp [hx], hh⟩
        · rw [if_neg h2, if_neg]
          · simp [Bool.or_assoc]
          · rintro ⟨x, hx, h3, h4⟩
            rcases List.mem_cons.mp hx with rfl | hx
            · exact h ⟨h3.symm, h3 ▸ h4⟩
            · exact h2 ⟨x, hx, h3, h4⟩
  unfold parseModel
  rw [key]
  constructor
  · rintro ⟨m, hm, hid⟩ h
    rw [if_neg (by rintro ⟨x, hx, h1, h2⟩; exact h2 (h x hx h1))]
    have : (models.any fun m => id == m.id) = true := by
      rw [List.any_eq_true]
      exact ⟨m, hm, by simp [hid]⟩
    simp [bind, Except.bind, pure, Except.pure, this]
  · intro h
    split
    · exact ⟨_, rfl⟩
    · rename_i hn
      rcases h with h | h
      · have : (models.any fun m => id == m.id) = false := by
          rw [List.any_eq_false]
          intro m hm
          simpa using (h m hm).symm
        exact ⟨"ArgumentTypeError: Invalid model", by simp [bind, Except.bind, this]⟩
      · exact absurd h hn

example : parseModel [⟨"ecmwf", "ecmwf"⟩, ⟨"icon-12", "icon"⟩] "ecmwf" = .ok "ecmwf" ∧
    (parseModel [⟨"ecmwf", "ecmwf"⟩, ⟨"icon-12", "icon"⟩] "icon").isOk = false ∧
    (parseModel [⟨"ecmwf", "ecmwf"⟩] "gfs").isOk = false := by decide +kernel

/-! ## The input files of categorize -/

namespace Spec

/-- The file of a product used by the portal: the first one, of those of a given instrument if one is asked for. -/
def IsFirstFile (portal : Portal) (product : String) (source : Option String) (file : String × String) : Prop :=
  ∃ before f after, portal.files product = before ++ f :: after ∧
    (∀ s, source = some s → (∃ i, f.instrument = some i ∧ Fits i s) ∧
      ∀ g ∈ before, ∀ i, g.instrument = some i → ¬Fits i s) ∧
    (source = none → before = []) ∧
    file = (if f.geophysical then "geophysical" else "instrument", f.filename)

/-- There is no such file. -/
def HasNoFile (portal : Portal) (product : String) (source : Option String) : Prop :=
  ∀ f ∈ portal.files product, ∃ s, source = some s ∧ ∀ i, f.instrument = some i → ¬Fits i s

/-- The first of several choices that has a file. -/
def FirstChoice (portal : Portal) (choices : List (String × Option String)) (file : Option (String × String)) : Prop :=
  (file = none ∧ ∀ c ∈ choices, HasNoFile portal c.1 c.2) ∨
  ∃ before c after f, choices = before ++ c :: after ∧ file = some f ∧ (∀ b ∈ before, HasNoFile portal b.1 b.2) ∧
    IsFirstFile portal c.1 c.2 f

/-- Where an instrument file for categorize is looked for: the preferred instruments in order (a preferred lidar also
among the Doppler lidars), then any instrument. -/
def choices (prefs : List String) (product : String) : List (String × Option String) :=
  prefs.flatMap (fun s => if product = "lidar" then [("lidar", some s), ("doppler-lidar", some s)] else [(product, some s)])
    ++ [(product, none)]

end Spec

theorem fetchProduct_spec (portal : Portal) (product : String) (source : Option String) (hs : source ≠ some "") :
    (fetchProduct portal product source = none → Spec.HasNoFile portal product source) ∧
    (∀ f, fetchProduct portal product source = some f → Spec.IsFirstFile portal product source f) := by
  unfold fetchProduct
  cases source with
  | none =>
    dsimp only
    cases hf : portal.files product with
    | nil => simp [Spec.HasNoFile, hf]
    | cons f fs =>
      refine ⟨by simp, ?_⟩
      intro g hg
      exact ⟨[], f, fs, hf, by simp, by simp, by simpa using hg.symm⟩
  | some s =>
    have hs' : s ≠ "" := fun h => hs (by rw [h])
    dsimp only
    rw [if_neg hs']
    have hfit : ∀ f : ProductFile, (f.instrument.any fun i => instrumentMatches i s) = true ↔
        ∃ i, f.instrument = some i ∧ Spec.Fits i s := by
      intro f
      cases f.instrument with
      | none => simp
      | some i => simp [fits_iff]
    constructor
    · intro h
      rw [Option.map_eq_none_iff, List.head?_eq_none_iff, List.filter_eq_nil_iff] at h
      intro f hf
      refine ⟨s, rfl, ?_⟩
      intro i hi hfi
      exact h f hf ((hfit f).mpr ⟨i, hi, hfi⟩)
    · intro file h
      obtain ⟨f, hf, rfl⟩ := Option.map_eq_some_iff.mp h
      rw [List.head?_filter] at hf
      obtain ⟨h1, before, after, h2, h3⟩ := List.find?_eq_some_iff_append.mp hf
      refine ⟨before, f, after, h2, ?_, by simp, rfl⟩
      intro s' hs''
      obtain rfl := Option.some.inj hs''
      refine ⟨(hfit f).mp h1, ?_⟩
      intro g hg i hi hfi
      have := h3 g hg
      rw [Bool.not_eq_true', ← Bool.not_eq_true, hfit] at this
      exact this ⟨i, hi, hfi⟩

theorem firstChoice_findSome (portal : Portal) (cs : List (String × Option String)) (hs : ∀ c ∈ cs, c.2 ≠ some "") :
    Spec.FirstChoice portal cs (cs.findSome? fun c => fetchProduct portal c.1 c.2) := by
  induction cs with
  | nil => exact Or.inl ⟨rfl, by simp⟩
  | cons c cs ih =>
    rw [List.findSome?_cons]
    have hc := fetchProduct_spec portal c.1 c.2 (hs c (by simp))
    cases h : fetchProduct portal c.1 c.2 with
    | some f => exact Or.inr ⟨[], c, cs, f, rfl, rfl, by simp, hc.2 f h⟩
    | none =>
      rcases ih (fun d hd => hs d (by simp [hd])) with ⟨h1, h2⟩ | ⟨before, d, after, f, h1, h2, h3, h4⟩
      · refine Or.inl ⟨h1, ?_⟩
        intro d hd
        rcases List.mem_cons.mp hd with rfl | hd
        · exact hc.1 h
        · exact h2 d hd
      · refine Or.inr ⟨c :: before, d, after, f, by rw [h1]; rfl, h2, ?_, h4⟩
        intro b hb
        rcases List.mem_cons.mp hb with rfl | hb
        · exact hc.1 h
        · exact h3 b hb

theorem fetchInstrument_choices (portal : Portal) (prefs : List (String × List String)) (product : String) :
    fetchInstrument portal prefs product =
      (Spec.choices ((prefs.lookup product).getD []) product).findSome? fun c => fetchProduct portal c.1 c.2 := by
  unfold fetchInstrument Spec.choices
  rw [List.findSome?_append]
  generalize (prefs.lookup product).getD [] = ps
  have : ps.findSome? (fetchPreferred portal product) =
      (ps.flatMap (fun s => if product = "lidar" then [("lidar", some s), ("doppler-lidar", some s)]
        else [(product, some s)])).findSome? (fun c => fetchProduct portal c.1 c.2) := by
    induction ps with
    | nil => rfl
    | cons p ps ih =>
      rw [List.findSome?_cons, List.flatMap_cons, List.findSome?_append, ih]
      unfold fetchPreferred
      by_cases hl : product = "lidar"
      · subst hl
        simp only [if_true, List.findSome?_cons, List.findSome?_nil, beq_self_eq_true]
        cases fetchProduct portal "lidar" (some p) <;> cases fetchProduct portal "doppler-lidar" (some p) <;> rfl
      · simp only [if_neg hl, List.findSome?_cons, List.findSome?_nil, beq_false_of_ne hl, Bool.false_eq_true, if_false]
        cases fetchProduct portal product (some p) <;> rfl
  rw [this]
  simp only [List.findSome?_cons, List.findSome?_nil]
  cases (ps.flatMap (fun s => if product = "lidar" then [("lidar", some s), ("doppler-lidar", some s)]
        else [(product, some s)])).findSome? fun c => fetchProduct portal c.1 c.2 with
  | some f => rfl
  | none => cases fetchProduct portal product none <;> rfl

theorem lookup_downloads (l : List (String × Option (String × String))) (hl : (l.map Prod.fst).Nodup)
    (d : List (String × (String × String))) (name : String) :
    (l.foldl storeFile d).lookup name = ((l.lookup name).join).or (d.lookup name) := by
  induction l generalizing d with
  | nil => simp
  | cons p l ih =>
    rw [List.map_cons, List.nodup_cons] at hl
    rw [List.foldl_cons, ih hl.2, List.lookup_cons]
    by_cases hk : name = p.1
    · have hn : l.lookup name = none := by
        rw [List.lookup_eq_none_iff]
        intro q hq
        simp only [bne_iff_ne]
        rintro rfl
        exact hl.1 (hk ▸ List.mem_map_of_mem hq)
      rw [hn, beq_iff_eq.mpr hk]
      unfold storeFile
      cases hp : p.2 with
      | none => simp
      | some f => simp [lookup_dictSet, hk]
    · rw [beq_false_of_ne hk]
      unfold storeFile
      cases hp : p.2 with
      | none => simp
      | some f => simp [lookup_dictSet, hk]

theorem lookup_perm {β : Type} {l l' : List (String × β)} (h : l.Perm l') (hl : (l.map Prod.fst).Nodup) (name : String) :
    l.lookup name = l'.lookup name := by
  have hl' : (l'.map Prod.fst).Nodup := (h.map Prod.fst).nodup_iff.mp hl
  have key : ∀ (m : List (String × β)), (m.map Prod.fst).Nodup → ∀ v, m.lookup name = some v ↔ (name, v) ∈ m := by
    intro m
    induction m with
    | nil => simp
    | cons p m ih =>
      intro hm v
      rw [List.map_cons, List.nodup_cons] at hm
      rw [List.lookup_cons, List.mem_cons]
      by_cases hk : name = p.1
      · subst hk
        simp only [beq_self_eq_true]
        constructor
        · rintro h
          left
          rw [← Option.some.inj h]
        · rintro (h | h)
          · rw [← h]
          · exact absurd (List.mem_map_of_mem (f := Prod.fst) h) hm.1
      · rw [beq_false_of_ne hk]
        rw [ih hm.2]
        constructor
        · exact Or.inr
        · rintro (h | h)
          · exact absurd (congrArg Prod.fst h) hk
          · exact h
  cases h1 : l.lookup name with
  | some v => exact ((key l' hl' v).mpr (h.mem_iff.mp ((key l hl v).mp h1))).symm
  | none =>
    cases h2 : l'.lookup name with
    | none => rfl
    | some v =>
      rw [(key l hl v).mpr (h.mem_iff.mpr ((key l' hl' v).mp h2))] at h1
      exact absurd h1 (by simp)

theorem any_key_iff {β : Type} (l : List (String × β)) (name : String) :
    (l.any fun p => p.1 == name) = (l.lookup name).isSome := by
  induction l with
  | nil => rfl
  | cons p l ih =>
    rw [List.any_cons, List.lookup_cons, ih]
    by_cases h : name = p.1
    · subst h; simp
    · rw [beq_false_of_ne h, beq_false_of_ne (Ne.symm h)]; simp

/-- **C88.** The input files of categorize do not depend on the order in which the parallel downloads finish. The model
file is the one of the portal. Radar, lidar and disdrometer files made in the same run are used; otherwise the file is
the first one of the first preferred instrument that has any (a preferred lidar may be a Doppler lidar), and of any
instrument if no preferred one has files. The microwave radiometer file is the first found of a single-pointing
product, a radiometer product and an RPG cloud radar; a file made in the same run is used only if there is none of
these. All other files are kept. Without a model file categorize is not made, and two model files are an error. -/
theorem C88_inputs (portal : Portal) (prefs : List (String × List String)) (hprefs : ∀ q ∈ prefs, "" ∉ q.2)
    (inputs : List (String × (String × String))) (hm : inputs.lookup "model" = none)
    (completed : List (String × Option (String × String)) → List (String × Option (String × String)))
    (hc : ∀ l, (completed l).Perm l) :
    (∀ f, portal.modelFiles = [f] → ∃ result, categorizeInputs portal prefs inputs completed = .ok (some result) ∧
      result.lookup "model" = some ("instrument", f.filename) ∧
      (∀ p ∈ ["radar", "lidar", "disdrometer"], (∀ file, inputs.lookup p = some file → result.lookup p = some file) ∧
        (inputs.lookup p = none →
          Spec.FirstChoice portal (Spec.choices ((prefs.lookup p).getD []) p) (result.lookup p))) ∧
      (∃ mwr, Spec.FirstChoice portal [("mwr-single", none), ("mwr", none), ("radar", some "rpg-fmcw-35"),
          ("radar", some "rpg-fmcw-94")] mwr ∧
        (∀ file, mwr = some file → result.lookup "mwr" = some file) ∧
        (mwr = none → result.lookup "mwr" = inputs.lookup "mwr")) ∧
      ∀ p ∉ ["model", "radar", "lidar", "disdrometer", "mwr"], result.lookup p = inputs.lookup p) ∧
    (portal.modelFiles = [] → categorizeInputs portal prefs inputs completed = .ok none) ∧
    (2 ≤ portal.modelFiles.length → ∃ e, categorizeInputs portal prefs inputs completed = .error e) := by
  -- the names of the downloads are different
  have hnd : ∀ model, ((categorizeDownloads portal prefs inputs model).map Prod.fst).Nodup := by
    intro model
    unfold categorizeDownloads
    rw [List.map_cons, List.map_map]
    have : (Prod.fst ∘ fun p => (p, fetchInstrument portal prefs p)) = (id : String → String) := rfl
    rw [this, List.map_id, List.nodup_cons]
    exact ⟨by simp, List.Nodup.filter _ (by decide)⟩
  -- what the downloads leave
  have hdl : ∀ model name, ((completed (categorizeDownloads portal prefs inputs model)).foldl storeFile inputs).lookup name =
      (((categorizeDownloads portal prefs inputs model).lookup name).join).or (inputs.lookup name) := by
    intro model name
    have hp := hc (categorizeDownloads portal prefs inputs model)
    rw [lookup_downloads _ ((hp.map Prod.fst).nodup_iff.mpr (hnd model)),
      lookup_perm hp ((hp.map Prod.fst).nodup_iff.mpr (hnd model))]
  have hmodel : ∀ model, (categorizeDownloads portal prefs inputs model).lookup "model" = some model := by
    intro model
    simp [categorizeDownloads, List.lookup_cons]
  have hinst : ∀ model, ∀ p ∈ ["radar", "lidar", "disdrometer"],
      (categorizeDownloads portal prefs inputs model).lookup p =
        if (inputs.lookup p).isSome then none else some (fetchInstrument portal prefs p) := by
    intro model p hp
    have hpm : p ≠ "model" := by rintro rfl; revert hp; decide
    unfold categorizeDownloads
    rw [List.lookup_cons, beq_false_of_ne hpm]
    dsimp only
    have hgen : ∀ L : List String, (((L.filter fun p => !inputs.any fun q => q.1 == p).map fun p =>
        (p, fetchInstrument portal prefs p)).lookup p) =
        if p ∈ L ∧ ¬(inputs.lookup p).isSome then some (fetchInstrument portal prefs p) else none := by
      intro L
      induction L with
      | nil => simp
      | cons a L ih =>
        have hmem : p ∈ a :: L ↔ p = a ∨ p ∈ L := List.mem_cons
        by_cases ha : (inputs.any fun q => q.1 == a) = true
        · rw [List.filter_cons_of_neg (by rw [ha]; decide), ih]
          rw [any_key_iff] at ha
          by_cases hpa : p = a
          · subst hpa
            rw [if_neg (fun h => h.2 ha), if_neg (fun h => h.2 ha)]
          · simp only [hmem, hpa, false_or]
        · rw [List.filter_cons_of_pos (by rw [Bool.not_eq_true] at ha; rw [ha]; decide), List.map_cons, List.lookup_cons]
          rw [any_key_iff] at ha
          by_cases hpa : p = a
          · subst hpa
            rw [beq_self_eq_true, if_pos ⟨List.mem_cons_self, ha⟩]
          · rw [beq_false_of_ne hpa]
            dsimp only
            rw [ih]
            simp only [hmem, hpa, false_or]
    rw [hgen]
    by_cases hh : (inputs.lookup p).isSome = true
    · rw [if_pos hh, if_neg (by tauto)]
    · rw [if_neg hh, if_pos ⟨hp, hh⟩]
  have hother : ∀ model, ∀ p ∉ ["model", "radar", "lidar", "disdrometer"],
      (categorizeDownloads portal prefs inputs model).lookup p = none := by
    intro model p hp
    rw [List.lookup_eq_none_iff]
    intro q hq
    simp only [bne_iff_ne]
    rintro rfl
    apply hp
    unfold categorizeDownloads at hq
    rcases List.mem_cons.mp hq with rfl | hq
    · simp
    · obtain ⟨a, ha, rfl⟩ := List.mem_map.mp hq
      exact List.mem_cons_of_mem _ (List.mem_filter.mp ha).1
  have hmwr : Spec.FirstChoice portal [("mwr-single", none), ("mwr", none), ("radar", some "rpg-fmcw-35"),
      ("radar", some "rpg-fmcw-94")] (fetchMwr portal) :=
    firstChoice_findSome portal _ (by decide)
  unfold categorizeInputs
  refine ⟨?_, ?_, ?_⟩
  · intro f hf
    have hfm : fetchModel portal = .ok (some ("instrument", f.filename)) := by unfold fetchModel; rw [hf]
    rw [hfm]
    simp only [bind, Except.bind, pure, Except.pure]
    generalize hres : (completed (categorizeDownloads portal prefs inputs (some ("instrument", f.filename)))).foldl
      storeFile inputs = res
    have hl := hdl (some ("instrument", f.filename))
    rw [hres] at hl
    have hfin : ∀ name, (storeFile res ("mwr", fetchMwr portal)).lookup name = if name = "mwr" then (fetchMwr portal).or (res.lookup name) else res.lookup name := by
      intro name
      unfold storeFile
      cases fetchMwr portal with
      | none => simp
      | some g => rw [lookup_dictSet]; split <;> simp
    generalize hfd : (storeFile res ("mwr", fetchMwr portal)) = fin at hfin
    have hmod : fin.lookup "model" = some ("instrument", f.filename) := by
      rw [hfin, if_neg (by decide), hl, hmodel]
      rfl
    rw [if_pos (by rw [any_key_iff, hmod]; rfl)]
    refine ⟨fin, rfl, hmod, ?_, ⟨fetchMwr portal, hmwr, ?_, ?_⟩, ?_⟩
    · intro p hp
      have hp1 : p ≠ "mwr" := by rintro rfl; revert hp; decide
      rw [hfin, if_neg hp1, hl, hinst _ p hp]
      constructor
      · intro file hfile
        simp [hfile]
      · intro hn
        have : (if (inputs.lookup p).isSome = true then none else some (fetchInstrument portal prefs p)) =
            some (fetchInstrument portal prefs p) := by simp [hn]
        rw [this, hn, fetchInstrument_choices]
        simp only [Option.join_some, Option.or_none]
        apply firstChoice_findSome
        intro c hcc
        unfold Spec.choices at hcc
        rcases List.mem_append.mp hcc with h | h
        · obtain ⟨s, hs, hcs⟩ := List.mem_flatMap.mp h
          have hse : s ≠ "" := by
            rintro rfl
            cases hlk : prefs.lookup p with
            | none => rw [hlk] at hs; simp at hs
            | some vs =>
              rw [hlk] at hs
              have : (p, vs) ∈ prefs := by
                clear * - hlk
                induction prefs with
                | nil => simp at hlk
                | cons q prefs ih =>
                  rw [List.lookup_cons] at hlk
                  by_cases h : p = q.1
                  · subst h
                    simp only [beq_self_eq_true, Option.some.injEq] at hlk
                    simp [← hlk]
                  · rw [beq_false_of_ne h] at hlk
                    exact List.mem_cons_of_mem _ (ih hlk)
              exact hprefs _ this hs
          split at hcs <;> simp at hcs
          · rcases hcs with rfl | rfl <;> simpa using hse
          · rw [hcs]; simpa using hse
        · simp at h
          rw [h]
          simp
    · intro file hfile
      rw [hfin, if_pos rfl, hfile]
      rfl
    · intro hn
      rw [hfin, if_pos rfl, hn, hl, hother _ _ (by decide)]
      rfl
    · intro p hp
      have hp1 : p ≠ "mwr" := by rintro rfl; revert hp; decide
      rw [hfin, if_neg hp1, hl, hother _ p (fun h => hp (by
        simp only [List.mem_cons, List.not_mem_nil, or_false] at h ⊢
        tauto))]
      rfl
  · intro hf
    have hfm : fetchModel portal = .ok none := by unfold fetchModel; rw [hf]
    rw [hfm]
    simp only [bind, Except.bind, pure, Except.pure]
    rw [if_neg]
    rw [any_key_iff]
    have hl := hdl none "model"
    rw [hmodel, hm] at hl
    unfold storeFile at hl ⊢
    cases fetchMwr portal with
    | none => dsimp only; rw [hl]; simp
    | some g => dsimp only; rw [lookup_dictSet, if_neg (by decide), hl]; simp
  · intro hf
    have : ∃ e, fetchModel portal = .error e := by
      unfold fetchModel
      match portal.modelFiles, hf with
      | _ :: _ :: _, _ => exact ⟨_, rfl⟩
    obtain ⟨e, he⟩ := this
    exact ⟨e, by rw [he]; rfl⟩

/-- A local radar file, a preferred Doppler lidar, and downloads that finish in reverse order. The radiometer file made
in the same run is replaced by the one of the portal. -/
example : let halo : CliInstrument := ⟨"https://hdl.handle.net/1", "halo", "H"⟩
    let portal : Portal := ⟨fun _ => [], fun _ => [],
      fun p => if p = "lidar" then [⟨"chm.nc", none, false⟩] else if p = "doppler-lidar" then [⟨"halo.nc", some halo, false⟩]
        else if p = "mwr" then [⟨"hatpro.nc", none, false⟩] else [], [⟨"ecmwf.nc", none, false⟩]⟩
    categorizeInputs portal [("lidar", ["halo"])] [("radar", "instrument", "mira.nc"), ("mwr", "instrument", "local.nc")]
      List.reverse = .ok (some [("radar", "instrument", "mira.nc"), ("mwr", "instrument", "hatpro.nc"),
        ("lidar", "instrument", "halo.nc"), ("model", "instrument", "ecmwf.nc")]) := by decide +kernel

end Cloudnet
