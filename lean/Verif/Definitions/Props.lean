import Verif.Definitions.Model
import Verif.ClassFile.Props
import Verif.IceFile.Props
import Verif.DerFile.Props
import Verif.LwcFile.Props
import Mathlib.Tactic

/-! C170 (definition attributes). -/

set_option linter.unusedVariables false

namespace Cloudnet

namespace Spec

/-- A text without its white space. -/
def noSpace (text : List Char) : List Char := text.filter fun c => !pySpace c

/-- What is assumed of the splitting of `textwrap`: the chunks are not empty and together they are the text. -/
def SplitsText (split : List Char → List (List Char)) : Prop := ∀ text, (split text).flatten = text ∧ ∀ c ∈ split text, c ≠ []

/-- A line that goes on with the definition before it. -/
def continues (line : List Char) : Bool := line.head? = some ' '

/-- Reading a definition attribute: a line that does not start with a space begins a definition, the others continue it. -/
def readEntries : List (List Char) → List (List Char)
  | [] => []
  | l :: ls => (l ++ (ls.takeWhile continues).flatten) :: readEntries (ls.dropWhile continues)
termination_by ls => ls.length
decreasing_by
  have := (List.dropWhile_sublist (p := continues) (l := ls)).length_le
  simp only [List.length_cons]
  omega

/-- Reading a definition attribute: the first line is empty. -/
def readDefinitions (text : List Char) : List (List Char) := readEntries (text.splitOn '\n').tail

end Spec

/-! ### Words -/

theorem pySpace_space : pySpace ' ' = true := by decide

theorem pySpace_newline : pySpace '\n' = true := by decide

theorem pyWords_flatten (cs cur : List Char) (h : ∀ c ∈ cur, pySpace c = false) :
    (pyWords cs cur).flatten = cur ++ Spec.noSpace cs ∧ ∀ w ∈ pyWords cs cur, ∀ c ∈ w, pySpace c = false := by
  induction cs generalizing cur with
  | nil =>
    unfold pyWords
    by_cases h0 : cur = []
    · subst h0; simp [Spec.noSpace]
    · simp only [h0, if_false]
      refine ⟨by simp [Spec.noSpace], ?_⟩
      intro w hw
      rw [List.mem_singleton] at hw
      subst hw
      exact h
  | cons c cs ih =>
    unfold pyWords
    by_cases hc : pySpace c = true
    · have hn : Spec.noSpace (c :: cs) = Spec.noSpace cs := by simp [Spec.noSpace, hc]
      obtain ⟨e, m⟩ := ih [] (by simp)
      rw [if_pos hc, hn]
      by_cases h0 : cur = []
      · rw [if_pos h0, h0]
        exact ⟨e, m⟩
      · rw [if_neg h0]
        refine ⟨by rw [List.flatten_cons, e, List.nil_append], ?_⟩
        intro w hw
        rcases List.mem_cons.1 hw with rfl | hw
        · exact h
        · exact m w hw
    · have hc' : pySpace c = false := by simpa using hc
      have hn : Spec.noSpace (c :: cs) = c :: Spec.noSpace cs := by simp [Spec.noSpace, hc']
      obtain ⟨e, m⟩ := ih (cur ++ [c]) (by
        intro x hx
        rcases List.mem_append.1 hx with hx | hx
        · exact h x hx
        · rw [List.mem_singleton] at hx; subst hx; exact hc')
      rw [if_neg hc, hn]
      exact ⟨by rw [e]; simp, m⟩

theorem noSpace_append (a b : List Char) : Spec.noSpace (a ++ b) = Spec.noSpace a ++ Spec.noSpace b := List.filter_append ..

theorem noSpace_of_none {a : List Char} (h : ∀ c ∈ a, pySpace c = false) : Spec.noSpace a = a := by
  unfold Spec.noSpace
  rw [List.filter_eq_self]
  intro c hc
  simp [h c hc]

theorem noSpace_blank {a : List Char} (h : blankChunk a = true) : Spec.noSpace a = [] := by
  unfold Spec.noSpace
  rw [List.filter_eq_nil_iff]
  intro c hc
  simp [List.all_eq_true.1 h c hc]

theorem noSpace_replicate (n : ℕ) : Spec.noSpace (List.replicate n ' ') = [] := by
  apply noSpace_blank
  unfold blankChunk
  rw [List.all_eq_true]
  intro c hc
  rw [List.eq_of_mem_replicate hc]
  exact pySpace_space

theorem noSpace_join (ws : List (List Char)) : Spec.noSpace ([' '].intercalate ws) = Spec.noSpace ws.flatten ∧
    ∀ c ∈ [' '].intercalate ws, c ∈ ws.flatten ∨ c = ' ' := by
  induction ws with
  | nil => exact ⟨rfl, by simp⟩
  | cons w ws ih =>
    cases ws with
    | nil => refine ⟨by simp [List.intercalate], fun c hc => Or.inl (by simpa [List.intercalate] using hc)⟩
    | cons w' ws =>
      rw [List.intercalate_cons_cons]
      refine ⟨?_, ?_⟩
      · rw [noSpace_append, noSpace_append, ih.1, List.flatten_cons (l := w), noSpace_append, show Spec.noSpace [' '] = [] from by decide,
          List.append_nil]
      · intro c hc
        rcases List.mem_append.1 hc with hc | hc
        · rcases List.mem_append.1 hc with hc | hc
          · exact Or.inl (by rw [List.flatten_cons]; exact List.mem_append_left _ hc)
          · exact Or.inr (by simpa using hc)
        · rcases ih.2 c hc with h | h
          · exact Or.inl (by rw [List.flatten_cons]; exact List.mem_append_right _ h)
          · exact Or.inr h

theorem definitionText_noSpace (kind key value : List Char) :
    Spec.noSpace (definitionText kind key value) = Spec.noSpace (kind ++ key ++ [':'] ++ value) := by
  unfold definitionText
  have h := pyWords_flatten value [] (by simp)
  simp only [noSpace_append, (noSpace_join _).1, h.1, List.nil_append]
  rw [show Spec.noSpace [' '] = [] from by decide, show Spec.noSpace [':', ' '] = [':'] from by decide,
    show Spec.noSpace [':'] = [':'] from by decide, noSpace_of_none (a := Spec.noSpace value)]
  · simp
  · intro c hc
    have := (List.mem_filter.1 hc).2
    simpa using this

theorem definitionText_chars (kind key value : List Char) (hkind : ∀ c ∈ kind, pySpace c = false) (hkey : ∀ c ∈ key, pySpace c = false) :
    '\n' ∉ definitionText kind key value := by
  unfold definitionText
  have h := pyWords_flatten value [] (by simp)
  intro hc
  rcases List.mem_append.1 hc with hc | hc
  · rcases List.mem_append.1 hc with hc | hc
    · rcases List.mem_append.1 hc with hc | hc
      · rcases List.mem_append.1 hc with hc | hc
        · exact absurd (hkind _ hc) (by decide)
        · revert hc; decide
      · exact absurd (hkey _ hc) (by decide)
    · revert hc; decide
  · rcases (noSpace_join _).2 _ hc with hc | hc
    · rw [h.1] at hc
      have := (List.mem_filter.1 hc).2
      revert this; decide
    · revert hc; decide

/-! ### One line -/

theorem takeFit_append (width cur : ℕ) (cs : List (List Char)) : (takeFit width cur cs).1 ++ (takeFit width cur cs).2 = cs := by
  induction cs generalizing cur with
  | nil => rfl
  | cons c cs ih =>
    unfold takeFit
    split
    · dsimp only
      rw [List.cons_append, ih]
    · rfl

theorem takeFit_length (width cur : ℕ) (cs : List (List Char)) (h : cur ≤ width) : cur + (takeFit width cur cs).1.flatten.length ≤ width := by
  induction cs generalizing cur with
  | nil => simpa [takeFit] using h
  | cons c cs ih =>
    unfold takeFit
    split
    · next hc =>
      have := ih (cur + c.length) hc
      dsimp only
      rw [List.flatten_cons, List.length_append]
      omega
    · simpa using h

theorem cutLong_bounds (width cur : ℕ) (c : List Char) (hw : 1 ≤ width) :
    cutLong width cur c ≤ width - cur ∧ (cur < width → 1 ≤ cutLong width cur c) := by
  have hs : (if width < 1 then 1 else width - cur) = width - cur := if_neg (by omega)
  unfold cutLong
  rw [hs]
  dsimp only
  split
  · cases hl : lastHyphen c (width - cur) with
    | none => exact ⟨le_refl _, fun h => show 1 ≤ width - cur by omega⟩
    | some i =>
      dsimp only
      have hi : i < width - cur := by
        have := List.mem_of_find?_eq_some hl
        rw [List.mem_reverse, List.mem_range] at this
        omega
      split
      · exact ⟨by omega, fun _ => by omega⟩
      · exact ⟨le_refl _, fun h => by omega⟩
  · exact ⟨le_refl _, fun h => by omega⟩

theorem fitLong_flatten (width : ℕ) (cur rest : List (List Char)) :
    (fitLong width cur rest).1.flatten ++ (fitLong width cur rest).2.flatten = cur.flatten ++ rest.flatten := by
  unfold fitLong
  cases rest with
  | nil => rfl
  | cons c cs =>
    dsimp only
    split
    · simp only [List.flatten_append, List.flatten_cons, List.flatten_nil, List.append_nil, List.append_assoc]
      rw [← List.append_assoc (List.take _ c), List.take_append_drop]
    · rfl

theorem fitLong_length (width : ℕ) (cur rest : List (List Char)) (hw : 1 ≤ width) (h : cur.flatten.length ≤ width) :
    (fitLong width cur rest).1.flatten.length ≤ width := by
  unfold fitLong
  cases rest with
  | nil => exact h
  | cons c cs =>
    dsimp only
    split
    · simp only [List.flatten_append, List.flatten_cons, List.flatten_nil, List.append_nil, List.length_append, List.length_take]
      have := (cutLong_bounds width cur.flatten.length c hw).1
      omega
    · exact h

theorem dropBlankHead_noSpace (cs : List (List Char)) : Spec.noSpace (dropBlankHead cs).flatten = Spec.noSpace cs.flatten ∧
    ∀ x ∈ (dropBlankHead cs).flatten, x ∈ cs.flatten := by
  cases cs with
  | nil => exact ⟨rfl, fun x h => h⟩
  | cons c cs =>
    unfold dropBlankHead
    dsimp only
    by_cases h : blankChunk c = true
    · rw [if_pos h, List.flatten_cons, noSpace_append, noSpace_blank h]
      exact ⟨rfl, fun x hx => List.mem_append_right _ hx⟩
    · rw [if_neg h]
      exact ⟨rfl, fun x h => h⟩

theorem dropBlankLast_cases (cur : List (List Char)) : dropBlankLast cur = cur ∨
    ∃ c, blankChunk c = true ∧ cur = dropBlankLast cur ++ [c] := by
  unfold dropBlankLast
  cases hl : cur.getLast? with
  | none => exact Or.inl rfl
  | some c =>
    dsimp only
    split
    · next h =>
      refine Or.inr ⟨c, h, ?_⟩
      obtain ⟨ys, rfl⟩ := List.getLast?_eq_some_iff.1 hl
      rw [List.dropLast_concat]
    · exact Or.inl rfl

theorem dropBlankLast_noSpace (cur : List (List Char)) : Spec.noSpace (dropBlankLast cur).flatten = Spec.noSpace cur.flatten ∧
    (dropBlankLast cur).flatten.length ≤ cur.flatten.length ∧ ∀ x ∈ (dropBlankLast cur).flatten, x ∈ cur.flatten := by
  rcases dropBlankLast_cases cur with h | ⟨c, hb, h⟩
  · rw [h]; exact ⟨rfl, le_refl _, fun x hx => hx⟩
  · generalize dropBlankLast cur = d at h
    subst h
    rw [List.flatten_append, noSpace_append, List.flatten_singleton, noSpace_blank hb, List.append_nil, List.length_append]
    exact ⟨rfl, by omega, fun x hx => List.mem_append_left _ hx⟩

/-- A line of a positive width: nothing is lost, it is not too long, and the rest is smaller. -/
theorem wrapLine_ok (first : Bool) (width : ℕ) (hw : 1 ≤ width) (chunks : List (List Char)) :
    Spec.noSpace ((wrapLine first width chunks).1.flatten ++ (wrapLine first width chunks).2.flatten) = Spec.noSpace chunks.flatten ∧
    (wrapLine first width chunks).1.flatten.length ≤ width ∧
    (∀ x, x ∈ (wrapLine first width chunks).1.flatten ∨ x ∈ (wrapLine first width chunks).2.flatten → x ∈ chunks.flatten) ∧
    (chunks ≠ [] → chunkSize (wrapLine first width chunks).2 < chunkSize chunks) := by
  set start := if first then chunks else dropBlankHead chunks with hstart
  have hs : Spec.noSpace start.flatten = Spec.noSpace chunks.flatten ∧ ∀ x ∈ start.flatten, x ∈ chunks.flatten := by
    rw [hstart]
    split
    · exact ⟨rfl, fun x h => h⟩
    · exact dropBlankHead_noSpace chunks
  have ha := takeFit_append width 0 start
  have hl : (takeFit width 0 start).1.flatten.length ≤ width := by
    have := takeFit_length width 0 start (by omega)
    omega
  have hf := fitLong_flatten width (takeFit width 0 start).1 (takeFit width 0 start).2
  rw [← List.flatten_append (L₁ := (takeFit width 0 start).1), ha] at hf
  have hd := dropBlankLast_noSpace (fitLong width (takeFit width 0 start).1 (takeFit width 0 start).2).1
  have e1 : (wrapLine first width chunks).1 = dropBlankLast (fitLong width (takeFit width 0 start).1 (takeFit width 0 start).2).1 := rfl
  have e2 : (wrapLine first width chunks).2 = (fitLong width (takeFit width 0 start).1 (takeFit width 0 start).2).2 := rfl
  rw [e1, e2]
  refine ⟨?_, hd.2.1.trans (fitLong_length width _ _ hw hl), ?_, ?_⟩
  · rw [noSpace_append, hd.1, ← noSpace_append, hf, hs.1]
  · intro x hx
    apply hs.2
    rw [← hf]
    rcases hx with hx | hx
    · exact List.mem_append_left _ (hd.2.2 x hx)
    · exact List.mem_append_right _ hx
  · intro hne
    have hsize : chunkSize start ≤ chunkSize chunks ∧ (start = chunks ∨ chunkSize start < chunkSize chunks) := by
      rw [hstart]
      split
      · exact ⟨le_refl _, Or.inl rfl⟩
      · cases chunks with
        | nil => exact absurd rfl hne
        | cons c cs =>
          unfold dropBlankHead
          dsimp only
          by_cases hb : blankChunk c = true
          · rw [if_pos hb]
            simp only [chunkSize, List.map_cons, List.sum_cons]
            exact ⟨by omega, Or.inr (by omega)⟩
          · rw [if_neg hb]
            exact ⟨le_refl _, Or.inl rfl⟩
    have hfit : chunkSize (fitLong width (takeFit width 0 start).1 (takeFit width 0 start).2).2 ≤ chunkSize (takeFit width 0 start).2 ∧
        ((takeFit width 0 start).1 = [] → (takeFit width 0 start).2 ≠ [] →
          chunkSize (fitLong width (takeFit width 0 start).1 (takeFit width 0 start).2).2 < chunkSize (takeFit width 0 start).2) := by
      cases hr : (takeFit width 0 start).2 with
      | nil => exact ⟨le_refl _, fun _ h => absurd rfl h⟩
      | cons c cs =>
        unfold fitLong
        dsimp only
        by_cases hlong : width < c.length
        · rw [if_pos hlong]
          dsimp only
          simp only [chunkSize, List.map_cons, List.sum_cons, List.length_drop]
          refine ⟨by omega, fun h1 _ => ?_⟩
          have := (cutLong_bounds width (takeFit width 0 start).1.flatten.length c hw).2 (by rw [h1]; simp; omega)
          omega
        · rw [if_neg hlong]
          refine ⟨le_refl _, fun h1 _ => ?_⟩
          exfalso
          rw [h1, hr, List.nil_append] at ha
          rw [← ha] at h1
          unfold takeFit at h1
          rw [if_pos (by omega)] at h1
          cases h1
    have htot : chunkSize start = chunkSize (takeFit width 0 start).1 + chunkSize (takeFit width 0 start).2 := by
      conv_lhs => rw [← ha]
      simp only [chunkSize, List.map_append, List.sum_append]
    rcases hsize.2 with h | h
    · rw [← h]
      cases h1 : (takeFit width 0 start).1 with
      | nil =>
        have h2 : (takeFit width 0 start).2 ≠ [] := by
          intro h2
          rw [h1, h2] at ha
          rw [← ha] at h
          exact hne h.symm
        have := hfit.2 h1 h2
        rw [h1] at htot this
        omega
      | cons c cs =>
        have := hfit.1
        rw [h1] at htot this
        simp only [chunkSize, List.map_cons, List.sum_cons] at htot this ⊢
        omega
    · have := hfit.1
      omega

/-! ### All lines -/

/-- Lines after the first one. -/
theorem wrapLoop_more (indent : ℕ) (h1 : 1 ≤ indent) (h2 : indent < 70) (fuel : ℕ) (lines chunks : List (List Char)) (hl : lines ≠ [])
    (hf : chunkSize chunks ≤ fuel) :
    ∃ new, wrapLoop indent fuel lines chunks = lines ++ new ∧ Spec.noSpace new.flatten = Spec.noSpace chunks.flatten ∧
      (∀ l ∈ new, l.length ≤ 70 ∧ l.take indent = List.replicate indent ' ' ∧ ∀ x ∈ l, x ∈ chunks.flatten ∨ x = ' ') := by
  induction fuel generalizing lines chunks with
  | zero =>
    have : chunks = [] := by
      cases chunks with
      | nil => rfl
      | cons c cs => simp [chunkSize] at hf
    subst this
    exact ⟨[], by simp [wrapLoop], rfl, by simp⟩
  | succ fuel ih =>
    cases chunks with
    | nil => exact ⟨[], by simp [wrapLoop], rfl, by simp⟩
    | cons c cs =>
      have hi : wrapIndent indent lines = List.replicate indent ' ' := by unfold wrapIndent; rw [if_neg hl]
      obtain ⟨w1, w2, w3, w4⟩ := wrapLine_ok lines.isEmpty (70 - indent) (by omega) (c :: cs)
      set step := wrapLine lines.isEmpty (70 - indent) (c :: cs) with hstep
      have hrun : wrapLoop indent (fuel + 1) lines (c :: cs) =
          wrapLoop indent fuel (if step.1 = [] then lines else lines ++ [List.replicate indent ' ' ++ step.1.flatten]) step.2 := by
        rw [wrapLoop, hi, List.length_replicate]
      have hsz : chunkSize step.2 ≤ fuel := by have := w4 (by simp); omega
      by_cases he : step.1 = []
      · rw [if_pos he] at hrun
        obtain ⟨new, n1, n2, n3⟩ := ih lines step.2 hl hsz
        refine ⟨new, by rw [hrun, n1], ?_, fun l hm => ?_⟩
        · rw [n2, ← w1, he]; rfl
        · obtain ⟨m1, m2, m3⟩ := n3 l hm
          exact ⟨m1, m2, fun x hx => (m3 x hx).imp_left fun h => w3 x (Or.inr h)⟩
      · rw [if_neg he] at hrun
        obtain ⟨new, n1, n2, n3⟩ := ih (lines ++ [List.replicate indent ' ' ++ step.1.flatten]) step.2 (by simp) hsz
        refine ⟨(List.replicate indent ' ' ++ step.1.flatten) :: new, by rw [hrun, n1, List.append_assoc]; rfl, ?_, fun l hm => ?_⟩
        · rw [List.flatten_cons, noSpace_append, noSpace_append, noSpace_replicate, List.nil_append, n2, ← noSpace_append, w1]
        · rcases List.mem_cons.1 hm with rfl | hm
          · refine ⟨?_, ?_, fun x hx => ?_⟩
            · rw [List.length_append, List.length_replicate]; omega
            · rw [List.take_append_of_le_length (by simp), List.take_of_length_le (by simp)]
            · rcases List.mem_append.1 hx with hx | hx
              · exact Or.inr (List.eq_of_mem_replicate hx)
              · exact Or.inl (w3 x (Or.inl hx))
          · obtain ⟨m1, m2, m3⟩ := n3 l hm
            exact ⟨m1, m2, fun x hx => (m3 x hx).imp_left fun h => w3 x (Or.inr h)⟩

/-- The first line starts with the text. -/
theorem wrapLine_first (chunks : List (List Char)) (a : Char) (as : List Char) (cs : List (List Char)) (hc : chunks = (a :: as) :: cs)
    (ha : pySpace a = false) : ∃ line, (wrapLine true 70 chunks).1 ≠ [] ∧ (wrapLine true 70 chunks).1.flatten = a :: line := by
  have key : ∃ d ds, (fitLong 70 (takeFit 70 0 chunks).1 (takeFit 70 0 chunks).2).1 = (a :: d) :: ds := by
    subst hc
    unfold takeFit
    by_cases hfit : 0 + (a :: as).length ≤ 70
    · rw [if_pos hfit]
      dsimp only
      unfold fitLong
      split
      · exact ⟨_, _, rfl⟩
      · split
        · exact ⟨_, _, rfl⟩
        · exact ⟨_, _, rfl⟩
    · rw [if_neg hfit]
      unfold fitLong
      dsimp only
      rw [if_pos (by omega)]
      dsimp only [List.flatten_nil, List.length_nil, List.nil_append]
      have := (cutLong_bounds 70 0 (a :: as) (by norm_num)).2 (by norm_num)
      obtain ⟨k, hk⟩ : ∃ k, cutLong 70 0 (a :: as) = k + 1 := ⟨_, (Nat.sub_add_cancel this).symm⟩
      rw [hk, List.take_succ_cons]
      exact ⟨_, _, rfl⟩
  obtain ⟨d, ds, hk⟩ := key
  have e1 : (wrapLine true 70 chunks).1 = dropBlankLast (fitLong 70 (takeFit 70 0 chunks).1 (takeFit 70 0 chunks).2).1 := rfl
  rw [e1, hk]
  rcases dropBlankLast_cases ((a :: d) :: ds) with h | ⟨c, hb, h⟩
  · rw [h]
    exact ⟨d ++ ds.flatten, by simp, by simp⟩
  · cases hd : dropBlankLast ((a :: d) :: ds) with
    | nil =>
      rw [hd] at h
      simp only [List.nil_append, List.cons.injEq] at h
      rw [← h.1] at hb
      unfold blankChunk at hb
      rw [List.all_cons, ha] at hb
      cases hb
    | cons x xs =>
      rw [hd] at h
      simp only [List.cons_append, List.cons.injEq] at h
      refine ⟨d ++ xs.flatten, by simp, ?_⟩
      rw [List.flatten_cons, ← h.1, List.cons_append]

/-- The lines of one definition. -/
theorem definitionLines_ok (split : List Char → List (List Char)) (hsplit : Spec.SplitsText split) (k : Char) (kind key value : List Char)
    (hkind : ∀ c ∈ k :: kind, pySpace c = false) (hkey : ∀ c ∈ key, pySpace c = false) (hlen : (k :: kind).length + key.length < 67) :
    ∃ line more, definitionLines split (k :: kind) key value = (k :: line) :: more ∧
      Spec.noSpace ((k :: line) :: more).flatten = Spec.noSpace (k :: kind ++ key ++ [':'] ++ value) ∧
      (∀ l ∈ (k :: line) :: more, l.length ≤ 70 ∧ '\n' ∉ l) ∧
      ∀ l ∈ more, l.take ((k :: kind).length + key.length + 3) = List.replicate ((k :: kind).length + key.length + 3) ' ' := by
  obtain ⟨hflat, hne⟩ := hsplit (definitionText (k :: kind) key value)
  set chunks := split (definitionText (k :: kind) key value) with hch
  have hind : (k :: kind ++ [' '] ++ key ++ [':', ' ']).length = (k :: kind).length + key.length + 3 := by
    simp only [List.length_append, List.length_cons, List.length_nil]
    omega
  set n := (k :: kind).length + key.length + 3 with hn
  obtain ⟨as, cs, hcs⟩ : ∃ as cs, chunks = (k :: as) :: cs := by
    cases hc : chunks with
    | nil => rw [hc] at hflat; simp [definitionText] at hflat
    | cons c cs =>
      have h0 := hne c (by rw [hc]; simp)
      cases c with
      | nil => exact absurd rfl h0
      | cons b bs =>
        rw [hc] at hflat
        have : b = k := by
          have := congrArg List.head? hflat
          simpa [definitionText] using this
        exact ⟨bs, cs, by rw [this]⟩
  obtain ⟨line, hnil, hline⟩ := wrapLine_first chunks k as cs hcs (hkind k (by simp))
  obtain ⟨w1, w2, w3, w4⟩ := wrapLine_ok true 70 (by norm_num) chunks
  have hrun : definitionLines split (k :: kind) key value =
      wrapLoop n (chunkSize chunks - 1) [k :: line] (wrapLine true 70 chunks).2 := by
    have hd : definitionLines split (k :: kind) key value = wrapLoop n (chunkSize chunks) [] chunks := by
      unfold definitionLines
      rw [← hch]
      dsimp only
      rw [hind]
    have hpos : chunkSize chunks = (chunkSize chunks - 1) + 1 := by
      rw [hcs]; simp only [chunkSize, List.map_cons, List.sum_cons]; omega
    rw [hd, hpos]
    have : ∀ f, wrapLoop n (f + 1) [] chunks = wrapLoop n f (if (wrapLine true 70 chunks).1 = [] then [] else
        [] ++ [[] ++ (wrapLine true 70 chunks).1.flatten]) (wrapLine true 70 chunks).2 := by
      intro f
      rw [hcs]
      rfl
    rw [this, if_neg hnil, hline]
    rfl
  have hsz := w4 (by rw [hcs]; simp)
  obtain ⟨new, n1, n2, n3⟩ := wrapLoop_more n (by omega) (by omega) (chunkSize chunks - 1) [k :: line] (wrapLine true 70 chunks).2 (by simp) (by omega)
  have hchars := definitionText_chars (k :: kind) key value hkind hkey
  rw [hline] at w1 w2 w3
  refine ⟨line, new, by rw [hrun, n1]; rfl, ?_, fun l hl => ?_, fun l hl => (n3 l hl).2.1⟩
  · rw [List.flatten_cons, noSpace_append, n2, ← noSpace_append, w1, hflat, definitionText_noSpace]
  · rcases List.mem_cons.1 hl with rfl | hl
    · exact ⟨w2, fun hx => hchars (by rw [← hflat]; exact w3 _ (Or.inl hx))⟩
    · obtain ⟨m1, -, m3⟩ := n3 l hl
      refine ⟨m1, fun hx => ?_⟩
      rcases m3 _ hx with h | h
      · exact hchars (by rw [← hflat]; exact w3 _ (Or.inr h))
      · revert h; decide

theorem readEntries_group (l : List Char) (more rest : List (List Char)) (hm : ∀ x ∈ more, Spec.continues x = true)
    (hr : ∀ x, rest.head? = some x → Spec.continues x = false) :
    Spec.readEntries (l :: (more ++ rest)) = (l ++ more.flatten) :: Spec.readEntries rest := by
  rw [Spec.readEntries]
  have h1 : (more ++ rest).takeWhile Spec.continues = more := by
    induction more with
    | nil =>
      cases rest with
      | nil => rfl
      | cons r rs => simp [hr r rfl]
    | cons m ms ih =>
      rw [List.cons_append, List.takeWhile_cons, hm m (by simp), if_pos rfl, ih fun x hx => hm x (by simp [hx])]
  have h2 : (more ++ rest).dropWhile Spec.continues = rest := by
    have := List.takeWhile_append_dropWhile (p := Spec.continues) (l := more ++ rest)
    rw [h1] at this
    exact List.append_cancel_left this
  rw [h1, h2]

/-- **C170.** A definition attribute can be read: its definitions, as found from the lines that do not start with a space, are those that were
given, in the order given, each with its key and with all of its text apart from white space. -/
theorem C170_readable (split : List Char → List (List Char)) (hsplit : Spec.SplitsText split) (kind : List Char) (hk0 : kind ≠ [])
    (hkind : ∀ c ∈ kind, pySpace c = false) (definitions : List (List Char × List Char))
    (hkey : ∀ d ∈ definitions, (∀ c ∈ d.1, pySpace c = false) ∧ kind.length + d.1.length < 67) :
    (Spec.readDefinitions (formatDefinition split kind definitions)).map Spec.noSpace =
      definitions.map fun d => Spec.noSpace (kind ++ d.1 ++ [':'] ++ d.2) := by
  obtain ⟨k, kind', rfl⟩ : ∃ k kind', kind = k :: kind' := by
    cases kind with
    | nil => exact absurd rfl hk0
    | cons k kind' => exact ⟨k, kind', rfl⟩
  have hk : k ≠ ' ' := by
    intro h
    have := hkind k (by simp)
    rw [h] at this
    revert this; decide
  have hno : ∀ l ∈ [] :: definitions.flatMap fun d => definitionLines split (k :: kind') d.1 d.2, '\n' ∉ l := by
    intro l hl
    rcases List.mem_cons.1 hl with rfl | hl
    · simp
    · obtain ⟨d, hd, hl⟩ := List.mem_flatMap.1 hl
      obtain ⟨line, more, e, -, h3, -⟩ := definitionLines_ok split hsplit k kind' d.1 d.2 hkind (hkey d hd).1 (hkey d hd).2
      rw [e] at hl
      exact (h3 l hl).2
  unfold Spec.readDefinitions formatDefinition
  rw [List.splitOn_intercalate '\n' hno (by simp), List.tail_cons]
  clear hno
  induction definitions with
  | nil => simp [Spec.readEntries]
  | cons d ds ih =>
    obtain ⟨line, more, e, h2, h3, h4⟩ := definitionLines_ok split hsplit k kind' d.1 d.2 hkind (hkey d (by simp)).1 (hkey d (by simp)).2
    rw [List.flatMap_cons, e, List.cons_append, readEntries_group]
    · rw [List.map_cons, List.map_cons, ih fun x hx => hkey x (by simp [hx])]
      rw [← List.flatten_cons, h2]
    · intro x hx
      have := congrArg List.head? (h4 x hx)
      rw [List.replicate_succ] at this
      cases x with
      | nil => simp at this
      | cons y ys =>
        simp only [List.take_succ_cons, List.head?_cons, Option.some.injEq] at this
        simp [Spec.continues, this]
    · intro x hx
      cases ds with
      | nil => simp at hx
      | cons d' ds =>
        obtain ⟨line', more', e', -⟩ := definitionLines_ok split hsplit k kind' d'.1 d'.2 hkind (hkey d' (by simp)).1 (hkey d' (by simp)).2
        rw [List.flatMap_cons, e', List.cons_append, List.head?_cons, Option.some.injEq] at hx
        subst hx
        simp [Spec.continues, hk]

/-- **C170.** No line of a definition attribute is longer than 70 characters, and all lines of a definition but the first are indented to the
start of its text. -/
theorem C170_lines (split : List Char → List (List Char)) (hsplit : Spec.SplitsText split) (kind : List Char) (hk0 : kind ≠ [])
    (hkind : ∀ c ∈ kind, pySpace c = false) (definitions : List (List Char × List Char))
    (hkey : ∀ d ∈ definitions, (∀ c ∈ d.1, pySpace c = false) ∧ kind.length + d.1.length < 67) :
    ∀ l ∈ (formatDefinition split kind definitions).splitOn '\n', l.length ≤ 70 ∧ (l = [] ∨ (∃ rest, l = kind.take 1 ++ rest) ∨
      ∃ d ∈ definitions, ∃ rest, l = List.replicate (kind.length + d.1.length + 3) ' ' ++ rest) := by
  obtain ⟨k, kind', rfl⟩ : ∃ k kind', kind = k :: kind' := by
    cases kind with
    | nil => exact absurd rfl hk0
    | cons k kind' => exact ⟨k, kind', rfl⟩
  have hno : ∀ l ∈ [] :: definitions.flatMap fun d => definitionLines split (k :: kind') d.1 d.2, '\n' ∉ l ∧ l.length ≤ 70 ∧
      (l = [] ∨ (∃ rest, l = (k :: kind').take 1 ++ rest) ∨ ∃ d ∈ definitions, ∃ rest, l = List.replicate ((k :: kind').length + d.1.length + 3) ' ' ++ rest) := by
    intro l hl
    rcases List.mem_cons.1 hl with rfl | hl
    · simp
    · obtain ⟨d, hd, hl⟩ := List.mem_flatMap.1 hl
      obtain ⟨line, more, e, -, h3, h4⟩ := definitionLines_ok split hsplit k kind' d.1 d.2 hkind (hkey d hd).1 (hkey d hd).2
      rw [e] at hl
      refine ⟨(h3 l hl).2, (h3 l hl).1, ?_⟩
      rcases List.mem_cons.1 hl with rfl | hl
      · exact Or.inr (Or.inl ⟨line, rfl⟩)
      · refine Or.inr (Or.inr ⟨d, hd, l.drop ((k :: kind').length + d.1.length + 3), ?_⟩)
        rw [← h4 l hl, List.take_append_drop]
  unfold formatDefinition
  rw [List.splitOn_intercalate '\n' (fun l hl => (hno l hl).1) (by simp)]
  exact fun l hl => (hno l hl).2

theorem prefix_colon {a b x y : List Char} (ha : ':' ∉ a) (hb : ':' ∉ b) (h : a ++ ':' :: x = b ++ ':' :: y) : a = b := by
  induction a generalizing b with
  | nil =>
    cases b with
    | nil => rfl
    | cons c b =>
      rw [List.nil_append, List.cons_append, List.cons.injEq] at h
      exact absurd (by rw [h.1]; simp) hb
  | cons c a ih =>
    cases b with
    | nil =>
      rw [List.nil_append, List.cons_append, List.cons.injEq] at h
      exact absurd (by rw [← h.1]; simp) ha
    | cons d b =>
      rw [List.cons_append, List.cons_append, List.cons.injEq] at h
      rw [h.1, ih (fun hc => ha (by simp [hc])) (fun hc => hb (by simp [hc])) h.2]

/-- **C170.** The meaning of a key is found: among the definitions read from the attribute there is exactly one that starts with the kind and the
key followed by a colon, and it is the one that was given for this key. -/
theorem C170_lookup (split : List Char → List (List Char)) (hsplit : Spec.SplitsText split) (kind : List Char) (hk0 : kind ≠ [])
    (hkind : ∀ c ∈ kind, pySpace c = false) (definitions : List (List Char × List Char)) (hnodup : (definitions.map Prod.fst).Nodup)
    (hkey : ∀ d ∈ definitions, (∀ c ∈ d.1, pySpace c = false) ∧ kind.length + d.1.length < 67 ∧ ':' ∉ d.1)
    (d : List Char × List Char) (hd : d ∈ definitions) :
    ((Spec.readDefinitions (formatDefinition split kind definitions)).map Spec.noSpace).filter
      (fun entry => (kind ++ d.1 ++ [':']).isPrefixOf entry) = [kind ++ d.1 ++ [':'] ++ Spec.noSpace d.2] := by
  rw [C170_readable split hsplit kind hk0 hkind definitions fun x hx => ⟨(hkey x hx).1, (hkey x hx).2.1⟩]
  have hform : ∀ x ∈ definitions, Spec.noSpace (kind ++ x.1 ++ [':'] ++ x.2) = kind ++ (x.1 ++ ':' :: Spec.noSpace x.2) := by
    intro x hx
    rw [noSpace_append, noSpace_append, noSpace_append, noSpace_of_none hkind, noSpace_of_none (hkey x hx).1,
      show Spec.noSpace [':'] = [':'] from by decide]
    simp
  have hpre : ∀ x ∈ definitions, (kind ++ d.1 ++ [':']).isPrefixOf (Spec.noSpace (kind ++ x.1 ++ [':'] ++ x.2)) = decide (x.1 = d.1) := by
    intro x hx
    rw [hform x hx, Bool.eq_iff_iff, List.isPrefixOf_iff_prefix, decide_eq_true_iff, List.append_assoc, List.prefix_append_right_inj]
    constructor
    · rintro ⟨y, hy⟩
      rw [List.append_assoc] at hy
      exact (prefix_colon (hkey d hd).2.2 (hkey x hx).2.2 hy).symm
    · intro h
      rw [h]
      exact ⟨Spec.noSpace x.2, by simp⟩
  have hgen : ∀ l : List (List Char × List Char), (∀ x ∈ l, x ∈ definitions) → (l.map Prod.fst).Nodup → d ∈ l →
      (l.map fun x => Spec.noSpace (kind ++ x.1 ++ [':'] ++ x.2)).filter (fun entry => (kind ++ d.1 ++ [':']).isPrefixOf entry) =
        [kind ++ d.1 ++ [':'] ++ Spec.noSpace d.2] := by
    intro l hl hn hm
    induction l with
    | nil => simp at hm
    | cons x l ih =>
      rw [List.map_cons, List.nodup_cons] at hn
      rw [List.map_cons, List.filter_cons, hpre x (hl x (by simp))]
      by_cases hxd : x.1 = d.1
      · have hnot : ∀ y ∈ l, y.1 ≠ d.1 := fun y hy h => hn.1 (by rw [hxd, ← h]; exact List.mem_map_of_mem hy)
        have hx : x = d := by
          rcases List.mem_cons.1 hm with h | h
          · exact h.symm
          · exact absurd rfl (hnot d h)
        rw [if_pos (by simpa using hxd), hform x (hl x (by simp)), hx]
        have : (l.map fun x => Spec.noSpace (kind ++ x.1 ++ [':'] ++ x.2)).filter (fun entry => (kind ++ d.1 ++ [':']).isPrefixOf entry) = [] := by
          rw [List.filter_eq_nil_iff]
          intro e he
          obtain ⟨y, hy, rfl⟩ := List.mem_map.1 he
          rw [hpre y (hl y (by simp [hy]))]
          simpa using hnot y hy
        rw [this]
        simp
      · rw [if_neg (by simpa using hxd)]
        refine ih (fun y hy => hl y (by simp [hy])) hn.2 ?_
        rcases List.mem_cons.1 hm with h | h
        · exact absurd (by rw [h]) hxd
        · exact h
  exact hgen definitions (fun x hx => hx) hnodup hd

/-! ### The tables of the products -/

theorem key_chars : ∀ n < 100, (∀ c ∈ (toString n).toList, pySpace c = false) ∧ (toString n).toList.length ≤ 2 ∧ ':' ∉ (toString n).toList := by
  decide +kernel

theorem tables_ok : ∀ t ∈ definitionTables, (∀ d ∈ t.2, d.1 < 100) ∧ (t.2.map fun d => (toString d.1).toList).Nodup := by
  decide +kernel

/-- **C170.** In every `definition` attribute that the package writes, the meaning of every value (or bit) of its table is found, exactly once, with all of
its text. -/
theorem C170_tables (split : List Char → List (List Char)) (hsplit : Spec.SplitsText split) (table : Bool × List (ℕ × String))
    (ht : table ∈ definitionTables) (d : ℕ × String) (hd : d ∈ table.2) :
    ((Spec.readDefinitions (if table.1 then statusFieldDefinition split table.2 else bitFieldDefinition split table.2).toList).map Spec.noSpace).filter
      (fun entry => ((if table.1 then "Value".toList else "Bit".toList) ++ (toString d.1).toList ++ [':']).isPrefixOf entry) =
      [(if table.1 then "Value".toList else "Bit".toList) ++ (toString d.1).toList ++ [':'] ++ Spec.noSpace d.2.toList] := by
  obtain ⟨h1, h2⟩ := tables_ok table ht
  have hkey : ∀ kind : List Char, kind.length ≤ 5 → ∀ x ∈ table.2.map (fun d => ((toString d.1).toList, d.2.toList)),
      (∀ c ∈ x.1, pySpace c = false) ∧ kind.length + x.1.length < 67 ∧ ':' ∉ x.1 := by
    intro kind hkind x hx
    obtain ⟨y, hy, rfl⟩ := List.mem_map.1 hx
    obtain ⟨k1, k2, k3⟩ := key_chars y.1 (h1 y hy)
    exact ⟨k1, by dsimp only; omega, k3⟩
  have hn : ((table.2.map fun d => ((toString d.1).toList, d.2.toList)).map Prod.fst).Nodup := by rw [List.map_map]; exact h2
  have hm := List.mem_map_of_mem (f := fun d : ℕ × String => ((toString d.1).toList, d.2.toList)) hd
  cases table.1 with
  | true =>
    change ((Spec.readDefinitions (statusFieldDefinition split table.2).toList).map Spec.noSpace).filter
      (fun entry => ("Value".toList ++ (toString d.1).toList ++ [':']).isPrefixOf entry) =
      ["Value".toList ++ (toString d.1).toList ++ [':'] ++ Spec.noSpace d.2.toList]
    have e : (statusFieldDefinition split table.2).toList = formatDefinition split "Value".toList (table.2.map fun d => ((toString d.1).toList, d.2.toList)) :=
      String.toList_ofList
    rw [e]
    exact C170_lookup split hsplit "Value".toList (by decide) (by decide) _ hn (hkey _ (by decide)) _ hm
  | false =>
    change ((Spec.readDefinitions (bitFieldDefinition split table.2).toList).map Spec.noSpace).filter
      (fun entry => ("Bit".toList ++ (toString d.1).toList ++ [':']).isPrefixOf entry) =
      ["Bit".toList ++ (toString d.1).toList ++ [':'] ++ Spec.noSpace d.2.toList]
    have e : (bitFieldDefinition split table.2).toList = formatDefinition split "Bit".toList (table.2.map fun d => ((toString d.1).toList, d.2.toList)) :=
      String.toList_ofList
    rw [e]
    exact C170_lookup split hsplit "Bit".toList (by decide) (by decide) _ hn (hkey _ (by decide)) _ hm

/-- **C170.** No line of these attributes is longer than 70 characters. -/
theorem C170_tables_lines (split : List Char → List (List Char)) (hsplit : Spec.SplitsText split) (table : Bool × List (ℕ × String))
    (ht : table ∈ definitionTables) :
    ∀ l ∈ (if table.1 then statusFieldDefinition split table.2 else bitFieldDefinition split table.2).toList.splitOn '\n', l.length ≤ 70 := by
  obtain ⟨h1, h2⟩ := tables_ok table ht
  have hkey : ∀ kind : List Char, kind.length ≤ 5 → ∀ x ∈ table.2.map (fun d => ((toString d.1).toList, d.2.toList)),
      (∀ c ∈ x.1, pySpace c = false) ∧ kind.length + x.1.length < 67 := by
    intro kind hkind x hx
    obtain ⟨y, hy, rfl⟩ := List.mem_map.1 hx
    obtain ⟨k1, k2, k3⟩ := key_chars y.1 (h1 y hy)
    exact ⟨k1, by dsimp only; omega⟩
  intro l hl
  cases hb : table.1 with
  | true =>
    rw [hb, if_pos rfl] at hl
    unfold statusFieldDefinition at hl
    rw [String.toList_ofList] at hl
    exact (C170_lines split hsplit _ (by decide) (by decide) _ (hkey _ (by decide)) l hl).1
  | false =>
    rw [hb, if_neg (by decide)] at hl
    unfold bitFieldDefinition at hl
    rw [String.toList_ofList] at hl
    exact (C170_lines split hsplit _ (by decide) (by decide) _ (hkey _ (by decide)) l hl).1

/-! ### Values of the files have a meaning -/

/-- A value is explained in a table. -/
def Spec.Explained (table : List (ℕ × String)) (value : ℕ) : Prop := ∃ text, (value, text) ∈ table

theorem explained_of_le (table : List (ℕ × String)) (n : ℕ) (h : ∀ k ≤ n, k ∈ table.map Prod.fst) (value : ℕ) (hv : value ≤ n) :
    Spec.Explained table value := by
  obtain ⟨⟨k, text⟩, hm, hk⟩ := List.mem_map.1 (h value hv)
  dsimp only at hk
  subst hk
  exact ⟨text, hm⟩

theorem assign_mem {α : Type} (S : α → Prop) (g : Grid α) (m : Grid Bool) (v : α) (t h : ℕ) (hg : S (g t h)) (hv : S v) : S (g.assign m v t h) := by
  rw [Grid.assign_apply]
  cases m t h
  · exact hg
  · exact hv

theorem detectionStatus_le (q : QualityBits) (t h : ℕ) : detectionStatus q t h ≤ 9 := by
  unfold detectionStatus
  refine assign_mem (· ≤ 9) _ _ _ t h ?_ (by decide)
  refine assign_mem (· ≤ 9) _ _ _ t h ?_ (by decide)
  refine assign_mem (· ≤ 9) _ _ _ t h ?_ (by decide)
  refine assign_mem (· ≤ 9) _ _ _ t h ?_ (by decide)
  refine assign_mem (· ≤ 9) _ _ _ t h ?_ (by decide)
  refine assign_mem (· ≤ 9) _ _ _ t h ?_ (by decide)
  refine assign_mem (· ≤ 9) _ _ _ t h ?_ (by decide)
  refine assign_mem (· ≤ 9) _ _ _ t h ?_ (by decide)
  refine assign_mem (· ≤ 9) _ _ _ t h ?_ (by decide)
  exact Nat.zero_le _

theorem signalSourceStatus_le (q : QualityBits) (t h : ℕ) : signalSourceStatus q t h ≤ 3 := by
  unfold signalSourceStatus
  refine assign_mem (· ≤ 3) _ _ _ t h ?_ (by decide)
  refine assign_mem (· ≤ 3) _ _ _ t h ?_ (by decide)
  refine assign_mem (· ≤ 3) _ _ _ t h ?_ (by decide)
  exact Nat.zero_le _

theorem radarAttenuationStatus_le {α : Type} [Field α] [LinearOrder α] (d : AttenuationInput α) (q : QualityBits) (t h : ℕ) :
    radarAttenuationStatus d q t h ≤ 6 := by
  unfold radarAttenuationStatus
  refine assign_mem (· ≤ 6) _ _ _ t h ?_ (by decide)
  refine assign_mem (· ≤ 6) _ _ _ t h ?_ (by decide)
  refine assign_mem (· ≤ 6) _ _ _ t h ?_ (by decide)
  refine assign_mem (· ≤ 6) _ _ _ t h ?_ (by decide)
  refine assign_mem (· ≤ 6) _ _ _ t h ?_ (by decide)
  refine assign_mem (· ≤ 6) _ _ _ t h ?_ (by decide)
  exact Nat.zero_le _

/-- **C170.** Every value of the status variables of a classification file is explained by the `definition` of its variable. -/
theorem C170_classification {α : Type} [Field α] [LinearOrder α] (nT nH : ℕ) (categoryBits qualityBits : Grid ℤ) (att : AttenuationInput α)
    (height : ℕ → α) (altitude : α) (out : ClassificationFile α)
    (hout : generateClassification nT nH categoryBits qualityBits att height altitude = .ok out) (t h : ℕ) :
    Spec.Explained targetClassificationTable (out.target t h) ∧ Spec.Explained detectionStatusTable (out.detection t h) ∧
    Spec.Explained signalSourceStatusTable (out.signalSource t h) ∧ Spec.Explained radarAttenuationStatusTable (out.attenuation t h) ∧
    ∀ s, out.topStatus t = some s → Spec.Explained cloudTopHeightStatusTable s := by
  unfold generateClassification at hout
  rw [readCategoryBits_eq, readQualityBits_eq] at hout
  simp only [bind, Except.bind, pure, Except.pure] at hout
  split at hout
  · cases hout
  · next v hv =>
    obtain ⟨bases, tops⟩ := v
    cases hout
    refine ⟨explained_of_le _ 10 (by decide) _ (C05_target_range _ _ t h), explained_of_le _ 9 (by decide) _ ?_, explained_of_le _ 3 (by decide) _ ?_,
      explained_of_le _ 6 (by decide) _ ?_, fun s hs => explained_of_le _ 4 (by decide) _ ?_⟩
    · exact detectionStatus_le _ t h
    · exact signalSourceStatus_le _ t h
    · exact radarAttenuationStatus_le _ _ t h
    · dsimp only at hs
      cases ht : tops t with
      | none => rw [ht] at hs; cases hs
      | some top =>
        rw [ht] at hs
        simp only [Option.map_some, Option.some.injEq] at hs
        subst hs
        simp only [cloudTopStatus]
        repeat' (first | omega | split)

theorem iceStatus_codes {α : Type} (m : IceMasks) (data : Grid (Option α)) (t h : ℕ) : iceStatus m data t h ∈ [0, 1, 2, 3, 4, 6, 7] := by
  unfold iceStatus
  refine assign_mem (· ∈ [0, 1, 2, 3, 4, 6, 7]) _ _ _ t h ?_ (by decide)
  refine assign_mem (· ∈ [0, 1, 2, 3, 4, 6, 7]) _ _ _ t h ?_ (by decide)
  refine assign_mem (· ∈ [0, 1, 2, 3, 4, 6, 7]) _ _ _ t h ?_ (by decide)
  refine assign_mem (· ∈ [0, 1, 2, 3, 4, 6, 7]) _ _ _ t h ?_ (by decide)
  refine assign_mem (· ∈ [0, 1, 2, 3, 4, 6, 7]) _ _ _ t h ?_ (by decide)
  refine assign_mem (· ∈ [0, 1, 2, 3, 4, 6, 7]) _ _ _ t h ?_ (by decide)
  exact List.mem_cons_self ..

theorem ice_explained {n : ℕ} (h : n ∈ [0, 1, 2, 3, 4, 6, 7]) : Spec.Explained iwcRetrievalStatusTable n :=
  explained_of_le _ 7 (by decide) _ (by revert h; simp only [List.mem_cons, List.not_mem_nil, or_false]; omega)

/-- **C170.** Every value of the status of the ice products is explained; the value 5 (deprecated according to its definition) is never written. -/
theorem C170_ice (f : IceInput) :
    (∀ out, generateIwc f = .ok out → ∀ t h, Spec.Explained iwcRetrievalStatusTable (out.status t h) ∧ out.status t h ≠ 5) ∧
    ∀ out, generateIer f = .ok out → ∀ t h, Spec.Explained iwcRetrievalStatusTable (out.status t h) ∧ out.status t h ≠ 5 := by
  have h5 : ∀ n, n ∈ [0, 1, 2, 3, 4, 6, 7] → n ≠ 5 := by
    intro n hn h
    rw [h] at hn
    revert hn
    decide
  refine ⟨fun out hout t h => ?_, fun out hout t h => ?_⟩
  · obtain ⟨band, k, m, z, bias, sensitivity, zError, -, -, -, -, -, -, -, -, -, -, e⟩ := generateIwc_ok f out hout
    rw [e]
    exact ⟨ice_explained (iceStatus_codes m _ t h), h5 _ (iceStatus_codes m _ t h)⟩
  · unfold generateIer at hout
    cases hs : iceSource "ier" f with
    | error e => rw [hs] at hout; cases hout
    | ok s =>
    cases hm : iceMasks f with
    | error e => rw [hs, hm] at hout; cases hout
    | ok m =>
    cases hz : readVar f.z with
    | error e => rw [hs, hm, hz] at hout; cases hout
    | ok z =>
      rw [hs, hm, hz] at hout
      cases hout
      exact ⟨ice_explained (iceStatus_codes m _ t h), h5 _ (iceStatus_codes m _ t h)⟩

/-- **C170.** Every value of the status of the droplet effective radius is explained. -/
theorem C170_der (p : Option DerParameters) (f : DerInput) (out : DerFile) (hout : generateDer p f = .ok out) (t h : ℕ) :
    Spec.Explained derRetrievalStatusTable (out.status t h) := by
  obtain ⟨z, lwp, rain, d, -, -, -, -, -, -, -, -, ⟨c, -, e⟩, -⟩ := generateDer_ok p f out hout
  rw [e]
  refine explained_of_le _ 4 (by decide) _ ?_
  unfold derStatus
  refine assign_mem (· ≤ 4) _ _ _ t h ?_ (by decide)
  refine assign_mem (· ≤ 4) _ _ _ t h ?_ (by decide)
  refine assign_mem (· ≤ 4) _ _ _ t h ?_ (by decide)
  refine assign_mem (· ≤ 4) _ _ _ t h ?_ (by decide)
  exact Nat.zero_le _

/-- **C170.** Every value of the status of the liquid water content is explained. The values 5 and 6 of its definition are never written: profiles with rain,
for which 6 is meant, have the value 4. -/
theorem C170_lwc (g : ℝ → ℝ → ℝ) (f : LwcInput) (hg : ∀ t h, 0 < g (f.temperatureAt t h) (f.pressureAt t h)) (hh : Spec.GoodHeights f)
    (a : Grid ℝ) (ha : ∀ t < f.nT, ∀ h < f.nH, Spec.AdiabaticContent g f t h (a t h))
    (out : LwcFile) (hout : generateLwc g f = .ok out) (t h : ℕ) (ht : t < f.nT) :
    Spec.Explained lwcRetrievalStatusTable (out.status t h) ∧ out.status t h ≠ 5 ∧ out.status t h ≠ 6 ∧
    (Spec.RainyProfile f t → out.status t h = 4) := by
  obtain ⟨h4, -, -, -, hle⟩ := C142_status g f hg hh a ha out hout t h ht
  exact ⟨explained_of_le _ 6 (by decide) _ (by omega), by omega, by omega, fun hr => h4.2 (Or.inl hr)⟩

/-- **C170.** Every bit that is set in the bit fields of a categorize file is explained. -/
theorem C170_bits (c : CategoryBits) (q : QualityBits) (t h n : ℕ) :
    ((classesToBits c.fields t h).testBit n = true → Spec.Explained categoryBitsTable n) ∧
    ((classesToBits q.fields t h).testBit n = true → Spec.Explained qualityBitsTable n) := by
  have hbit : ∀ (v : ℤ) (k : ℕ), 0 ≤ v → v < 2 ^ k → v.testBit n = true → n < k := by
    intro v k h0 hk hn
    lift v to ℕ using h0
    by_contra hc
    have : v.testBit n = false := Nat.testBit_lt_two_pow (lt_of_lt_of_le (by exact_mod_cast hk) (Nat.pow_le_pow_right (by norm_num) (not_lt.1 hc)))
    have h2 : (v : ℤ).testBit n = v.testBit n := rfl
    rw [h2, this] at hn
    cases hn
  obtain ⟨c1, c2, -⟩ := C01_category_bits_positions c t h
  obtain ⟨q1, q2, -⟩ := C02_quality_bits_positions q t h
  refine ⟨fun hn => explained_of_le _ 5 (by decide) _ ?_, fun hn => explained_of_le _ 9 (by decide) _ ?_⟩
  · have := hbit _ 6 c1 (by simpa using c2) hn
    omega
  · have := hbit _ 10 q1 (by simpa using q2) hn
    omega

/-- A splitting that meets the assumption: every character is a chunk. -/
example : Spec.SplitsText fun text => text.map fun c => [c] := by
  intro text
  refine ⟨by induction text with
    | nil => rfl
    | cons c cs ih => exact congrArg (c :: ·) ih, fun c hc => ?_⟩
  obtain ⟨x, -, rfl⟩ := List.mem_map.1 hc
  simp

/-- Chunks of words and of single spaces, for the example below. -/
example : statusFieldDefinition (fun text => (text.splitOn ' ').intersperse [' '] |>.filter (· ≠ [])) [(0, "Clear sky."), (1, "Retrieval performed with radar corrected for liquid, rain and\n     melting attenuation.")] =
    "\nValue 0: Clear sky.\nValue 1: Retrieval performed with radar corrected for liquid, rain and\n         melting attenuation." := by
  decide +kernel

end Cloudnet
