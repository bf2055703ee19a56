import Mathlib.Tactic
import Verif.Lidar.Select
import Verif.Ceilo.Props
import Verif.Disdronator.ParsivelProps
import Verif.Radiometrics.Props

/-! Properties of the choice of the reader and of the steps around the noise screening (C125). -/

namespace Cloudnet

namespace Spec

/-- The header line of a message of a Vaisala ceilometer. -/
def CeiloHeader (l : List Char) (c : CeiloClass) : Prop :=
  (∃ rest, l = '\x01' :: 'C' :: 'L' :: rest ∧ c = .cl) ∨ (∃ rest, l = '\x01' :: 'C' :: 'T' :: rest ∧ c = .ct25k)

/-- The documented names of models. -/
def ceiloModels : List (String × CeiloClass) :=
  [("cl31", .cl), ("cl51", .cl), ("cl61d", .cl61d), ("ct25k", .ct25k), ("chm15k", .lufft), ("cs135", .cs135), ("da10", .da10)]

end Spec

/-- **C125.** A given model decides, whatever the file is; another name than the seven known ones is a `ValueError`. -/
theorem C125_given (m : String) (file : CeiloFile) :
    (∀ c, ceiloClass (some m) file = .ok c ↔ (m, c) ∈ Spec.ceiloModels) ∧
    ((∀ c, (m, c) ∉ Spec.ceiloModels) ↔ ceiloClass (some m) file = .error "ValueError") := by
  by_cases h : m ∈ ["cl31", "cl51", "cl61d", "ct25k", "chm15k", "cs135", "da10"]
  · have hex : ∃ c, ceiloClass (some m) file = .ok c ∧ ∀ d, (m, d) ∈ Spec.ceiloModels ↔ d = c := by
      simp only [List.mem_cons, List.not_mem_nil, or_false] at h
      rcases h with rfl | rfl | rfl | rfl | rfl | rfl | rfl <;> exact ⟨_, rfl, fun d => by cases d <;> decide⟩
    obtain ⟨c, hc, hu⟩ := hex
    refine ⟨fun d => ?_, ?_⟩
    · rw [hc, hu]
      constructor
      · intro e; exact (Except.ok.inj e).symm
      · rintro rfl; rfl
    · rw [hc]
      constructor
      · intro hn; exact absurd ((hu c).2 rfl) (hn c)
      · intro e; cases e
  · have e : ceiloClass (some m) file = .error "ValueError" := by
      unfold ceiloClass
      simp only [h, not_false_eq_true, if_true]
    have hn : ∀ c, (m, c) ∉ Spec.ceiloModels := by
      intro c hc
      apply h
      simp only [Spec.ceiloModels, List.mem_cons, Prod.mk.injEq, List.not_mem_nil, or_false] at hc
      simp only [List.mem_cons, List.not_mem_nil, or_false]
      tauto
    refine ⟨fun c => ⟨fun hc => ?_, fun hc => absurd hc (hn c)⟩, fun _ => e, fun _ => hn⟩
    rw [e] at hc
    cases hc

/-- The name stored for a header line. -/
def ceiloHeaderName : CeiloClass → String
  | .ct25k => "ct25k"
  | _ => "cl31_or_cl51"

theorem ceiloLine_spec (m : Option String) (l : List Char) :
    (∀ c, Spec.CeiloHeader l c → ceiloLine m l = some (ceiloHeaderName c)) ∧ ((∀ c, ¬ Spec.CeiloHeader l c) → ceiloLine m l = m) := by
  constructor
  · rintro c (⟨rest, rfl, rfl⟩ | ⟨rest, rfl, rfl⟩)
    · simp [ceiloLine, List.isPrefixOf, ceiloHeaderName]
    · simp [ceiloLine, List.isPrefixOf, ceiloHeaderName]
  · intro h
    unfold ceiloLine
    rw [if_neg, if_neg]
    · intro hp
      rw [List.isPrefixOf_iff_prefix] at hp
      obtain ⟨t, rfl⟩ := hp
      exact h .ct25k (.inr ⟨t, rfl, rfl⟩)
    · intro hp
      rw [List.isPrefixOf_iff_prefix] at hp
      obtain ⟨t, rfl⟩ := hp
      exact h .cl (.inl ⟨t, rfl, rfl⟩)

theorem ceiloHeader_class (l : List Char) (c : CeiloClass) (h : Spec.CeiloHeader l c) : c = .cl ∨ c = .ct25k := by
  rcases h with ⟨_, _, rfl⟩ | ⟨_, _, rfl⟩ <;> simp

theorem ceiloHeader_functional (l : List Char) (c d : CeiloClass) (h1 : Spec.CeiloHeader l c) (h2 : Spec.CeiloHeader l d) : c = d := by
  rcases h1 with ⟨r, rfl, rfl⟩ | ⟨r, rfl, rfl⟩ <;> rcases h2 with ⟨r', e, rfl⟩ | ⟨r', e, rfl⟩ <;> first | rfl | simp at e

theorem ceiloFold_spec (ls : List (List Char)) :
    (∀ c, Spec.Last Spec.CeiloHeader ls c → ls.foldl ceiloLine none = some (ceiloHeaderName c)) ∧
    ((∀ c, ¬ Spec.Last Spec.CeiloHeader ls c) → ls.foldl ceiloLine none = none) := by
  induction ls using List.reverseRecOn with
  | nil =>
    refine ⟨?_, fun _ => rfl⟩
    rintro c ⟨_, _, _, e, _⟩
    simp at e
  | append_singleton ls q ih =>
    rw [List.foldl_append]
    simp only [List.foldl_cons, List.foldl_nil]
    obtain ⟨a, b⟩ := ceiloLine_spec (ls.foldl ceiloLine none) q
    refine ⟨?_, ?_⟩
    · intro c hc
      rw [last_snoc] at hc
      rcases hc with hc | ⟨h1, h2⟩
      · exact a c hc
      · rw [b h1, ih.1 c h2]
    · intro h
      have hq : ∀ c, ¬ Spec.CeiloHeader q c := fun c hc => h c ((last_snoc _ _ _ _).2 (.inl hc))
      rw [b hq]
      exact ih.2 fun c hc => h c ((last_snoc _ _ _ _).2 (.inr ⟨hq, hc⟩))

/-- **C125.** Without a given model, the last header line among the first hundred lines of a text file decides, and a file without a
header line there is a `RuntimeError`. -/
theorem C125_text (lines : List (List Char)) :
    (∀ c, ceiloClass none (.text lines) = .ok c ↔ Spec.Last Spec.CeiloHeader (lines.take 100) c) ∧
    ((∀ l ∈ lines.take 100, ∀ c, ¬ Spec.CeiloHeader l c) → ceiloClass none (.text lines) = .error "RuntimeError") := by
  obtain ⟨key1, key2⟩ := ceiloFold_spec (lines.take 100)
  have hok : ∀ c, Spec.Last Spec.CeiloHeader (lines.take 100) c → ceiloClass none (.text lines) = .ok c := by
    intro c hc
    unfold ceiloClass ceiloFind
    simp only [key1 c hc]
    obtain ⟨_, q, _, _, hq, _⟩ := hc
    rcases ceiloHeader_class q c hq with rfl | rfl <;> rfl
  have hno : (∀ c, ¬ Spec.Last Spec.CeiloHeader (lines.take 100) c) → ceiloClass none (.text lines) = .error "RuntimeError" := by
    intro h
    unfold ceiloClass ceiloFind
    simp only [key2 h]
  refine ⟨fun c => ⟨fun h => ?_, hok c⟩, fun h => hno ?_⟩
  · by_cases hex : ∃ d, Spec.Last Spec.CeiloHeader (lines.take 100) d
    · obtain ⟨d, hd⟩ := hex
      rw [hok d hd] at h
      obtain rfl := Except.ok.inj h
      exact hd
    · push Not at hex
      rw [hno hex] at h
      cases h
  · rintro c ⟨pre, q, post, e, hq, -⟩
    exact h q (by rw [e]; simp) c hq

example : (ceiloClass none (.text ["-2020-01-01 00:00:00".toList, "\x01CL020221".toList, "\x01CT02020".toList, "x".toList])) =
    .ok .ct25k := by decide +kernel

/-- **C125.** Without a given model, a netCDF file with a title is that of a CL61 if the title or the name of the file says so, and that
of a CHM 15k otherwise. -/
theorem C125_netcdf (title base : List Char) :
    ceiloClass none (.netcdf (some title) base) =
      .ok (if ("cl61d".toList <:+: title ∨ "cl61d".toList <:+: base) ∨ "cl61-d".toList <:+: title ∨ "cl61-d".toList <:+: base
        then .cl61d else .lufft) := by
  unfold ceiloClass ceiloFind
  by_cases h : ("cl61d".toList <:+: title ∨ "cl61d".toList <:+: base) ∨ "cl61-d".toList <:+: title ∨ "cl61-d".toList <:+: base
  · have : (["cl61d", "cl61-d"].any fun i => decide (i.toList <:+: title ∨ i.toList <:+: base)) = true := by
      simpa only [List.any_cons, List.any_nil, Bool.or_false, Bool.or_eq_true, decide_eq_true_eq] using h
    simp only [this, if_true]
    rw [if_pos h]
    rfl
  · have : (["cl61d", "cl61-d"].any fun i => decide (i.toList <:+: title ∨ i.toList <:+: base)) = false := by
      rw [Bool.eq_false_iff]
      simpa only [List.any_cons, List.any_nil, Bool.or_false, Bool.or_eq_true, decide_eq_true_eq, ne_eq] using h
    simp only [this, Bool.false_eq_true, if_false]
    rw [if_neg h]
    rfl

/-- **C125, finding** Files of a DA10 or a CS135 are never recognised: without a given model the file of a DA10 is read as that of
a CHM 15k (a CL61 at best), and a text file is that of a CL31, CL51 or CT25k or an error. -/
theorem C125_unrecognised (file : CeiloFile) : ceiloClass none file ≠ .ok .da10 ∧ ceiloClass none file ≠ .ok .cs135 := by
  cases file with
  | netcdf title base =>
    cases title with
    | none => exact ⟨by simp [ceiloClass, ceiloFind], by simp [ceiloClass, ceiloFind]⟩
    | some title =>
      rw [C125_netcdf]
      split <;> simp
  | text lines =>
    rw [Ne, Ne, (C125_text lines).1, (C125_text lines).1]
    refine ⟨?_, ?_⟩ <;>
    · rintro ⟨_, q, _, _, hq, _⟩
      rcases ceiloHeader_class _ _ hq with h | h <;> cases h

example : ceiloClass none (.netcdf (some "da10 lidar".toList) "da10_20240101.nc".toList) = .ok .lufft := by decide +kernel
example : ceiloClass none (.netcdf (some "".toList) "live_cl61d.nc".toList) = .ok .cl61d := by decide +kernel

/-- **C125.** Twenty negative values in a row, rather than five, mark noise for CL31 and CT25k and for old versions of the CHM 15k. -/
theorem C125_negatives (model : String) :
    ceiloNegatives true model = 20 ∧ ceiloNegatives false "cl31" = 20 ∧ ceiloNegatives false "ct25k" = 20 ∧
    (model ≠ "cl31" → model ≠ "ct25k" → ceiloNegatives false model = 5) := by
  refine ⟨by simp [ceiloNegatives], by decide, by decide, ?_⟩
  intro h1 h2
  simp [ceiloNegatives, h1, h2]

section
variable {α : Type} [Field α] [LinearOrder α] [IsStrictOrderedRing α]

/-- The instruments (in lower case) whose published backscatter is that of the raw data. -/
def Spec.rawModels : List String := ["cl61d", "chm15k", "chm15kx", "cl51", "cl31", "da10"]

theorem usesSmooth_raw (model : String) (h : model ∈ Spec.rawModels) : ceiloUsesSmooth model true = true := by
  simp only [Spec.rawModels, List.mem_cons, List.not_mem_nil, or_false] at h
  rcases h with rfl | rfl | rfl | rfl | rfl | rfl <;> decide

/-- **C125.** For CL31, CL51, CL61, DA10 and CHM 15k the published backscatter is the raw value, valid exactly where the smoothed data
passed the noise screening and the raw value is valid and above zero. For a CS135, or data without range correction, it is the screened
value. -/
theorem C125_beta (raw screened smooth : Option α) :
    (∀ model ∈ Spec.rawModels, ∀ v, ceiloBeta model true raw screened smooth = some v ↔ raw = some v ∧ smooth ≠ none ∧ 0 < v) ∧
    ceiloBeta "cs135" true raw screened smooth = screened ∧
    ∀ model, ceiloBeta model false raw screened smooth = screened := by
  refine ⟨?_, ?_, ?_⟩
  · intro model hm v
    unfold ceiloBeta
    rw [usesSmooth_raw model hm]
    cases smooth with
    | none => simp
    | some s =>
      cases raw with
      | none => simp
      | some r =>
        simp only [if_true, reduceCtorEq, if_false, Option.bind_some]
        by_cases hr : r ≤ 0
        · rw [if_pos hr]
          simp only [reduceCtorEq, Option.some.injEq, ne_eq, not_false_eq_true, true_and, false_iff, not_and, not_lt]
          rintro rfl
          exact hr
        · rw [if_neg hr]
          simp only [Option.some.injEq, ne_eq, reduceCtorEq, not_false_eq_true, true_and]
          constructor
          · rintro rfl; exact ⟨rfl, not_le.1 hr⟩
          · exact fun h => h.1
  · have : ceiloUsesSmooth "cs135" true = false := by decide
    simp [ceiloBeta, this]
  · intro model
    have : ceiloUsesSmooth model false = false := by simp [ceiloUsesSmooth]
    simp [ceiloBeta, this]

/-- **C125.** The depolarisation of a CL61 is the ratio of the cross- and the parallel-polarised signals where both are valid, the
backscatter is valid and the ratio is in (0, 1]; it is masked where the backscatter is. -/
theorem C125_depol (x p : MaPixel α) (beta : Option α) (hx : x.masked = false) (hp : p.masked = false) (h0 : p.data ≠ 0) (v : α) :
    ceiloDepol "cl61d" true x p beta = some v ↔ v = x.data / p.data ∧ beta ≠ none ∧ 0 < v ∧ v ≤ 1 := by
  unfold ceiloDepol
  rw [usesSmooth_raw "cl61d" (by decide)]
  simp only [if_true]
  rw [C95_depol]
  have : pixelDivide x p = ⟨x.data / p.data, false⟩ := by simp [pixelDivide, hx, hp, h0]
  rw [this]
  cases beta with
  | none => simp [MaPixel.value]
  | some b =>
    simp only [MaPixel.value, Option.isNone_some, Bool.false_eq_true, if_false, Option.some.injEq, ne_eq, reduceCtorEq, not_false_eq_true,
      true_and]
    constructor
    · rintro ⟨rfl, h⟩; exact ⟨rfl, h⟩
    · rintro ⟨rfl, h⟩; exact ⟨rfl, h⟩

/-- **C125, finding** Where the parallel-polarised signal is zero or masked the ratio is masked, but the mask of the backscatter replaces
that mask. The published depolarisation is then the cross-polarised signal itself, wherever it is in (0, 1] and the backscatter is valid. -/
theorem C125_depol_unmasked (x p : MaPixel α) (beta : Option α) (h : x.masked = true ∨ p.masked = true ∨ p.data = 0) (hb : beta ≠ none)
    (h0 : 0 < x.data) (h1 : x.data ≤ 1) :
    (pixelDivide x p).value = none ∧ ceiloDepol "cl61d" true x p beta = some x.data := by
  have e : pixelDivide x p = ⟨x.data, true⟩ := by simp [pixelDivide, h]
  refine ⟨by rw [e]; rfl, ?_⟩
  unfold ceiloDepol
  rw [usesSmooth_raw "cl61d" (by decide)]
  simp only [if_true]
  rw [C95_depol, e]
  cases beta with
  | none => exact absurd rfl hb
  | some b => exact ⟨rfl, h0, h1⟩

end

example : ceiloBeta "cl51" true (some (3 : ℚ)) none (some 2) = some 3 := by decide +kernel
example : ceiloDepol "cl61d" true (⟨1 / 10, false⟩ : MaPixel ℚ) ⟨1 / 2, false⟩ (some 3) = some (1 / 5) := by decide +kernel
example : ceiloDepol "cl61d" true (⟨1 / 10, false⟩ : MaPixel ℚ) ⟨0, false⟩ (some 3) = some (1 / 10) := by decide +kernel

/-- **C125.** Old data of a CHM 15k: the version is a number, or its third word comes before "0.702" in the order of characters. For
firmware "0." with three digits this is the order of numbers. -/
theorem C125_version :
    lufftOld .number = .ok true ∧ lufftOld .other = .error "RuntimeError" ∧
    (∀ a b : List Char, ∀ rest, ∀ x y z : Fin 10,
      lufftOld (.words (a :: b :: ['0', '.', Nat.digitChar x, Nat.digitChar y, Nat.digitChar z] :: rest)) =
        .ok (decide (100 * x.val + 10 * y.val + z.val < 702))) ∧
    ∀ l : List (List Char), l.length < 3 → lufftOld (.words l) = .error "IndexError" := by
  refine ⟨rfl, rfl, ?_, ?_⟩
  · intro a b rest x y z
    have : ∀ x y z : Fin 10, decide (['0', '.', Nat.digitChar x, Nat.digitChar y, Nat.digitChar z] < "0.702".toList) =
        decide (100 * x.val + 10 * y.val + z.val < 702) := by decide +kernel
    simp only [lufftOld, List.getElem?_cons_succ, List.getElem?_cons_zero]
    rw [this]
  · intro l h
    simp only [lufftOld]
    rw [List.getElem?_eq_none (by omega)]

/-- **C125, finding** The comparison is one of characters: firmware 0.1000 and 0.1010 count as older than 0.702. -/
theorem C125_version_characters (a b : List Char) :
    lufftOld (.words [a, b, "0.1000".toList]) = .ok true ∧ lufftOld (.words [a, b, "0.747".toList]) = .ok false := by
  constructor <;> rfl

/-- **C125.** Raw backscatter of a CHM 15k: the stored value times the calibration factor (3e-12 if none is given); in old data also times
the standard deviation, the square of the range and the inverse of the normalisation of the detector. -/
theorem C125_lufft (factor : Option ℝ) (med nn1 std range raw : ℝ) :
    lufftBeta factor false med nn1 std range raw = raw * factor.getD (3e-12) ∧
    ∃ nn, 0 < nn ∧ lufftBeta factor true med nn1 std range raw = raw * std * range ^ 2 * factor.getD (3e-12) / nn ∧
      (120 < med → med < 160 → nn = 1.24 ^ ((140 - nn1) / 5)) ∧
      (3200 < med → med < 4000 → nn = 1.035 ^ (3685 - nn1)) ∧
      (med ≤ 120 ∨ (160 ≤ med ∧ med ≤ 3200) ∨ 4000 ≤ med → nn = 1) := by
  have hd : (3 / 10 ^ 12 : ℝ) = 3e-12 := by norm_num
  refine ⟨by simp only [lufftBeta, Bool.false_eq_true, if_false, hd], lufftNn med nn1, ?_, ?_, ?_, ?_, ?_⟩
  · unfold lufftNn
    split
    · positivity
    · split
      · positivity
      · norm_num
  · simp only [lufftBeta, if_true, hd]
    ring
  · intro h1 h2
    unfold lufftNn
    rw [if_pos ⟨h1, h2⟩]
    congr 1
    · norm_num
    · ring
  · intro h1 h2
    unfold lufftNn
    rw [if_neg (by intro h; linarith [h.2]), if_pos ⟨h1, h2⟩]
    congr 1
    · norm_num
    · ring
  · intro h
    unfold lufftNn
    rw [if_neg, if_neg]
    · rintro ⟨a, b⟩; rcases h with h | ⟨h, h'⟩ | h <;> linarith
    · rintro ⟨a, b⟩; rcases h with h | ⟨h, h'⟩ | h <;> linarith

end Cloudnet
