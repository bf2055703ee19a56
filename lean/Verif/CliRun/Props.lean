import Verif.CliRun.Model
import Verif.Cli.Props
import Verif.MwrTools.Props
import Verif.Disdronator.LpmProps
import Mathlib.Tactic

/-! Property C141 (a run of the command line interface). -/

set_option linter.unusedSectionVars false
set_option linter.unusedVariables false
set_option linter.unusedSimpArgs false

namespace Cloudnet

namespace Spec

/-- The calls among the actions of a run, in order. -/
def jobs (l : List CliAction) : List Job := l.filterMap fun x => match x with
  | .make j => some j
  | _ => none

/-- Readers of instruments: product, text in the name of the instrument type, reader. The first that fits is used. -/
def readers : List (String × String × String) :=
  [("radar", "mira", "mira2nc"), ("radar", "rpg", "rpg2nc"), ("radar", "basta", "basta2nc"), ("radar", "copernicus", "copernicus2nc"),
   ("radar", "galileo", "galileo2nc"), ("disdrometer", "parsivel", "parsivel2nc"), ("disdrometer", "thies", "thies2nc"),
   ("lidar", "pollyxt", "pollyxt2nc"), ("lidar", "", "ceilo2nc"), ("mwr", "", "hatpro2nc"), ("mwr-l1c", "", "hatpro2l1c"),
   ("mrr", "", "mrr2nc"), ("weather-station", "", "ws2nc")]

/-- The reader of an instrument. -/
def IsReader (product id f : String) : Prop :=
  ∃ before text after, readers = before ++ (product, text, f) :: after ∧ text.toList <:+: id.toList ∧
    ∀ r ∈ before, r.1 = product → ¬ r.2.1.toList <:+: id.toList

/-- Errors that stop a call but not the run. -/
def Tolerated (j : Job) (e : String) : Prop := match j with
  | .categorize _ _ => e = "NameError"
  | .evaluation _ _ _ _ _ => e = "ModelDataError"
  | _ => False

instance (j : Job) (e : String) : Decidable (Tolerated j e) := by
  unfold Tolerated
  split <;> infer_instance

end Spec

/-! ### The monad -/

theorem RunM.bind_ok {α β : Type} {x : RunM α} {f : α → RunM β} {l : List CliAction} {b : β} :
    RunM.bind x f = (l, .ok b) ↔ ∃ l1 a l2, x = (l1, .ok a) ∧ f a = (l2, .ok b) ∧ l = l1 ++ l2 := by
  obtain ⟨l1, r⟩ := x
  unfold RunM.bind
  cases r with
  | error e => simp
  | ok a =>
    dsimp only
    constructor
    · intro h
      obtain ⟨h1, h2⟩ := Prod.mk.inj h
      exact ⟨l1, a, (f a).1, rfl, by rw [← h2], h1.symm⟩
    · rintro ⟨l1', a', l2, h1, h2, rfl⟩
      cases h1
      rw [h2]

theorem jobs_append (l l' : List CliAction) : Spec.jobs (l ++ l') = Spec.jobs l ++ Spec.jobs l' := by
  simp [Spec.jobs]

theorem callJob_ok {w : CliWorld} {j : Job} {l : List CliAction} {u : Unit} : callJob w j = (l, .ok u) ↔ l = [.make j] ∧ w.outcome j = none := by
  unfold callJob
  cases w.outcome j <;> simp [eq_comm]

/-! ### Readers -/

/-- **C141.** The reader of an instrument is the first of the table that fits. **A finding:** for other instruments (for example Doppler
lidars, rain gauges, other disdrometers) the run stops with `UnboundLocalError`, after all raw files were downloaded. -/
theorem C141_reader (product id : String) :
    (∀ f, readerOf product id = some f ↔ Spec.IsReader product id f) ∧
    ∀ (w : CliWorld) (a : CliArgs) (i : CliInstrument) (files : List RawFile), a.dl = false → (∀ f, ¬ Spec.IsReader product i.instrumentId f) →
      processInstrument w a product i files = ([.raw i files], .error "UnboundLocalError") := by
  have gen : ∀ (table : List (String × String × String)) (id f : String),
      ((table.find? fun r => decide (r.1 = product ∧ r.2.1.toList <:+: id.toList)).map fun r => r.2.2) = some f ↔
      ∃ before text after, table = before ++ (product, text, f) :: after ∧ text.toList <:+: id.toList ∧
        ∀ r ∈ before, r.1 = product → ¬ r.2.1.toList <:+: id.toList := by
    intro table id f
    constructor
    · intro h
      obtain ⟨r, hr, rfl⟩ := Option.map_eq_some_iff.1 h
      obtain ⟨h1, before, after, h2, h3⟩ := List.find?_eq_some_iff_append.1 hr
      simp only [decide_eq_true_eq] at h1
      obtain ⟨rp, rt, rf⟩ := r
      obtain ⟨rfl, h1⟩ := h1
      exact ⟨before, rt, after, h2, h1, fun q hq e hc => by simpa [e, hc] using h3 q hq⟩
    · rintro ⟨before, text, after, h1, h2, h3⟩
      rw [Option.map_eq_some_iff]
      refine ⟨(product, text, f), List.find?_eq_some_iff_append.2 ⟨by simp [h2], before, after, h1, ?_⟩, rfl⟩
      intro q hq
      have := h3 q hq
      simp only [Bool.not_eq_true', decide_eq_false_iff_not, not_and]
      exact this
  have key : ∀ id, readerOf product id = ((Spec.readers.find? fun r => decide (r.1 = product ∧ r.2.1.toList <:+: id.toList)).map fun r => r.2.2) := by
    intro id
    have hnil : ("" : String).toList <:+: id.toList := by simp
    have ht : ∀ t : String, (hasText t id = true) = (t.toList <:+: id.toList) := by intro t; simp [hasText]
    have step : ∀ (r : String × String × String) l, (((r :: l).find? fun r => decide (r.1 = product ∧ r.2.1.toList <:+: id.toList)).map fun r => r.2.2) =
        if product = r.1 ∧ r.2.1.toList <:+: id.toList then some r.2.2 else
          ((l.find? fun r => decide (r.1 = product ∧ r.2.1.toList <:+: id.toList)).map fun r => r.2.2) := by
      intro r l
      rw [List.find?_cons]
      by_cases hc : r.1 = product ∧ r.2.1.toList <:+: id.toList
      · rw [if_pos ⟨hc.1.symm, hc.2⟩]
        simp only [hc, and_self, decide_true, Option.map_some]
      · rw [if_neg fun h => hc ⟨h.1.symm, h.2⟩]
        simp only [hc, decide_false]
    have hany : ∀ x : String, (product = x ∧ ("" : String).toList <:+: id.toList) = (product = x) := by
      intro x
      simp only [hnil, and_true]
    unfold readerOf Spec.readers
    simp only [step, ht, hany, List.find?_nil, Option.map_none]
  have main : ∀ id f, readerOf product id = some f ↔ Spec.IsReader product id f := by
    intro id f
    rw [key, gen]
    rfl
  refine ⟨main id, ?_⟩
  intro w a i files hdl hno
  have : readerOf product i.instrumentId = none := by
    cases h : readerOf product i.instrumentId with
    | none => rfl
    | some f => exact absurd ((main _ f).1 h) (hno f)
  unfold processInstrument
  simp [RunM.bind, hdl, this]

example : Spec.IsReader "radar" "rpg-fmcw-94" "rpg2nc" ∧ ¬ ∃ f, Spec.IsReader "rain-gauge" "pluvio" f := by
  constructor
  · exact ((C141_reader "radar" "rpg-fmcw-94").1 _).1 (by decide +kernel)
  · rintro ⟨f, hf⟩
    have := ((C141_reader "rain-gauge" "pluvio").1 f).2 hf
    revert this
    rw [show readerOf "rain-gauge" "pluvio" = none by decide +kernel]
    simp

/-! ### What a run makes -/

namespace Spec

/-- Instrument products: for every product asked for (once), the files of the selected instrument (C64). -/
def instrumentJobs (s : CliSite) (w : CliWorld) (a : CliArgs) (l : List (String × List String)) : List Job :=
  l.filterMap fun q => (instrumentInput s.portal w.order a.prefs (w.answer q.1) q.1 q.2).bind fun r =>
    (readerOf q.1 r.1.instrumentId).map fun f => .instrument f q.1 r.1 r.2 (instrumentPath a r.1)

/-- The files of instrument products after the first part of the run. -/
def instrumentFiles (s : CliSite) (w : CliWorld) (a : CliArgs) (l : List (String × List String)) : List (String × CliPath) :=
  l.filterMap fun q => (instrumentInput s.portal w.order a.prefs (w.answer q.1) q.1 q.2).map fun r =>
    (q.1, if a.dl then noPath else instrumentPath a r.1)

end Spec

theorem processInstrument_ok {w : CliWorld} {a : CliArgs} {product : String} {i : CliInstrument} {files : List RawFile}
    {l : List CliAction} {p : CliPath} (h : processInstrument w a product i files = (l, .ok p)) :
    (a.dl = true ∧ p = noPath ∧ l = [.raw i files]) ∨
    (a.dl = false ∧ p = instrumentPath a i ∧ ∃ f, readerOf product i.instrumentId = some f ∧
      l = [.raw i files, .make (.instrument f product i files (instrumentPath a i))]) := by
  unfold processInstrument at h
  rw [RunM.bind_ok] at h
  obtain ⟨l1, u, l2, h1, h2, rfl⟩ := h
  cases h1
  cases hdl : a.dl with
  | true =>
    rw [hdl, if_pos rfl] at h2
    cases h2
    exact Or.inl ⟨rfl, rfl, rfl⟩
  | false =>
    right
    rw [hdl] at h2
    simp only [Bool.false_eq_true, if_false] at h2
    split at h2
    · cases h2
    · rename_i f hf
      split at h2
      · cases h2
      · rw [RunM.bind_ok] at h2
        obtain ⟨l3, u, l4, h3, h4, rfl⟩ := h2
        cases h4
        rw [callJob_ok] at h3
        obtain ⟨rfl, _⟩ := h3
        exact ⟨rfl, rfl, f, hf, rfl⟩

theorem instrumentPhase_ok (s : CliSite) (w : CliWorld) (a : CliArgs) (l : List (String × List String)) (d : List (String × CliPath))
    (acts : List CliAction) (d' : List (String × CliPath)) (h : instrumentPhase s w a l d = (acts, .ok d')) :
    Spec.jobs acts = (if a.dl then [] else Spec.instrumentJobs s w a l) ∧
    d' = (Spec.instrumentFiles s w a l).foldl (fun d q => dictSet d q.1 q.2) d ∧
    (a.dl = false → ∀ q ∈ l, ∀ i files, instrumentInput s.portal w.order a.prefs (w.answer q.1) q.1 q.2 = some (i, files) →
      ∃ f, readerOf q.1 i.instrumentId = some f) := by
  induction l generalizing d acts with
  | nil =>
    unfold instrumentPhase RunM.pure at h
    cases h
    simp [Spec.jobs, Spec.instrumentJobs, Spec.instrumentFiles]
  | cons q l ih =>
    obtain ⟨product, possible⟩ := q
    unfold instrumentPhase at h
    cases hin : instrumentInput s.portal w.order a.prefs (w.answer product) product possible with
    | none =>
      rw [hin] at h
      obtain ⟨e1, e2, e3⟩ := ih d acts h
      refine ⟨?_, ?_, ?_⟩
      · rw [e1]
        simp [Spec.instrumentJobs, hin]
      · rw [e2]
        simp [Spec.instrumentFiles, hin]
      · intro hdl q hq i files hi
        rcases List.mem_cons.1 hq with rfl | hq
        · rw [hin] at hi; cases hi
        · exact e3 hdl q hq i files hi
    | some r =>
      obtain ⟨i, files⟩ := r
      rw [hin] at h
      dsimp only at h
      rw [RunM.bind_ok] at h
      obtain ⟨l1, p, l2, h1, h2, rfl⟩ := h
      obtain ⟨e1, e2, e3⟩ := ih _ l2 h2
      rw [jobs_append, e1, e2]
      rcases processInstrument_ok h1 with ⟨hdl, rfl, rfl⟩ | ⟨hdl, rfl, f, hf, rfl⟩
      · refine ⟨by simp [hdl, Spec.jobs], by simp [Spec.instrumentFiles, hin, hdl], ?_⟩
        intro hdl'
        rw [hdl] at hdl'
        cases hdl'
      · refine ⟨by simp [hdl, Spec.jobs, Spec.instrumentJobs, hin, hf], by simp [Spec.instrumentFiles, hin, hdl], ?_⟩
        intro _ q hq i' files' hi
        rcases List.mem_cons.1 hq with rfl | hq
        · rw [hin] at hi
          cases hi
          exact ⟨f, hf⟩
        · exact e3 hdl q hq i' files' hi

theorem level2Phase_some_ok (s : CliSite) (w : CliWorld) (a : CliArgs) (l : List String) (f : CliPath) (acts : List CliAction) (u : Unit)
    (h : level2Phase s w a l (some f) = (acts, .ok u)) : acts = l.map fun p => .make (.level2 p f (level2Output a p f)) := by
  induction l generalizing acts with
  | nil => unfold level2Phase RunM.pure at h; cases h; rfl
  | cons p l ih =>
    unfold level2Phase at h
    rw [RunM.bind_ok] at h
    obtain ⟨l1, u, l2, h1, h2, rfl⟩ := h
    rw [callJob_ok] at h1
    rw [h1.1, ih l2 h2]
    rfl

theorem jobs_make {β : Type} (l : List β) (f : β → Job) : Spec.jobs (l.map fun p => .make (f p)) = l.map f := by
  induction l with
  | nil => rfl
  | cons p l ih =>
    unfold Spec.jobs at ih ⊢
    simp [ih]

theorem level2Phase_ok (s : CliSite) (w : CliWorld) (a : CliArgs) (l : List String) (c : Option CliPath) (acts : List CliAction) (u : Unit)
    (h : level2Phase s w a l c = (acts, .ok u)) :
    Spec.jobs acts = match c.or (fetchProduct s.portal "categorize" none) with
      | some f => l.map fun p => .level2 p f (level2Output a p f)
      | none => [] := by
  cases c with
  | some f =>
    rw [level2Phase_some_ok s w a l f acts u h, jobs_make]
    rfl
  | none =>
    cases l with
    | nil =>
      unfold level2Phase RunM.pure at h
      cases h
      simp only [Option.none_or]
      split <;> rfl
    | cons p l =>
      unfold level2Phase at h
      cases hf : fetchProduct s.portal "categorize" none with
      | none => rw [hf] at h; cases h; rfl
      | some f =>
        rw [hf] at h
        dsimp only at h
        rw [RunM.bind_ok] at h
        obtain ⟨l1, u, l2, h1, h2, rfl⟩ := h
        cases h1
        rw [RunM.bind_ok] at h2
        obtain ⟨l3, u, l4, h3, h4, rfl⟩ := h2
        rw [callJob_ok] at h3
        rw [h3.1, level2Phase_some_ok s w a l f _ _ h4]
        simp only [jobs_append, jobs_make]
        rfl

theorem jobs_fetchActions (p : Option CliPath) : Spec.jobs (fetchActions p) = [] := by
  cases p <;> rfl

theorem jobs_flatMap_fetch (l : List (String × Option CliPath)) : Spec.jobs (l.flatMap fun p => fetchActions p.2) = [] := by
  induction l with
  | nil => rfl
  | cons p l ih => rw [List.flatMap_cons, jobs_append, ih, jobs_fetchActions]; rfl

namespace Spec

/-- The radiometer file: of this run, or of the portal. With `--dl` there is none. -/
def radiometerFile (s : CliSite) (d : List (String × CliPath)) : Option CliPath :=
  match d.lookup "mwr-l1c" with
  | some f => if f = noPath then none else some f
  | none => fetchProduct s.portal "mwr-l1c" none

/-- The radar file: of this run, or of the portal. -/
def radarFile (s : CliSite) (d : List (String × CliPath)) : Option CliPath :=
  match d.lookup "radar" with
  | some f => if f = noPath then fetchProduct s.portal "radar" none else some f
  | none => fetchProduct s.portal "radar" none

end Spec

theorem radiometerPhase_ok (s : CliSite) (w : CliWorld) (a : CliArgs) (d : List (String × CliPath)) (l : List String) (acts : List CliAction)
    (u : Unit) (h : radiometerPhase s w a d l = (acts, .ok u)) :
    Spec.jobs acts = match Spec.radiometerFile s d with
      | some f => l.map fun p => .radiometer p f (radiometerOutput a p)
      | none => [] := by
  induction l generalizing acts with
  | nil =>
    unfold radiometerPhase RunM.pure at h
    cases h
    split <;> rfl
  | cons p l ih =>
    unfold radiometerPhase at h
    unfold Spec.radiometerFile at ih ⊢
    cases hd : d.lookup "mwr-l1c" with
    | some f =>
      rw [hd] at h ih
      by_cases hn : f = noPath
      · simp only [hn, if_true] at h ⊢
        cases h
        rfl
      · simp only [hn, if_false] at h ih ⊢
        rw [RunM.bind_ok] at h
        obtain ⟨l1, u, l2, h1, h2, rfl⟩ := h
        cases h1
        rw [RunM.bind_ok] at h2
        obtain ⟨l3, u, l4, h3, h4, rfl⟩ := h2
        rw [callJob_ok] at h3
        rw [h3.1, List.nil_append, jobs_append, ih _ h4]
        rfl
    | none =>
      rw [hd] at h ih
      cases hf : fetchProduct s.portal "mwr-l1c" none with
      | none =>
        simp only [hf] at h ⊢
        cases h
        rfl
      | some f =>
        simp only [hf] at h ih ⊢
        rw [RunM.bind_ok] at h
        obtain ⟨l1, u, l2, h1, h2, rfl⟩ := h
        cases h1
        rw [RunM.bind_ok] at h2
        obtain ⟨l3, u, l4, h3, h4, rfl⟩ := h2
        rw [callJob_ok] at h3
        rw [h3.1, jobs_append, jobs_append, jobs_fetchActions, ih _ h4]
        rfl

theorem epsilonPhase_ok (s : CliSite) (w : CliWorld) (a : CliArgs) (d : List (String × CliPath)) (acts : List CliAction)
    (u : Unit) (h : epsilonPhase s w a d = (acts, .ok u)) :
    Spec.jobs acts = match Spec.radarFile s d, (s.modelFiles a.model).head? with
      | some r, some m => [.epsilonRadar r ("instrument", m.filename)
          ("geophysical", compactDate a.date ++ "_" ++ a.site ++ "_epsilon-radar.nc")]
      | _, _ => [] := by
  unfold epsilonPhase at h
  have core : ∀ (x : List CliAction × Option CliPath), Spec.jobs x.1 = [] →
      (match x.2 with
        | none => (x.1, .ok ())
        | some radar => RunM.bind (x.1, fetchModel (s.forModel a.model)) fun model =>
          match model with
          | none => .pure ()
          | some m => RunM.bind ([.fetch m], .ok ()) fun _ =>
            callJob w (.epsilonRadar radar m ("geophysical", compactDate a.date ++ "_" ++ a.site ++ "_epsilon-radar.nc")) : RunM Unit) = (acts, .ok u) →
      Spec.jobs acts = match x.2, (s.modelFiles a.model).head? with
      | some r, some m => [.epsilonRadar r ("instrument", m.filename)
          ("geophysical", compactDate a.date ++ "_" ++ a.site ++ "_epsilon-radar.nc")]
      | _, _ => [] := by
    rintro ⟨x1, x2⟩ hx h
    cases x2 with
    | none => cases h; exact hx
    | some r =>
      dsimp only at h
      rw [RunM.bind_ok] at h
      obtain ⟨l1, m, l2, h1, h2, rfl⟩ := h
      obtain ⟨rfl, hm⟩ := Prod.mk.inj h1
      unfold fetchModel at hm
      rw [show (s.forModel a.model).modelFiles = s.modelFiles a.model from rfl] at hm
      split at hm
      · rename_i hml
        cases hm
        cases h2
        simp only [List.append_nil, hml, List.head?_nil]
        exact hx
      · rename_i mf hml
        cases hm
        dsimp only at h2
        rw [RunM.bind_ok] at h2
        obtain ⟨l3, u, l4, h3, h4, rfl⟩ := h2
        cases h3
        rw [callJob_ok] at h4
        rw [h4.1, hml, jobs_append, hx]
        rfl
      · cases hm
  unfold Spec.radarFile
  cases hd : d.lookup "radar" with
  | none =>
    rw [hd] at h
    exact core (_, _) (jobs_fetchActions _) h
  | some f =>
    rw [hd] at h
    by_cases hn : f = noPath
    · simp only [hn, if_true] at h ⊢
      exact core (_, _) (jobs_fetchActions _) h
    · simp only [hn, if_false] at h ⊢
      exact core ([], some f) rfl h

namespace Spec

/-- Evaluation of a model: always from the files of the portal. -/
def evaluationOf (s : CliSite) (a : CliArgs) (product : String) : Option Job :=
  (evaluationSources.lookup product).bind fun source =>
    (fetchProduct s.portal source none).bind fun obs => (s.modelFiles (some (a.model.getD "ecmwf"))).head?.map fun m =>
      .evaluation product (a.model.getD "ecmwf") obs ("instrument", m.filename)
        ("evaluation", compactDate a.date ++ "_" ++ a.site ++ "_" ++ a.model.getD "ecmwf" ++ "_" ++ product ++ ".nc")

end Spec

theorem evaluationJob_ok (s : CliSite) (w : CliWorld) (a : CliArgs) (product source : String) (hs : evaluationSources.lookup product = some source)
    (acts : List CliAction) (u : Unit) (h : evaluationJob s w a product source = (acts, .ok u)) :
    Spec.jobs acts = (Spec.evaluationOf s a product).toList := by
  unfold Spec.evaluationOf
  rw [hs]
  unfold evaluationJob at h
  simp only [Option.bind_some]
  cases hf : fetchProduct s.portal source none with
  | none => rw [hf] at h; cases h; rfl
  | some obs =>
    rw [hf] at h
    dsimp only at h
    rw [RunM.bind_ok] at h
    obtain ⟨l3, m, l4, h3, h4, rfl⟩ := h
    obtain ⟨rfl, hm⟩ := Prod.mk.inj h3
    unfold fetchModel at hm
    rw [show (s.forModel (some (a.model.getD "ecmwf"))).modelFiles = s.modelFiles (some (a.model.getD "ecmwf")) from rfl] at hm
    split at hm
    · rename_i hml
      cases hm
      cases h4
      simp only [hml, List.head?_nil, Option.map_none, Option.bind_some]
      rfl
    · rename_i mf hml
      cases hm
      dsimp only at h4
      rw [RunM.bind_ok] at h4
      obtain ⟨l5, u, l6, h5, h6, rfl⟩ := h4
      cases h5
      obtain ⟨rfl, _⟩ := Prod.mk.inj h6
      simp only [hml, List.head?_cons, Option.map_some, Option.bind_some]
      rfl
    · cases hm

theorem evaluationPhase_ok (s : CliSite) (w : CliWorld) (a : CliArgs) (l : List String) (acts : List CliAction) (u : Unit)
    (h : evaluationPhase s w a l = (acts, .ok u)) : Spec.jobs acts = l.filterMap fun p => Spec.evaluationOf s a (parseInstrument p).1 := by
  induction l generalizing acts with
  | nil => unfold evaluationPhase RunM.pure at h; cases h; rfl
  | cons p l ih =>
    unfold evaluationPhase at h
    rw [List.filterMap_cons]
    cases hs : evaluationSources.lookup (parseInstrument p).1 with
    | none =>
      simp only [hs] at h
      rw [ih acts h, show Spec.evaluationOf s a (parseInstrument p).1 = none by unfold Spec.evaluationOf; rw [hs]; rfl]
    | some source =>
      simp only [hs] at h
      rw [RunM.bind_ok] at h
      obtain ⟨l1, u, l2, h1, h2, rfl⟩ := h
      rw [jobs_append, ih l2 h2, evaluationJob_ok s w a _ source hs l1 u h1]
      cases Spec.evaluationOf s a (parseInstrument p).1 <;> rfl

theorem categorizePhase_ok (s : CliSite) (w : CliWorld) (a : CliArgs) (inputs : List (String × CliPath)) (acts : List CliAction)
    (c : Option CliPath × List (String × CliPath)) (h : categorizePhase s w a inputs = (acts, .ok c)) :
    (s.modelFiles a.model).length ≤ 1 ∧
    let model := (s.modelFiles a.model).head?.map fun m => ("instrument", m.filename)
    c.2 = categorizeFiles s w a inputs model ∧
    if c.2.any (fun p => p.1 == "model") then
      Spec.jobs acts = [.categorize c.2 (categorizePath a)] ∧
      ((w.outcome (.categorize c.2 (categorizePath a)) = none ∧ c.1 = some (categorizePath a)) ∨
        (w.outcome (.categorize c.2 (categorizePath a)) = some "NameError" ∧ c.1 = none))
    else Spec.jobs acts = [] ∧ c.1 = none := by
  unfold categorizePhase at h
  have hfm : ∀ model, fetchModel (s.forModel a.model) = .ok model →
      (s.modelFiles a.model).length ≤ 1 ∧ model = (s.modelFiles a.model).head?.map fun m => ("instrument", m.filename) := by
    intro model hm
    unfold fetchModel at hm
    rw [show (s.forModel a.model).modelFiles = s.modelFiles a.model from rfl] at hm
    split at hm
    · rename_i hml; cases hm; simp [hml]
    · rename_i hml; cases hm; simp [hml]
    · cases hm
  cases hm : fetchModel (s.forModel a.model) with
  | error e => rw [hm] at h; cases h
  | ok model =>
    obtain ⟨hlen, hmod⟩ := hfm model hm
    rw [hm] at h
    dsimp only at h
    rw [RunM.bind_ok] at h
    obtain ⟨l1, u, l2, h1, h2, rfl⟩ := h
    cases h1
    refine ⟨hlen, ?_⟩
    rw [← hmod]
    rw [jobs_append, jobs_append, jobs_flatMap_fetch, jobs_fetchActions]
    by_cases hany : ((categorizeFiles s w a inputs model).any fun p => p.1 == "model") = true
    · rw [if_pos hany] at h2
      obtain ⟨rfl, h3⟩ := Prod.mk.inj h2
      cases hout : w.outcome (.categorize (categorizeFiles s w a inputs model) (categorizePath a)) with
      | none =>
        rw [hout] at h3
        cases h3
        refine ⟨rfl, ?_⟩
        rw [if_pos hany]
        exact ⟨rfl, Or.inl ⟨hout, rfl⟩⟩
      | some e =>
        rw [hout] at h3
        dsimp only at h3
        split at h3
        · rename_i he
          cases h3
          refine ⟨rfl, ?_⟩
          rw [if_pos hany]
          exact ⟨rfl, Or.inr ⟨by rw [hout, he], rfl⟩⟩
        · cases h3
    · rw [if_neg hany] at h2
      cases h2
      refine ⟨rfl, ?_⟩
      rw [if_neg hany]
      exact ⟨rfl, rfl⟩

/-! ### Dictionaries -/

theorem dictSet_fresh {β : Type} (d : List (String × β)) (k : String) (v : β) (h : k ∉ d.map Prod.fst) : dictSet d k v = d ++ [(k, v)] := by
  unfold dictSet
  rw [if_neg]
  intro hc
  obtain ⟨q, hq, he⟩ := List.any_eq_true.1 hc
  exact h (List.mem_map.2 ⟨q, hq, by simpa using he⟩)

theorem foldl_dictSet_fresh {β : Type} (l d : List (String × β)) (h : ((d ++ l).map Prod.fst).Nodup) :
    l.foldl (fun d q => dictSet d q.1 q.2) d = d ++ l := by
  induction l generalizing d with
  | nil => simp
  | cons q l ih =>
    rw [List.foldl_cons, dictSet_fresh, ih]
    · simp
    · simpa using h
    · intro hc
      rw [List.map_append, List.nodup_append] at h
      exact h.2.2 _ hc _ (by simp) rfl

theorem getSourceInstruments_nodup (portal : Portal) (products : List String) (prefs : List (String × List String)) :
    ((getSourceInstruments portal products prefs).map Prod.fst).Nodup := by
  unfold getSourceInstruments
  have : ∀ d : List (String × List String), (d.map Prod.fst).Nodup → ((products.foldl (fun d p =>
      dictSet d (parseInstrument p).1 (askedInstruments portal prefs (parseInstrument p).1 (parseInstrument p).2)) d).map Prod.fst).Nodup := by
    induction products with
    | nil => exact fun d h => h
    | cons p l ih =>
      intro d h
      exact ih _ (keys_dictSet d _ _ h)
  exact this [] (by simp)

theorem instrumentFiles_nodup (s : CliSite) (w : CliWorld) (a : CliArgs) (l : List (String × List String)) (h : (l.map Prod.fst).Nodup) :
    ((Spec.instrumentFiles s w a l).map Prod.fst).Nodup := by
  have : ((Spec.instrumentFiles s w a l).map Prod.fst).Sublist (l.map Prod.fst) := by
    unfold Spec.instrumentFiles
    induction l with
    | nil => simp
    | cons q l ih =>
      rw [List.filterMap_cons]
      cases instrumentInput s.portal w.order a.prefs (w.answer q.1) q.1 q.2 with
      | none => exact (ih (List.nodup_cons.1 h).2).cons _
      | some r => exact (ih (List.nodup_cons.1 h).2).cons₂ _
  exact this.nodup h

/-- **C141.** What a run makes that ends without an exception, in order: the instrument products (none with the flag `--dl`), categorize,
the products of categorize, those of the radiometer, the radar dissipation rate, the evaluations. `files` are the files that later steps
know of. The products of categorize use the categorize file of this run if there is one and that of the portal otherwise. **A finding:**
this is so also if there was no model file or if making categorize failed with `NameError`. -/
theorem C141_made (s : CliSite) (w : CliWorld) (a : CliArgs) (acts : List CliAction) (hrun : cliRun s w a = (acts, .ok ())) :
    let sources := getSourceInstruments s.portal a.products a.prefs
    ∃ (cat : List Job) (catFile : Option CliPath) (files : List (String × CliPath)),
      Spec.jobs acts = (if a.dl then [] else Spec.instrumentJobs s w a sources) ++ (cat ++
        ((match catFile.or (fetchProduct s.portal "categorize" none) with
          | some f => (productsFrom s a "categorize").map fun p => .level2 p f (level2Output a p f)
          | none => []) ++
        ((match Spec.radiometerFile s files with
          | some f => (productsFrom s a "mwr-l1c").map fun p => .radiometer p f (radiometerOutput a p)
          | none => []) ++
        ((if "epsilon-radar" ∈ a.products then (match Spec.radarFile s files, (s.modelFiles a.model).head? with
          | some r, some m => [.epsilonRadar r ("instrument", m.filename)
              ("geophysical", compactDate a.date ++ "_" ++ a.site ++ "_epsilon-radar.nc")]
          | _, _ => []) else []) ++
        a.products.filterMap fun p => Spec.evaluationOf s a (parseInstrument p).1)))) ∧
      ("categorize" ∉ a.products → cat = [] ∧ catFile = none ∧ files = Spec.instrumentFiles s w a sources) ∧
      ("categorize" ∈ a.products →
        files = categorizeFiles s w a (Spec.instrumentFiles s w a sources)
          ((s.modelFiles a.model).head?.map fun m => ("instrument", m.filename)) ∧
        if files.any (fun p => p.1 == "model") then
          cat = [.categorize files (categorizePath a)] ∧
          ((w.outcome (.categorize files (categorizePath a)) = none ∧ catFile = some (categorizePath a)) ∨
            (w.outcome (.categorize files (categorizePath a)) = some "NameError" ∧ catFile = none))
        else cat = [] ∧ catFile = none) := by
  intro sources
  unfold cliRun at hrun
  rw [RunM.bind_ok] at hrun
  obtain ⟨l1, d, m1, h1, h2, rfl⟩ := hrun
  rw [RunM.bind_ok] at h2
  obtain ⟨l2, c, m2, h2, h3, rfl⟩ := h2
  rw [RunM.bind_ok] at h3
  obtain ⟨l3, u3, m3, h3, h4, rfl⟩ := h3
  rw [RunM.bind_ok] at h4
  obtain ⟨l4, u4, m4, h4, h5, rfl⟩ := h4
  rw [RunM.bind_ok] at h5
  obtain ⟨l5, u5, l6, h5, h6, rfl⟩ := h5
  obtain ⟨e1, e2, -⟩ := instrumentPhase_ok _ _ _ _ _ _ _ h1
  rw [foldl_dictSet_fresh _ _ (by
    rw [List.nil_append]
    exact instrumentFiles_nodup s w a _ (getSourceInstruments_nodup _ _ _)), List.nil_append] at e2
  refine ⟨Spec.jobs l2, c.1, c.2, ?_, ?_, ?_⟩
  · simp only [jobs_append]
    rw [e1, level2Phase_ok _ _ _ _ _ _ _ h3, radiometerPhase_ok _ _ _ _ _ _ _ h4, evaluationPhase_ok _ _ _ _ _ _ h6]
    congr 5
    by_cases he : "epsilon-radar" ∈ a.products
    · rw [if_pos he] at h5 ⊢
      exact epsilonPhase_ok _ _ _ _ _ _ h5
    · rw [if_neg he] at h5 ⊢
      cases h5
      rfl
  · intro hc
    rw [if_neg hc] at h2
    cases h2
    exact ⟨rfl, rfl, e2⟩
  · intro hc
    rw [if_pos hc, e2] at h2
    exact (categorizePhase_ok _ _ _ _ _ _ h2).2

/-! ### Exceptions -/

/-- The second run does the same, and more where the first one stops. -/
def RunM.Extends {α : Type} (x y : RunM α) : Prop := x = y ∨ ((∃ e, x.2 = .error e) ∧ x.1 <+: y.1)

theorem RunM.Extends.bind {α β : Type} {x y : RunM α} {f g : α → RunM β} (h : x.Extends y) (hf : ∀ a, (f a).Extends (g a)) :
    (RunM.bind x f).Extends (RunM.bind y g) := by
  rcases h with rfl | ⟨⟨e, he⟩, hp⟩
  · obtain ⟨l, r⟩ := x
    cases r with
    | error e => exact Or.inl rfl
    | ok a =>
      rcases hf a with h | ⟨⟨e, he⟩, hp⟩
      · left
        unfold RunM.bind
        simp only [h]
      · right
        refine ⟨⟨e, ?_⟩, ?_⟩
        · exact he
        · obtain ⟨t, ht⟩ := hp
          refine ⟨t, ?_⟩
          unfold RunM.bind
          dsimp only
          rw [← ht, List.append_assoc]
  · right
    obtain ⟨l, r⟩ := x
    dsimp only at he hp
    subst he
    refine ⟨⟨e, rfl⟩, ?_⟩
    obtain ⟨l', r'⟩ := y
    cases r' with
    | error e' => exact hp
    | ok a => exact hp.trans (List.prefix_append _ _)

theorem RunM.Extends.refl {α : Type} (x : RunM α) : x.Extends x := Or.inl rfl

/-- The same world, in which only tolerated errors occur. -/
def CliWorld.tolerant (w : CliWorld) : CliWorld := { w with outcome := fun j => (w.outcome j).filter fun e => decide (Spec.Tolerated j e) }

theorem callJob_extends (w : CliWorld) (j : Job) (hj : ∀ e, ¬ Spec.Tolerated j e) : (callJob w j).Extends (callJob w.tolerant j) := by
  unfold callJob
  have : w.tolerant.outcome j = none := by
    unfold CliWorld.tolerant
    dsimp only
    cases w.outcome j with
    | none => rfl
    | some e => simp [Option.filter, hj e]
  rw [this]
  cases h : w.outcome j with
  | none => exact Or.inl rfl
  | some e => exact Or.inr ⟨⟨e, rfl⟩, List.prefix_rfl⟩

theorem tolerated_extends {α : Type} (w : CliWorld) (j : Job) (good tol : α) (name : String) (hj : ∀ e, Spec.Tolerated j e ↔ e = name) :
    RunM.Extends (([.make j], match w.outcome j with
        | none => .ok good
        | some e => if e = name then .ok tol else .error e) : RunM α)
      ([.make j], match w.tolerant.outcome j with
        | none => .ok good
        | some e => if e = name then .ok tol else .error e) := by
  cases h : w.outcome j with
  | none =>
    left
    have : w.tolerant.outcome j = none := by unfold CliWorld.tolerant; simp [h]
    rw [this]
  | some e =>
    by_cases he : e = name
    · left
      have : w.tolerant.outcome j = some e := by
        unfold CliWorld.tolerant
        simp [h, Option.filter, (hj e).2 he]
      rw [this]
    · right
      dsimp only
      rw [if_neg he]
      exact ⟨⟨e, rfl⟩, List.prefix_rfl⟩

theorem processInstrument_extends (w : CliWorld) (a : CliArgs) (product : String) (i : CliInstrument) (files : List RawFile) :
    (processInstrument w a product i files).Extends (processInstrument w.tolerant a product i files) := by
  unfold processInstrument
  refine RunM.Extends.bind (.refl _) fun _ => ?_
  split
  · exact .refl _
  · split
    · exact .refl _
    · split
      · exact .refl _
      · exact RunM.Extends.bind (callJob_extends w _ (by intro e; exact id)) fun _ => .refl _

theorem instrumentPhase_extends (s : CliSite) (w : CliWorld) (a : CliArgs) (l : List (String × List String)) (d : List (String × CliPath)) :
    (instrumentPhase s w a l d).Extends (instrumentPhase s w.tolerant a l d) := by
  induction l generalizing d with
  | nil => exact .refl _
  | cons q l ih =>
    obtain ⟨product, possible⟩ := q
    unfold instrumentPhase
    rw [show instrumentInput s.portal w.tolerant.order a.prefs (w.tolerant.answer product) product possible =
      instrumentInput s.portal w.order a.prefs (w.answer product) product possible from rfl]
    split
    · exact ih d
    · exact RunM.Extends.bind (processInstrument_extends w a product _ _) fun p => ih _

theorem level2Phase_extends (s : CliSite) (w : CliWorld) (a : CliArgs) (l : List String) (c : Option CliPath) :
    (level2Phase s w a l c).Extends (level2Phase s w.tolerant a l c) := by
  induction l generalizing c with
  | nil => cases c <;> exact .refl _
  | cons p l ih =>
    cases c with
    | some f =>
      unfold level2Phase
      exact RunM.Extends.bind (callJob_extends w _ (by intro e; exact id)) fun _ => ih _
    | none =>
      unfold level2Phase
      split
      · exact .refl _
      · exact RunM.Extends.bind (.refl _) fun _ => RunM.Extends.bind (callJob_extends w _ (by intro e; exact id)) fun _ => ih _

theorem radiometerPhase_extends (s : CliSite) (w : CliWorld) (a : CliArgs) (d : List (String × CliPath)) (l : List String) :
    (radiometerPhase s w a d l).Extends (radiometerPhase s w.tolerant a d l) := by
  induction l with
  | nil => exact .refl _
  | cons p l ih =>
    unfold radiometerPhase
    dsimp only
    split
    · exact .refl _
    · exact RunM.Extends.bind (.refl _) fun _ => RunM.Extends.bind (callJob_extends w _ (by intro e; exact id)) fun _ => ih

theorem epsilonPhase_extends (s : CliSite) (w : CliWorld) (a : CliArgs) (d : List (String × CliPath)) :
    (epsilonPhase s w a d).Extends (epsilonPhase s w.tolerant a d) := by
  unfold epsilonPhase
  dsimp only
  split
  · exact .refl _
  · refine RunM.Extends.bind (.refl _) fun m => ?_
    cases m with
    | none => exact .refl _
    | some m => exact RunM.Extends.bind (.refl _) fun _ => callJob_extends w _ (by intro e; exact id)

theorem evaluationPhase_extends (s : CliSite) (w : CliWorld) (a : CliArgs) (l : List String) :
    (evaluationPhase s w a l).Extends (evaluationPhase s w.tolerant a l) := by
  induction l with
  | nil => exact .refl _
  | cons p l ih =>
    unfold evaluationPhase
    dsimp only
    split
    · exact ih
    · refine RunM.Extends.bind ?_ fun _ => ih
      unfold evaluationJob
      dsimp only
      split
      · exact .refl _
      · refine RunM.Extends.bind (.refl _) fun m => ?_
        cases m with
        | none => exact .refl _
        | some m => exact RunM.Extends.bind (.refl _) fun _ => tolerated_extends w _ _ _ _ (by intro e; exact Iff.rfl)

theorem categorizePhase_extends (s : CliSite) (w : CliWorld) (a : CliArgs) (d : List (String × CliPath)) :
    (categorizePhase s w a d).Extends (categorizePhase s w.tolerant a d) := by
  unfold categorizePhase
  split
  · exact .refl _
  · refine RunM.Extends.bind (.refl _) fun _ => ?_
    rename_i model hmodel _
    rw [show categorizeFiles s w.tolerant a d model = categorizeFiles s w a d model from rfl]
    dsimp only
    split
    · exact tolerated_extends w _ _ _ _ (by intro e; exact Iff.rfl)
    · exact .refl _

/-- **C141.** An exception ends the run: what was done before is what would have been done without it, and nothing is done after. -/
theorem C141_stops (s : CliSite) (w : CliWorld) (a : CliArgs) :
    (∀ e, (cliRun s w a).2 = .error e → (cliRun s w a).1 <+: (cliRun s w.tolerant a).1) ∧
    ((cliRun s w a).2 = .ok () → cliRun s w a = cliRun s w.tolerant a) := by
  have key : (cliRun s w a).Extends (cliRun s w.tolerant a) := by
    unfold cliRun
    refine RunM.Extends.bind (instrumentPhase_extends s w a _ _) fun d => RunM.Extends.bind ?_ fun c =>
      RunM.Extends.bind (level2Phase_extends s w a _ _) fun _ => RunM.Extends.bind (radiometerPhase_extends s w a _ _) fun _ =>
      RunM.Extends.bind ?_ fun _ => evaluationPhase_extends s w a _
    · split
      · exact categorizePhase_extends s w a d
      · exact .refl _
    · split
      · exact epsilonPhase_extends s w a _
      · exact .refl _
  rcases key with h | ⟨⟨e, he⟩, hp⟩
  · exact ⟨fun e _ => by rw [← h], fun _ => h⟩
  · refine ⟨fun _ _ => hp, fun hok => ?_⟩
    rw [he] at hok
    cases hok

/-! ### Names of files -/

/-- **C141.** The file of a product of categorize: if neither the path before the word nor the rest of the name has the word `categorize`,
it is next to the categorize file, with the product in place of the word. -/
theorem C141_level2_path (a : CliArgs) (product before after : String) (input : CliPath)
    (hp : fullPath a input = before ++ "categorize" ++ after) (hb : ¬ "categorize".toList <:+: before.toList)
    (ha : ¬ "categorize".toList <:+: after.toList) : level2Output a product input = before ++ product ++ after := by
  unfold level2Output textReplace
  rw [hp]
  have hl : (before ++ "categorize" ++ after).toList = before.toList ++ ("categorize".toList ++ after.toList) := by
    simp [String.toList_append]
  rw [hl, replaceFrom_once]
  · apply String.toList_injective
    simp [String.toList_append]
  · decide
  · intro i hi hpre
    rw [List.drop_append_of_le_length hi.le] at hpre
    have hlen : (before.toList.drop i).length = before.toList.length - i := by simp
    by_cases hk : 10 ≤ before.toList.length - i
    · apply hb
      have : "categorize".toList <+: before.toList.drop i := by
        rw [List.prefix_iff_eq_take] at hpre ⊢
        rw [hpre]
        rw [List.take_append_of_le_length (by rw [hlen]; exact hk)]
        simp
      exact this.isInfix.trans (List.drop_suffix _ _).isInfix
    · obtain ⟨t, ht⟩ := hpre
      have h1 : ("categorize".toList ++ t)[before.toList.length - i]? = (before.toList.drop i ++ "categorize".toList)[before.toList.length - i]? := by
        rw [ht]
      rw [List.getElem?_append_left (by simp; omega), List.getElem?_append_right (by rw [hlen]), hlen, Nat.sub_self] at h1
      have h0 : 0 < before.toList.length - i := by omega
      push Not at hk
      revert h1
      generalize before.toList.length - i = k at h0 hk
      interval_cases k <;> decide
  · exact ha

/-- The usual case: the product is in the folder of the categorize file. -/
example : level2Output ⟨[], [], "hyytiala", "2023-01-01", "output", false, none⟩ "iwc" ("geophysical", "20230101_hyytiala_categorize.nc") =
    "output/hyytiala/2023-01-01/geophysical/20230101_hyytiala_iwc.nc" := by
  apply C141_level2_path _ _ "output/hyytiala/2023-01-01/geophysical/20230101_hyytiala_" ".nc" <;> decide +kernel

/-- **C141, a finding.** If the word is in the name of a folder of the output, the product goes to another folder. -/
theorem C141_level2_elsewhere : level2Output ⟨[], [], "hyytiala", "2023-01-01", "categorize-test", false, none⟩ "iwc"
    ("geophysical", "20230101_hyytiala_categorize.nc") = "iwc-test/hyytiala/2023-01-01/geophysical/20230101_hyytiala_iwc.nc" := by
  decide +kernel

/-! ### Files on disk -/

/-- **C141.** Without `--force-download` no existing file is replaced by a download: in the end, a file that was there is unchanged or
made by a call of the run. -/
theorem C141_kept (w : CliWorld) (acts : List CliAction) (d : CliDisk) (p : CliPath) (c : FileContent) (hc : d p = some c) :
    (acts.foldl (CliAction.apply w false) d) p = some c ∨
      ∃ j, .make j ∈ acts ∧ (acts.foldl (CliAction.apply w false) d) p = some (.made j) := by
  induction acts generalizing d c with
  | nil => exact Or.inl hc
  | cons x l ih =>
    rw [List.foldl_cons]
    cases x with
    | raw i files =>
      rcases ih d c hc with h | ⟨j, h1, h2⟩
      · exact Or.inl h
      · exact Or.inr ⟨j, List.mem_cons_of_mem _ h1, h2⟩
    | fetch q =>
      have : downloadProduct false d q p = some c := by
        unfold downloadProduct
        by_cases h : p = q
        · subst h; rw [if_pos rfl, hc]; rfl
        · rw [if_neg h, hc]
      rcases ih _ c this with h | ⟨j, h1, h2⟩
      · exact Or.inl h
      · exact Or.inr ⟨j, List.mem_cons_of_mem _ h1, h2⟩
    | make j =>
      by_cases hs : (CliAction.apply w false d (.make j)) p = some c
      · rcases ih _ c hs with h | ⟨j', h1, h2⟩
        · exact Or.inl h
        · exact Or.inr ⟨j', List.mem_cons_of_mem _ h1, h2⟩
      · have : (CliAction.apply w false d (.make j)) p = some (.made j) := by
          unfold CliAction.apply at hs ⊢
          dsimp only at hs ⊢
          split at hs
          · exact absurd hc hs
          · dsimp only at hs
            split at hs
            · rename_i h1 h2
              simp [h1, h2]
            · exact absurd hc hs
        rcases ih _ _ this with h | ⟨j', h1, h2⟩
        · exact Or.inr ⟨j, List.mem_cons_self, h⟩
        · exact Or.inr ⟨j', List.mem_cons_of_mem _ h1, h2⟩

namespace Spec

/-- The file below the folder of the day that a call writes. -/
def Writes : Job → CliPath → Prop
  | .instrument _ _ _ _ o, p | .categorize _ o, p | .radiometer _ _ o, p | .epsilonRadar _ _ o, p | .evaluation _ _ _ _ o, p => p = o
  | .level2 _ _ _, _ => False

end Spec

/-- **C141.** A file that is not fetched and is not the output of a call of the run that succeeds stays as it is, or stays away. -/
theorem C141_untouched (w : CliWorld) (force : Bool) (acts : List CliAction) (d : CliDisk) (p : CliPath) (hf : .fetch p ∉ acts)
    (hm : ∀ j, .make j ∈ acts → w.outcome j = none → ¬ Spec.Writes j p) : (acts.foldl (CliAction.apply w force) d) p = d p := by
  induction acts generalizing d with
  | nil => rfl
  | cons x l ih =>
    rw [List.foldl_cons, ih _ (fun h => hf (List.mem_cons_of_mem _ h)) (fun j h => hm j (List.mem_cons_of_mem _ h))]
    cases x with
    | raw i files => rfl
    | fetch q =>
      have hne : p ≠ q := by rintro rfl; exact hf List.mem_cons_self
      show downloadProduct force d q p = d p
      unfold downloadProduct
      rw [if_neg hne]
    | make j =>
      show (if (w.outcome j).isSome then d else fun q => if j.output = some q then some (.made j) else d q) p = d p
      cases ho : w.outcome j with
      | some e => rfl
      | none =>
        have hw := hm j List.mem_cons_self ho
        have : j.output ≠ some p := by
          intro h
          cases j <;> simp only [Job.output, Option.some.injEq, reduceCtorEq] at h <;> exact hw h.symm
        simp [this]

/-- A site with a model file and a categorize file, and a radar. -/
def exampleSite : CliSite where
  portal := { sourceInstruments := fun p => if p = "radar" then ["mira-35"] else []
              rawFiles := fun l => if l = ["mira-35"] then [⟨"a.mmclx", ⟨"https://hdl.handle.net/1.abc", "mira-35", "MIRA"⟩⟩] else []
              files := fun p => if p = "categorize" then [⟨"20230101_x_categorize.nc", none, true⟩] else []
              modelFiles := [] }
  sourceProducts := fun p => if p = "classification" then ["categorize"] else []
  modelFiles := fun _ => [⟨"20230101_x_ecmwf.nc", none, false⟩]

def exampleWorld : CliWorld := ⟨id, fun _ => none, id, fun _ => none⟩

/-- The whole run: a radar file, categorize from it and the model, classification. -/
example : cliRun exampleSite exampleWorld ⟨["radar", "categorize", "classification"], [], "x", "2023-01-01", "out", false, none⟩ =
    ([.raw ⟨"https://hdl.handle.net/1.abc", "mira-35", "MIRA"⟩ [⟨"a.mmclx", ⟨"https://hdl.handle.net/1.abc", "mira-35", "MIRA"⟩⟩],
      .make (.instrument "mira2nc" "radar" ⟨"https://hdl.handle.net/1.abc", "mira-35", "MIRA"⟩
        [⟨"a.mmclx", ⟨"https://hdl.handle.net/1.abc", "mira-35", "MIRA"⟩⟩] ("instrument", "20230101_x_mira-35_abc.nc")),
      .fetch ("instrument", "20230101_x_ecmwf.nc"),
      .make (.categorize [("radar", ("instrument", "20230101_x_mira-35_abc.nc")), ("model", ("instrument", "20230101_x_ecmwf.nc"))]
        ("geophysical", "20230101_x_categorize.nc")),
      .make (.level2 "classification" ("geophysical", "20230101_x_categorize.nc") "out/x/2023-01-01/geophysical/20230101_x_classification.nc")],
     .ok ()) := by decide +kernel

/-- **C141, a finding.** With `--force-download` the categorize file that was just made is replaced by that of the portal if an evaluation is
asked for too. -/
theorem C141_force_replaces : ∃ (acts : List CliAction) (j : Job), cliRun exampleSite exampleWorld
      ⟨["categorize", "l3-cf"], [], "x", "2023-01-01", "out", false, none⟩ = (acts, .ok ()) ∧
    .make j ∈ acts ∧ j.output = some ("geophysical", "20230101_x_categorize.nc") ∧
    (acts.foldl (CliAction.apply exampleWorld true) fun _ => none) ("geophysical", "20230101_x_categorize.nc") = some .portal ∧
    (acts.foldl (CliAction.apply exampleWorld false) fun _ => none) ("geophysical", "20230101_x_categorize.nc") = some (.made j) := by
  refine ⟨[.fetch ("instrument", "20230101_x_ecmwf.nc"),
      .make (.categorize [("model", ("instrument", "20230101_x_ecmwf.nc"))] ("geophysical", "20230101_x_categorize.nc")),
      .fetch ("geophysical", "20230101_x_categorize.nc"), .fetch ("instrument", "20230101_x_ecmwf.nc"),
      .make (.evaluation "l3-cf" "ecmwf" ("geophysical", "20230101_x_categorize.nc") ("instrument", "20230101_x_ecmwf.nc")
        ("evaluation", "20230101_x_ecmwf_l3-cf.nc"))],
    .categorize [("model", ("instrument", "20230101_x_ecmwf.nc"))] ("geophysical", "20230101_x_categorize.nc"), ?_, ?_, ?_, ?_, ?_⟩ <;>
  decide +kernel

theorem evaluationOf_not_categorize (s : CliSite) (a : CliArgs) (product : String) (inputs : List (String × CliPath)) (o : CliPath) :
    Spec.evaluationOf s a product ≠ some (.categorize inputs o) := by
  intro hp
  unfold Spec.evaluationOf at hp
  simp only [Option.bind_eq_some_iff, Option.map_eq_some_iff] at hp
  obtain ⟨_, _, _, _, _, _, hp⟩ := hp
  cases hp

theorem foldl_storeFile_other (l : List (String × Option CliPath)) (d : List (String × CliPath)) (p : String) (h : ∀ q ∈ l, q.1 ≠ p) :
    (l.foldl storeFile d).lookup p = d.lookup p := by
  induction l generalizing d with
  | nil => rfl
  | cons q l ih =>
    rw [List.foldl_cons, ih _ fun q' hq' => h q' (List.mem_cons_of_mem _ hq')]
    unfold storeFile
    split
    · rw [lookup_dictSet, if_neg (Ne.symm (h q List.mem_cons_self))]
    · rfl

/-- An instrument file that is known already is kept. -/
theorem categorizeFiles_keeps (s : CliSite) (w : CliWorld) (a : CliArgs) (inputs : List (String × CliPath)) (model : Option CliPath) (p : String)
    (f : CliPath) (hp : p ∈ ["radar", "lidar", "disdrometer"]) (hperm : ∀ l, (w.completed l).Perm l) (hl : inputs.lookup p = some f) :
    (categorizeFiles s w a inputs model).lookup p = some f := by
  unfold categorizeFiles
  have hmwr : p ≠ "mwr" := by rintro rfl; revert hp; decide
  have hmod : p ≠ "model" := by rintro rfl; revert hp; decide
  have h1 : ∀ (x : Option CliPath) (d : List (String × CliPath)), (storeFile d ("mwr", x)).lookup p = d.lookup p := by
    intro x d
    unfold storeFile
    cases x with
    | none => rfl
    | some x => dsimp only; rw [lookup_dictSet, if_neg hmwr]
  rw [h1, foldl_storeFile_other, hl]
  intro q hq
  rw [(hperm _).mem_iff] at hq
  unfold categorizeDownloads at hq
  rcases List.mem_cons.1 hq with rfl | hq
  · exact hmod.symm
  · obtain ⟨r, hr, rfl⟩ := List.mem_map.1 hq
    rw [List.mem_filter] at hr
    rintro rfl
    have := (any_key_iff inputs r).trans (by rw [hl])
    simp [this] at hr

/-- **C141, a finding.** With `--dl` ("download raw data only") other products are made all the same, and categorize gets `None` for the radar
instead of a file of the portal. -/
theorem C141_download_only (s : CliSite) (w : CliWorld) (a : CliArgs) (acts : List CliAction) (hdl : a.dl = true)
    (hrun : cliRun s w a = (acts, .ok ())) :
    (∀ f p i files o, Job.instrument f p i files o ∉ Spec.jobs acts) ∧
    ∀ product ∈ ["radar", "lidar", "disdrometer"], ∀ possible, (product, possible) ∈ getSourceInstruments s.portal a.products a.prefs →
      instrumentInput s.portal w.order a.prefs (w.answer product) product possible ≠ none →
      (∀ l, (w.completed l).Perm l) → ∀ inputs o, Job.categorize inputs o ∈ Spec.jobs acts → inputs.lookup product = some noPath := by
  obtain ⟨cat, catFile, files, hj, hno, hyes⟩ := C141_made s w a acts hrun
  have hcat : ∀ j ∈ cat, j = .categorize files (categorizePath a) := by
    intro j hjm
    by_cases hc : "categorize" ∈ a.products
    · obtain ⟨_, h2⟩ := hyes hc
      split at h2
      · rw [h2.1] at hjm
        simpa using hjm
      · rw [h2.1] at hjm
        simp at hjm
    · rw [(hno hc).1] at hjm
      simp at hjm
  have hfiles : ∀ inputs o, Job.categorize inputs o ∈ Spec.jobs acts → "categorize" ∈ a.products ∧ inputs = files := by
    intro inputs o hmem
    rw [hj, hdl] at hmem
    simp only [if_true, List.nil_append, List.mem_append] at hmem
    rcases hmem with h | h | h | h | h
    · by_cases hc : "categorize" ∈ a.products
      · have := hcat _ h
        simp only [Job.categorize.injEq] at this
        exact ⟨hc, this.1⟩
      · rw [(hno hc).1] at h
        simp at h
    · split at h <;> simp at h
    · split at h <;> simp at h
    · split at h
      · split at h <;> simp at h
      · simp at h
    · obtain ⟨p, _, hp⟩ := List.mem_filterMap.1 h
      exact absurd hp (evaluationOf_not_categorize s a _ _ _)
  constructor
  · intro f p i fs o hmem
    rw [hj, hdl] at hmem
    simp only [if_true, List.nil_append, List.mem_append] at hmem
    rcases hmem with h | h | h | h | h
    · have := hcat _ h
      simp at this
    · split at h <;> simp at h
    · split at h <;> simp at h
    · split at h
      · split at h <;> simp at h
      · simp at h
    · obtain ⟨p, _, hp⟩ := List.mem_filterMap.1 h
      unfold Spec.evaluationOf at hp
      simp only [Option.bind_eq_some_iff, Option.map_eq_some_iff] at hp
      obtain ⟨_, _, _, _, _, _, hp⟩ := hp
      cases hp
  · intro product hp possible hpos hin hperm inputs o hmem
    obtain ⟨hc, rfl⟩ := hfiles inputs o hmem
    obtain ⟨hf, _⟩ := hyes hc
    rw [hf]
    have hl : (Spec.instrumentFiles s w a (getSourceInstruments s.portal a.products a.prefs)).lookup product = some noPath := by
      have hnd := instrumentFiles_nodup s w a _ (getSourceInstruments_nodup s.portal a.products a.prefs)
      rw [lookup_iff_mem_nodup hnd]
      obtain ⟨r, hr⟩ := Option.ne_none_iff_exists'.1 hin
      unfold Spec.instrumentFiles
      rw [List.mem_filterMap]
      exact ⟨(product, possible), hpos, by simp [hr, hdl]⟩
    exact categorizeFiles_keeps s w a _ _ product noPath hp hperm hl

example : cliRun exampleSite exampleWorld ⟨["radar", "categorize"], [], "x", "2023-01-01", "out", true, none⟩ =
    ([.raw ⟨"https://hdl.handle.net/1.abc", "mira-35", "MIRA"⟩ [⟨"a.mmclx", ⟨"https://hdl.handle.net/1.abc", "mira-35", "MIRA"⟩⟩],
      .fetch ("instrument", "20230101_x_ecmwf.nc"),
      .make (.categorize [("radar", noPath), ("model", ("instrument", "20230101_x_ecmwf.nc"))] ("geophysical", "20230101_x_categorize.nc"))],
     .ok ()) := by decide +kernel

/-! ### Names -/

theorem filter_hyphen (l : List Char) (h : '-' ∉ l) : l.filter (fun c => decide (c ≠ '-')) = l := by
  rw [List.filter_eq_self]
  intro c hc
  simp only [ne_eq, decide_not, Bool.not_eq_eq_eq_not, Bool.not_true, decide_eq_false_iff_not]
  rintro rfl
  exact h hc

theorem splitOn_last (c : Char) (a b : List Char) (hb : c ∉ b) : ((a ++ c :: b).splitOn c).getLastD [] = b := by
  have h : ∀ l : List Char, (l ++ c :: b).splitOn c = l.splitOn c ++ [b] := by
    intro l
    induction l with
    | nil =>
      rw [List.nil_append, List.splitOn_cons_eq_if_modifyHead]
      simp only [beq_self_eq_true, if_true, List.splitOn_nil, List.cons_append, List.nil_append, List.cons.injEq, true_and]
      have := List.splitOn_intercalate (ls := [b]) c (by simpa using hb) (by simp)
      simpa [List.intercalate] using this
    | cons x l ih =>
      rw [List.cons_append, List.splitOn_cons_eq_if_modifyHead, List.splitOn_cons_eq_if_modifyHead, ih]
      split
      · rfl
      · cases hs : l.splitOn c with
        | nil => exact absurd hs (List.splitOn_ne_nil _ _)
        | cons y ys => rfl
  rw [h]
  simp

/-- **C141.** Names of files, for a date with year, month and day and an instrument identifier that ends in `id` after its last dot. **A finding:** of the
products of a radiometer the date has hyphens. -/
theorem C141_names (a : CliArgs) (y m d : String) (hy : '-' ∉ y.toList) (hm : '-' ∉ m.toList) (hd : '-' ∉ d.toList) (hdate : a.date = y ++ "-" ++ m ++ "-" ++ d)
    (i : CliInstrument) (before id : String) (hid : i.pid = before ++ "." ++ id) (hdot : '.' ∉ id.toList) :
    instrumentPath a i = ("instrument", y ++ m ++ d ++ "_" ++ a.site ++ "_" ++ i.instrumentId ++ "_" ++ String.ofList (id.toList.take 8) ++ ".nc") ∧
    categorizePath a = ("geophysical", y ++ m ++ d ++ "_" ++ a.site ++ "_categorize.nc") ∧
    ∀ product, radiometerOutput a product = ("geophysical", y ++ "-" ++ m ++ "-" ++ d ++ "_" ++ a.site ++ "_" ++ product ++ ".nc") := by
  have hc : compactDate a.date = y ++ m ++ d := by
    unfold compactDate
    rw [hdate]
    apply String.toList_injective
    simp only [String.toList_ofList, String.toList_append, List.filter_append, filter_hyphen _ hy, filter_hyphen _ hm, filter_hyphen _ hd]
    simp
  have hs : shortenPid i.pid = String.ofList (id.toList.take 8) := by
    unfold shortenPid
    rw [hid, show (before ++ "." ++ id).toList = before.toList ++ '.' :: id.toList by simp, splitOn_last _ _ _ hdot]
  unfold instrumentPath categorizePath radiometerOutput
  rw [hc, hs]
  exact ⟨rfl, rfl, fun product => by rw [hdate]⟩

/-- **C141.** Cloud fraction is evaluated with the categorize file, contents of ice and liquid water with their own products, nothing else is. -/
theorem C141_observations (product source : String) : evaluationSources.lookup product = some source ↔
    (product = "l3-cf" ∧ source = "categorize") ∨ (product = "l3-iwc" ∧ source = "iwc") ∨ (product = "l3-lwc" ∧ source = "lwc") := by
  unfold evaluationSources
  simp only [List.lookup]
  constructor
  · intro h
    split at h
    · rename_i e
      exact Or.inl ⟨by simpa using e, (Option.some.inj h).symm⟩
    · split at h
      · rename_i e
        exact Or.inr (Or.inl ⟨by simpa using e, (Option.some.inj h).symm⟩)
      · split at h
        · rename_i e
          exact Or.inr (Or.inr ⟨by simpa using e, (Option.some.inj h).symm⟩)
        · cases h
  · rintro (⟨rfl, rfl⟩ | ⟨rfl, rfl⟩ | ⟨rfl, rfl⟩) <;> rfl

/-- **C141.** More than one file of a BASTA radar is an error, before anything is made of it. -/
theorem C141_basta (w : CliWorld) (a : CliArgs) (i : CliInstrument) (files : List RawFile) (hdl : a.dl = false)
    (h : Spec.IsReader "radar" i.instrumentId "basta2nc") : (2 ≤ files.length → processInstrument w a "radar" i files =
      ([.raw i files], .error "ValueError: Multiple input files found")) ∧
    (files.length ≤ 1 → w.outcome (.instrument "basta2nc" "radar" i files (instrumentPath a i)) = none → processInstrument w a "radar" i files =
      ([.raw i files, .make (.instrument "basta2nc" "radar" i files (instrumentPath a i))], .ok (instrumentPath a i))) := by
  have hr := ((C141_reader "radar" i.instrumentId).1 "basta2nc").2 h
  unfold processInstrument
  constructor
  · intro hl
    simp only [RunM.bind, hdl, hr, Bool.false_eq_true, if_false]
    rw [if_pos ⟨trivial, by omega⟩]
    rfl
  · intro hl ho
    simp only [RunM.bind, hdl, hr, Bool.false_eq_true, if_false]
    rw [if_neg (by omega)]
    simp [callJob, ho, RunM.pure]

end Cloudnet
