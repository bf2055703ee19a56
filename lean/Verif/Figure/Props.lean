import Verif.Figure.Model
import Verif.Plot.Props
import Mathlib.Tactic

namespace Cloudnet

namespace Spec

/-- How a variable is shown: a channel of a radiometer, the scene of a satellite, a curve, or an image over heights or diameters of drops. -/
def DrawnAs (fileType : String) (v : FigVar) (ind : Option ℤ) : FigDraw → Prop
  | .channel i => (v.name = "tb" ∨ v.name = "irt") ∧ ind = some i
  | .scene => ¬ ((v.name = "tb" ∨ v.name = "irt") ∧ ind ≠ none) ∧ fileType = "cpr-validation" ∧ v.name = "cloud_top_height"
  | .curve => ¬ ((v.name = "tb" ∨ v.name = "irt") ∧ ind ≠ none) ∧ ¬ (fileType = "cpr-validation" ∧ v.name = "cloud_top_height") ∧ v.ndim = 1
  | .image diameters => ¬ ((v.name = "tb" ∨ v.name = "irt") ∧ ind ≠ none) ∧ ¬ (fileType = "cpr-validation" ∧ v.name = "cloud_top_height") ∧ v.ndim ≠ 1 ∧
      (diameters = true ↔ v.name ∈ ["number_concentration", "fall_velocity"])

/-- The title: the long name, with the number of the channel counted from one for brightness temperatures. -/
def Titled (v : FigVar) (ind : Option ℤ) (title : String) : Prop :=
  ∃ long, v.longName = some long ∧ (v.name = "tb" → ∀ i, ind = some i → title = long ++ " (channel " ++ toString (i + 1) ++ ")") ∧ (v.name ≠ "tb" ∨ ind = none → title = long)

/-- The variable of the horizontal axis of a figure with these variables. -/
def TimesOf (fileType : String) (names : List String) (times : String) : Prop :=
  (fileType = "cpr-simulation" → times = "along_track_sat") ∧
  (fileType = "cpr-validation" → ((∃ n ∈ names, n = "echo_cpr" ∨ n = "v_cpr") → times = "time_cpr") ∧ ((∀ n ∈ names, n ≠ "echo_cpr" ∧ n ≠ "v_cpr") → times = "time")) ∧
  (fileType = "cpr-tc-validation" → ("target_classification_cpr" ∈ names → times = "time_cpr") ∧ ("target_classification_cpr" ∉ names → times = "time")) ∧
  (fileType ∉ ["cpr-simulation", "cpr-validation", "cpr-tc-validation"] → times = "time")

/-- Where the colours and scales of a panel come from: the option, the table of the type of file, the common table, or the default. -/
def LookFrom (given : Option FigMeta) (table : String → String → Option FigMeta) (dflt : FigMeta) (fileType name : String) (m : FigMeta) : Prop :=
  given = some m ∨ given = none ∧ (table fileType name = some m ∨ table fileType name = none ∧ (table "fallback" name = some m ∨ table "fallback" name = none ∧ m = dflt))

/-- The variable with a parsed name can be drawn by itself. -/
def CanDraw {τ : Type} (w : FigWorld τ) (o : FigOptions) (f : FigFile) (times : String) (v : FigVar) (ind : Option ℤ) : Prop :=
  (v.units = none → ∃ m, LookFrom o.plotMeta w.table w.dflt f.fileType v.name m ∧ m.clabel ≠ none) ∧
  (∀ d, DrawnAs f.fileType v ind d → ∃ t, w.draw times v d = .ok t) ∧ (o.title = true → v.longName ≠ none)

end Spec

theorem figDraw_spec (fileType : String) (v : FigVar) (ind : Option ℤ) (d : FigDraw) : figDraw fileType v ind = d ↔ Spec.DrawnAs fileType v ind d := by
  unfold figDraw
  by_cases h : v.name = "tb" ∨ v.name = "irt"
  · cases ind with
    | some i =>
      simp only [h, decide_true]
      cases d <;> simp [Spec.DrawnAs, h]
    | none =>
      simp only [h, decide_true]
      by_cases h1 : fileType = "cpr-validation" ∧ v.name = "cloud_top_height"
      · rw [if_pos h1]
        cases d <;> simp [Spec.DrawnAs, h1]
      · rw [if_neg h1]
        by_cases h2 : v.ndim = 1
        · rw [if_pos h2]
          cases d <;> simp only [Spec.DrawnAs, h1, h2] <;> simp
        · rw [if_neg h2]
          rcases d with i | _ | _ | (_ | _) <;> simp only [Spec.DrawnAs, h1] <;> simp [h2]
  · have hd : decide (v.name = "tb" ∨ v.name = "irt") = false := by simpa using h
    rw [hd]
    have e : (match ind, false with
      | some i, true => FigDraw.channel i
      | _, _ => if fileType = "cpr-validation" ∧ v.name = "cloud_top_height" then .scene
        else if v.ndim = 1 then .curve else .image (v.name = "number_concentration" ∨ v.name = "fall_velocity")) =
        if fileType = "cpr-validation" ∧ v.name = "cloud_top_height" then FigDraw.scene
        else if v.ndim = 1 then .curve else .image (v.name = "number_concentration" ∨ v.name = "fall_velocity") := by
      cases ind <;> rfl
    rw [show (figDraw.match_1 (fun _ _ => FigDraw) ind false (fun i => FigDraw.channel i) fun _ _ => _) = _ from e]
    by_cases h1 : fileType = "cpr-validation" ∧ v.name = "cloud_top_height"
    · rw [if_pos h1]
      cases d <;> simp only [Spec.DrawnAs, h1, h] <;> simp
    · rw [if_neg h1]
      by_cases h2 : v.ndim = 1
      · rw [if_pos h2]
        cases d <;> simp only [Spec.DrawnAs, h1, h2, h] <;> simp
      · rw [if_neg h2]
        rcases d with i | _ | _ | (_ | _) <;> simp only [Spec.DrawnAs, h1, h] <;> simp [h2]

theorem figTitle_spec (v : FigVar) (ind : Option ℤ) (t : String) : figTitle v ind = .ok t ↔ Spec.Titled v ind t := by
  unfold figTitle Spec.Titled
  cases v.longName with
  | none => simp
  | some long =>
    cases ind with
    | none => simp [eq_comm]
    | some i => by_cases h : v.name = "tb" <;> simp [h, eq_comm]

theorem figTime_spec (fileType : String) (names : List String) : Spec.TimesOf fileType names (figTime fileType names) := by
  unfold figTime Spec.TimesOf
  refine ⟨fun h => by simp [h], fun h => ?_, fun h => ?_, fun h => ?_⟩
  · subst h
    refine ⟨fun ⟨n, hn, h⟩ => ?_, fun h => ?_⟩
    · have : "echo_cpr" ∈ names ∨ "v_cpr" ∈ names := by
        rcases h with rfl | rfl
        · exact Or.inl hn
        · exact Or.inr hn
      simp [this]
    · have h1 : "echo_cpr" ∉ names := fun hn => (h _ hn).1 rfl
      have h2 : "v_cpr" ∉ names := fun hn => (h _ hn).2 rfl
      simp [h1, h2]
  · subst h
    exact ⟨fun h => by simp [h], fun h => by simp [h]⟩
  · simp only [List.mem_cons, List.not_mem_nil, or_false, not_or] at h
    simp [h]

theorem figTitleStep_ok (title : Bool) (v : FigVar) (ind : Option ℤ) (x : Option String) :
    figTitleStep title v ind = .ok x ↔ (title = true → ∃ t, figTitle v ind = .ok t ∧ x = some t) ∧ (title = false → x = none) := by
  unfold figTitleStep
  cases title with
  | false => simp [eq_comm]
  | true =>
    cases figTitle v ind with
    | error e => simp [Except.map]
    | ok t => simp [Except.map, eq_comm]

theorem figSubtitleStep_ok (subtitle : Bool) (fails : Option String) (v last : FigVar) :
    figSubtitleStep subtitle fails v last = .ok () ↔ (subtitle = true → v = last → fails = none) := by
  unfold figSubtitleStep
  cases fails with
  | none => simp
  | some e =>
    dsimp only
    split_ifs with h
    · simp [h.1, h.2]
    · simpa using h

/-- A panel, whatever was drawn before. -/
theorem figPanel_ok {τ : Type} (w : FigWorld τ) (o : FigOptions) (f : FigFile) (times : String) (first last v : FigVar) (ind : Option ℤ) (s : τ) (q : FigPanel τ) :
    (∃ s', figPanel w o f times first last v ind s = .ok (q, s')) ↔
      (∃ t, w.draw times v (figDraw f.fileType v ind) = .ok t ∧ q.times = if figDraw f.fileType v ind = .scene then none else some t) ∧
      readPlotMeta o.plotMeta w.table w.dflt f.fileType v = .ok q.look ∧
      (o.title = true → ∃ t, figTitle v ind = .ok t ∧ q.title = some t) ∧ (o.title = false → q.title = none) ∧ (o.subtitle = true → v = last → w.subtitle = none) ∧
      q.name = v.name ∧ q.draw = figDraw f.fileType v ind ∧
      (q.rain = true ↔ (∃ b, q.draw = .image b) ∧ first.name = "signal_source_status" ∧ (f.find "rain_detected").isSome ∧ f.rains = true) ∧
      (q.tops = true ↔ (q.draw = .curve ∨ ∃ i, q.draw = .channel i) ∧ first.name = "cloud_top_height_agl" ∧ (f.find "cloud_top_height_status").isSome) ∧
      q.axis = figAxis f.fileType o.edges times v ∧ q.grid = o.grid ∧ q.source = if o.sources then figSource f v else none := by
  rw [← and_assoc (a := _ → ∃ t, figTitle v ind = .ok t ∧ q.title = some t), ← figTitleStep_ok, ← figSubtitleStep_ok]
  unfold figPanel
  generalize figDraw f.fileType v ind = d
  cases hm : readPlotMeta o.plotMeta w.table w.dflt f.fileType v with
  | error e => simp [Except.bind]
  | ok look =>
    cases hd : w.draw times v d with
    | error e => simp [Except.bind, hd]
    | ok t =>
      cases ht : figTitleStep o.title v ind with
      | error e => simp [Except.bind, hd]
      | ok title =>
        cases hs : figSubtitleStep o.subtitle w.subtitle v last with
        | error e => simp [Except.bind, hd]
        | ok u =>
          simp only [Except.bind, hd, Except.ok.injEq, Prod.mk.injEq, true_and]
          constructor
          · rintro ⟨s', rfl, -⟩
            refine ⟨⟨t, rfl, ?_⟩, rfl, rfl, rfl, rfl, ?_, ?_, rfl, rfl, rfl⟩
            · by_cases h : d = .scene <;> simp [h]
            · cases d <;> simp [and_assoc]
            · cases d <;> simp [and_assoc]
          · rintro ⟨⟨t', ht', h1⟩, h2, h3, h5, h6, h7, h8, h9, h10, h11⟩
            subst ht'
            refine ⟨_, ?_, rfl⟩
            obtain ⟨qn, qd, qt, qr, qo, qa, qti, qg, qs, ql⟩ := q
            dsimp only at h1 h2 h3 h5 h6 h7 h8 h9 h10 h11
            subst h2 h3 h5 h6 h9 h10 h11
            rw [FigPanel.mk.injEq]
            refine ⟨rfl, rfl, ?_, ?_, ?_, rfl, rfl, rfl, rfl, rfl⟩
            · rw [h1]
              by_cases h : qd = .scene <;> simp [h]
            · rw [Bool.eq_iff_iff, h7]
              cases qd <;> simp [and_assoc]
            · rw [Bool.eq_iff_iff, h8]
              cases qd <;> simp [and_assoc]

theorem figPanels_ok {τ : Type} (w : FigWorld τ) (o : FigOptions) (f : FigFile) (times : String) (first last : FigVar) (l : List (FigVar × Option ℤ)) (s s₀ : τ) (ps : List (FigPanel τ)) :
    figPanels w o f times first last l s = .ok ps ↔ List.Forall₂ (fun p q => ∃ s', figPanel w o f times first last p.1 p.2 s₀ = .ok (q, s')) l ps := by
  induction l generalizing s ps with
  | nil =>
    cases ps with
    | nil => simp [figPanels]
    | cons => simp [figPanels]
  | cons p l ih =>
    have hiff : ∀ q, (∃ s', figPanel w o f times first last p.1 p.2 s = .ok (q, s')) ↔ ∃ s', figPanel w o f times first last p.1 p.2 s₀ = .ok (q, s') := fun q => by
      rw [figPanel_ok, figPanel_ok]
    unfold figPanels
    cases h : figPanel w o f times first last p.1 p.2 s with
    | error e =>
      refine ⟨fun h' => (by cases h'), fun h' => ?_⟩
      cases ps with
      | nil => cases h'
      | cons q ps =>
        obtain ⟨s', hs⟩ := (hiff q).2 (List.forall₂_cons.1 h').1
        rw [h] at hs
        cases hs
    | ok r =>
      obtain ⟨q, s'⟩ := r
      show (figPanels w o f times first last l s').map (q :: ·) = .ok ps ↔ _
      constructor
      · intro hp
        cases hr : figPanels w o f times first last l s' with
        | error e => rw [hr] at hp; cases hp
        | ok qs =>
          rw [hr] at hp
          cases hp
          exact .cons ((hiff q).1 ⟨s', h⟩) ((ih s' qs).1 hr)
      · intro hp
        cases ps with
        | nil => cases hp
        | cons q' ps =>
          obtain ⟨h1, h2⟩ := List.forall₂_cons.1 hp
          obtain ⟨s'', hs⟩ := (hiff q').2 h1
          rw [h] at hs
          cases hs
          rw [(ih s' ps).2 h2]
          rfl

theorem forall₂_exists_right {β γ : Type} {R : β → γ → Prop} {l : List β} {ps : List γ} (h : List.Forall₂ R l ps) : ∀ x ∈ l, ∃ q, R x q := by
  induction h with
  | nil => simp
  | cons h1 _ ih =>
    intro x hx
    rcases List.mem_cons.1 hx with rfl | hx
    · exact ⟨_, h1⟩
    · exact ih x hx

/-- **C164.** Colours and scales of a panel; the units of the variable are the label if there is no other. -/
theorem C164_look (given : Option FigMeta) (table : String → String → Option FigMeta) (dflt : FigMeta) (fileType : String) (v : FigVar) (m : FigMeta) :
    readPlotMeta given table dflt fileType v = .ok m ↔ ∃ m₀, Spec.LookFrom given table dflt fileType v.name m₀ ∧
      (m₀.clabel ≠ none → m = m₀) ∧ (m₀.clabel = none → ∃ u, v.units = some u ∧ m = { m₀ with clabel := some (reformatUnits u) }) := by
  have hu : ∀ a b, Spec.LookFrom given table dflt fileType v.name a → Spec.LookFrom given table dflt fileType v.name b → a = b := by
    intro a b ha hb
    unfold Spec.LookFrom at ha hb
    cases given <;> cases h1 : table fileType v.name <;> cases h2 : table "fallback" v.name <;> simp_all
  obtain ⟨m₀, h₀, e⟩ : ∃ m₀, Spec.LookFrom given table dflt fileType v.name m₀ ∧ readPlotMeta given table dflt fileType v = match m₀.clabel, v.units with
      | some _, _ => .ok m₀
      | none, none => .error "AttributeError: units"
      | none, some u => .ok { m₀ with clabel := some (reformatUnits u) } := by
    unfold Spec.LookFrom
    cases given with
    | some m₀ => exact ⟨m₀, Or.inl rfl, rfl⟩
    | none => refine ⟨_, Or.inr ⟨rfl, ?_⟩, rfl⟩; cases h1 : table fileType v.name <;> cases h2 : table "fallback" v.name <;> simp
  rw [e]
  have : (∃ m₀, Spec.LookFrom given table dflt fileType v.name m₀ ∧ (m₀.clabel ≠ none → m = m₀) ∧ (m₀.clabel = none → ∃ u, v.units = some u ∧ m = { m₀ with clabel := some (reformatUnits u) })) ↔
      (m₀.clabel ≠ none → m = m₀) ∧ (m₀.clabel = none → ∃ u, v.units = some u ∧ m = { m₀ with clabel := some (reformatUnits u) }) :=
    ⟨fun ⟨m₁, h₁, h⟩ => hu m₁ m₀ h₁ h₀ ▸ h, fun h => ⟨m₀, h₀, h⟩⟩
  rw [this]
  cases m₀.clabel with
  | some c => simp [eq_comm]
  | none => cases v.units <;> simp [eq_comm]

theorem figPlan_ok {τ : Type} (parse : String → Option ℤ) (w : FigWorld τ) (f : FigFile) (names : List String) (vars : List (FigVar × Option ℤ)) (times : String) :
    figPlan parse w f names = .ok (vars, times) ↔ ∃ all, List.Forall₂ (fun n p => plotVariable parse n = .ok p) names all ∧
      vars = all.filterMap (fun p => (f.find p.1).map fun v => (v, p.2)) ∧ vars ≠ [] ∧ w.height = none ∧ times = figTime f.fileType (vars.map fun v => v.1.name) ∧ (f.find times).isSome := by
  have hfil : ∀ all : List (String × Option ℤ), (all.filter fun p => (f.find p.1).isSome).filterMap (fun p => (f.find p.1).map fun v => (v, p.2)) =
      all.filterMap (fun p => (f.find p.1).map fun v => (v, p.2)) := by
    intro all
    induction all with
    | nil => rfl
    | cons p l ih => cases h : f.find p.1 <;> simp [h, ih]
  have hne : ∀ all : List (String × Option ℤ), (all.filter fun p => (f.find p.1).isSome) = [] ↔ all.filterMap (fun p => (f.find p.1).map fun v => (v, p.2)) = [] := by
    intro all
    induction all with
    | nil => simp
    | cons p l ih => cases h : f.find p.1 <;> simp [h, ih]
  unfold figPlan
  constructor
  · intro h
    cases hv : plotVariables parse (fun n => (f.find n).isSome) names with
    | error e => rw [hv] at h; cases h
    | ok l =>
      rw [hv] at h
      unfold plotVariables at hv
      cases hl : plotVariablesLoop parse (fun n => (f.find n).isSome) names with
      | error e => rw [hl] at hv; cases hv
      | ok r =>
        rw [hl] at hv
        simp only [Except.bind] at hv h
        split_ifs at hv with hr
        cases hv
        obtain ⟨all, ha, rfl⟩ := (plotVariablesLoop_spec parse _ names _).1 hl
        rw [hfil] at h
        cases hh : w.height with
        | some e => rw [hh] at h; cases h
        | none =>
          rw [hh] at h
          dsimp only at h
          split_ifs at h with ht
          cases h
          exact ⟨all, ha, rfl, fun hn => hr ((hne all).2 hn), rfl, rfl, ht⟩
  · rintro ⟨all, ha, rfl, hn, hh, rfl, ht⟩
    have hv : plotVariables parse (fun n => (f.find n).isSome) names = .ok (all.filter fun p => (f.find p.1).isSome) := by
      unfold plotVariables
      rw [(plotVariablesLoop_spec parse _ names _).2 ⟨all, ha, rfl⟩]
      simp only [Except.bind]
      rw [if_neg fun h => hn ((hne all).1 h)]
    rw [hv]
    simp only [Except.bind, hfil, hh]
    rw [if_pos ht]

theorem generateFigure_ok {τ : Type} (empty : τ) (parse : String → Option ℤ) (w : FigWorld τ) (o : FigOptions) (f : FigFile) (names : List String) (output : Bool)
    (panels : List (FigPanel τ)) (label : Option String) :
    (generateFigure empty parse w o f names output).result = .ok (panels, label) ↔ ∃ vars times first last, figPlan parse w f names = .ok (vars, times) ∧ vars.head? = some first ∧
      vars.getLast? = some last ∧ List.Forall₂ (fun p q => ∃ s', figPanel w o f times first.1 last.1 p.1 p.2 empty = .ok (q, s')) vars panels ∧ (output = true → w.save = none) ∧
      label = figXLabel f.fileType := by
  unfold generateFigure
  cases hp : figPlan parse w f names with
  | error e => simp
  | ok r =>
    obtain ⟨vars, times⟩ := r
    dsimp only
    cases hf : vars.head? with
    | none => simp [hf]
    | some first =>
      cases hl : vars.getLast? with
      | none => simp [hl]
      | some last =>
        dsimp only
        cases hq : figPanels w o f times first.1 last.1 vars empty with
        | error e =>
          dsimp only
          refine ⟨fun h => (by cases h), ?_⟩
          rintro ⟨vars', times', first', last', h, h1, h2, h3, -⟩
          cases h
          rw [hf] at h1
          rw [hl] at h2
          cases h1
          cases h2
          rw [← figPanels_ok w o f times first.1 last.1 vars empty empty, hq] at h3
          cases h3
        | ok qs =>
          have hqs := (figPanels_ok w o f times first.1 last.1 vars empty empty qs).1 hq
          dsimp only
          cases hs : (if output then w.save else none) with
          | some e =>
            dsimp only
            refine ⟨fun h => (by cases h), ?_⟩
            rintro ⟨vars', times', first', last', h, h1, h2, h3, h4, -⟩
            cases output with
            | false => simp at hs
            | true => rw [if_pos rfl, h4 rfl] at hs; cases hs
          | none =>
            dsimp only
            constructor
            · intro h
              cases h
              refine ⟨vars, times, first, last, rfl, hf, hl, hqs, fun ho => ?_, rfl⟩
              rw [if_pos ho] at hs
              exact hs
            · rintro ⟨vars', times', first', last', h, h1, h2, h3, -, rfl⟩
              cases h
              rw [hf] at h1
              rw [hl] at h2
              cases h1
              cases h2
              rw [← figPanels_ok w o f times first.1 last.1 vars empty empty, hq] at h3
              cases h3
              rfl

/-- **C164.** The panels of a figure: one for each name that was asked for and is in the file, in the order of the names. Each is drawn by the kind of its variable, at the times with gaps of its
own drawing, with its own title, and all have the same horizontal axis. -/
theorem C164_panels {τ : Type} (empty : τ) (parse : String → Option ℤ) (w : FigWorld τ) (o : FigOptions) (f : FigFile) (names : List String) (output : Bool)
    (panels : List (FigPanel τ)) (label : Option String) (h : (generateFigure empty parse w o f names output).result = .ok (panels, label)) :
    ∃ all times, List.Forall₂ (fun n p => plotVariable parse n = .ok p) names all ∧
      Spec.TimesOf f.fileType ((all.filter fun p => (f.find p.1).isSome).map Prod.fst) times ∧ panels ≠ [] ∧
      List.Forall₂ (fun p q => q.name = p.1 ∧ ∃ v, f.find p.1 = some v ∧ Spec.DrawnAs f.fileType v p.2 q.draw ∧
        (∃ t, w.draw times v q.draw = .ok t ∧ (q.draw ≠ .scene → q.times = some t)) ∧ (o.title = true → ∃ t, q.title = some t ∧ Spec.Titled v p.2 t) ∧ (o.title = false → q.title = none) ∧
        q.axis = figAxis f.fileType o.edges times v) (all.filter fun p => (f.find p.1).isSome) panels := by
  obtain ⟨vars, times, first, last, hp, -, -, hq, -, -⟩ := (generateFigure_ok empty parse w o f names output panels label).1 h
  obtain ⟨all, ha, rfl, hn, -, rfl, -⟩ := (figPlan_ok parse w f names vars times).1 hp
  have hnames : ∀ all : List (String × Option ℤ), (all.filterMap fun p => (f.find p.1).map fun v => (v, p.2)).map (fun v => v.1.name) = (all.filter fun p => (f.find p.1).isSome).map Prod.fst := by
    intro all
    induction all with
    | nil => rfl
    | cons p l ih =>
      cases h : f.find p.1 with
      | none => simp [h, ih]
      | some v =>
        have : v.name = p.1 := by
          unfold FigFile.find at h
          simpa using List.find?_some h
        simp [h, ih, this]
  refine ⟨all, figTime f.fileType ((all.filter fun p => (f.find p.1).isSome).map Prod.fst), ha, figTime_spec _ _, fun h0 => ?_, ?_⟩
  · rw [h0] at hq
    cases hv : all.filterMap (fun p => (f.find p.1).map fun v => (v, p.2)) with
    | nil => exact hn hv
    | cons a l => rw [hv] at hq; cases hq
  · rw [← hnames]
    generalize figTime f.fileType _ = times at *
    clear hn h hp ha hnames
    induction all generalizing panels with
    | nil =>
      cases hq
      exact .nil
    | cons p l ih =>
      cases h : f.find p.1 with
      | none =>
        simp only [h, List.filterMap_cons, Option.map_none] at hq
        simp only [List.filter_cons, h, Option.isSome_none, Bool.false_eq_true, if_false]
        exact ih panels hq
      | some v =>
        simp only [h, List.filterMap_cons, Option.map_some] at hq
        simp only [List.filter_cons, h, Option.isSome_some, if_true]
        cases hq with
        | cons h1 h2 =>
          refine .cons ?_ (ih _ h2)
          obtain ⟨⟨t, e1, e2⟩, -, e3, e4, -, e5, e6, -, -, e7, -⟩ := (figPanel_ok w o f times first.1 last.1 v p.2 empty _).1 h1
          have : v.name = p.1 := by
            unfold FigFile.find at h
            simpa using List.find?_some h
          refine ⟨e5.trans this, v, h, (figDraw_spec _ _ _ _).1 e6.symm, ⟨t, e6 ▸ e1, fun hs => ?_⟩, fun ho => ?_, e4, e7⟩
          · rw [e2, if_neg (e6 ▸ hs)]
          · obtain ⟨t, h3, h4⟩ := e3 ho
            exact ⟨t, h4, (figTitle_spec _ _ _).1 h3⟩

/-- **C164.** The image is saved exactly if a name was given and every panel could be drawn: after any failure there is no (new) image. The figure is closed however the call ends. -/
theorem C164_effects {τ : Type} (empty : τ) (parse : String → Option ℤ) (w : FigWorld τ) (o : FigOptions) (f : FigFile) (names : List String) (output : Bool) :
    let out := generateFigure empty parse w o f names output
    (out.saved = true ↔ output = true ∧ ∃ r, out.result = .ok r) ∧ out.closed = out.opened ∧ ((∃ r, out.result = .ok r) → out.opened = true) := by
  intro out
  show ((generateFigure empty parse w o f names output).saved = true ↔ output = true ∧ ∃ r, (generateFigure empty parse w o f names output).result = .ok r) ∧
    (generateFigure empty parse w o f names output).closed = (generateFigure empty parse w o f names output).opened ∧
    ((∃ r, (generateFigure empty parse w o f names output).result = .ok r) → (generateFigure empty parse w o f names output).opened = true)
  unfold generateFigure
  cases figPlan parse w f names with
  | error e => simp
  | ok r =>
    dsimp only
    cases r.1.head? <;> cases r.1.getLast? <;> dsimp only
    · simp
    · simp
    · simp
    · cases figPanels w o f r.2 _ _ r.1 empty with
      | error e => simp
      | ok ps =>
        dsimp only
        cases hs : (if output then w.save else none) with
        | some e => simp
        | none => simp

/-- **C164.** When a figure can be made: all names can be parsed and one is in the file, the heights and the times can be read, every variable can be drawn by itself, and the subtitle and the image
can be written if they are wanted. One variable that cannot be drawn ends the whole figure. -/
theorem C164_succeeds {τ : Type} (empty : τ) (parse : String → Option ℤ) (w : FigWorld τ) (o : FigOptions) (f : FigFile) (names : List String) (output : Bool)
    (all : List (String × Option ℤ)) (ha : List.Forall₂ (fun n p => plotVariable parse n = .ok p) names all) (times : String)
    (ht : times = figTime f.fileType ((all.filterMap fun p => f.find p.1).map FigVar.name)) :
    (∃ r, (generateFigure empty parse w o f names output).result = .ok r) ↔ (∃ p ∈ all, (f.find p.1).isSome) ∧ w.height = none ∧ (f.find times).isSome ∧
      (∀ p ∈ all, ∀ v, f.find p.1 = some v → Spec.CanDraw w o f times v p.2) ∧ (o.subtitle = true → w.subtitle = none) ∧ (output = true → w.save = none) := by
  have hnames : ∀ all : List (String × Option ℤ), (all.filterMap fun p => (f.find p.1).map fun v => (v, p.2)).map (fun v => v.1.name) = (all.filterMap fun p => f.find p.1).map FigVar.name := by
    intro all
    induction all with
    | nil => rfl
    | cons p l ih => cases h : f.find p.1 <;> simp [h, ih]
  have hmem : ∀ x : FigVar × Option ℤ, x ∈ (all.filterMap fun p => (f.find p.1).map fun v => (v, p.2)) ↔ ∃ p ∈ all, f.find p.1 = some x.1 ∧ p.2 = x.2 := by
    intro x
    rw [List.mem_filterMap]
    constructor
    · rintro ⟨p, hp, h⟩
      cases hf : f.find p.1 with
      | none => rw [hf] at h; cases h
      | some v => rw [hf] at h; cases h; exact ⟨p, hp, hf, rfl⟩
    · rintro ⟨p, hp, h1, h2⟩
      exact ⟨p, hp, by rw [h1]; simp [h2]⟩
  have huniq : ∀ all', List.Forall₂ (fun n p => plotVariable parse n = .ok p) names all' → all' = all := by
    intro all' h
    clear ht hnames hmem
    induction ha generalizing all' with
    | nil => cases h; rfl
    | cons h1 _ ih =>
      cases h with
      | cons h2 h3 =>
        rw [h1] at h2
        cases h2
        rw [ih _ h3]
  have hcan : ∀ v ind first last, (∃ q, ∃ s', figPanel w o f times first last v ind empty = .ok (q, s')) ↔ Spec.CanDraw w o f times v ind ∧ (o.subtitle = true → v = last → w.subtitle = none) := by
    intro v ind first last
    simp only [figPanel_ok]
    constructor
    · rintro ⟨q, ⟨t, h1, -⟩, h2, h3, -, h4, -⟩
      refine ⟨⟨fun hu => ?_, fun d hd => ?_, fun ho => ?_⟩, h4⟩
      · obtain ⟨m, hm, -, h6⟩ := (C164_look _ _ _ _ _ _).1 h2
        refine ⟨m, hm, fun hc => ?_⟩
        obtain ⟨u, h7, -⟩ := h6 hc
        rw [hu] at h7
        cases h7
      · rw [(figDraw_spec _ _ _ _).2 hd] at h1
        exact ⟨t, h1⟩
      · obtain ⟨t, h5, -⟩ := h3 ho
        obtain ⟨l, h6, -⟩ := (figTitle_spec _ _ _).1 h5
        rw [h6]
        simp
    · rintro ⟨⟨h1, h2, h3⟩, h4⟩
      obtain ⟨t, ht⟩ := h2 _ ((figDraw_spec f.fileType v ind _).1 rfl)
      have htitle : ∃ x, (o.title = true → ∃ t, figTitle v ind = .ok t ∧ x = some t) ∧ (o.title = false → x = none) := by
        by_cases ho : o.title = true
        · cases hl : v.longName with
          | none => exact absurd hl (h3 ho)
          | some long =>
            have : ∃ t, figTitle v ind = .ok t := by
              unfold figTitle
              rw [hl]
              cases ind <;> simp
            obtain ⟨t, ht⟩ := this
            exact ⟨some t, fun _ => ⟨t, ht, rfl⟩, fun h => by rw [ho] at h; cases h⟩
        · exact ⟨none, fun h => absurd h ho, fun _ => rfl⟩
      have hlook : ∃ m, readPlotMeta o.plotMeta w.table w.dflt f.fileType v = .ok m := by
        obtain ⟨m₀, hm₀⟩ : ∃ m₀, Spec.LookFrom o.plotMeta w.table w.dflt f.fileType v.name m₀ := by
          unfold Spec.LookFrom
          cases o.plotMeta <;> cases w.table f.fileType v.name <;> cases w.table "fallback" v.name <;> simp
        have hu : ∀ a b, Spec.LookFrom o.plotMeta w.table w.dflt f.fileType v.name a → Spec.LookFrom o.plotMeta w.table w.dflt f.fileType v.name b → a = b := by
          intro a b ha hb
          unfold Spec.LookFrom at ha hb
          cases e0 : o.plotMeta <;> cases e1 : w.table f.fileType v.name <;> cases e2 : w.table "fallback" v.name <;> simp_all
        by_cases hc : m₀.clabel = none
        · cases hv : v.units with
          | none =>
            obtain ⟨m, h5, h6⟩ := h1 hv
            exact absurd (hu m m₀ h5 hm₀ ▸ hc) h6
          | some u => exact ⟨_, (C164_look _ _ _ _ _ _).2 ⟨m₀, hm₀, fun h => absurd hc h, fun _ => ⟨u, hv, rfl⟩⟩⟩
        · exact ⟨_, (C164_look _ _ _ _ _ _).2 ⟨m₀, hm₀, fun _ => rfl, fun h => absurd h hc⟩⟩
      obtain ⟨x, hx1, hx2⟩ := htitle
      obtain ⟨m, hm⟩ := hlook
      classical
      refine ⟨⟨v.name, figDraw f.fileType v ind, if figDraw f.fileType v ind = .scene then none else some t,
        decide ((∃ b, figDraw f.fileType v ind = .image b) ∧ first.name = "signal_source_status" ∧ (f.find "rain_detected").isSome ∧ f.rains = true),
        decide ((figDraw f.fileType v ind = .curve ∨ ∃ i, figDraw f.fileType v ind = .channel i) ∧ first.name = "cloud_top_height_agl" ∧ (f.find "cloud_top_height_status").isSome),
        _, x, _, _, m⟩, ⟨t, ht, rfl⟩, hm, hx1, hx2, h4, rfl, rfl, ?_, ?_, rfl, rfl, rfl⟩
      · simp
      · simp
  constructor
  · rintro ⟨⟨panels, label⟩, h⟩
    obtain ⟨vars, times', first, last, hp, -, hl, hq, hs, -⟩ := (generateFigure_ok empty parse w o f names output panels label).1 h
    obtain ⟨all', ha', rfl, hn, hh, rfl, htm⟩ := (figPlan_ok parse w f names vars times').1 hp
    obtain rfl := huniq all' ha'
    rw [hnames, ← ht] at htm hq
    have hall : ∀ x ∈ (all'.filterMap fun p => (f.find p.1).map fun v => (v, p.2)), Spec.CanDraw w o f times x.1 x.2 ∧ (o.subtitle = true → x.1 = last.1 → w.subtitle = none) := by
      intro x hx
      obtain ⟨q, hq⟩ := forall₂_exists_right hq x hx
      exact (hcan _ _ first.1 last.1).1 ⟨q, hq⟩
    refine ⟨?_, hh, htm, fun p hp v hv => (hall (v, p.2) ((hmem _).2 ⟨p, hp, hv, rfl⟩)).1, fun ho => (hall last (List.mem_of_getLast? hl)).2 ho rfl, hs⟩
    obtain ⟨x, hx⟩ := List.exists_mem_of_ne_nil _ hn
    obtain ⟨p, hp, h1, -⟩ := (hmem x).1 hx
    exact ⟨p, hp, by rw [h1]; rfl⟩
  · rintro ⟨⟨p, hp, hf⟩, hh, htm, hd, hsub, hsave⟩
    obtain ⟨v, hv⟩ := Option.isSome_iff_exists.1 hf
    have hne : (all.filterMap fun p => (f.find p.1).map fun v => (v, p.2)) ≠ [] := List.ne_nil_of_mem ((hmem (v, p.2)).2 ⟨p, hp, hv, rfl⟩)
    have hplan := (figPlan_ok parse w f names _ times).2 ⟨all, ha, rfl, hne, hh, by rw [hnames, ← ht], htm⟩
    have hfirst := List.head?_eq_some_head hne
    have hlast := List.getLast?_eq_some_getLast hne
    have : ∃ panels, List.Forall₂ (fun p q => ∃ s', figPanel w o f times (List.head _ hne).1 (List.getLast _ hne).1 p.1 p.2 empty = .ok (q, s'))
        (all.filterMap fun p => (f.find p.1).map fun v => (v, p.2)) panels := by
      generalize (List.head _ hne).1 = a
      generalize (List.getLast _ hne).1 = b
      have hx : ∀ x ∈ (all.filterMap fun p => (f.find p.1).map fun v => (v, p.2)), ∃ q, ∃ s', figPanel w o f times a b x.1 x.2 empty = .ok (q, s') := by
        intro x hx
        obtain ⟨p, hp, h1, h2⟩ := (hmem x).1 hx
        exact (hcan x.1 x.2 a b).2 ⟨h2 ▸ hd p hp x.1 h1, fun ho _ => hsub ho⟩
      generalize (all.filterMap fun p => (f.find p.1).map fun v => (v, p.2)) = vars at hx
      clear * - hx
      induction vars with
      | nil => exact ⟨[], .nil⟩
      | cons x l ih =>
        obtain ⟨q, hq⟩ := hx x (by simp)
        obtain ⟨qs, hqs⟩ := ih fun y hy => hx y (by simp [hy])
        exact ⟨q :: qs, .cons hq hqs⟩
    obtain ⟨panels, hpanels⟩ := this
    exact ⟨(panels, _), (generateFigure_ok empty parse w o f names output panels _).2 ⟨_, times, _, _, hplan, hfirst, hlast, hpanels, hsave, rfl⟩⟩

/-- **C164.** Marks of rain and of cloud tops: they depend on the first panel of the figure, not on the panel itself. -/
theorem C164_marks {τ : Type} (empty : τ) (parse : String → Option ℤ) (w : FigWorld τ) (o : FigOptions) (f : FigFile) (names : List String) (output : Bool)
    (first : FigPanel τ) (panels : List (FigPanel τ)) (label : Option String) (h : (generateFigure empty parse w o f names output).result = .ok (first :: panels, label)) :
    ∀ q ∈ first :: panels, (q.rain = true ↔ (∃ b, q.draw = .image b) ∧ first.name = "signal_source_status" ∧ (f.find "rain_detected").isSome ∧ f.rains = true) ∧
      (q.tops = true ↔ (q.draw = .curve ∨ ∃ i, q.draw = .channel i) ∧ first.name = "cloud_top_height_agl" ∧ (f.find "cloud_top_height_status").isSome) := by
  obtain ⟨vars, times, v, last, -, hv, -, hq, -, -⟩ := (generateFigure_ok empty parse w o f names output _ label).1 h
  have hfirst : first.name = v.1.name := by
    cases vars with
    | nil => cases hv
    | cons a l =>
      cases hv
      obtain ⟨h1, -⟩ := List.forall₂_cons.1 hq
      exact ((figPanel_ok w o f times _ _ _ _ _ _).1 h1).2.2.2.2.2.1
  intro q hq'
  obtain ⟨p, hp⟩ := forall₂_exists_right hq.flip q hq'
  obtain ⟨-, -, -, -, -, -, -, h1, h2, -⟩ := (figPanel_ok w o f times _ _ _ _ _ _).1 hp
  rw [hfirst]
  exact ⟨h1, h2⟩

/-- **C164.** A panel of a figure is the same as in a figure of its own, apart from these marks, if the horizontal axis is the same (which it is for all files but those of the validation of
satellites). Panels do not influence each other otherwise. -/
theorem C164_alone {τ : Type} (empty : τ) (parse : String → Option ℤ) (w : FigWorld τ) (o : FigOptions) (f : FigFile) (names : List String) (output : Bool)
    (panels : List (FigPanel τ)) (label : Option String) (h : (generateFigure empty parse w o f names output).result = .ok (panels, label))
    (n : String) (hn : n ∈ names) (p : String × Option ℤ) (hp : plotVariable parse n = .ok p) (v : FigVar) (hv : f.find p.1 = some v)
    (hty : f.fileType ≠ "cpr-validation" ∧ f.fileType ≠ "cpr-tc-validation") :
    ∃ q ∈ panels, ∃ q', (generateFigure empty parse w o f [n] output).result = .ok ([q'], label) ∧ q = { q' with rain := q.rain, tops := q.tops } ∧
      (∀ first, panels.head? = some first → first.name ∉ ["signal_source_status", "cloud_top_height_agl"] → p.1 ∉ ["signal_source_status", "cloud_top_height_agl"] → q = q') := by
  obtain ⟨vars, times, first, last, hplan, hfirst, hlast, hq, hsave, hlabel⟩ := (generateFigure_ok empty parse w o f names output panels label).1 h
  obtain ⟨all, ha, hvars, hne, hh, htimes, htm⟩ := (figPlan_ok parse w f names vars times).1 hplan
  have hpall : p ∈ all := by
    clear hvars h hplan hty htimes htm hq
    induction ha with
    | nil => simp at hn
    | cons h1 _ ih =>
      rcases List.mem_cons.1 hn with rfl | hn
      · rw [h1] at hp
        cases hp
        simp
      · exact List.mem_cons_of_mem _ (ih hn)
  have hpv : (v, p.2) ∈ vars := by
    rw [hvars]
    exact List.mem_filterMap.2 ⟨p, hpall, by rw [hv]; rfl⟩
  have htimes' : times = figTime f.fileType [v.name] := by
    rw [htimes]
    unfold figTime
    simp [hty.1, hty.2]
  obtain ⟨q, hqm, hqp⟩ : ∃ q ∈ panels, ∃ s', figPanel w o f times first.1 last.1 v p.2 empty = .ok (q, s') := by
    clear hplan hfirst hlast hvars hne htimes h
    induction hq with
    | nil => simp at hpv
    | cons h1 _ ih =>
      rcases List.mem_cons.1 hpv with rfl | hpv
      · exact ⟨_, by simp, h1⟩
      · obtain ⟨q, hq, h2⟩ := ih hpv
        exact ⟨q, List.mem_cons_of_mem _ hq, h2⟩
  have hsub : o.subtitle = true → w.subtitle = none := by
    intro ho
    obtain ⟨q, hq⟩ := forall₂_exists_right hq last (List.mem_of_getLast? hlast)
    exact ((figPanel_ok w o f times _ _ _ _ _ _).1 hq).2.2.2.2.1 ho rfl
  have hname : v.name = p.1 := by
    unfold FigFile.find at hv
    simpa using List.find?_some hv
  obtain ⟨e1, e2, e3, e4, -, e5, e6, e7, e8, e9, e10, e11⟩ := (figPanel_ok w o f times first.1 last.1 v p.2 empty q).1 hqp
  classical
  let q' : FigPanel τ := { q with
    rain := decide ((∃ b, q.draw = .image b) ∧ v.name = "signal_source_status" ∧ (f.find "rain_detected").isSome ∧ f.rains = true)
    tops := decide ((q.draw = .curve ∨ ∃ i, q.draw = .channel i) ∧ v.name = "cloud_top_height_agl" ∧ (f.find "cloud_top_height_status").isSome) }
  refine ⟨q, hqm, q', ?_, rfl, ?_⟩
  · refine (generateFigure_ok empty parse w o f [n] output [q'] label).2 ⟨[(v, p.2)], times, (v, p.2), (v, p.2), ?_, rfl, rfl, ?_, hsave, hlabel⟩
    · refine (figPlan_ok parse w f [n] _ times).2 ⟨[p], .cons hp .nil, ?_, by simp, hh, htimes', htm⟩
      simp [hv]
    · refine .cons ?_ .nil
      exact (figPanel_ok w o f times v v v p.2 empty q').2 ⟨e1, e2, e3, e4, fun ho _ => hsub ho, e5, e6, by simp [q'], by simp [q'], e9, e10, e11⟩
  · intro fp hfp h1 h2
    have hfname : fp.name = first.1.name := by
      cases hq with
      | nil => cases hfp
      | cons h1 _ =>
        cases hfp
        cases hfirst
        exact ((figPanel_ok w o f times _ _ _ _ _ _).1 h1).2.2.2.2.2.1
    rw [hfname] at h1
    rw [← hname] at h2
    simp only [List.mem_cons, List.not_mem_nil, or_false, not_or] at h1 h2
    have r1 : q.rain = false := Bool.not_eq_true _ ▸ fun hh => h1.1 (e7.1 hh).2.1
    have r2 : q.tops = false := Bool.not_eq_true _ ▸ fun hh => h1.2 (e8.1 hh).2.1
    obtain ⟨qn, qd, qt, qr, qo, qa, qti, qg, qs, ql⟩ := q
    simp only [q']
    dsimp only at r1 r2
    subst r1 r2
    simp [h2.1, h2.2]

/-- **C164.** Sources: those of the variable, else those of the file. -/
theorem C164_sources (f : FigFile) (v : FigVar) :
    (∀ s, v.source = some s → s ≠ "" → figSource f v = some ("Data " ++ (if '\n' ∈ s.toList then "sources" else "source") ++ ":\n" ++ s)) ∧
    ((v.source = none ∨ v.source = some "") → ∀ s, f.source = some s → figSource f v = some ("Data " ++ (if '\n' ∈ s.toList then "sources" else "source") ++ ":\n" ++ s)) ∧
    ((v.source = none ∨ v.source = some "") → f.source = none → figSource f v = none) := by
  unfold figSource
  refine ⟨fun s h hs => by simp [h, hs], ?_, ?_⟩
  · rintro (h | h) s hs <;> simp [h, hs]
  · rintro (h | h) hs <;> simp [h, hs]

/-- **C164.** The horizontal axis: 24 hours, but for the files of the validation of satellites. -/
theorem C164_axis (fileType : String) (edges : Bool) (times : String) (v : FigVar) :
    (fileType ∉ ["cpr-simulation", "cpr-validation", "cpr-tc-validation"] → figAxis fileType edges times v = .hours edges ∧ figXLabel fileType = some "Time (UTC)") ∧
    (fileType = "cpr-simulation" → figAxis fileType edges times v = .track ∧ figXLabel fileType = some "Distance along track (km)") ∧
    (fileType = "cpr-tc-validation" → figAxis fileType edges times v = .span times ∧ figXLabel fileType = some "Time (UTC)") ∧
    (fileType = "cpr-validation" → (v.name ≠ "cloud_top_height" → figAxis fileType edges times v = .span times) ∧ (v.name = "cloud_top_height" → figAxis fileType edges times v = .untouched) ∧
      figXLabel fileType = none) := by
  unfold figAxis figXLabel
  refine ⟨fun h => ?_, fun h => by simp [h], fun h => by simp [h], fun h => ?_⟩
  · simp only [List.mem_cons, List.not_mem_nil, or_false, not_or] at h
    simp [h]
  · subst h
    exact ⟨fun h => by simp [h], fun h => by simp [h], by simp⟩

/-! ### Footer -/

theorem wrapGo_flatten (n : ℕ) (cur ws : List (List Char)) : (wrapGo n cur ws).flatten = cur ++ ws := by
  induction ws generalizing cur with
  | nil =>
    unfold wrapGo
    split_ifs with h
    · simp [h]
    · simp
  | cons w ws ih =>
    unfold wrapGo
    split_ifs with h h'
    · rw [ih, h]
      simp
    · rw [ih]
      simp
    · rw [List.flatten_cons, ih]
      simp

theorem wrapGo_fits (n : ℕ) (cur ws : List (List Char)) (hc : wordsLength cur ≤ n) (hw : ∀ w ∈ ws, w.length ≤ n) : ∀ l ∈ wrapGo n cur ws, wordsLength l ≤ n := by
  have hone : ∀ w : List Char, wordsLength [w] = w.length := fun w => by simp [wordsLength]
  induction ws generalizing cur with
  | nil =>
    unfold wrapGo
    split_ifs with h
    · simp
    · simpa using hc
  | cons w ws ih =>
    have hw' := fun x hx => hw x (List.mem_cons_of_mem _ hx)
    have hw0 := hw w (by simp)
    unfold wrapGo
    split_ifs with h h'
    · exact ih [w] (by rw [hone]; exact hw0) hw'
    · exact ih _ h' hw'
    · intro l hl
      rcases List.mem_cons.1 hl with rfl | hl
      · exact hc
      · exact ih [w] (by rw [hone]; exact hw0) hw' l hl

theorem wrapGo_greedy (n : ℕ) (cur ws : List (List Char)) :
    (∀ l ∈ wrapGo n cur ws, l ≠ []) ∧ (wrapGo n cur ws).IsChain (fun a b => ∀ w, b.head? = some w → n < wordsLength (a ++ [w])) ∧
      (cur ≠ [] → ∀ l, (wrapGo n cur ws).head? = some l → l.head? = cur.head?) := by
  induction ws generalizing cur with
  | nil =>
    unfold wrapGo
    split_ifs with h
    · simp [h]
    · simp [h]
  | cons w ws ih =>
    unfold wrapGo
    split_ifs with h h'
    · obtain ⟨h1, h2, -⟩ := ih [w]
      exact ⟨h1, h2, fun hc => absurd h hc⟩
    · obtain ⟨h1, h2, h3⟩ := ih (cur ++ [w])
      refine ⟨h1, h2, fun hc l hl => ?_⟩
      rw [h3 (by simp) l hl]
      cases cur with
      | nil => exact absurd rfl hc
      | cons a c => rfl
    · obtain ⟨h1, h2, h3⟩ := ih [w]
      refine ⟨fun l hl => ?_, ?_, fun _ l hl => by cases hl; rfl⟩
      · rcases List.mem_cons.1 hl with rfl | hl
        · exact h
        · exact h1 l hl
      · cases hr : wrapGo n [w] ws with
        | nil => simp
        | cons b r =>
          rw [hr] at h2 h3
          refine List.isChain_cons_cons.2 ⟨fun x hx => ?_, h2⟩
          have := h3 (by simp) b rfl
          rw [hx] at this
          cases this
          exact not_le.1 h'

/-- **C164.** The footer: all words in their order, on lines of at most 50 characters, each as full as possible. -/
theorem C164_footer (words : List (List Char)) (hw : ∀ w ∈ words, w.length ≤ 50) (h0 : words ≠ []) :
    (figFooter [words]).flatten = words ∧ (∀ l ∈ figFooter [words], l ≠ [] ∧ wordsLength l ≤ 50) ∧
    (figFooter [words]).IsChain (fun a b => ∀ w, b.head? = some w → 50 < wordsLength (a ++ [w])) := by
  have hf : ([words] : List (List (List Char))).flatten = words := by simp
  unfold figFooter
  rw [hf]
  split_ifs with h
  · obtain ⟨h1, h2, -⟩ := wrapGo_greedy 50 [] words
    exact ⟨by rw [wrapGo_flatten]; rfl, fun l hl => ⟨h1 l hl, wrapGo_fits 50 [] words (by simp [wordsLength]) hw l hl⟩, h2⟩
  · exact ⟨by simp, fun l hl => by simp at hl; subst hl; exact ⟨h0, not_lt.1 h⟩, by simp⟩

/-- **C164.** The call writes the lines into the options of the caller; further calls with the same options show the same footer. -/
theorem C164_footer_again (lines : List (List (List Char))) : figFooter (figFooter lines) = figFooter lines := by
  unfold figFooter
  split_ifs with h1 h2
  · rw [wrapGo_flatten]
    rfl
  · rfl
  · rfl

/-! ### Examples -/

/-- A file of the classification product. -/
def figExampleFile : FigFile := ⟨"classification", [⟨"time", 1, none, none, none⟩, ⟨"cloud_top_height_agl", 1, some "Height of cloud top above ground", some "m", none⟩,
  ⟨"cloud_base_height_agl", 1, some "Height of cloud base above ground", some "m", none⟩, ⟨"cloud_top_height_status", 1, some "Status", some "1", none⟩,
  ⟨"target_classification", 2, some "Target classification", some "1", none⟩, ⟨"signal_source_status", 2, some "Signal source status", some "1", none⟩,
  ⟨"rain_detected", 1, some "Rain", some "1", none⟩], some "radar\nlidar", true⟩

/-- Everything can be drawn. -/
def figExampleWorld : FigWorld ℕ := ⟨fun _ _ => none, ⟨none, ""⟩, none, fun _ _ _ => .ok 5, none, none⟩

/-- The options by default. -/
def figExampleOptions : FigOptions := ⟨true, true, false, false, false, none⟩

/-- **C164, a finding.** The flags of cloud tops are drawn on the panel of cloud bases if it is below that of cloud tops, and are left out if it is above. Rain is marked on every image below
`signal_source_status`, and only there. -/
theorem C164_marks_elsewhere :
    ((generateFigure 0 String.toInt? figExampleWorld figExampleOptions figExampleFile ["cloud_top_height_agl", "cloud_base_height_agl"] true).result.toOption.map fun r =>
      r.1.map fun q => (q.name, q.tops)) = some [("cloud_top_height_agl", true), ("cloud_base_height_agl", true)] ∧
    ((generateFigure 0 String.toInt? figExampleWorld figExampleOptions figExampleFile ["cloud_base_height_agl", "cloud_top_height_agl"] true).result.toOption.map fun r =>
      r.1.map fun q => (q.name, q.tops)) = some [("cloud_base_height_agl", false), ("cloud_top_height_agl", false)] ∧
    ((generateFigure 0 String.toInt? figExampleWorld figExampleOptions figExampleFile ["signal_source_status", "target_classification"] true).result.toOption.map fun r =>
      r.1.map fun q => (q.name, q.rain)) = some [("signal_source_status", true), ("target_classification", true)] ∧
    ((generateFigure 0 String.toInt? figExampleWorld figExampleOptions figExampleFile ["target_classification", "signal_source_status"] true).result.toOption.map fun r =>
      r.1.map fun q => (q.name, q.rain)) = some [("target_classification", false), ("signal_source_status", false)] := by
  refine ⟨?_, ?_, ?_, ?_⟩ <;> decide +kernel

/-- Names that are not in the file are left out, repeated ones are repeated. -/
example : ((generateFigure 0 String.toInt? figExampleWorld figExampleOptions figExampleFile ["target_classification", "nothing", "target_classification"] true).result.toOption.map fun r =>
    r.1.map fun q => (q.name, q.draw, q.title)) = some [("target_classification", .image false, some "Target classification"), ("target_classification", .image false, some "Target classification")] := by
  decide +kernel

example : (figFooter [["these".toList, "words".toList, "make".toList, "a".toList, "footer".toList, "of".toList, "more".toList, "than".toList, "fifty".toList, "characters".toList]]).map List.length = [9, 1] := by
  decide +kernel

end Cloudnet
