import Mathlib.Tactic
import Verif.CliPlots.Model
import Verif.CliFiles.Props
import Verif.Disdronator.LpmProps

/-!
C184: plots of the command line interface do not end a run.
-/

namespace Cloudnet

theorem pathParent_join (dir name : List Char) (hd : dir ≠ []) (hn : '/' ∉ name) : pathParent (dir ++ '/' :: name) = dir := by
  have hrev : ((dir ++ '/' :: name).reverse.dropWhile (· ≠ '/')).reverse = dir ++ ['/'] := by
    have h1 : (dir ++ '/' :: name).reverse = name.reverse ++ ('/' :: dir.reverse) := by simp
    rw [h1, List.dropWhile_append]
    have h2 : name.reverse.dropWhile (fun x => decide (x ≠ '/')) = [] := by
      rw [List.dropWhile_eq_nil_iff]
      intro x hx
      simp only [ne_eq, decide_not, Bool.not_eq_eq_eq_not, Bool.not_true, decide_eq_false_iff_not]
      rintro rfl
      exact hn (List.mem_reverse.1 hx)
    simp only [h2, List.isEmpty_nil, if_true]
    simp
  unfold pathParent
  simp only [hrev]
  rw [if_neg (by simp), if_neg (by
    intro h
    have := congrArg List.length h
    simp at this
    exact hd this)]
  simp

/-- **C184.** Plots of products: without a file, or if neither plots nor windows are wanted, nothing is drawn. The run ends only if the portal does not know the product or drawing
raises something else than a plotting error; then it ends with this error. -/
theorem C184_plot (portal : List (String × List String)) (file : Option String) (product : String) (a : PlotArgs) (figure : FigureCall → Except FigureError Unit) :
    (file = none ∨ (a.plot = false ∧ a.showFigure = false) → plotRun portal file product a figure = .ok []) ∧
    (∀ e, plotRun portal file product a figure = .error e ↔
      (∃ m, plotProduct portal file product a = .error m ∧ e = .inl m) ∨
      (∃ call f, plotProduct portal file product a = .ok (some call) ∧ figure call = .error f ∧ f ≠ .plotting ∧ e = .inr f)) ∧
    (∀ call, plotProduct portal file product a = .ok (some call) → figure call = .error .plotting →
      ∃ l, plotRun portal file product a figure = .ok (.failed product :: l)) := by
  refine ⟨?_, ?_, ?_⟩
  · rintro (h | ⟨h1, h2⟩)
    · subst h
      rfl
    · unfold plotRun plotProduct
      cases file <;> simp [h1, h2]
  · intro e
    unfold plotRun
    cases hp : plotProduct portal file product a with
    | error m =>
      simp only [Except.error.injEq, reduceCtorEq, false_and, exists_false, or_false]
      constructor
      · intro h
        exact ⟨m, rfl, h.symm⟩
      · rintro ⟨m', h1, h2⟩
        rw [h2, h1]
    | ok o =>
      cases o with
      | none => simp
      | some call =>
        simp only [reduceCtorEq, false_and, exists_false, false_or, Except.ok.injEq, Option.some.injEq]
        cases hf : figure call with
        | ok u => 
          constructor
          · intro h; simp at h
          · rintro ⟨c, f, rfl, h2, -⟩
            rw [hf] at h2
            cases h2
        | error f =>
          constructor
          · intro h
            cases f <;> simp at h <;> exact ⟨call, _, rfl, hf, by simp, h.symm⟩
          · rintro ⟨c, f', rfl, h2, h3, rfl⟩
            rw [hf] at h2
            cases h2
            cases f <;> simp_all
  · intro call h1 h2
    unfold plotRun
    rw [h1]
    simp only [h2]
    exact ⟨_, rfl⟩

/-- **C184.** A failed plot that should have been saved is reported as failed, and then as plotted all the same. -/
theorem C184_plotted_after_failure (portal : List (String × List String)) (file : Option String) (product : String) (a : PlotArgs) (figure : FigureCall → Except FigureError Unit)
    (call : FigureCall) (image : String) (h1 : plotProduct portal file product a = .ok (some call)) (h2 : call.image = some image) (h3 : figure call = .error .plotting) :
    plotRun portal file product a figure = .ok [.failed product, .plotted product image] := by
  unfold plotRun
  rw [h1]
  simp only [h3, h2]

example : plotRun [] (some "20230101_radar.nc") "radar" ⟨true, false, some "Zh", none⟩ (fun _ => .error .plotting) =
    .ok [.failed "radar", .plotted "radar" "20230101_radar.png"] := by decide +kernel

/-- **C184.** Plots of model evaluation products. Nothing is drawn without a file, or if neither plots nor windows are wanted. The drawing function is given the file, the name of the
product without "l3-", the wanted variables if they were given, and the folder of the file with a slash if plots are saved. Plotting, value and key errors do not end the run, and then
nothing is reported as plotted; other errors end it. -/
theorem C184_l3 (file : Option String) (product : String) (a : PlotArgs) (figure : L3Call → Except FigureError Unit) :
    (file = none ∨ (a.plot = false ∧ a.showFigure = false) → plotL3Run file product a figure = .ok []) ∧
    (∀ dir name obs : String, ∀ names : List String, file = some (dir ++ "/" ++ name) → dir ≠ "" → '/' ∉ name.toList → product = "l3-" ++ obs →
      (a.plot = true ∨ a.showFigure = true) → names ≠ [] → (∀ x ∈ names, ',' ∉ x.toList) → a.names = some (",".intercalate names) →
      let call : L3Call := ⟨dir ++ "/" ++ name, obs, some names, if a.plot then some (dir ++ "/") else none, a.showFigure⟩
      (figure call = .ok () → plotL3Run file product a figure = .ok (if a.plot then [.plotted product (dir ++ "/")] else [])) ∧
      (∀ e, figure call = .error e → (e = .plotting ∨ e = .value ∨ e = .key) → plotL3Run file product a figure = .ok [.failed product]) ∧
      (∀ e, figure call = .error (.other e) → plotL3Run file product a figure = .error (.other e))) := by
  constructor
  · rintro (h | ⟨h1, h2⟩)
    · subst h
      rfl
    · unfold plotL3Run plotL3Call
      cases file <;> simp [h1, h2]
  · intro dir name obs names hfile hdir hname hprod hwant hne hcomma hnames call
    have hcall : plotL3Call file product a = some call := by
      unfold plotL3Call
      rw [hfile, hprod]
      dsimp only
      rw [if_neg (by rcases hwant with h | h <;> simp [h])]
      have e1 : String.ofList (removePrefix "l3-".toList ("l3-" ++ obs).toList) = obs := by
        unfold removePrefix
        rw [String.toList_append, if_pos (List.prefix_append _ _), List.drop_left]
        simp
      have e2 : String.ofList (pathParent (dir ++ "/" ++ name).toList ++ ['/']) = dir ++ "/" := by
        have hd : dir.toList ≠ [] := by
          intro h
          apply hdir
          exact String.toList_inj.1 (by rw [h]; rfl)
        have : (dir ++ "/" ++ name).toList = dir.toList ++ '/' :: name.toList := by simp [String.toList_append]
        rw [this, pathParent_join _ _ hd hname]
        apply String.toList_inj.1
        simp
      have e3 : a.names.map (splitChar ',') = some names := by
        rw [hnames]
        simp only [Option.map_some]
        have hj : ",".intercalate names = String.ofList ([','].intercalate (names.map String.toList)) := by
          apply String.toList_inj.1
          rw [String.toList_ofList, String.toList_intercalate]
          rfl
        rw [hj]
        exact congrArg some (splitChar_intercalate ',' names hne hcomma)
      rw [e1, e2, e3]
    unfold plotL3Run
    rw [hcall]
    dsimp only
    refine ⟨fun h => ?_, fun e h he => ?_, fun e h => ?_⟩
    · rw [h]
      show Except.ok _ = _
      cases ha : a.plot <;> simp [call, ha]
    · rw [h]
      rcases he with rfl | rfl | rfl <;> rfl
    · rw [h]

example : plotL3Run (some "out/2023/a_l3-cf.nc") "l3-cf" ⟨true, false, some "ecmwf,icon", none⟩
    (fun c => if c = ⟨"out/2023/a_l3-cf.nc", "cf", some ["ecmwf", "icon"], some "out/2023/", false⟩ then .ok () else .error .value) = .ok [.plotted "l3-cf" "out/2023/"] := by decide +kernel

end Cloudnet
