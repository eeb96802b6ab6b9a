import Verif.Props.CsvText
import Verif.Model.RunOutText
/-
  C75: the run-out file and the figure drawn from it.
-/
set_option linter.unusedSectionVars false
namespace PyFlowGo
open Spec
variable {α : Type}

theorem runOut_dicts (render : α → List Char) (f : RunOutFile α) (hid : '\r' ∉ f.flowId.toList)
    (hcr : ∀ x, '\r' ∉ render x) (windows : Bool) :
    dictRead ',' (stored windows (f.text render)) =
      .ok (f.lines.map fun l => dictZip (runOutHeads.map String.toList) (runOutFields render f.flowId l)) := by
  unfold RunOutFile.text
  rw [dictRead_write comma_delim _ _ (by decide) _ (by decide) _ windows, List.map_map]
  · rfl
  · intro r hr
    obtain ⟨l, _, rfl⟩ := List.mem_map.mp hr
    simp [runOutFields]
  · intro r hr x hx
    obtain ⟨l, _, rfl⟩ := List.mem_map.mp hr
    simp only [runOutFields, List.mem_cons, List.not_mem_nil, or_false] at hx
    rcases hx with rfl | rfl | rfl | rfl | rfl | rfl | rfl | rfl | rfl | rfl | rfl <;> first | exact hid | exact hcr _

/-- **C75**. The table a reader of the run-out file gets: per result file one line, in order, every number under its
    own heading, the flow id of the lava in all of them. -/
theorem C75_run_out_table (render : α → List Char) (f : RunOutFile α) (hid : '\r' ∉ f.flowId.toList)
    (hcr : ∀ x, '\r' ∉ render x) (windows : Bool) :
    ∃ rows, dictRead ',' (stored windows (f.text render)) = .ok rows ∧
      List.Forall₂ (fun (l : RunOut α) row =>
        (∀ name text, (name, text) ∈ [("flow_id", f.flowId.toList), ("Effusion_rate", render l.effusionRate),
            ("Depth", render l.depth), ("Width_init", render l.widthInit), ("X_init", render l.xInit),
            ("Y_init", render l.yInit), ("Elevation_init", render l.altInit), ("X_run_out", render l.x),
            ("Y_run_out", render l.y), ("Elevation_run_out", render l.alt), ("Distance_run_out", render l.runOut)] →
          dictField row name = .ok (some text))) f.lines rows := by
  refine ⟨_, runOut_dicts render f hid hcr windows, ?_⟩
  rw [List.forall₂_map_right_iff]
  refine List.forall₂_same.mpr fun l _ => ?_
  intro name text h
  simp only [List.mem_cons, Prod.mk.injEq, List.not_mem_nil, or_false] at h
  rcases h with h | h | h | h | h | h | h | h | h | h | h <;> obtain ⟨rfl, rfl⟩ := h <;> rfl

theorem figureLoop_of (pf : List Char → Option α) (render : α → List Char) (hpf : ∀ x, pf (render x) = some x) (flowId : String)
    (ls : List (RunOut α)) (id : Option (List Char)) :
    runOutFigureLoop pf (ls.map fun l => dictZip (runOutHeads.map String.toList) (runOutFields render flowId l)) id =
      .ok (if ls = [] then id else some flowId.toList, ls.map fun l => (l.runOut, l.effusionRate)) := by
  induction ls generalizing id with
  | nil => rfl
  | cons l ls ih =>
    rw [List.map_cons, runOutFigureLoop]
    have h1 : dictField (dictZip (runOutHeads.map String.toList) (runOutFields render flowId l)) "flow_id" =
        .ok (some flowId.toList) := rfl
    have h2 : dictField (dictZip (runOutHeads.map String.toList) (runOutFields render flowId l)) "Effusion_rate" =
        .ok (some (render l.effusionRate)) := rfl
    have h3 : dictField (dictZip (runOutHeads.map String.toList) (runOutFields render flowId l)) "Distance_run_out" =
        .ok (some (render l.runOut)) := rfl
    unfold dictFloat
    rw [h1, h2, h3]
    simp only [ok_bind, hpf, ih]
    cases ls <;> rfl

/-- **C75**. The figure drawn from the run-out file shows, in order, exactly the run-out distance and effusion rate of
    every line of the table, under the name of the lava. -/
theorem C75_run_out_figure (pf : List Char → Option α) (render : α → List Char) (hpf : ∀ x, pf (render x) = some x)
    (f : RunOutFile α) (hid : '\r' ∉ f.flowId.toList) (hcr : ∀ x, '\r' ∉ render x) (windows : Bool) (hne : f.lines ≠ []) :
    runOutFigure pf (stored windows (f.text render)) =
      .ok { title := f.flowId.toList, distance := f.lines.map (·.runOut), effusionRate := f.lines.map (·.effusionRate) } := by
  unfold runOutFigure
  rw [runOut_dicts render f hid hcr windows, ok_bind, figureLoop_of pf render hpf, ok_bind]
  simp [hne, pure_eq_ok, Function.comp]

/-- **C75**: a table without lines has no figure. -/
theorem C75_no_lines_no_figure (pf : List Char → Option α) (render : α → List Char) (f : RunOutFile α) (windows : Bool)
    (hid : '\r' ∉ f.flowId.toList) (hcr : ∀ x, '\r' ∉ render x) (hne : f.lines = []) :
    runOutFigure pf (stored windows (f.text render)) = .error .nameError := by
  unfold runOutFigure
  rw [runOut_dicts render f hid hcr windows, ok_bind, hne]
  rfl

section
variable [Add α] [PyNum α]

theorem runOutsLoop_length {round : Nat → α → α} {slope : Option (List (SlopeLine α))}
    {results : String → Option (CsvTable (Cell α))} {names : List String} {ls : List (RunOut α)}
    (h : runOutsLoop round slope results names = (.ok (), ls)) : ls.length = names.length := by
  induction names generalizing ls with
  | nil => rw [runOutsLoop, Prod.mk.injEq] at h; rw [← h.2]; rfl
  | cons n names ih =>
    rw [runOutsLoop] at h
    cases hr : results n with
    | none => rw [hr] at h; simp at h
    | some t =>
      rw [hr] at h
      cases hs : slope with
      | none => rw [hs] at h; simp at h
      | some lines =>
        subst hs
        dsimp only at h
        cases hg : getRunOut round t lines with
        | error e => rw [hg] at h; simp at h
        | ok line =>
          rw [hg] at h
          dsimp only at h
          rw [Prod.mk.injEq] at h
          rw [← h.2, List.length_cons, List.length_cons, ih (Prod.ext h.1 rfl)]

/-- **C75**. When `get_run_outs` ends normally, there is at least one result file, the table has one line for each, and
    its figure shows them all. -/
theorem C75_get_run_outs (round : Nat → α → α) (env : Env α) (p : Proc α) (folder : String) (names : List String)
    (slopeFile lavaName : String) (f : RunOutFile α)
    (h : getRunOuts round env p folder names slopeFile lavaName = (.ok (), f)) (pf : List Char → Option α)
    (render : α → List Char) (hpf : ∀ x, pf (render x) = some x) (hid : '\r' ∉ lavaName.toList)
    (hcr : ∀ x, '\r' ∉ render x) (windows : Bool) :
    names ≠ [] ∧ f.lines.length = names.length ∧
    runOutFigure pf (stored windows (f.text render)) =
      .ok { title := lavaName.toList, distance := f.lines.map (·.runOut), effusionRate := f.lines.map (·.effusionRate) } := by
  unfold getRunOuts at h
  cases hl : runOutsLoop round (env.slopeFile slopeFile) (fun name => lookup p.results (env.canon name)) names with
  | mk e ls =>
  rw [hl] at h
  dsimp only at h
  cases e with
  | error e => simp at h
  | ok u =>
    dsimp only at h
    by_cases hn : names = []
    · subst hn; simp at h
    · have : names.isEmpty = false := by simpa using hn
      rw [this] at h
      simp only [Bool.false_eq_true, if_false, Prod.mk.injEq, true_and] at h
      have hlen := runOutsLoop_length hl
      subst h
      refine ⟨hn, hlen, C75_run_out_figure pf render hpf _ hid hcr windows ?_⟩
      intro h0
      dsimp only at h0
      rw [h0] at hlen
      exact hn (List.length_eq_zero_iff.mp hlen.symm)

end

/-- **C75**: a lava name with a comma and two lines meet the hypotheses. -/
example : ∃ (pf : List Char → Option ℕ) (render : ℕ → List Char) (f : RunOutFile ℕ), (∀ x, pf (render x) = some x) ∧
    '\r' ∉ f.flowId.toList ∧ (∀ x, '\r' ∉ render x) ∧ f.lines.length = 2 ∧ f.flowId = "Etna, 2001" := by
  refine ⟨fun f => some f.length, fun x => List.replicate x '1',
    ⟨"p", "Etna, 2001", [⟨1, 2, 3, 4, 5, 6, 7, 8, 9, 10⟩, ⟨2, 2, 3, 4, 5, 6, 7, 8, 9, 20⟩]⟩, by simp, by decide, ?_, rfl, rfl⟩
  intro x h
  have := List.eq_of_mem_replicate h
  revert this; decide

end PyFlowGo
