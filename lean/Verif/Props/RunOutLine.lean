import Verif.Props.RunOuts
import Verif.Proofs.RunTable
import Verif.Proofs.RunOutOrder
/-
  C59: what the line of the run-out table says about the run.
-/
set_option linter.unusedSectionVars false
namespace PyFlowGo
open Spec

/-- The `i`-th cell of a column is the cell in the row of the position after `i` steps. -/
theorem column_cell (g : Integrator ℝ) (hdx : 0 < g.dx) (n : Nat) (w w' : World ℝ) (hw : w.log = []) (h : runLoop g n w = some (.ok (), w'))
    (c : String) (i : Nat) (hi : i < w'.log.length) : cellAt w'.log (.num (w.st.pos + i * g.dx)) c = (w'.log[i]).get? c := by
  have hp := C63_positions g hdx n w w' hw h
  have at_ : ∀ j (hj : j < w'.log.length), (w'.log[j]).get? "position" = some (.num (w.st.pos + (j : ℝ) * g.dx)) := by
    intro j hj
    have := congrArg (fun l => l[j]?) hp
    unfold Log.getValues at this
    simp only [List.getElem?_map, List.getElem?_range hj, List.getElem?_eq_getElem hj, Option.map_some, Option.some.injEq] at this
    exact this
  have hf : w'.log.find? (fun r => r.atPosition (.num (w.st.pos + i * g.dx))) = some w'.log[i] := by
    rw [List.find?_eq_some_iff_getElem]
    refine ⟨?_, i, hi, rfl, fun j hj => ?_⟩
    · unfold Row.atPosition; rw [at_ i hi]; exact beq_self_eq_true _
    · unfold Row.atPosition
      rw [at_ j (by omega)]
      rw [Bool.not_eq_true', beq_eq_false_iff_ne]
      intro e
      injection e with e
      have : (i : ℝ) = j := mul_right_cancel₀ hdx.ne' (by linarith)
      have : i = j := by exact_mod_cast this
      omega
  unfold cellAt
  rw [hf]; rfl

theorem column_number (g : Integrator ℝ) (hdx : 0 < g.dx) (n : Nat) (w w' : World ℝ) (hw : w.log = []) (h : runLoop g n w = some (.ok (), w'))
    (c : String) (xs : List ℝ) (hx : ColumnIs w'.log c xs) (i : Nat) (x : ℝ) (hi : xs[i]? = some x) :
    ∃ cell, cellAt w'.log (.num (w.st.pos + i * g.dx)) c = some cell ∧ cellNumber cell = x := by
  obtain ⟨cells, h1, rfl⟩ := hx
  rw [List.getElem?_map, Option.map_eq_some_iff] at hi
  obtain ⟨cell, hc, rfl⟩ := hi
  have hlen : i < w'.log.length := by
    have e := congrArg List.length h1
    unfold Log.getValues at e
    rw [List.length_map, List.length_map] at e
    rw [e]; exact (List.getElem?_eq_some_iff.mp hc).1
  refine ⟨cell, ?_, rfl⟩
  rw [column_cell g hdx n w w' hw h c i hlen]
  have := congrArg (fun l => l[i]?) h1
  unfold Log.getValues at this
  simp only [List.getElem?_map, List.getElem?_eq_getElem hlen, hc, Option.map_some, Option.some.injEq] at this
  exact this

/-- **C59**. The line that `get_run_outs` makes from the result of a completed run reports the effusion rate at the vent, rounded, the depth of the channel, and the width shown in the
    second row, one step below the vent. -/
theorem C59_line_shows (round : Nat → ℝ → ℝ) (g : Integrator ℝ) (hdx : 0 < g.dx) (n : Nat) (w w' : World ℝ) (hw : w.log = [])
    (h : runLoop g n w = some (.ok (), w')) (t : CsvTable (Cell ℝ)) (ht : writeValues w'.log = .ok (some t)) (lines : List (SlopeLine ℝ)) (ro : RunOut ℝ)
    (hro : getRunOut round t lines = .ok ro) (E : ℝ) (hE : VentRate g w E) :
    ro.effusionRate = round 0 E ∧ ro.depth = w.terrain.depth ∧ loggedNum w'.log (w.st.pos + g.dx) "channel_width" = some ro.widthInit := by
  obtain ⟨hcols, xs, ws, ds, qs, hx, hW, hD, hQ, m, q0, x1, _, last, hm, e1, e2, e3, hx1, _, hl, e4, _⟩ := (C59_run_out_line round _ t ht lines ro).mp hro
  obtain ⟨k, us, d, tab⟩ := run_table g hdx n w w' hw h E hE
  -- two complete rows
  obtain ⟨h2, hv, _⟩ := (C60_run_can_be_post_processed round g hdx n w w' hw h t ht lines).mp ⟨ro, hro⟩
  obtain ⟨c0, f0, g0⟩ := column_number g hdx n w w' hw h _ _ hQ 0 q0 e1
  obtain ⟨c1, f1, g1⟩ := column_number g hdx n w w' hw h _ _ hD 1 ro.depth e2
  obtain ⟨c2, f2, g2⟩ := column_number g hdx n w w' hw h _ _ hW 1 ro.widthInit e3
  have hfull := full_rows round lines g hdx n w w' t ro hw h ht hro
  have hk : ∀ i : Nat, i < 2 → i < k ∧ w.st.pos + i * g.dx = (us i).st.pos := by
    intro i hi
    obtain ⟨y, hy⟩ := (hfull (w.st.pos + i * g.dx)).mpr ⟨i, by omega, rfl⟩
    obtain ⟨j, hj, ej⟩ := tab.shown "crystal_fraction" (step_not_part g _ (by simp)) _ y hy
    have e := tab.pos j hj.le
    rw [e] at ej
    have : (i : ℝ) = j := mul_right_cancel₀ hdx.ne' (by linarith)
    have : i = j := by exact_mod_cast this
    subst this
    exact ⟨hj, e.symm⟩
  obtain ⟨k0, p0⟩ := hk 0 (by omega)
  obtain ⟨k1, p1⟩ := hk 1 (by omega)
  rw [p0] at f0
  rw [p1] at f1 f2
  have r0 := tab.row 0 k0
  have r1 := tab.row 1 k1
  have hnum : ∀ (x y : ℝ) (c : String) (cell : Cell ℝ), loggedNum w'.log x c = some y → cellAt w'.log (.num x) c = some cell → cellNumber cell = y := by
    intro x y c cell hy hc
    unfold loggedNum at hy
    rw [hc] at hy
    cases cell with
    | num z => injection hy
    | text z => cases hy
  rw [r0.effusion_rate, Option.some.injEq] at f0
  have hw1 := hnum _ _ _ _ r1.channel_width f2
  refine ⟨?_, ?_, ?_⟩
  · rw [e4, ← g0, ← f0]; rfl
  · rw [← g1]; exact hnum _ _ _ _ r1.channel_depth f1
  · have : w.st.pos + g.dx = (us 1).st.pos := by rw [← p1]; push_cast; ring
    rw [this, r1.channel_width, ← g2, hw1]

end PyFlowGo
