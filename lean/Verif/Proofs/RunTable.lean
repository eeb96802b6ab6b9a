import Verif.Props.Euler
import Verif.Spec.Compare
/-
  One package with everything known about a finished run: worlds, rows, how it ended, and which positions show a temperature.
-/
set_option linter.unusedSectionVars false
namespace PyFlowGo
open Spec

/-- Accepted runs from the same world agree. -/
theorem acceptedRun_unique {g : Integrator ℝ} {k : Nat} {ws vs : Nat → World ℝ} (h0 : ws 0 = vs 0)
    (h1 : AcceptedRun g k ws) (h2 : AcceptedRun g k vs) : ∀ i, i ≤ k → ws i = vs i := by
  intro i
  induction i with
  | zero => intro _; exact h0
  | succ i ih =>
    intro hi
    have a := (h1 i (by omega)).2.1
    have b := (h2 i (by omega)).2.1
    rw [ih (by omega), b] at a
    exact (congrArg Prod.snd a).symm

theorem acceptedRun_pos {g : Integrator ℝ} {k : Nat} {ws : Nat → World ℝ} (h : AcceptedRun g k ws) :
    ∀ i, i ≤ k → (ws i).st.pos = (ws 0).st.pos + i * g.dx := by
  intro i
  induction i with
  | zero => intro _; simp
  | succ i ih =>
    intro hi
    obtain ⟨d, _, _, he, _⟩ := accepted_row (h i (by omega))
    rw [he.pos, ih (by omega)]; push_cast; ring

/-- The columns of a complete row that are written only when a step is accepted. -/
theorem step_not_part (g : Integrator ℝ) (c : String) (hc : c ∈ ["core_temperature", "crystal_fraction", "mean_velocity", "viscosity"]) :
    c ∉ partColumns g := by
  unfold partColumns
  have hf : ∀ fs : List (Flux ℝ), c ∉ fluxColumns fs := by
    intro fs
    induction fs with
    | nil => simp [fluxColumns]
    | cons f rest ih =>
      unfold fluxColumns
      have h1 : c ∉ f.columns := by
        simp only [List.mem_cons, List.not_mem_nil, or_false] at hc
        rcases hc with rfl | rfl | rfl | rfl <;> cases f <;> simp [Flux.columns]
      have h2 : c ≠ f.logName := by
        simp only [List.mem_cons, List.not_mem_nil, or_false] at hc
        rcases hc with rfl | rfl | rfl | rfl <;> cases f <;> simp [Flux.logName]
      simp [h1, h2, ih]
  simp only [List.mem_cons, List.not_mem_nil, or_false] at hc
  rcases hc with rfl | rfl | rfl | rfl <;> simp [hf]

/-- A position at which the table of a finished run shows, say, a temperature is the position of an accepted step. -/
theorem shown_position (g : Integrator ℝ) (hdx : 0 < g.dx) (n : Nat) (w w' : World ℝ) (hw : w.log = [])
    (h : runLoop g n w = some (.ok (), w')) (c : String) (hc : c ∉ partColumns g) (x y : ℝ) (hx : loggedNum w'.log x c = some y) :
    ∃ k ws, ws 0 = w ∧ AcceptedRun g k ws ∧ (w' = ws k ∨ RejectedStep g (ws k) w') ∧ ∃ i, i < k ∧ x = w.st.pos + i * g.dx := by
  obtain ⟨k, ws, row, h0, hacc, hlast, h1, h2, h3⟩ := C63_rows g hdx n w w' hw h
  refine ⟨k, ws, h0, hacc, hlast, ?_⟩
  have hs : ∃ r, w'.log.find? (fun r => r.atPosition (.num x)) = some r ∧ c ∈ r.keys := by
    unfold loggedNum cellAt at hx
    cases hf : w'.log.find? (fun r => r.atPosition (.num x)) with
    | none => rw [hf] at hx; cases hx
    | some r =>
      refine ⟨r, rfl, ?_⟩
      rw [hf] at hx
      by_contra hno
      have : r.get? c = none := by
        have := Row.get?_isSome r c
        by_contra hne
        have hsome := Option.isSome_iff_ne_none.mpr hne
        exact hno (this.mp hsome)
      simp only [Option.bind_some] at hx
      rw [this] at hx
      cases hx
  obtain ⟨r, hr, hkey⟩ := hs
  have hp := List.find?_some hr
  have hm := List.mem_of_find?_eq_some hr
  have hmem : r ∈ (List.range k).map row := by
    rcases h3 with h3 | ⟨q, h3, _, h5⟩
    · rw [h3] at hm; exact hm
    · rw [h3] at hm
      rcases List.mem_append.mp hm with hm | hm
      · exact hm
      · rw [List.mem_singleton.mp hm] at hkey
        exact absurd ((h5 _).mp hkey) hc
  obtain ⟨i, hi, rfl⟩ := List.mem_map.mp hmem
  have hi' := List.mem_range.mp hi
  refine ⟨i, hi', ?_⟩
  unfold Row.atPosition at hp
  rw [(h1 i hi').1] at hp
  have hp : (Cell.num x == Cell.num (w.st.pos + i * g.dx)) = true := hp
  have hp := beq_iff_eq.mp hp
  injection hp

/-- Every row written by accepted steps is at the position of one of them. -/
theorem shown_accepted {g : Integrator ℝ} (hdx : 0 < g.dx) {k : Nat} {ws : Nat → World ℝ} (h : AcceptedRun g k ws) (h0 : (ws 0).log = [])
    (c : String) (x y : ℝ) (hx : loggedNum (ws k).log x c = some y) : ∃ i, i < k ∧ x = (ws i).st.pos := by
  obtain ⟨row, h1, h2⟩ := acceptedRun_rows g hdx k ws h h0
  have hs : ∃ r, (ws k).log.find? (fun r => r.atPosition (.num x)) = some r := by
    unfold loggedNum cellAt at hx
    cases hf : (ws k).log.find? (fun r => r.atPosition (.num x)) with
    | none => rw [hf] at hx; cases hx
    | some r => exact ⟨r, rfl⟩
  obtain ⟨r, hr⟩ := hs
  have hp := List.find?_some hr
  have hm := List.mem_of_find?_eq_some hr
  rw [h2 k le_rfl] at hm
  obtain ⟨i, hi, rfl⟩ := List.mem_map.mp hm
  have hi' := List.mem_range.mp hi
  refine ⟨i, hi', ?_⟩
  unfold Row.atPosition at hp
  rw [(h1 i hi').1] at hp
  have hp : (Cell.num x == Cell.num ((ws 0).st.pos + i * g.dx)) = true := hp
  have hp := beq_iff_eq.mp hp
  injection hp with hp
  rw [hp, acceptedRun_pos h i hi'.le]

/-- The states, rows and end of a finished run. -/
structure RunTable (g : Integrator ℝ) (w w' : World ℝ) (E : ℝ) (k : Nat) (ws : Nat → World ℝ) (d : Nat → RowData) : Prop where
  start : ws 0 = w
  accepted : AcceptedRun g k ws
  ended : w' = ws k ∨ RejectedStep g (ws k) w'
  finished : w'.finished = true
  terrain : ∀ i, i ≤ k → (ws i).terrain = w.terrain
  fluxRate : ∀ i, i ≤ k → (ws i).fluxRate = w.fluxRate
  effusion : ∀ i, i < k → (ws (i + 1)).effusionRate = E
  pos : ∀ i, i ≤ k → (ws i).st.pos = w.st.pos + i * g.dx
  finalPos : w'.st.pos = w.st.pos + k * g.dx
  shown : ∀ c, c ∉ partColumns g → ∀ x y, loggedNum w'.log x c = some y → ∃ i, i < k ∧ x = (ws i).st.pos
  made : ∀ i, i < k → RowMade g w.terrain w.fluxRate E (ws i).st (d i)
  row : ∀ i, i < k → RowShown g w.terrain E w'.log (ws i).st (d i)
  step : ∀ i, i < k → EulerStep g w.terrain E (ws i).st (ws (i + 1)).st (d i)
  heat : StrainIndependent g.models.lava → ∀ i, i < k →
    ∃ qs : List ℝ, List.Forall₂ (FluxIs g.models (d i).width w.terrain.depth w.terrain (ws i).st) g.models.fluxes qs ∧ (d i).heat = qs.sum
  kept : ∀ i, i < k → ∀ c, cellAt w'.log (.num (ws i).st.pos) c = cellAt (ws (i + 1)).log (.num (ws i).st.pos) c

theorem run_table (g : Integrator ℝ) (hdx : 0 < g.dx) (n : Nat) (w w' : World ℝ) (hw : w.log = [])
    (h : runLoop g n w = some (.ok (), w')) (E : ℝ) (hE : VentRate g w E) : ∃ k ws d, RunTable g w w' E k ws d := by
  obtain ⟨k, ws, s, d, E', h0, hacc, rfl, hter, hfl, hef, hkept, _, _, hend, hE', hrow⟩ := table_worlds g hdx n w w' hw h
  obtain ⟨hfin, k2, vs, v0, vacc, _, vlast⟩ := runLoop_ok h
  have hpos := acceptedRun_pos hacc
  have vpos := acceptedRun_pos vacc
  rw [h0] at hpos
  rw [v0] at vpos
  have hlast : w' = vs k2 ∨ RejectedStep g (vs k2) w' := vlast.imp id And.right
  have e1 : w'.st.pos = w.st.pos + k * g.dx := by rw [hend]; exact hpos k le_rfl
  have e2 : w'.st.pos = w.st.pos + k2 * g.dx := by
    rcases hlast with rfl | hr
    · exact vpos k2 le_rfl
    · rw [(C14_rejected_step_moves_nothing g _ _ hr).2.2.2.1]; exact vpos k2 le_rfl
  have hk : k = k2 := by
    have : (k : ℝ) = k2 := mul_right_cancel₀ hdx.ne' (by linarith)
    exact_mod_cast this
  subst hk
  have hEE : 0 < k → E' = E := by
    intro hk
    obtain ⟨x, hx⟩ := (hrow 0 hk).1.velocity
    simp only [h0] at hx
    rw [hE' hk, hE _ _ hx]
  refine ⟨k, ws, d, h0, hacc, ?_, hfin, hter, hfl, fun i hi => (hef i hi).trans (hEE (by omega)), hpos, e1, ?_, ?_, ?_, ?_, ?_, hkept⟩
  · rw [acceptedRun_unique (h0.trans v0.symm) hacc vacc k le_rfl]; exact hlast
  · intro c hc x y hx
    obtain ⟨k3, us, u0, uacc, ulast, i, hi, hxi⟩ := shown_position g hdx n w w' hw h c hc x y hx
    have upos := acceptedRun_pos uacc
    rw [u0] at upos
    have e3 : w'.st.pos = w.st.pos + k3 * g.dx := by
      rcases ulast with rfl | hr
      · exact upos k3 le_rfl
      · rw [(C14_rejected_step_moves_nothing g _ _ hr).2.2.2.1]; exact upos k3 le_rfl
    have hk3 : k = k3 := by
      have : (k : ℝ) = k3 := mul_right_cancel₀ hdx.ne' (by linarith)
      exact_mod_cast this
    exact ⟨i, by omega, by rw [hpos i (by omega)]; exact hxi⟩
  · intro i hi; have := (hrow i hi).1; rw [hEE (by omega)] at this; exact this
  · intro i hi; have := (hrow i hi).2.1; rw [hEE (by omega)] at this; exact this
  · intro i hi; have := (hrow i hi).2.2.1; rw [hEE (by omega)] at this; exact this
  · intro hl i hi
    obtain ⟨_, _, qs, q1, q2, _⟩ := (hrow i hi).2.2.2 hl
    exact ⟨qs, q1, q2⟩

end PyFlowGo
