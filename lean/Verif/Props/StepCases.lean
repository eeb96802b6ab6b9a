import Verif.Props.Integrator
import Verif.Proofs.ExampleRun
/-
  C07 and C13, once more, for a step about which nothing is known but that it returned normally.
-/
namespace PyFlowGo
open Spec

/-- A step that returned normally was accepted or rejected. -/
theorem step_cases (g : Integrator ℝ) (w w' : World ℝ) (h0 : w.finished = false) (h : singleStep g w = (.ok (), w')) :
    AcceptedStep g w w' ∨ RejectedStep g w w' := by
  by_cases hi : w'.iteration = w.iteration + 1
  · exact .inl ⟨h0, h, hi⟩
  · exact .inr ⟨h0, h, hi⟩

/-- **C07**. Any step that returns normally raises the crystal fraction and moves on by `dx`, or ends the run and leaves crystal
    fraction, temperature, position and time as they were. -/
theorem C07_grow_or_stop (g : Integrator ℝ) (w w' : World ℝ) (h0 : w.finished = false) (h : singleStep g w = (.ok (), w')) :
    (w.st.crystal < w'.st.crystal ∧ w'.st.pos = w.st.pos + g.dx) ∨
    (w'.finished = true ∧ w'.st.crystal = w.st.crystal ∧ w'.st.temp = w.st.temp ∧ w'.st.pos = w.st.pos ∧ w'.st.time = w.st.time) := by
  rcases step_cases g w w' h0 h with ha | hr
  · left
    obtain ⟨A⟩ := acceptedFacts ha
    exact ⟨C07_crystals_increase g w w' ha, by rw [A.hw, A.hs]⟩
  · right
    obtain ⟨a, b, c, d, e, _⟩ := C14_rejected_step_moves_nothing g w w' hr
    exact ⟨a, b, c, d, e⟩

/-- **C13**, both directions: a step that returns normally ends the run exactly when the crystal fraction did not grow, or the new
    temperature is at or below the solid temperature, or the new state is incompatible with the viscosity model, or the yield
    strength reaches the basal stress there, or the end of the channel is reached. -/
theorem C13_step_ends_iff (g : Integrator ℝ) (w w' : World ℝ) (h0 : w.finished = false) (h : singleStep g w = (.ok (), w')) :
    w'.finished = true ↔ w'.st.crystal = w.st.crystal ∨
      w'.st.temp ≤ g.models.cryst.solidTemperature ∨ g.models.lava.notCompatible w'.st = .ok true ∨
      g.models.lava.yieldNotCompatible w'.terrain w'.st = .ok true ∨ w'.terrain.maxLength ≤ w'.st.pos := by
  rcases step_cases g w w' h0 h with ha | hr
  · obtain ⟨h1, h2⟩ := C13_accepted_reason g w w' ha
    have hgrow := C07_crystals_increase g w w' ha
    constructor
    · exact fun hf => .inr (h1 hf)
    · intro hc
      by_contra hf
      obtain ⟨a, b, c, d⟩ := h2 (by simpa using hf)
      rcases hc with hc | hc | hc | hc | hc
      · linarith
      · linarith
      · rw [b] at hc; cases hc
      · rw [c] at hc; cases hc
      · linarith
  · obtain ⟨a, b, _⟩ := C14_rejected_step_moves_nothing g w w' hr
    exact ⟨fun _ => .inl b, fun _ => a⟩

/-- **C13**: lava that does not move (velocity zero or negative) ends the run at once, and nothing is logged. -/
theorem C13_still_lava_ends_the_run (g : Integrator ℝ) (w : World ℝ) (v x : ℝ)
    (hv : g.models.lava.meanVelocity w.terrain w.st = .ok (v, x)) (hle : v ≤ 0) :
    singleStep g w = (.ok (), { w with st := { w.st with strain := x }, finished := true }) := by
  have h1 : meanVelocityM g.models.lava w = (.ok v, { w with st := { w.st with strain := x } }) := by
    unfold meanVelocityM; rw [hv]
  unfold singleStep
  rw [PyM.bind_of_ok h1, if_pos (by simp only [leB_real]; norm_num; exact hle)]
  rfl

/-- **C07**, **C13**: a step that grows crystals and does not end the run, with and without mass conservation. -/
example (mass : Bool) : ∃ w', exWorld.finished = false ∧ singleStep (exIntegrator mass) exWorld = (.ok (), w') ∧ w'.finished = false ∧
    w'.st.crystal = 1 / 100 := by
  obtain ⟨w', h, h1, h2, _⟩ := ex_accepted mass
  exact ⟨w', h.1, h.2.1, h1, h2⟩

end PyFlowGo
