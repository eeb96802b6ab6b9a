import Verif.Proofs.TotalRun
/-
  C117: the search for the channel depth succeeds with sensible parameters.
-/
set_option linter.unusedSectionVars false
namespace PyFlowGo
open Spec

variable {g : Integrator ℝ} {x0 : ℝ}

theorem Spec.Sensible.withDepth {t : Terrain ℝ} (hg : Sensible g t x0) (d : ℝ) : Sensible g { t with depth := d } x0 where
  step := hg.step
  gravity := hg.gravity
  width := hg.width
  slopes := hg.slopes
  density := hg.density
  latent := hg.latent
  vesicles := hg.vesicles
  melt := hg.melt
  crystals := hg.crystals
  bubbles := hg.bubbles
  rate := hg.rate
  cover := hg.cover
  crust := hg.crust
  air := hg.air
  molten := hg.molten
  conduction := hg.conduction

theorem Fit.withDepth {t : Terrain ℝ} {s : FlowState ℝ} (h : Fit g t x0 s) (d : ℝ) : Fit g { t with depth := d } x0 s where
  downstream := h.downstream
  crystals := h.crystals
  hot := h.hot
  room := h.room
  off := h.off
  ground := h.ground

/-- What the search leaves behind. -/
structure Searched (w w' : World ℝ) : Prop where
  state : ∃ y, w'.st = { w.st with strain := y }
  terrain : ∃ d, 0 < d ∧ w'.terrain = { w.terrain with depth := d }
  iteration : w'.iteration = w.iteration
  finished : w'.finished = w.finished
  log : w'.log = w.log

theorem search_total (grid : List ℝ) (hgrid : ∀ d ∈ grid, 0 < d) (w : World ℝ) (hg : Sensible g w.terrain x0)
    (hs : Fit g w.terrain x0 w.st) (hd : 0 < w.terrain.depth) :
    ∃ w', depthSearch g.models.lava grid w = (.ok (), w') ∧ Searched w w' ∧ (grid ≠ [] → ∃ fr, w'.fluxRate = some fr) := by
  induction grid generalizing w with
  | nil => exact ⟨w, rfl, ⟨⟨_, rfl⟩, ⟨_, hd, rfl⟩, rfl, rfl, rfl⟩, fun h => absurd rfl h⟩
  | cons d grid ih =>
    have hd0 := hgrid d (by simp)
    obtain ⟨k, hk⟩ := velocity_total (hg.withDepth d) hd0 (hs.withDepth d)
    obtain ⟨v, x, c, hv, _, _⟩ := hk w.st.strain
    unfold depthSearch
    rw [PyM.bind_of_ok (PyM.modify_apply _ _), PyM.bind_of_ok (meanVelocityM_forward hv), PyM.bind_of_ok (PyM.modify_apply _ _),
      PyM.bind_of_ok (PyM.modify_apply _ _), PyM.bind_of_ok (PyM.get_apply _)]
    dsimp only
    split
    · exact ⟨_, rfl, ⟨⟨x, rfl⟩, ⟨d, hd0, rfl⟩, rfl, rfl, rfl⟩, fun _ => ⟨_, rfl⟩⟩
    · generalize hw1 : ({ st := _, terrain := _, log := _, effusionRate := _, fluxRate := _, iteration := _, finished := _ } : World ℝ) = w1
      have e1 : w1.terrain = { w.terrain with depth := d } := by rw [← hw1]
      have e2 : w1.st = { w.st with strain := x } := by rw [← hw1]
      have e3 : w1.iteration = w.iteration := by rw [← hw1]
      have e4 : w1.finished = w.finished := by rw [← hw1]
      have e5 : w1.log = w.log := by rw [← hw1]
      have e6 : ∃ fr, w1.fluxRate = some fr := by rw [← hw1]; exact ⟨_, rfl⟩
      obtain ⟨w', h1, h2, h3⟩ := ih (fun d' h => hgrid d' (by simp [h])) w1 (by rw [e1]; exact hg.withDepth d)
        (by rw [e1, e2]; exact (hs.withDepth d).withStrain x) (by rw [e1]; exact hd0)
      refine ⟨w', h1, ⟨?_, ?_, h2.iteration.trans e3, h2.finished.trans e4, h2.log.trans e5⟩, fun _ => ?_⟩
      · obtain ⟨y, hy⟩ := h2.state
        exact ⟨y, by rw [hy, e2]⟩
      · obtain ⟨d', h0, hd'⟩ := h2.terrain
        exact ⟨d', h0, by rw [hd', e1]⟩
      · cases grid with
        | nil =>
          unfold depthSearch at h1
          have : w1 = w' := (Prod.mk.inj h1).2
          rw [← this]; exact e6
        | cons d2 grid => exact h3 (by simp)

end PyFlowGo
