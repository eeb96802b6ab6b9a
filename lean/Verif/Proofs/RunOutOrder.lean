import Verif.Proofs.RunTable
import Verif.Spec.Plausible
import Verif.Props.RunOuts
/-
  The rows of a run that can be post-processed, and how far the run-out table says the flow went.
-/
set_option linter.unusedSectionVars false
namespace PyFlowGo
open Spec

theorem vent_rate (g : Integrator ℝ) (w : World ℝ) : ∃ E, VentRate g w E := by
  cases h : g.models.lava.meanVelocity w.terrain w.st with
  | error e => exact ⟨0, fun v x h2 => by rw [h] at h2; cases h2⟩
  | ok p =>
    obtain ⟨v, x⟩ := p
    refine ⟨if w.iteration = 0 then v * w.terrain.width * w.terrain.depth else w.effusionRate, fun v' x' h2 => ?_⟩
    rw [h, Except.ok.injEq, Prod.mk.injEq] at h2
    rw [h2.1]

/-- The complete rows of a run are the first `k`; there is at most one further row, and that one has only the columns of a step cut short. -/
theorem complete_rows (g : Integrator ℝ) (hdx : 0 < g.dx) (n : Nat) (w w' : World ℝ) (hw : w.log = []) (h : runLoop g n w = some (.ok (), w')) :
    ∃ k : Nat, (∀ x, CompleteRow w'.log x ↔ ∃ i, i < k ∧ x = w.st.pos + i * g.dx) ∧
      (w'.log.length = k ∨ ∃ r : Row (Cell ℝ), w'.log.getLast? = some r ∧ ∀ c, c ∈ r.keys ↔ c ∈ partColumns g) := by
  obtain ⟨E, hE⟩ := vent_rate g w
  obtain ⟨k, ws, d, t⟩ := run_table g hdx n w w' hw h E hE
  obtain ⟨k2, vs, row, v0, vacc, vend, h1, _, h3⟩ := C63_rows g hdx n w w' hw h
  have vpos := acceptedRun_pos vacc
  rw [v0] at vpos
  have e2 : w'.st.pos = w.st.pos + k2 * g.dx := by
    rcases vend with e | e
    · rw [e]; exact vpos k2 le_rfl
    · rw [(C14_rejected_step_moves_nothing g _ _ e).2.2.2.1]; exact vpos k2 le_rfl
  have ek : k = k2 := by
    have e1 := t.finalPos
    have : (k : ℝ) * g.dx = k2 * g.dx := by linarith
    have := mul_right_cancel₀ hdx.ne' this
    exact_mod_cast this
  subst ek
  refine ⟨k, fun x => ⟨?_, ?_⟩, ?_⟩
  · rintro ⟨y, hy⟩
    obtain ⟨i, hi, e⟩ := t.shown _ (step_not_part g _ (by simp)) _ _ hy
    exact ⟨i, hi, e.trans (t.pos i hi.le)⟩
  · rintro ⟨i, hi, rfl⟩
    have := (t.row i hi).crystal_fraction
    rw [t.pos i hi.le] at this
    exact ⟨_, this⟩
  · rcases h3 with e | ⟨r, e, _, hr⟩
    · left; rw [e]; simp
    · right; exact ⟨r, by rw [e]; simp, hr⟩

/-- The last line of an ascending list below a bound grows with the bound. -/
theorem last_below {lines : List (SlopeLine ℝ)} (hs : lines.Pairwise fun a b => a.dist ≤ b.dist) {b b' : ℝ} (hb : b ≤ b') {l l' : SlopeLine ℝ}
    (h : (lines.filter fun l => decide (l.dist ≤ b)).getLast? = some l) (h' : (lines.filter fun l => decide (l.dist ≤ b')).getLast? = some l') :
    l.dist ≤ l'.dist := by
  have hl := List.mem_filter.mp (List.mem_of_mem_getLast? (by rw [h]; rfl : l ∈ _))
  have hin : l ∈ lines.filter fun l => decide (l.dist ≤ b') :=
    List.mem_filter.mpr ⟨hl.1, by have := of_decide_eq_true hl.2; exact decide_eq_true (this.trans hb)⟩
  have hsf : (lines.filter fun l => decide (l.dist ≤ b')).Pairwise fun a b => a.dist ≤ b.dist := hs.filter _
  generalize (lines.filter fun l => decide (l.dist ≤ b')) = L at h' hin hsf
  obtain ⟨ini, rfl⟩ := List.getLast?_eq_some_iff.mp h'
  rw [List.mem_append, List.mem_singleton] at hin
  rcases hin with hin | rfl
  · exact (List.pairwise_append.mp hsf).2.2 _ hin _ (by simp)
  · exact le_rfl

/-- A result from which a run-out line can be made has complete rows only. -/
theorem full_rows (round : Nat → ℝ → ℝ) (lines : List (SlopeLine ℝ)) (g : Integrator ℝ) (hdx : 0 < g.dx) (n : Nat) (w a : World ℝ) (t : CsvTable (Cell ℝ)) (ro : RunOut ℝ)
    (hw : w.log = []) (ha : runLoop g n w = some (.ok (), a)) (ht : writeValues a.log = .ok (some t)) (hro : getRunOut round t lines = .ok ro) :
    ∀ x, CompleteRow a.log x ↔ ∃ i, i < a.log.length ∧ x = w.st.pos + i * g.dx := by
  obtain ⟨_, hv, _⟩ := (C60_run_can_be_post_processed round g hdx n w a hw ha t ht lines).mp ⟨ro, hro⟩
  obtain ⟨k, h1, h2⟩ := complete_rows g hdx n w a hw ha
  rcases h2 with e | ⟨r, e1, e2⟩
  · rw [e]; exact h1
  · exfalso
    have := hv r (by rw [e1]; rfl)
    rw [e2] at this
    unfold partColumns at this
    rw [List.mem_cons, List.mem_append] at this
    rcases this with e | e | e
    · revert e; decide
    · exact absurd e (viscosity_not_flux g.models.fluxes)
    · revert e; decide

/-- If a run that can be post-processed has no complete row that the other has not, its run-out is not larger. -/
theorem run_out_le (round : Nat → ℝ → ℝ) (hround : ∀ a b, a ≤ b → round 0 a ≤ round 0 b) (lines : List (SlopeLine ℝ))
    (hs : lines.Pairwise fun a b => a.dist ≤ b.dist) (g g' : Integrator ℝ) (hdx : 0 < g.dx) (hdx' : g'.dx = g.dx) (n n' : Nat) (w w' a b : World ℝ)
    (hw : w.log = []) (hw' : w'.log = []) (hpos : w'.st.pos = w.st.pos)
    (ha : runLoop g n w = some (.ok (), a)) (hb : runLoop g' n' w' = some (.ok (), b)) (t t' : CsvTable (Cell ℝ))
    (ht : writeValues a.log = .ok (some t)) (ht' : writeValues b.log = .ok (some t')) (ro ro' : RunOut ℝ)
    (hro : getRunOut round t lines = .ok ro) (hro' : getRunOut round t' lines = .ok ro')
    (hc : ∀ x, CompleteRow a.log x → CompleteRow b.log x) : ro.runOut ≤ ro'.runOut := by
  have hdxb : 0 < g'.dx := by rw [hdx']; exact hdx
  have fa := full_rows round lines g hdx n w a t ro hw ha ht hro
  have fb := full_rows round lines g' hdxb n' w' b t' ro' hw' hb ht' hro'
  have hlen : a.log.length ≤ b.log.length := by
    rcases Nat.eq_zero_or_pos a.log.length with h0 | h0
    · omega
    · obtain ⟨i, hi, e⟩ := (fb _).mp (hc _ ((fa _).mpr ⟨a.log.length - 1, by omega, rfl⟩))
      rw [hpos, hdx'] at e
      have e : ((a.log.length - 1 : Nat) : ℝ) * g.dx = i * g.dx := by linarith
      have e := mul_right_cancel₀ hdx.ne' e
      have e : a.log.length - 1 = i := by exact_mod_cast e
      omega
  obtain ⟨l, h1, h2⟩ := C59_run_out_of_a_run round g hdx n w a hw ha t ht lines ro hro
  obtain ⟨l', h1', h2'⟩ := C59_run_out_of_a_run round g' hdxb n' w' b hw' hb t' ht' lines ro' hro'
  rw [h2, h2']
  refine hround _ _ (last_below hs ?_ h1 h1')
  rw [hpos, hdx']
  have : (a.log.length : ℝ) ≤ b.log.length := by exact_mod_cast hlen
  have := mul_le_mul_of_nonneg_right this hdx.le
  linarith

end PyFlowGo
