import Verif.Spec.Converge
import Verif.Proofs.EulerError
import Verif.Props.Euler
/-
  C99: the result table converges to the solution of the flow equations, with order one in the step size.
-/
set_option linter.unusedSectionVars false
namespace PyFlowGo
open Spec Set

/-- **C99**. A run with step `dx` of a lava whose rheology does not use the strain rate, and a solution `P` of the flow
    equations that starts from the same vent state. If the right-hand side is `K`-Lipschitz on a region `R` that contains
    what the rows show and the solution, and the slopes of the solution vary by at most `M` per metre, then every
    row of the table is within `M dx / (2K) (exp (K x) - 1)` of the solution at its position, where `x` is the distance
    from the vent: temperature, crystal fraction and time. -/
theorem C99_first_order (g : Integrator ℝ) (hdx : 0 < g.dx) (n : Nat) (w w' : World ℝ) (hw : w.log = [])
    (h : runLoop g n w = some (.ok (), w')) (hl : StrainIndependent g.models.lava) (E : ℝ) (hE : VentRate g w E)
    (b : ℝ) (P : Profile) (hP : Solves g w.terrain w.fluxRate E w.st.pos b P) (h0 : CloseTo P w.st 0)
    (R : ℝ → ℝ → ℝ → Prop) (K M : ℝ) (hK : 0 < K) (hM : 0 ≤ M) (hR : ∀ x ∈ Icc w.st.pos b, R x (P.temp x) (P.crystal x))
    (hin : ∀ x T phi, loggedNum w'.log x "core_temperature" = some T → loggedNum w'.log x "crystal_fraction" = some phi →
      R x T phi)
    (hlip : LipschitzRhs g w.terrain w.fluxRate E R K) (hsm : SmoothProfile g w.terrain w.fluxRate E w.st.pos b P M) :
    ∃ (k : Nat) (s : Nat → FlowState ℝ), (w'.log.length = k ∨ w'.log.length = k + 1) ∧
      s 0 = w.st ∧ w'.st = { s k with strain := w'.st.strain } ∧ (∀ i, i ≤ k → (s i).pos = w.st.pos + i * g.dx) ∧
      (∀ i, i < k → loggedNum w'.log (s i).pos "position" = some (s i).pos ∧
        loggedNum w'.log (s i).pos "core_temperature" = some (s i).temp ∧
        loggedNum w'.log (s i).pos "crystal_fraction" = some (s i).crystal) ∧
      ∀ i, i ≤ k → (s i).pos ≤ b →
        CloseTo P (s i) (M * g.dx / (2 * K) * (Real.exp (K * ((s i).pos - w.st.pos)) - 1)) := by
  obtain ⟨k, s, d, E', hlen, hs0, hend, hE', hrow⟩ := C70_euler_table g hdx n w w' hw h
  have hpos : ∀ i, i ≤ k → (s i).pos = w.st.pos + i * g.dx := by
    intro i
    induction i with
    | zero => intro _; rw [hs0]; simp
    | succ i ih =>
      intro hi
      rw [(hrow i (by omega)).2.2.1.pos, ih (by omega)]; push_cast; ring
  have hEE : 0 < k → E' = E := by
    intro hk
    obtain ⟨x, hx⟩ := (hrow 0 hk).1.velocity
    rw [hs0] at hx
    rw [hE' hk, hE _ _ hx]
  refine ⟨k, s, hlen, hs0, hend, hpos, fun i hi => ⟨(hrow i hi).2.1.position, (hrow i hi).2.1.core_temperature,
    (hrow i hi).2.1.crystal_fraction⟩, ?_⟩
  classical
  haveI : Nonempty Slopes := ⟨⟨0, 0, 0⟩⟩
  choose! G hG using hP
  have hloc : ∀ i, i + 1 ≤ k → (s (i + 1)).pos ≤ b → w.st.pos ≤ (s i).pos ∧ (s i).pos + g.dx ≤ b := by
    intro i hi hb
    rw [(hrow i (by omega)).2.2.1.pos] at hb
    rw [hpos i (by omega)] at hb ⊢
    exact ⟨by have : (0:ℝ) ≤ i * g.dx := by positivity
              linarith, hb⟩
  have key : ∀ i, i ≤ k → (s i).pos ≤ b → CloseTo P (s i) (eulerBound K M g.dx i) := by
    intro i
    induction i with
    | zero => intro _ _; rw [hs0, eulerBound_zero]; exact h0
    | succ i ih =>
      intro hi hb
      obtain ⟨l1, l2⟩ := hloc i hi hb
      obtain ⟨c1, c2, c3⟩ := ih (by omega) (by linarith)
      have hi' : i < k := by omega
      obtain ⟨r1, r2, r3, r4⟩ := hrow i hi'
      obtain ⟨_, _, qs, q1, q2, _⟩ := r4 hl
      rw [hEE (by omega)] at r1 r3
      have hmem : (s i).pos ∈ Icc w.st.pos b := ⟨l1, by linarith⟩
      obtain ⟨f0, f1, f2, f3⟩ := hG _ hmem
      obtain ⟨m1, m2, m3⟩ := hlip (s i) (P.state (s i).pos) ⟨tempGradient g E (s i) (d i), crystalGradient g E (s i) (d i),
        1 / (d i).v⟩ _ (hin _ _ _ r2.core_temperature r2.crystal_fraction) (hR _ hmem) rfl ⟨d i, r1, ⟨qs, q1, q2⟩, rfl, rfl, rfl⟩ f0
      have hmax : max |(s i).temp - P.temp (s i).pos| |(s i).crystal - P.crystal (s i).pos| ≤ eulerBound K M g.dx i :=
        max_le c1 c2
      have hKm := mul_le_mul_of_nonneg_left hmax hK.le
      have hb' : (s (i + 1)).pos = (s i).pos + g.dx := r3.pos
      have t1 := euler_local (f := P.temp) (f' := fun x => (G x).temp) (fun x hx => (hG x hx).2.1)
        (fun x hx y hy => (hsm x hx y hy _ _ (hG x hx).1 (hG y hy).1).1) l1 hdx.le l2
      have t2 := euler_local (f := P.crystal) (f' := fun x => (G x).crystal) (fun x hx => (hG x hx).2.2.1)
        (fun x hx y hy => (hsm x hx y hy _ _ (hG x hx).1 (hG y hy).1).2.1) l1 hdx.le l2
      have t3 := euler_local (f := P.time) (f' := fun x => (G x).time) (fun x hx => (hG x hx).2.2.2)
        (fun x hx y hy => (hsm x hx y hy _ _ (hG x hx).1 (hG y hy).1).2.2) l1 hdx.le l2
      unfold CloseTo
      rw [eulerBound_succ hK, hb']
      exact ⟨euler_next hdx.le r3.temp c1 (m1.trans hKm) t1, euler_next hdx.le r3.crystal c2 (m2.trans hKm) t2,
        euler_next hdx.le (by rw [r3.time]; ring) c3 (m3.trans hKm) t3⟩
  intro i hi hb
  have hle := eulerBound_le hK hM hdx.le i
  have e1 : (s i).pos - w.st.pos = i * g.dx := by rw [hpos i hi]; ring
  rw [← e1] at hle
  obtain ⟨c1, c2, c3⟩ := key i hi hb
  exact ⟨c1.trans hle, c2.trans hle, c3.trans hle⟩

end PyFlowGo
