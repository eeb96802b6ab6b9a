import Verif.Props.Converge
import Verif.Spec.Compare
import Verif.Proofs.RunTable
/-
  C99: two step sizes.
-/
set_option linter.unusedSectionVars false
namespace PyFlowGo
open Spec Set

theorem equations_step {g : Integrator ℝ} {dx E : ℝ} {T : Terrain ℝ} {fr : Option ℝ} {s : FlowState ℝ} {G : Slopes} :
    FlowEquations { g with dx := dx } T fr E s G ↔ FlowEquations g T fr E s G := by
  constructor
  · rintro ⟨d, a, b⟩; exact ⟨d, ⟨a.1, a.2, a.3, a.4, a.5, a.6, a.7, a.8, a.9, a.10, a.11, a.12, a.13⟩, b⟩
  · rintro ⟨d, a, b⟩; exact ⟨d, ⟨a.1, a.2, a.3, a.4, a.5, a.6, a.7, a.8, a.9, a.10, a.11, a.12, a.13⟩, b⟩

/-- **C99**. The same flow run with two step sizes, under the hypotheses of `C99_first_order`: wherever both tables show a temperature (or a crystal fraction), the two numbers differ by
    at most `M (dx + dx') / (2K) (exp (K x) - 1)`. So halving the step changes nothing by more than three halves of that bound with `dx`. -/
theorem C99_two_steps (g : Integrator ℝ) (hdx : 0 < g.dx) (dx' : ℝ) (hdx' : 0 < dx') (n n' : Nat) (w a c : World ℝ) (hw : w.log = [])
    (ha : runLoop g n w = some (.ok (), a)) (hc : runLoop { g with dx := dx' } n' w = some (.ok (), c))
    (hl : StrainIndependent g.models.lava) (E : ℝ) (hE : VentRate g w E)
    (b : ℝ) (P : Profile) (hP : Solves g w.terrain w.fluxRate E w.st.pos b P) (h0 : CloseTo P w.st 0)
    (R : ℝ → ℝ → ℝ → Prop) (K M : ℝ) (hK : 0 < K) (hM : 0 ≤ M) (hR : ∀ x ∈ Icc w.st.pos b, R x (P.temp x) (P.crystal x))
    (hin : ∀ x T phi, loggedNum a.log x "core_temperature" = some T → loggedNum a.log x "crystal_fraction" = some phi → R x T phi)
    (hin' : ∀ x T phi, loggedNum c.log x "core_temperature" = some T → loggedNum c.log x "crystal_fraction" = some phi → R x T phi)
    (hlip : LipschitzRhs g w.terrain w.fluxRate E R K) (hsm : SmoothProfile g w.terrain w.fluxRate E w.st.pos b P M)
    (col : String) (hcol : col = "core_temperature" ∨ col = "crystal_fraction") (x y y' : ℝ) (hxb : x ≤ b) (hxy : BothShow a.log c.log col x y y') :
    |y - y'| ≤ M * (g.dx + dx') / (2 * K) * (Real.exp (K * (x - w.st.pos)) - 1) := by
  -- what one table shows is close to the solution
  have one : ∀ (h : Integrator ℝ), 0 < h.dx → (∃ d, h = { g with dx := d }) → ∀ m u, runLoop h m w = some (.ok (), u) →
      (∀ x T phi, loggedNum u.log x "core_temperature" = some T → loggedNum u.log x "crystal_fraction" = some phi → R x T phi) →
      ∀ y, loggedNum u.log x col = some y →
        |y - (if col = "core_temperature" then P.temp x else P.crystal x)| ≤ M * h.dx / (2 * K) * (Real.exp (K * (x - w.st.pos)) - 1) := by
    rintro h hd ⟨d, rfl⟩ m u hu hinu y hy
    have hE1 : VentRate { g with dx := d } w E := hE
    have hP1 : Solves { g with dx := d } w.terrain w.fluxRate E w.st.pos b P := fun x hx => by
      obtain ⟨G, q, r⟩ := hP x hx
      exact ⟨G, equations_step.mpr q, r⟩
    have hL1 : LipschitzRhs { g with dx := d } w.terrain w.fluxRate E R K := fun s s' G G' r r' e q q' =>
      hlip s s' G G' r r' e (equations_step.mp q) (equations_step.mp q')
    have hS1 : SmoothProfile { g with dx := d } w.terrain w.fluxRate E w.st.pos b P M := fun x hx y hy G G' q q' =>
      hsm x hx y hy G G' (equations_step.mp q) (equations_step.mp q')
    obtain ⟨k, s, _, _, hend, hpos, hrow, hclose⟩ := C99_first_order { g with dx := d } hd m w u hw hu hl E hE1 b P hP1 h0 R K M hK hM hR hinu hL1 hS1
    obtain ⟨k2, ws, d2, t⟩ := run_table { g with dx := d } hd m w u hw hu E hE1
    have hk : k = k2 := by
      have e1 : u.st.pos = w.st.pos + k * d := by rw [hend]; exact hpos k le_rfl
      have e2 : u.st.pos = w.st.pos + k2 * d := t.finalPos
      have : (k : ℝ) = k2 := mul_right_cancel₀ (ne_of_gt hd : d ≠ 0) (by linarith)
      exact_mod_cast this
    subst hk
    obtain ⟨i, hi, rfl⟩ := t.shown col (step_not_part _ col (by rcases hcol with rfl | rfl <;> simp)) x y hy
    have ep : (ws i).st.pos = (s i).pos := by rw [t.pos i hi.le, hpos i hi.le]
    rw [ep] at hy hxb ⊢
    obtain ⟨c1, c2, _⟩ := hclose i hi.le hxb
    obtain ⟨_, r1, r2⟩ := hrow i hi
    rcases hcol with rfl | rfl
    · rw [hy, Option.some.injEq] at r1
      rw [if_pos rfl, r1]; exact c1
    · rw [hy, Option.some.injEq] at r2
      rw [if_neg (by decide), r2]; exact c2
  have h1 := one g hdx ⟨g.dx, rfl⟩ n a ha hin y hxy.1
  have h2 := one { g with dx := dx' } hdx' ⟨dx', rfl⟩ n' c hc hin' y' hxy.2
  set p := if col = "core_temperature" then P.temp x else P.crystal x
  have h2 : |y' - p| ≤ M * dx' / (2 * K) * (Real.exp (K * (x - w.st.pos)) - 1) := h2
  have e : M * (g.dx + dx') / (2 * K) * (Real.exp (K * (x - w.st.pos)) - 1) =
      M * g.dx / (2 * K) * (Real.exp (K * (x - w.st.pos)) - 1) + M * dx' / (2 * K) * (Real.exp (K * (x - w.st.pos)) - 1) := by ring
  rw [e]
  have h3 := abs_sub_le y p y'
  rw [abs_sub_comm p y'] at h3
  linarith

end PyFlowGo
