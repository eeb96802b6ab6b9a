import Verif.Spec.Stable
import Verif.Spec.Compare
import Verif.Proofs.RunTable
import Verif.Proofs.RunOutOrder
/-
  C125: a small change of the vent state or of the set-up makes a small change of the result table.
-/
set_option linter.unusedSectionVars false
namespace PyFlowGo
open Spec

theorem stable_next {K h e delta s s' p p' G H : ℝ} (hh : 0 ≤ h) (hs : s' = s + G * h) (hp : p' = p + H * h) (he : |s - p| ≤ e)
    (hG : |G - H| ≤ K * e + delta) : |s' - p'| ≤ e + h * (K * e + delta) := by
  have e1 : s' - p' = (s - p) + (G - H) * h := by rw [hs, hp]; ring
  rw [e1]
  have h1 : |(G - H) * h| ≤ h * (K * e + delta) := by
    rw [abs_mul, abs_of_nonneg hh, mul_comm]; exact mul_le_mul_of_nonneg_left hG hh
  exact (abs_add_le _ _).trans (add_le_add he h1)

/-- The bound grows as the explicit scheme does. -/
theorem stable_bound {K h e delta : ℝ} (hK : 0 < K) (hh : 0 ≤ h) (he : 0 ≤ e) (hd : 0 ≤ delta) (B : ℕ → ℝ) (h0 : B 0 = e)
    (hs : ∀ i, B (i + 1) = B i + h * (K * B i + delta)) (i : ℕ) :
    0 ≤ B i ∧ B i ≤ e * Real.exp (K * (i * h)) + delta / K * (Real.exp (K * (i * h)) - 1) := by
  have hB : ∀ i, B i = e * (1 + K * h) ^ i + delta / K * ((1 + K * h) ^ i - 1) := by
    intro i
    induction i with
    | zero => rw [h0]; simp
    | succ i ih => rw [hs, ih, pow_succ]; field_simp; ring
  have h1 : (1 + K * h) ^ i ≤ Real.exp (K * (i * h)) := by
    have := pow_le_pow_left₀ (by positivity) (by linarith [Real.add_one_le_exp (K * h)] : 1 + K * h ≤ Real.exp (K * h)) i
    rw [← Real.exp_nat_mul] at this
    rw [show K * (i * h) = i * (K * h) by ring]
    exact this
  have h2 : 1 ≤ (1 + K * h) ^ i := one_le_pow₀ (by nlinarith)
  rw [hB]
  have h3 : 0 ≤ delta / K := by positivity
  refine ⟨add_nonneg (by positivity) (mul_nonneg h3 (by linarith)), add_le_add (mul_le_mul_of_nonneg_left h1 he) (mul_le_mul_of_nonneg_left (by linarith) h3)⟩

/-- **C125**. Two completed runs with the same step size from the same position, of lavas whose rheology does not use the strain rate. Their vent states differ by at most
    `e`, and in the region of what the tables show the right-hand sides of their flow equations are `K`-Lipschitz up to a difference `delta`. Then, wherever
    both tables show a temperature (or a crystal fraction), the two numbers differ by at most `e exp (K x) + delta / K (exp (K x) - 1)`, where `x` is the
    distance from the vent. -/
theorem C125_small_change (g g' : Integrator ℝ) (hdx : 0 < g.dx) (hdx' : g'.dx = g.dx) (n n' : Nat) (w w' a b : World ℝ)
    (hw : w.log = []) (hw' : w'.log = []) (ha : runLoop g n w = some (.ok (), a)) (hb : runLoop g' n' w' = some (.ok (), b))
    (hl : StrainIndependent g.models.lava) (hl' : StrainIndependent g'.models.lava) (E E' : ℝ) (hE : VentRate g w E) (hE' : VentRate g' w' E')
    (R : ℝ → ℝ → ℝ → Prop) (hR : ShownIn a.log R) (hR' : ShownIn b.log R) (K delta e : ℝ) (hK : 0 < K) (hd : 0 ≤ delta)
    (hnear : CloseEquations ⟨g, w.terrain, w.fluxRate, E⟩ ⟨g', w'.terrain, w'.fluxRate, E'⟩ R K delta)
    (hpos : w'.st.pos = w.st.pos) (hT : |w.st.temp - w'.st.temp| ≤ e) (hphi : |w.st.crystal - w'.st.crystal| ≤ e) (x y y' : ℝ)
    (c : String) (hc : c = "core_temperature" ∨ c = "crystal_fraction") (hxy : BothShow a.log b.log c x y y') :
    |y - y'| ≤ e * Real.exp (K * (x - w.st.pos)) + delta / K * (Real.exp (K * (x - w.st.pos)) - 1) := by
  obtain ⟨k, ws, d, t⟩ := run_table g hdx n w a hw ha E hE
  obtain ⟨k', vs, d', t'⟩ := run_table g' (by rw [hdx']; exact hdx) n' w' b hw' hb E' hE'
  let B : ℕ → ℝ := fun i => Nat.rec e (fun _ B => B + g.dx * (K * B + delta)) i
  have B0 : B 0 = e := rfl
  have Bs : ∀ i, B (i + 1) = B i + g.dx * (K * B i + delta) := fun _ => rfl
  have he : 0 ≤ e := (abs_nonneg _).trans hT
  have key : ∀ i, i ≤ k → i ≤ k' → |(ws i).st.temp - (vs i).st.temp| ≤ B i ∧ |(ws i).st.crystal - (vs i).st.crystal| ≤ B i := by
    intro i
    induction i with
    | zero => intro _ _; rw [t.start, t'.start, B0]; exact ⟨hT, hphi⟩
    | succ i ih =>
      intro hi hi'
      obtain ⟨c1, c2⟩ := ih (by omega) (by omega)
      have ri := t.row i (by omega)
      have ri' := t'.row i (by omega)
      obtain ⟨qs, q1, q2⟩ := t.heat hl i (by omega)
      obtain ⟨qs', q1', q2'⟩ := t'.heat hl' i (by omega)
      have hp : (ws i).st.pos = (vs i).st.pos := by rw [t.pos i (by omega), t'.pos i (by omega), hpos, hdx']
      obtain ⟨m1, m2, _⟩ := hnear (ws i).st (vs i).st ⟨tempGradient g E (ws i).st (d i), crystalGradient g E (ws i).st (d i), 1 / (d i).v⟩
        ⟨tempGradient g' E' (vs i).st (d' i), crystalGradient g' E' (vs i).st (d' i), 1 / (d' i).v⟩
        (hR _ _ _ ri.core_temperature ri.crystal_fraction) (hR' _ _ _ ri'.core_temperature ri'.crystal_fraction) hp
        ⟨d i, t.made i (by omega), ⟨qs, q1, q2⟩, rfl, rfl, rfl⟩ ⟨d' i, t'.made i (by omega), ⟨qs', q1', q2'⟩, rfl, rfl, rfl⟩
      have hKm := mul_le_mul_of_nonneg_left (max_le c1 c2) hK.le
      have st := t.step i (by omega)
      have st' := t'.step i (by omega)
      have s1 := st'.temp
      have s2 := st'.crystal
      rw [hdx'] at s1 s2
      rw [Bs]
      exact ⟨stable_next hdx.le st.temp s1 c1 (m1.trans (by linarith)), stable_next hdx.le st.crystal s2 c2 (m2.trans (by linarith))⟩
  obtain ⟨hy, hy'⟩ := hxy
  obtain ⟨i, hi, rfl⟩ := t.shown c (step_not_part g c (by rcases hc with rfl | rfl <;> simp)) x y hy
  obtain ⟨j, hj, ej⟩ := t'.shown c (step_not_part g' c (by rcases hc with rfl | rfl <;> simp)) _ y' hy'
  have e1 := t.pos i hi.le
  have hij : i = j := by
    rw [e1, t'.pos j hj.le, hpos, hdx'] at ej
    have : (i : ℝ) = j := mul_right_cancel₀ hdx.ne' (by linarith)
    exact_mod_cast this
  subst hij
  obtain ⟨k1, k2⟩ := key i hi.le hj.le
  have hb2 := (stable_bound hK hdx.le he hd B B0 Bs i).2
  have e2 : (ws i).st.pos - w.st.pos = i * g.dx := by rw [e1]; ring
  rw [← e2] at hb2
  rw [ej] at hy'
  rcases hc with rfl | rfl
  · rw [(t.row i hi).core_temperature, Option.some.injEq] at hy
    rw [(t'.row i hj).core_temperature, Option.some.injEq] at hy'
    rw [← hy, ← hy']; exact k1.trans hb2
  · rw [(t.row i hi).crystal_fraction, Option.some.injEq] at hy
    rw [(t'.row i hj).crystal_fraction, Option.some.injEq] at hy'
    rw [← hy, ← hy']; exact k2.trans hb2

end PyFlowGo
