import Verif.Proofs.RoundRun
/-
  C131: the table of a run in rounded arithmetic and the table of the exact run.
-/
set_option linter.unusedSectionVars false
namespace PyFlowGo
open Spec Rounded

/-- The effusion rate of an accepted run from the vent on. -/
theorem acceptedRun_rate {g : Integrator ℝ} {k : Nat} {vs : Nat → World ℝ} (h : AcceptedRun g k vs) (E : ℝ) (hE : VentRate g (vs 0) E) :
    ∀ i, i ≤ k → (vs i).terrain = (vs 0).terrain ∧ (vs i).fluxRate = (vs 0).fluxRate ∧
      (0 < i → (vs i).iteration ≠ 0 ∧ (vs i).effusionRate = E) := by
  intro i
  induction i with
  | zero => intro _; exact ⟨rfl, rfl, fun h => by omega⟩
  | succ i ih =>
    intro hi
    obtain ⟨a, b, c⟩ := ih (by omega)
    obtain ⟨A⟩ := acceptedFacts (h i (by omega))
    have e := A.eff_eq
    refine ⟨?_, ?_, fun _ => ⟨?_, ?_⟩⟩
    · rw [← a, A.hw]
    · rw [← b, A.hw]
    · rw [A.hw]; simp
    · rw [e]
      unfold World.stepEffusion
      by_cases hi0 : i = 0
      · subst hi0
        have := hE A.v A.x A.hv
        rw [this]
        by_cases hit : (vs 0).iteration = 0
        · simp [hit]
        · simp [hit]
      · obtain ⟨d1, d2⟩ := c (by omega)
        simp [d1, d2]

/-- **C131**. A run in rounded arithmetic and a run in exact arithmetic, of `k` steps each, with the same step size and vent position,
    at positions the number format can represent; the lava of the exact run does not use the strain rate.  Let the states of both runs lie in a region where
    the exact flow equations are `K`-Lipschitz, let the vent states differ by at most `e`, let the gradients in the rows of the rounded table be
    those of the exact equations up to `delta`, and let `B` bound the numbers that are added up.  Then both tables have rows at the same positions,
    and what they show there differs by at most `e exp (K x) + (delta + (4 u B + 3 η) / dx) / K (exp (K x) - 1)`, where `x` is the distance from the vent. -/
theorem C131_rounding_error {rd : ℝ → ℝ} {u η : ℝ} (h0 : 0 ≤ u) (h1 : u ≤ 1 / 1000) (hη : 0 ≤ η) (hA : Accurate u η rd)
    (g : Integrator (Rounded rd)) (g' : Integrator ℝ) (hdx : 0 < g'.dx) (hsame : val g.dx = g'.dx) (k : Nat)
    (ws : Nat → World (Rounded rd)) (vs : Nat → World ℝ) (h : AcceptedRun g k ws) (h' : AcceptedRun g' k vs)
    (hl : StrainIndependent g'.models.lava) (hpos : val (ws 0).st.pos = (vs 0).st.pos)
    (hrep : ∀ i : ℕ, i ≤ k → Representable rd ((vs 0).st.pos + i * g'.dx)) (E : ℝ) (hE : VentRate g' (vs 0) E)
    (R : ℝ → ℝ → ℝ → Prop) (hR : ∀ i, i < k → R (val (ws i).st.pos) (val (ws i).st.temp) (val (ws i).st.crystal))
    (hR' : ∀ i, i < k → R (vs i).st.pos (vs i).st.temp (vs i).st.crystal) (K delta B e : ℝ) (hK : 0 < K) (hd : 0 ≤ delta)
    (hlip : LipschitzRhs g' (vs 0).terrain (vs 0).fluxRate E R K)
    (hgrad : ∀ i, i < k → GradientsWithin ⟨g', (vs 0).terrain, (vs 0).fluxRate, E⟩ (ws i) (ws (i + 1)) delta)
    (hB : ∀ i, i < k → NumbersWithin g (ws i) (ws (i + 1)) B)
    (hT : |val (ws 0).st.temp - (vs 0).st.temp| ≤ e) (hphi : |val (ws 0).st.crystal - (vs 0).st.crystal| ≤ e) :
    (∀ i, i ≤ k → val (ws i).st.pos = (vs 0).st.pos + i * g'.dx ∧ (vs i).st.pos = (vs 0).st.pos + i * g'.dx) ∧
    (∀ i, i < k → ∀ c, c = "core_temperature" ∨ c = "crystal_fraction" →
      ∃ y y', loggedNum (ws k).log (ws i).st.pos c = some y ∧ loggedNum (vs k).log (vs i).st.pos c = some y' ∧
        |val y - y'| ≤ e * Real.exp (K * (i * g'.dx)) +
          (delta + (4 * u * B + 3 * η) / g'.dx) / K * (Real.exp (K * (i * g'.dx)) - 1)) ∧
    (|val (ws k).st.temp - (vs k).st.temp| ≤ e * Real.exp (K * (k * g'.dx)) +
        (delta + (4 * u * B + 3 * η) / g'.dx) / K * (Real.exp (K * (k * g'.dx)) - 1)) ∧
    (|val (ws k).st.crystal - (vs k).st.crystal| ≤ e * Real.exp (K * (k * g'.dx)) +
        (delta + (4 * u * B + 3 * η) / g'.dx) / K * (Real.exp (K * (k * g'.dx)) - 1)) := by
  have hvp := acceptedRun_pos h'
  have hwp : ∀ i, i ≤ k → val (ws i).st.pos = (vs 0).st.pos + i * g'.dx := by
    intro i
    induction i with
    | zero => intro _; rw [hpos]; simp
    | succ i ih =>
      intro hi
      obtain ⟨A⟩ := roundStep (h i (by omega))
      rw [A.pos, ih (by omega), hsame]
      have := hrep (i + 1) hi
      unfold Representable at this
      rw [show (vs 0).st.pos + i * g'.dx + g'.dx = (vs 0).st.pos + (i + 1 : ℕ) * g'.dx by push_cast; ring]
      exact this
  have hrate := acceptedRun_rate h' E hE
  set D := delta + (4 * u * B + 3 * η) / g'.dx with hDdef
  let bd : ℕ → ℝ := fun i => Nat.rec e (fun _ b => b + g'.dx * (K * b + D)) i
  have bd0 : bd 0 = e := rfl
  have bds : ∀ i, bd (i + 1) = bd i + g'.dx * (K * bd i + D) := fun _ => rfl
  have he : 0 ≤ e := (abs_nonneg _).trans hT
  have key : ∀ i, i ≤ k → |val (ws i).st.temp - (vs i).st.temp| ≤ bd i ∧ |val (ws i).st.crystal - (vs i).st.crystal| ≤ bd i := by
    intro i
    induction i with
    | zero => intro _; rw [bd0]; exact ⟨hT, hphi⟩
    | succ i ih =>
      intro hi
      obtain ⟨c1, c2⟩ := ih (by omega)
      obtain ⟨A⟩ := roundStep (h i (by omega))
      obtain ⟨d, r1, _, r3, r4⟩ := accepted_row (h' i (by omega))
      obtain ⟨_, _, qs, q1, q2, _⟩ := r4 hl
      obtain ⟨t1, t2, _⟩ := hrate i (by omega)
      have hEi : (vs (i + 1)).effusionRate = E := ((hrate (i + 1) hi).2.2 (by omega)).2
      rw [t1, t2, hEi] at r1
      rw [t1, hEi] at r3
      rw [t1] at q1
      obtain ⟨a, b, G, ga, gb, gf, g1, g2⟩ := hgrad i (by omega)
      obtain ⟨b1, b2, b3, b4⟩ := hB i (by omega)
      have la : loggedNum (ws (i + 1)).log (ws i).st.pos "dtemp_dx" = some A.d.dtempDx := A.logged (by decide) rfl
      have lb : loggedNum (ws (i + 1)).log (ws i).st.pos "dphi_dx" = some A.d.dphiDx := A.logged (by decide) rfl
      rw [la, Option.some.injEq] at ga
      rw [lb, Option.some.injEq] at gb
      subst ga
      subst gb
      obtain ⟨m1, m2, _⟩ := hlip (exactState (ws i).st) (vs i).st G ⟨tempGradient g' E (vs i).st d, crystalGradient g' E (vs i).st d, 1 / d.v⟩
        (hR i (by omega)) (hR' i (by omega)) (by show val (ws i).st.pos = _; rw [hwp i (by omega), hvp i (by omega)]) gf
        ⟨d, r1, ⟨qs, q1, q2⟩, rfl, rfl, rfl⟩
      have hKm := mul_le_mul_of_nonneg_left (max_le c1 c2) hK.le
      have n1 : |val A.d.dtempDx - tempGradient g' E (vs i).st d| ≤ K * bd i + delta := by
        have := abs_sub_le (val A.d.dtempDx) G.temp (tempGradient g' E (vs i).st d)
        have : |G.temp - tempGradient g' E (vs i).st d| ≤ K * bd i := m1.trans hKm
        linarith
      have n2 : |val A.d.dphiDx - crystalGradient g' E (vs i).st d| ≤ K * bd i + delta := by
        have := abs_sub_le (val A.d.dphiDx) G.crystal (crystalGradient g' E (vs i).st d)
        have : |G.crystal - crystalGradient g' E (vs i).st d| ≤ K * bd i := m2.trans hKm
        linarith
      have s1 : val (ws (i + 1)).st.temp = rd (val (ws i).st.temp + rd (val A.d.dtempDx * g'.dx)) := by
        rw [A.temp, A.facts.newTemp, val_add, val_mul, hsame]
      have s2 : val (ws (i + 1)).st.crystal = rd (val (ws i).st.crystal + rd (val A.d.dphiDx * g'.dx)) := by
        rw [A.crystal, A.facts.newPhi, val_add, val_mul, hsame]
      have b3' := b3 _ la
      have b4' := b4 _ lb
      rw [hsame] at b3' b4'
      rw [bds]
      exact ⟨round_next h0 h1 hη hA hdx s1 r3.temp c1 b1 b3' n1, round_next h0 h1 hη hA hdx s2 r3.crystal c2 b2 b4' n2⟩
  have hfinal : ∀ i, i ≤ k → 0 ≤ D → bd i ≤ e * Real.exp (K * (i * g'.dx)) + D / K * (Real.exp (K * (i * g'.dx)) - 1) :=
    fun i _ hD => (stable_bound hK hdx.le he hD bd bd0 bds i).2
  have hD : ∀ i, i < k → 0 ≤ D := by
    intro i hi
    have : 0 ≤ B := (abs_nonneg _).trans (hB i hi).1
    rw [hDdef]; positivity
  have hlast : bd k ≤ e * Real.exp (K * (k * g'.dx)) + D / K * (Real.exp (K * (k * g'.dx)) - 1) := by
    cases k with
    | zero => rw [bd0]; simp
    | succ k => exact hfinal _ le_rfl (hD k (by omega))
  refine ⟨fun i hi => ⟨hwp i hi, hvp i hi⟩, fun i hi c hc => ?_, (key k le_rfl).1.trans hlast, (key k le_rfl).2.trans hlast⟩
  have hcp : c ≠ "position" := by rcases hc with rfl | rfl <;> decide
  have inj : ∀ i j : ℕ, i < j → (vs 0).st.pos + i * g'.dx ≠ (vs 0).st.pos + j * g'.dx := by
    intro i j hij e
    have : (i : ℝ) * g'.dx = j * g'.dx := by linarith
    have : (i : ℝ) = j := mul_right_cancel₀ hdx.ne' this
    have : i = j := by exact_mod_cast this
    omega
  have k1 := acceptedRun_keeps h (fun i j hij hj e => inj i j hij (by rw [← hwp i (by omega), ← hwp j (by omega), e])) hcp i k hi le_rfl
  have k2 := acceptedRun_keeps h' (fun i j hij hj e => inj i j hij (by rw [← hvp i (by omega), ← hvp j (by omega), e])) hcp i k hi le_rfl
  obtain ⟨A⟩ := roundStep (h i hi)
  obtain ⟨d, _, r2, _⟩ := accepted_row (h' i hi)
  have hst : A.w1.st.temp = (ws i).st.temp ∧ A.w1.st.crystal = (ws i).st.crystal := by
    rw [A.facts.touched]; exact ⟨rfl, rfl⟩
  rcases hc with rfl | rfl
  · refine ⟨(ws i).st.temp, (vs i).st.temp, ?_, ?_, (key i hi.le).1.trans (hfinal i hi.le (hD i hi))⟩
    · unfold loggedNum
      rw [k1]
      rw [← hst.1]
      exact A.logged (by decide) rfl
    · unfold loggedNum
      rw [k2]
      exact r2.core_temperature
  · refine ⟨(ws i).st.crystal, (vs i).st.crystal, ?_, ?_, (key i hi.le).2.trans (hfinal i hi.le (hD i hi))⟩
    · unfold loggedNum
      rw [k1]
      rw [← hst.2]
      exact A.logged (by decide) rfl
    · unfold loggedNum
      rw [k2]
      exact r2.crystal_fraction

end PyFlowGo
