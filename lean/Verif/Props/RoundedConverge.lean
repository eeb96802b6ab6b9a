import Verif.Props.RoundedRun
import Verif.Props.Converge
/-
  C132: the table of a run in rounded arithmetic and the solution of the flow equations.
-/
set_option linter.unusedSectionVars false
namespace PyFlowGo
open Spec Rounded Set

/-- **C132**. A run of `k` steps in rounded arithmetic and a solution `P` of the exact flow equations of a set-up `S`.  Let the run start at `a`,
    within `e` of `P`, at positions the format can represent; let the equations be `K`-Lipschitz in a region that holds the run and the solution, the slopes
    of the solution vary by at most `M` per metre, the gradients in the rows be those of the equations up to `delta`, and `B` bound the numbers that are
    added up.  Then every row of the final table is within
    `e exp (K x) + (M dx / 2 + delta + (4 u B + 3 η) / dx) / K (exp (K x) - 1)` of the solution at its position, `x` metres from the vent: the discretisation error falls and
    the rounding error rises as the step gets finer. -/
theorem C132_total_error {rd : ℝ → ℝ} {u η : ℝ} (h0 : 0 ≤ u) (h1 : u ≤ 1 / 1000) (hη : 0 ≤ η) (hA : Accurate u η rd)
    (g : Integrator (Rounded rd)) (hdx : 0 < val g.dx) (k : Nat) (ws : Nat → World (Rounded rd)) (h : AcceptedRun g k ws)
    (a b : ℝ) (hpos : val (ws 0).st.pos = a) (hb : a + k * val g.dx ≤ b)
    (hrep : ∀ i : ℕ, i ≤ k → Representable rd (a + i * val g.dx)) (S : Setup)
    (P : Profile) (hP : Solves S.g S.terrain S.fluxRate S.rate a b P) (R : ℝ → ℝ → ℝ → Prop)
    (hR : ∀ i, i < k → R (val (ws i).st.pos) (val (ws i).st.temp) (val (ws i).st.crystal))
    (hR' : ∀ x ∈ Icc a b, R x (P.temp x) (P.crystal x)) (K M delta B e : ℝ) (hK : 0 < K) (hM : 0 ≤ M) (hd : 0 ≤ delta)
    (hlip : LipschitzRhs S.g S.terrain S.fluxRate S.rate R K) (hsm : SmoothProfile S.g S.terrain S.fluxRate S.rate a b P M)
    (hgrad : ∀ i, i < k → GradientsWithin S (ws i) (ws (i + 1)) delta)
    (hB : ∀ i, i < k → NumbersWithin g (ws i) (ws (i + 1)) B)
    (hT : |val (ws 0).st.temp - P.temp a| ≤ e) (hphi : |val (ws 0).st.crystal - P.crystal a| ≤ e) :
    (∀ i, i ≤ k → val (ws i).st.pos = a + i * val g.dx) ∧
    (∀ i, i < k → ∃ y y', loggedNum (ws k).log (ws i).st.pos "core_temperature" = some y ∧
      loggedNum (ws k).log (ws i).st.pos "crystal_fraction" = some y' ∧
        |val y - P.temp (a + i * val g.dx)| ≤ e * Real.exp (K * (i * val g.dx)) +
          (M * val g.dx / 2 + delta + (4 * u * B + 3 * η) / val g.dx) / K * (Real.exp (K * (i * val g.dx)) - 1) ∧
        |val y' - P.crystal (a + i * val g.dx)| ≤ e * Real.exp (K * (i * val g.dx)) +
          (M * val g.dx / 2 + delta + (4 * u * B + 3 * η) / val g.dx) / K * (Real.exp (K * (i * val g.dx)) - 1)) ∧
    |val (ws k).st.temp - P.temp (a + k * val g.dx)| ≤ e * Real.exp (K * (k * val g.dx)) +
      (M * val g.dx / 2 + delta + (4 * u * B + 3 * η) / val g.dx) / K * (Real.exp (K * (k * val g.dx)) - 1) ∧
    |val (ws k).st.crystal - P.crystal (a + k * val g.dx)| ≤ e * Real.exp (K * (k * val g.dx)) +
      (M * val g.dx / 2 + delta + (4 * u * B + 3 * η) / val g.dx) / K * (Real.exp (K * (k * val g.dx)) - 1) := by
  have hwp : ∀ i, i ≤ k → val (ws i).st.pos = a + i * val g.dx := by
    intro i
    induction i with
    | zero => intro _; rw [hpos]; simp
    | succ i ih =>
      intro hi
      obtain ⟨A⟩ := roundStep (h i (by omega))
      rw [A.pos, ih (by omega)]
      have := hrep (i + 1) hi
      unfold Representable at this
      rw [show a + i * val g.dx + val g.dx = a + (i + 1 : ℕ) * val g.dx by push_cast; ring]
      exact this
  set D := M * val g.dx / 2 + delta + (4 * u * B + 3 * η) / val g.dx with hDdef
  let bd : ℕ → ℝ := fun i => Nat.rec e (fun _ b => b + val g.dx * (K * b + D)) i
  have bd0 : bd 0 = e := rfl
  have bds : ∀ i, bd (i + 1) = bd i + val g.dx * (K * bd i + D) := fun _ => rfl
  have he : 0 ≤ e := (abs_nonneg _).trans hT
  classical
  haveI : Nonempty Slopes := ⟨⟨0, 0, 0⟩⟩
  choose! G hG using hP
  have key : ∀ i, i ≤ k → |val (ws i).st.temp - P.temp (a + i * val g.dx)| ≤ bd i ∧ |val (ws i).st.crystal - P.crystal (a + i * val g.dx)| ≤ bd i := by
    intro i
    induction i with
    | zero => intro _; rw [bd0]; simpa using ⟨hT, hphi⟩
    | succ i ih =>
      intro hi
      obtain ⟨c1, c2⟩ := ih (by omega)
      obtain ⟨A⟩ := roundStep (h i (by omega))
      obtain ⟨y, z, H, ga, gb, gf, g1, g2⟩ := hgrad i (by omega)
      obtain ⟨b1, b2, b3, b4⟩ := hB i (by omega)
      have la : loggedNum (ws (i + 1)).log (ws i).st.pos "dtemp_dx" = some A.d.dtempDx := A.logged (by decide) rfl
      have lb : loggedNum (ws (i + 1)).log (ws i).st.pos "dphi_dx" = some A.d.dphiDx := A.logged (by decide) rfl
      rw [la, Option.some.injEq] at ga
      rw [lb, Option.some.injEq] at gb
      subst ga
      subst gb
      have l1 : a ≤ a + i * val g.dx := by have : (0:ℝ) ≤ i * val g.dx := by positivity
                                           linarith
      have l2 : a + i * val g.dx + val g.dx ≤ b := by
        have : ((i + 1 : ℕ) : ℝ) * val g.dx ≤ k * val g.dx := mul_le_mul_of_nonneg_right (by exact_mod_cast hi) hdx.le
        push_cast at this
        linarith
      have hmem : a + i * val g.dx ∈ Icc a b := ⟨l1, by linarith⟩
      obtain ⟨f0, f1, f2, f3⟩ := hG _ hmem
      have hx := hwp i (by omega)
      obtain ⟨m1, m2, _⟩ := hlip (exactState (ws i).st) (P.state (a + i * val g.dx)) H _
        (hR i (by omega)) (hR' _ hmem) hx gf f0
      have hKm := mul_le_mul_of_nonneg_left (max_le c1 c2) hK.le
      have n1 : |val A.d.dtempDx - (G (a + i * val g.dx)).temp| ≤ K * bd i + delta := by
        have := abs_sub_le (val A.d.dtempDx) H.temp (G (a + i * val g.dx)).temp
        have : |H.temp - (G (a + i * val g.dx)).temp| ≤ K * bd i := m1.trans hKm
        linarith
      have n2 : |val A.d.dphiDx - (G (a + i * val g.dx)).crystal| ≤ K * bd i + delta := by
        have := abs_sub_le (val A.d.dphiDx) H.crystal (G (a + i * val g.dx)).crystal
        have : |H.crystal - (G (a + i * val g.dx)).crystal| ≤ K * bd i := m2.trans hKm
        linarith
      have s1 : val (ws (i + 1)).st.temp = rd (val (ws i).st.temp + rd (val A.d.dtempDx * val g.dx)) := by
        rw [A.temp, A.facts.newTemp, val_add, val_mul]
      have s2 : val (ws (i + 1)).st.crystal = rd (val (ws i).st.crystal + rd (val A.d.dphiDx * val g.dx)) := by
        rw [A.crystal, A.facts.newPhi, val_add, val_mul]
      have t1 := euler_local (f := P.temp) (f' := fun x => (G x).temp) (fun x hx => (hG x hx).2.1)
        (fun x hx y hy => (hsm x hx y hy _ _ (hG x hx).1 (hG y hy).1).1) l1 hdx.le l2
      have t2 := euler_local (f := P.crystal) (f' := fun x => (G x).crystal) (fun x hx => (hG x hx).2.2.1)
        (fun x hx y hy => (hsm x hx y hy _ _ (hG x hx).1 (hG y hy).1).2.1) l1 hdx.le l2
      have r1 := round_next h0 h1 hη hA hdx s1 (p' := P.temp (a + i * val g.dx) + (G (a + i * val g.dx)).temp * val g.dx) rfl c1 b1 (b3 _ la) n1
      have r2 := round_next h0 h1 hη hA hdx s2 (p' := P.crystal (a + i * val g.dx) + (G (a + i * val g.dx)).crystal * val g.dx) rfl c2 b2 (b4 _ lb) n2
      have ex : a + ((i + 1 : ℕ) : ℝ) * val g.dx = a + i * val g.dx + val g.dx := by push_cast; ring
      have ed : val g.dx * (K * bd i + D) = val g.dx * (K * bd i + (delta + (4 * u * B + 3 * η) / val g.dx)) + M * val g.dx ^ 2 / 2 := by
        rw [hDdef]; ring
      rw [bds, ed, ex]
      constructor
      · have := abs_sub_le (val (ws (i + 1)).st.temp) (P.temp (a + i * val g.dx) + (G (a + i * val g.dx)).temp * val g.dx) (P.temp (a + i * val g.dx + val g.dx))
        have t1' : |P.temp (a + i * val g.dx) + (G (a + i * val g.dx)).temp * val g.dx - P.temp (a + i * val g.dx + val g.dx)| ≤ M * val g.dx ^ 2 / 2 := by
          rw [abs_sub_comm, ← sub_sub]; exact t1
        linarith
      · have := abs_sub_le (val (ws (i + 1)).st.crystal) (P.crystal (a + i * val g.dx) + (G (a + i * val g.dx)).crystal * val g.dx) (P.crystal (a + i * val g.dx + val g.dx))
        have t2' : |P.crystal (a + i * val g.dx) + (G (a + i * val g.dx)).crystal * val g.dx - P.crystal (a + i * val g.dx + val g.dx)| ≤ M * val g.dx ^ 2 / 2 := by
          rw [abs_sub_comm, ← sub_sub]; exact t2
        linarith
  have hfinal : ∀ i, i ≤ k → 0 ≤ D → bd i ≤ e * Real.exp (K * (i * val g.dx)) + D / K * (Real.exp (K * (i * val g.dx)) - 1) :=
    fun i _ hD => (stable_bound hK hdx.le he hD bd bd0 bds i).2
  have hD : ∀ i, i < k → 0 ≤ D := by
    intro i hi
    have : 0 ≤ B := (abs_nonneg _).trans (hB i hi).1
    rw [hDdef]; positivity
  have hlast : bd k ≤ e * Real.exp (K * (k * val g.dx)) + D / K * (Real.exp (K * (k * val g.dx)) - 1) := by
    cases k with
    | zero => rw [bd0]; simp
    | succ k => exact hfinal _ le_rfl (hD k (by omega))
  have inj : ∀ i j : ℕ, i < j → a + i * val g.dx ≠ a + j * val g.dx := by
    intro i j hij e
    have : (i : ℝ) * val g.dx = j * val g.dx := by linarith
    have : (i : ℝ) = j := mul_right_cancel₀ hdx.ne' this
    have : i = j := by exact_mod_cast this
    omega
  have hrow : ∀ i, i < k → loggedNum (ws k).log (ws i).st.pos "core_temperature" = some (ws i).st.temp ∧
      loggedNum (ws k).log (ws i).st.pos "crystal_fraction" = some (ws i).st.crystal := by
    intro i hi
    have kk : ∀ {c}, c ≠ "position" → _ := fun {c} hcp => acceptedRun_keeps (c := c) h (fun i j hij hj e => inj i j hij (by rw [← hwp i (by omega), ← hwp j (by omega), e])) hcp i k hi le_rfl
    obtain ⟨A⟩ := roundStep (h i hi)
    have hst : A.w1.st.temp = (ws i).st.temp ∧ A.w1.st.crystal = (ws i).st.crystal := by
      rw [A.facts.touched]; exact ⟨rfl, rfl⟩
    constructor
    · unfold loggedNum
      rw [kk (by decide), ← hst.1]
      exact A.logged (by decide) rfl
    · unfold loggedNum
      rw [kk (by decide), ← hst.2]
      exact A.logged (by decide) rfl
  exact ⟨hwp, fun i hi => ⟨_, _, (hrow i hi).1, (hrow i hi).2, (key i hi.le).1.trans (hfinal i hi.le (hD i hi)),
    (key i hi.le).2.trans (hfinal i hi.le (hD i hi))⟩, (key k le_rfl).1.trans hlast, (key k le_rfl).2.trans hlast⟩

end PyFlowGo
