import Verif.Proofs.FineProfile
import Verif.Props.Converge
/-
  C99: a flow for which the table provably converges to the solution of the flow equations.
-/
set_option linter.unusedSectionVars false
namespace PyFlowGo
open Spec Set

/-- The rows of the example stay in the region. -/
theorem fine_rows (eps dx : ℝ) (heps : 0 < eps) (hdx : 0 < dx) (n : Nat) (hn : 1 ≤ n) (hsmall : 3 * eps * (n * dx) ≤ 1 / 100) :
    ∃ w', runLoop (fineG eps dx) n (longWorld 0 (n * dx)) = some (.ok (), w') ∧ w'.log.length = n ∧ w'.st.pos = n * dx ∧
      ∀ x T phi, loggedNum w'.log x "core_temperature" = some T → loggedNum w'.log x "crystal_fraction" = some phi →
        FineRegion x T phi := by
  obtain ⟨w', hrun, ws, g1, g2, rfl, g5⟩ := fine_run eps dx heps hdx n hn hsmall
  obtain ⟨row, r1, r2⟩ := acceptedRun_rows (fineG eps dx) hdx n ws g2 (by rw [g1]; rfl)
  have hlog := r2 n le_rfl
  have hend : (ws n).st.pos = n * dx := by
    obtain ⟨m, rfl⟩ : ∃ m, n = m + 1 := ⟨n - 1, by omega⟩
    obtain ⟨d, _, _, he, _⟩ := accepted_row (g2 m (by omega))
    rw [he.pos, (g5 m (by omega)).pos]
    show (m : ℝ) * dx + dx = _
    push_cast; ring
  refine ⟨ws n, hrun, by rw [hlog]; simp, hend, fun x T phi hT hphi => ?_⟩
  have hfin : ∃ i, i < n ∧ ∀ name, cellAt (ws n).log (.num x) name = (row i).get? name ∧ x = i * dx := by
    have hs : ((ws n).log.find? (fun r => r.atPosition (.num x))).isSome := by
      cases hf : (ws n).log.find? (fun r => r.atPosition (.num x)) with
      | none =>
        unfold loggedNum cellAt at hT
        rw [hf] at hT
        cases hT
      | some r => rfl
    obtain ⟨r, hr⟩ := Option.isSome_iff_exists.mp hs
    have hm := List.mem_of_find?_eq_some hr
    rw [hlog] at hm
    obtain ⟨i, hi, rfl⟩ := List.mem_map.mp hm
    have hi' := List.mem_range.mp hi
    refine ⟨i, hi', fun name => ⟨by unfold cellAt; rw [hr]; rfl, ?_⟩⟩
    have hp := List.find?_some hr
    unfold Row.atPosition at hp
    rw [(r1 i hi').1] at hp
    have hp : (Cell.num x == Cell.num ((ws 0).st.pos + i * (fineG eps dx).dx)) = true := hp
    have hp := beq_iff_eq.mp hp
    injection hp with hp
    rw [hp, g1]
    show (0:ℝ) + i * dx = i * dx
    ring
  obtain ⟨i, hi, hrow⟩ := hfin
  have hinv := g5 i hi
  obtain ⟨d, _, hshow, _⟩ := accepted_row (g2 i hi)
  have hpos : (ws i).st.pos = x := by rw [hinv.pos, (hrow "position").2]
  have hsame : ∀ name, cellAt (ws (i + 1)).log (.num x) name = (row i).get? name := by
    intro name
    unfold cellAt
    have : (ws (i + 1)).log.find? (fun r => r.atPosition (.num x)) = some (row i) := by
      rw [r2 (i + 1) (by omega), List.range_succ, List.map_append, List.find?_append]
      have hnone : ((List.range i).map row).find? (fun r => r.atPosition (.num x)) = none := by
        rw [List.find?_eq_none]
        intro r hr
        obtain ⟨j, hj, rfl⟩ := List.mem_map.mp hr
        have hj' := List.mem_range.mp hj
        unfold Row.atPosition
        rw [(r1 j (by omega)).1]
        intro hb
        have hb : (Cell.num x == Cell.num ((ws 0).st.pos + j * (fineG eps dx).dx)) = true := hb
        have hb := beq_iff_eq.mp hb
        injection hb with hb
        rw [g1, (hrow "position").2] at hb
        have hb : i * dx = (0:ℝ) + j * dx := hb
        have : (j : ℝ) = i := mul_right_cancel₀ hdx.ne' (by linarith)
        have : j = i := by exact_mod_cast this
        omega
      rw [hnone]
      simp only [List.map_cons, List.map_nil, Option.none_or, List.find?_cons]
      have : (row i).atPosition (.num x) = true := by
        unfold Row.atPosition
        rw [(r1 i hi).1]
        show (Cell.num x == Cell.num ((ws 0).st.pos + i * (fineG eps dx).dx)) = true
        rw [beq_iff_eq, g1, (hrow "position").2]
        show _ = Cell.num ((0:ℝ) + i * dx)
        rw [zero_add]
      rw [this]
    rw [this]; rfl
  have h1 := hshow.core_temperature
  have h2 := hshow.crystal_fraction
  rw [hpos] at h1 h2
  have key : ∀ name, loggedNum (ws n).log x name = loggedNum (ws (i + 1)).log x name := by
    intro name
    unfold loggedNum
    rw [(hrow name).1, hsame name]
  rw [key, h1, Option.some.injEq] at hT
  rw [key, h2, Option.some.injEq] at hphi
  have hb : 3 * eps * (i * dx) ≤ 1 / 100 := by
    have : (i : ℝ) ≤ n := by exact_mod_cast hi.le
    have h2 : 3 * eps * (i * dx) ≤ 3 * eps * (n * dx) := by gcongr
    linarith
  rw [← hT, ← hphi]
  exact ⟨hinv.temp, hinv.phi0, hinv.phi1.trans hb⟩

/-- The hypotheses of C99 hold for lava cooled by rain, for every step size. -/
theorem fine_hypotheses (eps len : ℝ) (heps : 0 < eps) (hlen : 0 < len) (hs : 3 * eps * len ≤ 1 / 100) :
    ∃ (P : Profile) (K M : ℝ), 0 < K ∧ 0 ≤ M ∧ P.crystal 0 < P.crystal len ∧ CloseTo P (longWorld 0 len).st 0 ∧
      (∀ x ∈ Icc 0 len, FineRegion x (P.temp x) (P.crystal x)) ∧
      ∀ dx, Solves (fineG eps dx) (longTerrain len) none 1 0 len P ∧ LipschitzRhs (fineG eps dx) (longTerrain len) none 1 FineRegion K ∧
        SmoothProfile (fineG eps dx) (longTerrain len) none 1 0 len P M := by
  obtain ⟨phi, p0, hphi⟩ := fine_solution eps len heps hlen.le hs
  obtain ⟨L, hL, hlip⟩ := fineV_lipschitz
  let P : Profile := { temp := fun x => 1000 - 1000 * phi x, crystal := phi, time := fun x => 1 + phi x / eps }
  have hreg : ∀ x ∈ Icc 0 len, FineRegion x (P.temp x) (P.crystal x) := fun x hx => ⟨rfl, (hphi x hx).1⟩
  have hT := longTerrain_channel len
  have hsol : ∀ dx, Solves (fineG eps dx) (longTerrain len) none 1 0 len P := by
    intro dx x hx
    refine ⟨_, (fine_equations hT eps dx (P.state x) (hreg x hx) _).mpr rfl, ?_, (hphi x hx).2, ?_⟩
    · have h2 := ((hphi x hx).2.const_mul 1000).const_sub 1000
      exact h2
    · have h2 := ((hphi x hx).2.div_const eps).const_add 1
      have e : eps / fineV (phi x) / eps = 1 / fineV (phi x) := by field_simp
      rw [e] at h2
      exact h2
  have hle : ∀ x ∈ Icc 0 len, ∀ y ∈ Icc 0 len, |phi x - phi y| ≤ 3 * eps * |x - y| := by
    intro x hx y hy
    have := (convex_Icc (0 : ℝ) len).norm_image_sub_le_of_norm_hasDerivWithin_le (f := phi)
      (f' := fun x => eps / fineV (phi x)) (C := 3 * eps) (fun x hx => (hphi x hx).2) (fun x hx => by
        have h1 := fineV_ge (hphi x hx).1.1 (hphi x hx).1.2
        have hp : 0 < fineV (phi x) := by linarith
        rw [Real.norm_eq_abs, abs_of_nonneg (by positivity), div_le_iff₀ hp]; nlinarith) hy hx
    rwa [Real.norm_eq_abs, Real.norm_eq_abs] at this
  let K : ℝ := (1000 * eps + eps + 1) * L
  have hK : 0 < K := by positivity
  have hwithin : ∀ a ∈ Icc (0 : ℝ) (1 / 100), ∀ b ∈ Icc (0 : ℝ) (1 / 100),
      (Slopes.mk (-(1000 * (eps / fineV a))) (eps / fineV a) (1 / fineV a)).within
        ⟨-(1000 * (eps / fineV b)), eps / fineV b, 1 / fineV b⟩ (K * |a - b|) := by
    intro a ha b hb
    have h := hlip a ha b hb
    have h0 := abs_nonneg (a - b)
    have hla : 0 ≤ L * |a - b| := by positivity
    have e1 : -(1000 * (eps / fineV a)) - -(1000 * (eps / fineV b)) = -(1000 * eps) * (1 / fineV a - 1 / fineV b) := by ring
    have e2 : eps / fineV a - eps / fineV b = eps * (1 / fineV a - 1 / fineV b) := by ring
    have eK : K * |a - b| = (1000 * eps + eps + 1) * (L * |a - b|) := by show (1000 * eps + eps + 1) * L * _ = _; ring
    refine ⟨?_, ?_, ?_⟩
    · rw [e1, eK, abs_mul, abs_neg, abs_of_pos (by positivity : 0 < 1000 * eps)]
      have := mul_le_mul_of_nonneg_left h (by positivity : 0 ≤ 1000 * eps)
      nlinarith
    · rw [e2, eK, abs_mul, abs_of_pos heps]
      have := mul_le_mul_of_nonneg_left h heps.le
      nlinarith
    · rw [eK]
      show |1 / fineV a - 1 / fineV b| ≤ _
      nlinarith
  have hlipR : ∀ dx, LipschitzRhs (fineG eps dx) (longTerrain len) none 1 FineRegion K := by
    intro dx s s' G G' hs hs' _ hG hG'
    rw [(fine_equations hT eps dx s hs G).mp hG, (fine_equations hT eps dx s' hs' G').mp hG']
    obtain ⟨a, b, c⟩ := hwithin s.crystal hs.2 s'.crystal hs'.2
    have hm : K * |s.crystal - s'.crystal| ≤ K * max |s.temp - s'.temp| |s.crystal - s'.crystal| :=
      mul_le_mul_of_nonneg_left (le_max_right _ _) hK.le
    exact ⟨a.trans hm, b.trans hm, c.trans hm⟩
  let M : ℝ := K * (3 * eps)
  have hM : 0 ≤ M := by positivity
  have hsmooth : ∀ dx, SmoothProfile (fineG eps dx) (longTerrain len) none 1 0 len P M := by
    intro dx x hx y hy G G' hG hG'
    rw [(fine_equations hT eps dx _ (hreg x hx) G).mp hG, (fine_equations hT eps dx _ (hreg y hy) G').mp hG']
    obtain ⟨a, b, c⟩ := hwithin (phi x) (hphi x hx).1 (phi y) (hphi y hy).1
    have hm : K * |phi x - phi y| ≤ M * |x - y| := by
      have := mul_le_mul_of_nonneg_left (hle x hx y hy) hK.le
      show _ ≤ K * (3 * eps) * |x - y|
      linarith
    exact ⟨a.trans hm, b.trans hm, c.trans hm⟩
  refine ⟨P, K, M, hK, hM, ?_, ?_, hreg, fun dx => ⟨hsol dx, hlipR dx, hsmooth dx⟩⟩
  · -- the crystals do grow
    show phi 0 < phi len
    have hmono : StrictMonoOn phi (Icc 0 len) := by
      refine strictMonoOn_of_hasDerivWithinAt_pos (convex_Icc 0 len)
        (fun x hx => ((hphi x hx).2).continuousWithinAt) (f' := fun x => eps / fineV (phi x)) ?_ ?_
      · intro x hx
        exact ((hphi x (interior_subset hx)).2).mono interior_subset
      · intro x hx
        have h1 := fineV_ge (hphi x (interior_subset hx)).1.1 (hphi x (interior_subset hx)).1.2
        have hp : 0 < fineV (phi x) := by linarith
        positivity
    exact hmono (left_mem_Icc.mpr hlen.le) (right_mem_Icc.mpr hlen.le) hlen
  · refine ⟨?_, ?_, ?_⟩
    · show |(1000:ℝ) - (1000 - 1000 * phi 0)| ≤ 0; rw [p0]; norm_num
    · show |(0:ℝ) - phi 0| ≤ 0; rw [p0]; norm_num
    · show |(1:ℝ) - (1 + phi 0 / eps)| ≤ 0; rw [p0]; norm_num

/-- **C99** at work: lava cooled by rain in a channel of any length `len` that the cooling allows. The flow equations have
    a solution `P` from the vent, and there is a constant `C` such that for every number `n` of steps the run with the
    step `len / n` completes with `n` rows, all of them within `C / n` of the solution; the state in which the flow
    ends is that near to the solution at the end of the channel. -/
theorem C99_refinement_converges (eps len : ℝ) (heps : 0 < eps) (hlen : 0 < len) (hs : 3 * eps * len ≤ 1 / 100) :
    ∃ (P : Profile) (C : ℝ), Solves (fineG eps 1) (longTerrain len) none 1 0 len P ∧ P.crystal 0 < P.crystal len ∧
      ∀ n : ℕ, 1 ≤ n → ∃ w', runLoop (fineG eps (len / n)) n (longWorld 0 len) = some (.ok (), w') ∧ w'.log.length = n ∧
        (∀ i : ℕ, i < n → ∃ T phi, loggedNum w'.log (i * (len / n)) "core_temperature" = some T ∧
          loggedNum w'.log (i * (len / n)) "crystal_fraction" = some phi ∧
          |T - P.temp (i * (len / n))| ≤ C / n ∧ |phi - P.crystal (i * (len / n))| ≤ C / n) ∧
        w'.st.pos = len ∧ CloseTo P w'.st (C / n) := by
  obtain ⟨P, K, M, hK, hM, hgrow, h0, hreg, hall⟩ := fine_hypotheses eps len heps hlen hs
  have hT := longTerrain_channel len
  refine ⟨P, M * len / (2 * K) * (Real.exp (K * len) - 1), (hall 1).1, hgrow, fun n hn => ?_⟩
  · have hn0 : (0 : ℝ) < n := by exact_mod_cast hn
    have hdx : 0 < len / n := by positivity
    have hnd : (n : ℝ) * (len / n) = len := by field_simp
    obtain ⟨w', hrun, hlog, hpend, hin⟩ := fine_rows eps (len / n) heps hdx n hn (by rw [hnd]; exact hs)
    rw [hnd] at hrun hpend
    have hv0 : ∀ v x, (fineG eps (len / n)).models.lava.meanVelocity (longWorld 0 len).terrain (longWorld 0 len).st = .ok (v, x) →
        v = 1 := by
      intro v x hv
      obtain ⟨u, hu, _, hu1⟩ := long_velocity hT (longWorld 0 len).st le_rfl (by show (0:ℝ) ≤ 1 / 100; norm_num)
        ⟨by show 1000 - 1000 * (0:ℝ) ≤ 1000; norm_num, by show (1000:ℝ) ≤ 1000; norm_num⟩
      have hv : (exLava 1 (.kd 1 0) .ryerson).meanVelocity (longTerrain len) (longWorld 0 len).st = .ok (v, x) := hv
      rw [hu, Except.ok.injEq, Prod.mk.injEq] at hv
      rw [← hv.1]; exact hu1 rfl
    obtain ⟨k, s, hlen', hs0, hend, hpos, hrows, hclose⟩ := C99_first_order (fineG eps (len / n)) hdx n _ w' rfl hrun
      (fun _ _ => rfl) 1 (fun v x hv => by
        rw [hv0 v x hv]
        show (1:ℝ) = if (0:ℕ) = 0 then 1 * 1 * 1 else _
        norm_num) len P (hall _).1 h0 FineRegion K M hK hM hreg hin (hall _).2.1 (hall _).2.2
    have hbound : ∀ x, x ≤ len → M * (fineG eps (len / n)).dx / (2 * K) * (Real.exp (K * (x - (longWorld 0 len).st.pos)) - 1) ≤
        M * len / (2 * K) * (Real.exp (K * len) - 1) / n := by
      intro x hx
      show M * (len / n) / (2 * K) * (Real.exp (K * (x - 0)) - 1) ≤ _
      rw [sub_zero]
      have h1 : Real.exp (K * x) ≤ Real.exp (K * len) := Real.exp_le_exp.mpr (mul_le_mul_of_nonneg_left hx hK.le)
      have e : M * len / (2 * K) * (Real.exp (K * len) - 1) / n = M * (len / n) / (2 * K) * (Real.exp (K * len) - 1) := by
        field_simp
      rw [e]
      exact mul_le_mul_of_nonneg_left (by linarith) (by positivity)
    have hx : ∀ i, i ≤ k → (s i).pos = i * (len / n) := by
      intro i hi
      rw [hpos i hi]
      show (0:ℝ) + i * (len / n) = _
      ring
    have hkn : k = n := by
      have hst : w'.st.pos = (s k).pos := by rw [hend]
      rw [hpend, hx k le_rfl] at hst
      have : (n : ℝ) = k := mul_right_cancel₀ hdx.ne' (hnd.trans hst)
      exact_mod_cast this.symm
    refine ⟨w', hrun, hlog, fun i hi => ?_, hpend, ?_⟩
    · have hik : i < k := by omega
      have hp : (s i).pos ≤ len := by
        rw [hx i hik.le]
        calc (i : ℝ) * (len / n) ≤ n * (len / n) := by
              have : (i : ℝ) ≤ n := by exact_mod_cast (by omega : i ≤ n)
              gcongr
          _ = len := hnd
      obtain ⟨_, r2, r3⟩ := hrows i hik
      obtain ⟨c1, c2, _⟩ := hclose i hik.le hp
      have hb := hbound _ hp
      rw [hx i hik.le] at r2 r3 c1 c2 hb
      exact ⟨_, _, r2, r3, c1.trans hb, c2.trans hb⟩
    · have hst : w'.st.pos = (s k).pos := by rw [hend]
      have hp' : (s k).pos ≤ len := by rw [← hst, hpend]
      obtain ⟨c1, c2, c3⟩ := hclose k le_rfl hp'
      have hb := hbound _ hp'
      rw [hend]
      exact ⟨c1.trans hb, c2.trans hb, c3.trans hb⟩

/-- Such flows exist. -/
example : (0 : ℝ) < 1 / 3000 ∧ 3 * (1 / 3000 : ℝ) * 10 ≤ 1 / 100 := by norm_num

end PyFlowGo
