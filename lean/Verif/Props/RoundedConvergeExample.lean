import Verif.Props.RoundedConverge
import Verif.Props.RoundedRunExample
import Verif.Proofs.FineProfile
/-
  C132 on a flow of a thousand steps.
-/
set_option linter.unusedSectionVars false
namespace PyFlowGo
open Spec Rounded Set

theorem clamp0_lip (a b : ℝ) : |max 0 a - max 0 b| ≤ |a - b| := by
  have := abs_max_sub_max_le_abs a b 0
  rwa [max_comm a, max_comm b] at this

theorem exact_rate {T : ℝ} (hT : 0 ≤ T) : 0 ≤ 1 / 2 ^ 20 * (1 / exactV T) ∧ 1 / 2 ^ 20 * (1 / exactV T) ≤ 1 / 2 ^ 15 := by
  obtain ⟨a, _⟩ := exactV_bounds hT
  have hp : 0 < exactV T := lt_of_lt_of_le (by norm_num) a
  have : 1 / exactV T ≤ 32 := by rw [div_le_iff₀ hp]; linarith
  refine ⟨by positivity, ?_⟩
  norm_num at *
  linarith

/-- The crystal fraction along the channel. -/
theorem exact_solution : ∃ phi : ℝ → ℝ, phi 0 = 0 ∧ ∀ x ∈ Icc (0 : ℝ) 1000, (0 ≤ phi x ∧ phi x ≤ 1) ∧
    HasDerivWithinAt phi (1 / 2 ^ 20 * (1 / exactV (1000 - phi x))) (Icc 0 1000) x := by
  let F : ℝ → ℝ := fun y => 1 / 2 ^ 20 * (1 / exactV (max 0 (1000 - y)))
  have hb : ∀ y, 0 ≤ F y ∧ F y ≤ 1 / 2 ^ 15 := fun y => exact_rate (le_max_left _ _)
  have hpl : IsPicardLindelof (fun _ y => F y) (tmin := 0) (tmax := 1000) ⟨0, left_mem_Icc.mpr (by norm_num)⟩ (0 : ℝ)
      ⟨1 / 2 ^ 15 * 1000, by positivity⟩ 0 ⟨1 / 2 ^ 15, by positivity⟩ ⟨1 / 2 ^ 90, by positivity⟩ := by
    refine ⟨fun t _ => ?_, fun x _ => continuousOn_const, fun t _ y _ => ?_, ?_⟩
    · refine LipschitzOnWith.of_dist_le_mul fun a _ b _ => ?_
      rw [Real.dist_eq, Real.dist_eq]
      show |1 / 2 ^ 20 * (1 / exactV (max 0 (1000 - a))) - 1 / 2 ^ 20 * (1 / exactV (max 0 (1000 - b)))| ≤ 1 / 2 ^ 90 * |a - b|
      rw [← mul_sub, abs_mul, abs_of_pos (by positivity : (0 : ℝ) < 1 / 2 ^ 20)]
      have h := exactInv_lipschitz (le_max_left 0 (1000 - a)) (le_max_left 0 (1000 - b))
      have h2 : 1 / 2 ^ 90 * |max 0 (1000 - a) - max 0 (1000 - b)| ≤ 1 / 2 ^ 90 * |a - b| := by
        refine mul_le_mul_of_nonneg_left ((clamp0_lip _ _).trans ?_) (by positivity)
        rw [show 1000 - a - (1000 - b) = -(a - b) by ring, abs_neg]
      have h3 := h.trans h2
      have h4 : (1 : ℝ) / 2 ^ 20 * |1 / exactV (max 0 (1000 - a)) - 1 / exactV (max 0 (1000 - b))| ≤
          1 * |1 / exactV (max 0 (1000 - a)) - 1 / exactV (max 0 (1000 - b))| :=
        mul_le_mul_of_nonneg_right (by norm_num) (abs_nonneg _)
      rw [one_mul] at h4
      exact h4.trans h3
    · rw [Real.norm_eq_abs, abs_of_nonneg (hb y).1]; exact (hb y).2
    · show (1 / 2 ^ 15 : ℝ) * max (1000 - 0) (0 - 0) ≤ 1 / 2 ^ 15 * 1000 - 0
      norm_num
  obtain ⟨phi, p0, p1⟩ := hpl.exists_eq_forall_mem_Icc_hasDerivWithinAt₀
  have p0 : phi 0 = 0 := p0
  have hrange : ∀ x ∈ Icc (0 : ℝ) 1000, 0 ≤ phi x ∧ phi x ≤ 1 := by
    intro x hx
    have hd : ∀ y ∈ Icc (0 : ℝ) 1000, HasDerivWithinAt (fun y => phi y - 1 / 2 ^ 16 * y) (F (phi y) - 1 / 2 ^ 16) (Icc 0 1000) y := by
      intro y hy
      have h2 : HasDerivWithinAt (fun y : ℝ => 1 / 2 ^ 16 * y) (1 / 2 ^ 16) (Icc 0 1000) y := by
        have h := (hasDerivAt_id y).const_mul (1 / 2 ^ 16 : ℝ)
        rw [mul_one] at h
        exact h.hasDerivWithinAt
      exact (p1 y hy).sub h2
    have := norm_image_sub_le_of_norm_deriv_le_segment' (C := 1 / 2 ^ 16) hd (fun y _ => by
      rw [Real.norm_eq_abs, abs_le]
      have := hb (phi y)
      norm_num at *
      constructor <;> linarith) x hx
    rw [p0, Real.norm_eq_abs, abs_le] at this
    have h1 := hx.1
    have h2 := hx.2
    norm_num at this
    constructor <;> linarith [this.1, this.2]
  refine ⟨phi, p0, fun x hx => ⟨hrange x hx, ?_⟩⟩
  have h1 := p1 x hx
  have h2 : max 0 (1000 - phi x) = 1000 - phi x := max_eq_right (by linarith [(hrange x hx).2])
  have h3 : F (phi x) = 1 / 2 ^ 20 * (1 / exactV (1000 - phi x)) := by show 1 / 2 ^ 20 * (1 / exactV (max 0 (1000 - phi x))) = _; rw [h2]
  rw [← h3]
  exact h1

/-- Non-vacuity of C132, and what it says of double precision: the flow equations of the example have a solution, along which the lava cools, and
    the table of the thousand steps computed with 53 significant bits shows it to nine decimals. -/
theorem C132_thousand_steps : ∃ (P : Profile) (ws : Nat → World (Rounded (unbounded 53))),
    Solves exactG exactTerrain none exactE 0 1000 P ∧ P.temp 0 = 1000 ∧ P.crystal 0 = 0 ∧
    ws 0 = rfWorld (unbounded 53) 0 ∧ AcceptedRun (rfG (unbounded 53) (rfYield (unbounded 53)) false) 1000 ws ∧
    ∀ i : ℕ, i < 1000 → val (ws i).st.pos = i ∧
      ∃ y y', loggedNum (ws 1000).log (ws i).st.pos "core_temperature" = some y ∧
        loggedNum (ws 1000).log (ws i).st.pos "crystal_fraction" = some y' ∧
        |val y - P.temp i| ≤ 1 / 10 ^ 9 ∧ |val y' - P.crystal i| ≤ 1 / 10 ^ 9 := by
  have D := unbounded_decent
  obtain ⟨phi, p0, hphi⟩ := exact_solution
  let P : Profile := { temp := fun x => 1000 - phi x, crystal := phi, time := fun x => 2 ^ 20 * phi x }
  have hTP : ∀ x ∈ Icc (0 : ℝ) 1000, 0 < P.temp x := fun x hx => by
    show 0 < 1000 - phi x
    linarith [(hphi x hx).1.2]
  have hsol : Solves exactG exactTerrain none exactE 0 1000 P := by
    intro x hx
    refine ⟨_, (exact_equations (P.state x) (hTP x hx) _).mpr rfl, ?_, (hphi x hx).2, ?_⟩
    · exact (hphi x hx).2.const_sub 1000
    · have h2 := (hphi x hx).2.const_mul (2 ^ 20)
      have e : (2 : ℝ) ^ 20 * (1 / 2 ^ 20 * (1 / exactV (1000 - phi x))) = 1 / exactV (1000 - phi x) := by
        rw [← mul_assoc]; norm_num
      rw [e] at h2
      exact h2
  have hle : ∀ x ∈ Icc (0 : ℝ) 1000, ∀ y ∈ Icc (0 : ℝ) 1000, |phi x - phi y| ≤ 1 * |x - y| := by
    intro x hx y hy
    have := (convex_Icc (0 : ℝ) 1000).norm_image_sub_le_of_norm_hasDerivWithin_le (f := phi)
      (f' := fun x => 1 / 2 ^ 20 * (1 / exactV (1000 - phi x))) (C := 1) (fun x hx => (hphi x hx).2) (fun x hx => by
        obtain ⟨a, b⟩ := exact_rate (T := 1000 - phi x) (hTP x hx).le
        rw [Real.norm_eq_abs, abs_of_nonneg a]
        exact b.trans (by norm_num)) hy hx
    rwa [Real.norm_eq_abs, Real.norm_eq_abs] at this
  have hsm : SmoothProfile exactG exactTerrain none exactE 0 1000 P (1 / 2 ^ 90) := by
    intro x hx y hy G G' hG hG'
    rw [(exact_equations _ (hTP x hx) G).mp hG, (exact_equations _ (hTP y hy) G').mp hG']
    have h := exactInv_lipschitz (hTP x hx).le (hTP y hy).le
    have hxy : |P.temp x - P.temp y| ≤ |x - y| := by
      show |1000 - phi x - (1000 - phi y)| ≤ _
      rw [show 1000 - phi x - (1000 - phi y) = -(phi x - phi y) by ring, abs_neg]
      have := hle x hx y hy
      rwa [one_mul] at this
    have h' := h.trans (mul_le_mul_of_nonneg_left hxy (by positivity : (0 : ℝ) ≤ 1 / 2 ^ 90))
    generalize 1 / 2 ^ 90 * |x - y| = r at h'
    have h20 : 1 / 2 ^ 20 * |1 / exactV (P.temp x) - 1 / exactV (P.temp y)| ≤ r := by
      have : (1 : ℝ) / 2 ^ 20 * |1 / exactV (P.temp x) - 1 / exactV (P.temp y)| ≤ 1 * |1 / exactV (P.temp x) - 1 / exactV (P.temp y)| :=
        mul_le_mul_of_nonneg_right (by norm_num) (abs_nonneg _)
      linarith
    have h20' : |1 / 2 ^ 20 * (1 / exactV (P.temp x)) - 1 / 2 ^ 20 * (1 / exactV (P.temp y))| ≤ r := by
      rw [← mul_sub, abs_mul, abs_of_pos (by positivity : (0 : ℝ) < 1 / 2 ^ 20)]
      exact h20
    refine ⟨?_, h20', h'⟩
    show |-(1 / 2 ^ 20 * (1 / exactV (P.temp x))) - -(1 / 2 ^ 20 * (1 / exactV (P.temp y)))| ≤ r
    rw [neg_sub_neg, abs_sub_comm]
    exact h20'
  obtain ⟨ws, w0, w1, w2, _⟩ := rf_run D false 0 (by norm_num) 1000 le_rfl
  have hA : Accurate (1 / 2 ^ 53) 0 (unbounded 53) := by
    intro x
    have := unbounded_accurate 53 x
    rw [show (1 / 2 ^ 53 : ℝ) = (2 : ℝ) ^ (-((53 : ℕ) : ℤ)) by norm_num]
    exact this
  have hTw : ∀ i, i < 1000 → (0 : ℝ) < val (ws i).st.temp := by
    intro i hi
    have h := (w2 i hi.le).temp0
    have : (i : ℝ) / 2 ^ 15 ≤ 1 := by
      rw [div_le_one (by norm_num)]
      have : (i : ℝ) ≤ 1000 := by exact_mod_cast hi.le
      norm_num; linarith
    linarith
  have hc := rf_c D
  have hc1 : rfC (unbounded 53) ≤ 1 := hc.2.trans (by norm_num)
  have hc0 : 0 ≤ rfC (unbounded 53) := le_trans (by norm_num) hc.1
  obtain ⟨p, q, _, _⟩ := C132_total_error (u := 1 / 2 ^ 53) (η := 0) (by norm_num) (by norm_num) le_rfl hA
    (rfG (unbounded 53) (rfYield (unbounded 53)) false) (show (0 : ℝ) < 1 by norm_num) 1000 ws w1 0 1000 (by rw [w0]; rfl)
    (by show (0 : ℝ) + (1000 : ℕ) * 1 ≤ 1000; norm_num)
    (fun i hi => by
      show unbounded 53 (0 + i * 1) = 0 + i * 1
      rw [zero_add, mul_one]
      have := D.int (i : ℤ) (by rw [abs_of_nonneg (by omega)]; omega)
      simpa using this)
    ⟨exactG, exactTerrain, none, exactE⟩ P hsol (fun _ T _ => 0 < T) hTw hTP (1 / 2 ^ 90) (1 / 2 ^ 90) (1 / 2 ^ 60) 1000 0
    (by positivity) (by positivity) (by positivity) exact_lipschitz hsm
    (fun i hi => by
      obtain ⟨a, b⟩ := rf_gradients D i hi _ _ (w2 i hi.le) (w1 i hi)
      have hcl := rf_exact_close (hTw i hi)
      have he := (exact_equations (exactState (ws i).st) (hTw i hi) _).mpr rfl
      refine ⟨_, _, _, a, b, he, ?_, hcl⟩
      show |-rfC (unbounded 53) - -(1 / 2 ^ 20 * (1 / exactV (val (ws i).st.temp)))| ≤ _
      rw [neg_sub_neg, abs_sub_comm]
      exact hcl)
    (fun i hi => by
      obtain ⟨a, b⟩ := rf_gradients D i hi _ _ (w2 i hi.le) (w1 i hi)
      have I := w2 i hi.le
      refine ⟨?_, ?_, fun x hx => ?_, fun x hx => ?_⟩
      · rw [abs_of_pos (hTw i hi)]; exact I.temp1
      · rw [abs_of_nonneg I.phi0]
        refine I.phi1.trans ?_
        have : (i : ℝ) ≤ 1000 := by exact_mod_cast hi.le
        rw [div_le_iff₀ (by norm_num)]; norm_num; linarith
      · rw [a, Option.some.injEq] at hx
        rw [← hx]
        show |-rfC (unbounded 53) * 1| ≤ 1000
        rw [mul_one, abs_neg, abs_of_nonneg hc0]; linarith
      · rw [b, Option.some.injEq] at hx
        rw [← hx]
        show |rfC (unbounded 53) * 1| ≤ 1000
        rw [mul_one, abs_of_nonneg hc0]; linarith)
    (by rw [w0]; show |(1000 : ℝ) - (1000 - phi 0)| ≤ 0; rw [p0]; simp) (by rw [w0]; show |(0 : ℝ) - phi 0| ≤ 0; rw [p0]; simp)
  refine ⟨P, ws, hsol, by show 1000 - phi 0 = 1000; rw [p0]; simp, p0, w0, w1, fun i hi => ?_⟩
  have e : (0 : ℝ) + i * 1 = i := by ring
  have pi := p i hi.le
  obtain ⟨y, y', a, b, h, h'⟩ := q i hi
  have hdx : val (rfG (unbounded 53) (rfYield (unbounded 53)) false).dx = 1 := rfl
  rw [hdx] at pi h h'
  rw [e] at pi h h'
  have hi' : (i : ℝ) ≤ 1000 := by exact_mod_cast hi.le
  have hg := exact_grow (K := 1 / 2 ^ 90) (D := 1 / 2 ^ 90 * 1 / 2 + 1 / 2 ^ 60 + (4 * (1 / 2 ^ 53) * 1000 + 3 * 0) / 1) (i := i) (by positivity) (by positivity) (by
    rw [mul_one, one_div_mul_eq_div, div_le_one (by positivity)]
    exact hi'.trans (by norm_num))
  have h2 : 2 * (1 / 2 ^ 90 * 1 / 2 + 1 / 2 ^ 60 + (4 * (1 / 2 ^ 53) * 1000 + 3 * 0) / 1) * (i : ℝ) ≤
      2 * (1 / 2 ^ 90 * 1 / 2 + 1 / 2 ^ 60 + (4 * (1 / 2 ^ 53) * 1000 + 3 * 0) / 1) * 1000 := mul_le_mul_of_nonneg_left hi' (by positivity)
  have h3 : (2 * (1 / 2 ^ 90 * 1 / 2 + 1 / 2 ^ 60 + (4 * (1 / 2 ^ 53) * 1000 + 3 * 0) / 1) * 1000 : ℝ) ≤ 1 / 10 ^ 9 := by norm_num
  have h4 := hg.trans (h2.trans h3)
  exact ⟨pi, y, y', a, b, h.trans h4, h'.trans h4⟩

end PyFlowGo
