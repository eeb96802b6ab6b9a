import Verif.Proofs.FineRun
import Verif.Spec.Converge
import Mathlib.Analysis.ODE.ExistUnique
import Mathlib.Analysis.SpecialFunctions.Pow.Deriv
import Mathlib.Analysis.SpecialFunctions.ExpDeriv
import Mathlib.Analysis.Calculus.MeanValue
/-
  The flow equations of the flow of `FineRun`, and their solution.
-/
namespace PyFlowGo
open Spec Set

/-- The velocity of the example as a function of the crystal fraction (the temperature is 1000 - 1000 phi). -/
noncomputable def fineV (phi : ℝ) : ℝ := binghamVelocity 1 3 (Real.exp (0.04 * (1000 * phi))) (6500 * phi ^ (2.85 : ℝ))

/-- Crystals between 0 and 1 %, and as many as the cooling from 1000 K tells. -/
def FineRegion (_x T phi : ℝ) : Prop := T = 1000 - 1000 * phi ∧ 0 ≤ phi ∧ phi ≤ 1 / 100

theorem fine_yield (s : FlowState ℝ) (h0 : 0 ≤ s.crystal) :
    (YieldModel.ryerson : YieldModel ℝ).strength s = .ok (6500 * s.crystal ^ (2.85 : ℝ)) := by
  rcases h0.eq_or_lt with h | h
  · have hs := ryerson_zero s.strain
    have : (YieldModel.ryerson : YieldModel ℝ).strength s = (YieldModel.ryerson : YieldModel ℝ).strength (exState 0 s.strain) := by
      unfold YieldModel.strength
      rw [← h]; rfl
    rw [this, hs, ← h, Real.zero_rpow (by norm_num), mul_zero]
  · unfold YieldModel.strength ryersonTerm
    rw [pow_of_pos _ h, ok_bind, pure_ok_iff]; norm_num

theorem fine_bulk (s : FlowState ℝ) (h : FineRegion s.pos s.temp s.crystal) :
    (exLava 1 (.kd 1 0) .ryerson).bulkViscosity s = .ok (Real.exp (0.04 * (1000 * s.crystal))) := by
  obtain ⟨h1, h2, h3⟩ := h
  unfold Lava.bulkViscosity
  have h2 : (exLava 1 (.kd 1 0) .ryerson).melt.viscosity s = .ok (Real.exp (0.04 * (1000 - s.temp))) := by
    unfold MeltModel.viscosity exLava
    dsimp only
    show Except.ok (1 * Real.exp (0.04 * (1000 - s.temp))) = _
    rw [one_mul]
  have h3' : (exLava 1 (.kd 1 0) .ryerson).rel.relative s = .ok 1 := long_kd s h3
  have h4 : (exLava 1 (.kd 1 0) .ryerson).bub.relative s = .ok 1 := by
    simp [exLava, BubModel.relative]; norm_num
  rw [h2, ok_bind, h3', ok_bind, h4, ok_bind, pure_ok_iff, h1]; ring_nf

theorem fine_velocity {len : ℝ} {T : Terrain ℝ} (hT : LongChannel len T) (s : FlowState ℝ)
    (h : FineRegion s.pos s.temp s.crystal) :
    (exLava 1 (.kd 1 0) .ryerson).meanVelocity T s = .ok (fineV s.crystal, 3 * fineV s.crystal / 1) := by
  rw [meanVelocity_ok_iff]
  exact ⟨_, 3, _, fine_yield s h.2.1, long_basal hT s, fine_bulk s h, (Real.exp_pos _).ne', by norm_num,
    by rw [hT.depth]; norm_num, by rw [hT.depth]; rfl, by rw [hT.depth]⟩

theorem fineV_ge {phi : ℝ} (h0 : 0 ≤ phi) (h1 : phi ≤ 1 / 100) : 1 / 3 ≤ fineV phi := by
  let s : FlowState ℝ := ⟨phi, 1000 - 1000 * phi, 0, 0, 0⟩
  have h : FineRegion s.pos s.temp s.crystal := ⟨rfl, h0, h1⟩
  have hv := fine_velocity (longTerrain_channel 1) s h
  obtain ⟨v, hv', hv1, _⟩ := long_velocity (longTerrain_channel 1) s h0 h1 ⟨le_rfl, by show 1000 - 1000 * phi ≤ 1000; linarith⟩
  rw [hv, Except.ok.injEq, Prod.mk.injEq] at hv'
  have e : fineV s.crystal = fineV phi := rfl
  rw [← e, hv'.1]; exact hv1

/-- The flow equations of the example, solved for the slopes. -/
theorem fine_equations {len : ℝ} {T : Terrain ℝ} (hT : LongChannel len T) (eps dx : ℝ) (s : FlowState ℝ)
    (h : FineRegion s.pos s.temp s.crystal) (G : Slopes) :
    FlowEquations (fineG eps dx) T none 1 s G ↔
      G = ⟨-(1000 * (eps / fineV s.crystal)), eps / fineV s.crystal, 1 / fineV s.crystal⟩ := by
  have hv := fine_velocity hT s h
  have hpos : 0 < fineV s.crystal := by linarith [fineV_ge h.2.1 h.2.2]
  have hrho : (fineG eps dx).models.lava.density s = 1 := exLava_density 1 (.kd 1 0) .ryerson _
  have hlat : (fineG eps dx).models.lava.latentHeat = 1 := rfl
  have hrate : (fineG eps dx).models.cryst.rate s = .ok (1 / 1000) := by
    show PyNum.div (1 : ℝ) (1000 - 0) = _
    rw [div_of_ne (by norm_num)]; norm_num
  constructor
  · rintro ⟨d, hd, ⟨qs, hq, hsum⟩, g1, g2, g3⟩
    obtain ⟨x, hx⟩ := hd.velocity
    have hx : (exLava 1 (.kd 1 0) .ryerson).meanVelocity T s = .ok (d.v, x) := hx
    rw [hv, Except.ok.injEq, Prod.mk.injEq] at hx
    have hw := hd.volume rfl
    rw [← hx.1, hT.depth, mul_one] at hw
    have hr := hd.rate
    rw [hrate, Except.ok.injEq] at hr
    have hfl : (fineG eps dx).models.fluxes = [.rain eps 1 1] := rfl
    rw [hfl] at hq
    cases hq with
    | cons ha hb =>
      cases hb
      have ha : _ = eps * 1 * 1 * d.width := ha
      rw [hw] at ha
      unfold tempGradient at g1
      unfold crystalGradient at g2
      rw [hrho, hlat] at g1 g2
      rw [hsum, ← hr, ha] at g1
      rw [hsum, ha] at g2
      rw [← hx.1] at g3
      cases G
      simp only [Slopes.mk.injEq]
      dsimp only at g1 g2 g3
      refine ⟨?_, ?_, g3⟩
      · rw [g1]; simp; field_simp
      · rw [g2]; simp; field_simp
  · rintro rfl
    refine ⟨⟨fineV s.crystal, 0, fineV s.crystal, eps * 1 * 1 * (1 / fineV s.crystal), 1 / fineV s.crystal,
        Real.pi / 2, _, 500, _, 3, 1 / 1000⟩,
      ⟨⟨_, hv⟩, hpos, by rw [hT.depth]; norm_num, ⟨_, fine_velocity hT { s with strain := 0 } h⟩, fun _ => ?_, fun hm => ?_,
        hT.slope _, fine_bulk { s with strain := 0 } h, rfl, fine_yield s h.2.1, long_basal hT s, hrate, ?_⟩,
      ⟨[eps * 1 * 1 * (1 / fineV s.crystal)], List.Forall₂.cons rfl List.Forall₂.nil, by simp⟩, ?_, ?_, rfl⟩
    · dsimp only; rw [hT.depth, mul_one]
    · cases hm
    · rw [hrho, hlat]; norm_num
    · unfold tempGradient; rw [hrho, hlat]; simp; field_simp
    · unfold crystalGradient; rw [hrho, hlat]; simp; field_simp

theorem fineV_lipschitz : ∃ C, 0 < C ∧ ∀ a ∈ Icc (0 : ℝ) (1 / 100), ∀ b ∈ Icc (0 : ℝ) (1 / 100),
    |1 / fineV a - 1 / fineV b| ≤ C * |a - b| := by
  have hC : ContDiffOn ℝ 1 (fun p => 1 / fineV p) (Icc (0 : ℝ) (1 / 100)) := by
    have h1 : ContDiff ℝ 1 fineV := by
      unfold fineV binghamVelocity
      have hr : ContDiff ℝ 1 fun x : ℝ => x ^ (2.85 : ℝ) := by
        have := Real.contDiff_rpow_const_of_le (p := 2.85) (n := 1) (by norm_num)
        exact_mod_cast this
      have he : ContDiff ℝ 1 fun x : ℝ => 3 * Real.exp (0.04 * (1000 * x)) := by fun_prop
      have hq : ContDiff ℝ 1 fun x : ℝ => 1 * 3 / (3 * Real.exp (0.04 * (1000 * x))) :=
        contDiff_const.div he fun x => by positivity
      refine hq.mul ?_
      have hy : ContDiff ℝ 1 fun x : ℝ => 6500 * x ^ (2.85 : ℝ) / 3 := (contDiff_const.mul hr).div_const 3
      exact (contDiff_const.sub (contDiff_const.mul hy)).add (contDiff_const.mul (hy.pow 3))
    exact contDiffOn_const.div h1.contDiffOn fun p hp => by
      have := fineV_ge hp.1 hp.2
      linarith
  have hu : UniqueDiffOn ℝ (Icc (0 : ℝ) (1 / 100)) := uniqueDiffOn_Icc (by norm_num)
  obtain ⟨C, hCb⟩ := isCompact_Icc.exists_bound_of_continuousOn (hC.continuousOn_derivWithin hu le_rfl)
  refine ⟨|C| + 1, by positivity, fun a ha b hb => ?_⟩
  have := (convex_Icc (0 : ℝ) (1 / 100)).norm_image_sub_le_of_norm_derivWithin_le
    (hC.differentiableOn (by norm_num)) hCb hb ha
  rw [Real.norm_eq_abs, Real.norm_eq_abs] at this
  refine this.trans (mul_le_mul_of_nonneg_right ?_ (abs_nonneg _))
  linarith [le_abs_self C]

theorem clamp_lip (a b : ℝ) : |max 0 (min a (1 / 100)) - max 0 (min b (1 / 100))| ≤ |a - b| := by
  have h1 := abs_max_sub_max_le_max (0 : ℝ) (min a (1 / 100)) 0 (min b (1 / 100))
  have h2 := abs_min_sub_min_le_max a (1 / 100 : ℝ) b (1 / 100)
  simp only [sub_self, abs_zero] at h1 h2
  rw [max_eq_right (abs_nonneg (min a (1 / 100) - min b (1 / 100)))] at h1
  rw [max_eq_left (abs_nonneg (a - b))] at h2
  exact h1.trans h2

/-- The crystal fraction along the channel. -/
theorem fine_solution (eps len : ℝ) (heps : 0 < eps) (hlen : 0 ≤ len) (hs : 3 * eps * len ≤ 1 / 100) :
    ∃ phi : ℝ → ℝ, phi 0 = 0 ∧ ∀ x ∈ Icc 0 len, (0 ≤ phi x ∧ phi x ≤ 1 / 100) ∧
      HasDerivWithinAt phi (eps / fineV (phi x)) (Icc 0 len) x := by
  obtain ⟨C, hC, hlip⟩ := fineV_lipschitz
  let cl : ℝ → ℝ := fun y => max 0 (min y (1 / 100))
  have hcl : ∀ y, cl y ∈ Icc (0 : ℝ) (1 / 100) := fun y => ⟨le_max_left _ _, max_le (by norm_num) (min_le_right _ _)⟩
  have hb : ∀ y, 0 ≤ eps / fineV (cl y) ∧ eps / fineV (cl y) ≤ 3 * eps := by
    intro y
    have := fineV_ge (hcl y).1 (hcl y).2
    have hp : 0 < fineV (cl y) := by linarith
    refine ⟨by positivity, ?_⟩
    rw [div_le_iff₀ hp]; nlinarith
  have hpl : IsPicardLindelof (fun _ y => eps / fineV (cl y)) (tmin := 0) (tmax := len) ⟨0, left_mem_Icc.mpr hlen⟩ (0 : ℝ)
      ⟨3 * eps * len, by positivity⟩ 0 ⟨3 * eps, by positivity⟩ ⟨eps * C, by positivity⟩ := by
    refine ⟨fun t _ => ?_, fun x _ => continuousOn_const, fun t _ y _ => ?_, ?_⟩
    · refine LipschitzOnWith.of_dist_le_mul fun a _ b _ => ?_
      rw [Real.dist_eq, Real.dist_eq]
      show |eps / fineV (cl a) - eps / fineV (cl b)| ≤ eps * C * |a - b|
      have e : eps / fineV (cl a) - eps / fineV (cl b) = eps * (1 / fineV (cl a) - 1 / fineV (cl b)) := by ring
      rw [e, abs_mul, abs_of_pos heps, mul_assoc]
      refine mul_le_mul_of_nonneg_left ?_ heps.le
      exact (hlip _ (hcl a) _ (hcl b)).trans (mul_le_mul_of_nonneg_left (clamp_lip a b) hC.le)
    · rw [Real.norm_eq_abs, abs_of_nonneg (hb y).1]; exact (hb y).2
    · show (3 * eps) * max (len - 0) (0 - 0) ≤ 3 * eps * len - 0
      rw [sub_zero, sub_zero, max_eq_left hlen, sub_zero]
  obtain ⟨phi, p0, p1⟩ := hpl.exists_eq_forall_mem_Icc_hasDerivWithinAt₀
  have p0 : phi 0 = 0 := p0
  have hrange : ∀ x ∈ Icc 0 len, 0 ≤ phi x ∧ phi x ≤ 1 / 100 := by
    intro x hx
    have hd : ∀ y ∈ Icc 0 len, HasDerivWithinAt (fun y => phi y - 3 / 2 * eps * y) (eps / fineV (cl (phi y)) - 3 / 2 * eps)
        (Icc 0 len) y := by
      intro y hy
      have h2 : HasDerivWithinAt (fun y => 3 / 2 * eps * y) (3 / 2 * eps) (Icc 0 len) y := by
        simpa using ((hasDerivAt_id y).const_mul (3 / 2 * eps)).hasDerivWithinAt
      exact (p1 y hy).sub h2
    have := norm_image_sub_le_of_norm_deriv_le_segment' (C := 3 / 2 * eps) hd (fun y _ => by
      rw [Real.norm_eq_abs, abs_le]
      have := hb (phi y)
      constructor <;> linarith) x hx
    rw [p0, Real.norm_eq_abs, abs_le] at this
    have hm : 3 * eps * x ≤ 3 * eps * len := mul_le_mul_of_nonneg_left hx.2 (by positivity)
    constructor <;> linarith [this.1, this.2]
  refine ⟨phi, p0, fun x hx => ⟨hrange x hx, ?_⟩⟩
  have h1 := p1 x hx
  have h2 : cl (phi x) = phi x := by
    obtain ⟨a, b⟩ := hrange x hx
    show max 0 (min (phi x) (1 / 100)) = _
    rw [min_eq_left b, max_eq_right a]
  rwa [h2] at h1

end PyFlowGo
