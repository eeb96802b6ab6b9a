import Verif.Proofs.RoundLemmas
import Verif.Proofs.NoRuntime
import Verif.Props.RunRows
import Mathlib.Data.Set.Finite.Basic
import Mathlib.Data.Finset.Card
/-
  C83, C84: what a run guarantees in rounded arithmetic (floats), without any accuracy assumption.
-/
set_option linter.unusedSectionVars false
namespace PyFlowGo
open Spec Rounded

/-! ### C83 -/

/-- The loop ends within `n` iterations if fewer than `n` representable numbers are above the crystal fraction. -/
theorem rounded_loop {rd : ℝ → ℝ} (F : Finset ℝ) (hF : ∀ x, rd x ∈ F) (g : Integrator (Rounded rd)) (n : Nat)
    (w : World (Rounded rd)) (hn : (F.filter (fun y => val w.st.crystal < y)).card < n) :
    ∃ r w', runLoop g n w = some (r, w') := by
  induction n generalizing w with
  | zero => omega
  | succ n ih =>
    unfold runLoop
    split
    · exact ⟨_, _, rfl⟩
    · rename_i hf
      have hf : w.finished = false := by simpa using hf
      split
      · rename_i w2 hstep
        by_cases hfin : w2.finished = true
        · cases n <;> unfold runLoop <;> rw [if_pos hfin] <;> exact ⟨_, _, rfl⟩
        · rcases acceptedStep_cases hstep with ⟨_, h2⟩ | hit
          · exact absurd h2 hfin
          · obtain ⟨A⟩ := roundStep (⟨hf, hstep, hit⟩ : AcceptedStep g w w2)
            refine ih w2 (lt_of_lt_of_le (Finset.card_lt_card ?_) (Nat.lt_succ_iff.mp hn))
            have hmem : val w2.st.crystal ∈ F := by
              rw [A.crystal, A.facts.newPhi]; exact hF _
            have hlt : val w.st.crystal < val w2.st.crystal := by rw [A.crystal]; exact A.grow
            rw [Finset.ssubset_iff_of_subset]
            · exact ⟨val w2.st.crystal, by simp [hmem, hlt], by simp⟩
            · intro y hy
              rw [Finset.mem_filter] at hy ⊢
              exact ⟨hy.1, hlt.trans hy.2⟩
      · exact ⟨_, _, rfl⟩

/-- **C83**. If only finitely many numbers are representable, every run ends, whatever the configuration, the step size
    (even zero or negative) and the length of the channel: after at most one iteration more than there are representable
    numbers, normally or with an exception. -/
theorem C83_every_run_ends {rd : ℝ → ℝ} (hF : (Set.range rd).Finite) (g : Integrator (Rounded rd))
    (w : World (Rounded rd)) : ∃ r w', runLoop g ((Set.range rd).ncard + 1) w = some (r, w') := by
  refine rounded_loop hF.toFinset (fun x => by simp) g _ w ?_
  rw [Set.ncard_eq_toFinset_card _ hF, Nat.lt_succ_iff]
  exact Finset.card_filter_le _ _

/-- **C83**. The bound that matters in practice: the number of representable crystal fractions above the current one. -/
theorem C83_bound {rd : ℝ → ℝ} (F : Finset ℝ) (hF : ∀ x, rd x ∈ F) (g : Integrator (Rounded rd)) (w : World (Rounded rd)) :
    ∃ r w', runLoop g ((F.filter (fun y => val w.st.crystal < y)).card + 1) w = some (r, w') :=
  rounded_loop F hF g _ w (Nat.lt_succ_self _)

/-! ### C84 -/

/-- One accepted step, without assumptions on the initial values. -/
theorem round_step_advance {rd : ℝ → ℝ} (R : Rounding rd) {g : Integrator (Rounded rd)} {w w' : World (Rounded rd)}
    (h : AcceptedStep g w w') :
    val w.st.crystal < val w'.st.crystal ∧ Representable rd (val w'.st.crystal) ∧ Representable rd (val w'.st.temp) ∧
    Representable rd (val w'.st.pos) ∧ Representable rd (val w'.st.time) ∧
    (0 ≤ val g.dx → (Representable rd (val w.st.pos) → val w.st.pos ≤ val w'.st.pos) ∧
      (Representable rd (val w.st.time) → val w.st.time ≤ val w'.st.time)) := by
  obtain ⟨A⟩ := roundStep h
  have hv : 0 < val A.v := by have := A.vpos; rwa [R.zero] at this
  refine ⟨by rw [A.crystal]; exact A.grow, ?_, ?_, ?_, ?_, fun hdx => ⟨fun hp => ?_, fun ht => ?_⟩⟩
  · rw [A.crystal, A.facts.newPhi]; exact R.idem _
  · rw [A.temp, A.facts.newTemp]; exact R.idem _
  · rw [A.pos]; exact R.idem _
  · rw [A.time]; exact R.idem _
  · rw [A.pos]; exact R.le_add hp hdx
  · rw [A.time]; exact R.le_add ht (R.nonneg (div_nonneg hdx hv.le))

/-- **C84**. In rounded arithmetic, along the accepted steps of a run with a non-negative step size: the crystal fraction
    increases strictly at every step, and position and time never decrease. -/
theorem C84_monotone {rd : ℝ → ℝ} (R : Rounding rd) (g : Integrator (Rounded rd)) (hdx : 0 ≤ val g.dx) (k : Nat)
    (ws : Nat → World (Rounded rd)) (h : AcceptedRun g k ws) (hp : Representable rd (val (ws 0).st.pos))
    (ht : Representable rd (val (ws 0).st.time)) (i j : Nat) (hij : i < j) (hj : j ≤ k) :
    val (ws i).st.crystal < val (ws j).st.crystal ∧ val (ws i).st.pos ≤ val (ws j).st.pos ∧
      val (ws i).st.time ≤ val (ws j).st.time := by
  have hrep : ∀ i, i ≤ k → Representable rd (val (ws i).st.pos) ∧ Representable rd (val (ws i).st.time) := by
    intro i hi
    cases i with
    | zero => exact ⟨hp, ht⟩
    | succ i =>
      obtain ⟨_, _, _, a, b, _⟩ := round_step_advance R (h i (by omega))
      exact ⟨a, b⟩
  induction j with
  | zero => omega
  | succ j ih =>
    obtain ⟨a, _, _, _, _, b⟩ := round_step_advance R (h j (by omega))
    obtain ⟨c, d⟩ := b hdx
    have c := c (hrep j (by omega)).1
    have d := d (hrep j (by omega)).2
    by_cases e : i = j
    · subst e; exact ⟨a, c, d⟩
    · obtain ⟨a', c', d'⟩ := ih (by omega) (by omega)
      exact ⟨a'.trans a, c'.trans c, d'.trans d⟩

/-- **C84**. The velocity of every accepted step is positive, and is the one in the log. -/
theorem C84_velocity_positive {rd : ℝ → ℝ} (R : Rounding rd) (g : Integrator (Rounded rd)) (w w' : World (Rounded rd))
    (h : AcceptedStep g w w') :
    ∃ v x, g.models.lava.meanVelocity w.terrain w.st = .ok (v, x) ∧ 0 < val v ∧
      loggedNum w'.log w.st.pos "mean_velocity" = some v := by
  obtain ⟨A⟩ := roundStep h
  refine ⟨A.v, A.x, A.hv, by have := A.vpos; rwa [R.zero] at this, ?_⟩
  exact A.logged (by decide) (by rw [← A.facts.v_eq]; rfl)

/-- **C84**. With a non-negative step size and a positive crystallisation rate an accepted step never warms the core: the
    crystals grew, so the temperature gradient is negative, and rounding cannot turn that into warming. -/
theorem C84_no_warming {rd : ℝ → ℝ} (R : Rounding rd) (g : Integrator (Rounded rd)) (hdx : 0 ≤ val g.dx)
    (w w' : World (Rounded rd)) (h : AcceptedStep g w w') (hphi : Representable rd (val w.st.crystal))
    (hT : Representable rd (val w.st.temp)) (r : Rounded rd) (hr : g.models.cryst.rate w.st = .ok r) (hr0 : 0 < val r) :
    val w'.st.temp ≤ val w.st.temp ∧ ∃ q, loggedNum w'.log w.st.pos "dtemp_dx" = some q ∧ val q < 0 := by
  obtain ⟨A⟩ := roundStep h
  have hrate : A.d.rate = r := by
    have := A.facts.rate
    rw [hr, Except.ok.injEq] at this
    exact this.symm
  have h1 := A.grow
  rw [A.facts.newPhi, val_add] at h1
  have h2 := R.pos_of (R.pos_of_grow hphi h1)
  have h3 : 0 < val A.d.dphiDx := by
    by_contra hc
    exact absurd (mul_nonpos_of_nonpos_of_nonneg (not_lt.mp hc) hdx) (not_le.mpr h2)
  rw [A.facts.dphi, val_mul, val_neg, hrate] at h3
  have h4 : val A.d.dtempDx < 0 := by
    have h5 := R.pos_of h3
    by_contra hc
    have := mul_nonneg (not_lt.mp hc) hr0.le
    linarith
  refine ⟨?_, A.d.dtempDx, A.logged (by decide) rfl, h4⟩
  rw [A.temp, A.facts.newTemp, val_add]
  exact R.add_le hT (R.nonpos (mul_nonpos_of_nonpos_of_nonneg h4.le hdx))

/-- **C84**. An accepted step loses heat: with non-negative effusion rate, density and latent heat, a positive
    crystallisation rate and a non-negative step size, the logged heat budget of an accepted step is positive. -/
theorem C84_heat_positive {rd : ℝ → ℝ} (R : Rounding rd) (g : Integrator (Rounded rd)) (hdx : 0 ≤ val g.dx)
    (w w' : World (Rounded rd)) (h : AcceptedStep g w w') (hphi : Representable rd (val w.st.crystal))
    (hT : Representable rd (val w.st.temp)) (r : Rounded rd) (hr : g.models.cryst.rate w.st = .ok r) (hr0 : 0 < val r)
    (hq : 0 ≤ val w'.effusionRate) (hrho : 0 ≤ val (g.models.lava.density w.st)) (hL : 0 ≤ val g.models.lava.latentHeat) :
    ∃ q, loggedNum w'.log w.st.pos "heat_budget" = some q ∧ 0 < val q := by
  obtain ⟨_, b, hb, hb0⟩ := C84_no_warming R g hdx w w' h hphi hT r hr hr0
  obtain ⟨A⟩ := roundStep h
  have e : b = A.d.dtempDx := by
    have := A.logged (name := "dtemp_dx") (by decide) (x := A.d.dtempDx) rfl
    rw [hb, Option.some.injEq] at this
    exact this
  rw [e] at hb0
  refine ⟨A.d.heat, A.logged_heat, ?_⟩
  obtain ⟨hne, hd⟩ := Rounded.div_ok.mp A.facts.dtemp
  have hrate : A.d.rate = r := by
    have := A.facts.rate
    rw [hr, Except.ok.injEq] at this
    exact this.symm
  rw [A.eff] at hq
  rw [hrate] at hne hd
  have hD : 0 ≤ val (w.stepEffusion A.v * g.models.lava.density w.st * g.models.lava.latentHeat * r) := by
    rw [val_mul, val_mul, val_mul]
    exact R.nonneg (mul_nonneg (R.nonneg (mul_nonneg (R.nonneg (mul_nonneg hq hrho)) hL)) hr0.le)
  rw [hd] at hb0
  have h1 := R.neg_of hb0
  rw [val_neg] at h1
  by_contra hc
  have := div_nonneg (neg_nonneg.mpr (not_lt.mp hc)) hD
  linarith

/-! ### C84: the velocity loop -/

theorem rounded_settles {rd : ℝ → ℝ} (R : Rounding rd) (x : Rounded rd) :
    leB (PyNum.absv (x - x)) (pyMax (1e-2 * PyNum.absv x) 1e-8) = true := by
  rw [leB_iff]
  have e : val (PyNum.absv (x - x)) = 0 := by
    show |rd (val x - val x)| = 0
    rw [sub_self, R.zero, abs_zero]
  have h1 : 0 ≤ val (1e-2 * PyNum.absv x) := by
    rw [val_mul, val_lit]
    exact R.nonneg (mul_nonneg (R.nonneg (by norm_num)) (abs_nonneg (val x)))
  have h2 : 0 ≤ val (1e-8 : Rounded rd) := by rw [val_lit]; exact R.nonneg (by norm_num)
  rw [e]
  unfold pyMax
  split
  · exact h2
  · exact h1

noncomputable instance {rd : ℝ → ℝ} : Quiet (Rounded rd) where
  div x y := NotRT.ite (NotRT.error (by decide)) (NotRT.ok _)
  pow x y := by
    classical
    show NotRT (powWith _ _ x y)
    unfold powWith; exact NotRT.ite (NotRT.error (by decide)) (NotRT.ite (NotRT.error (by decide)) (NotRT.ok _))
  mpow x y := by
    classical
    show NotRT (powWith _ _ x y)
    unfold powWith; exact NotRT.ite (NotRT.error (by decide)) (NotRT.ite (NotRT.error (by decide)) (NotRT.ok _))
  log10 x := NotRT.ite (NotRT.error (by decide)) (NotRT.ok _)

theorem rounded_meanVelocity {rd : ℝ → ℝ} (R : Rounding rd) (l : Lava (Rounded rd)) (t : Terrain (Rounded rd))
    (s : FlowState (Rounded rd)) :
    l.meanVelocity t s = (do
      let t0 ← l.yieldStrength s
      let tb ← l.basalStress t s
      velocityPass l s t.depth t0 tb) := by
  unfold Lava.meanVelocity
  dsimp only
  refine bind_congr fun t0 => bind_congr fun tb => ?_
  exact velocityLoop_settles (rounded_settles R) l s t.depth t0 tb 48 _

/-- **C84**. Rounding does not disturb the velocity loop: two passes are enough whatever the rounding ... -/
theorem C84_velocity_two_passes {rd : ℝ → ℝ} (R : Rounding rd) (l : Lava (Rounded rd)) (s : FlowState (Rounded rd))
    (depth tho0 thob : Rounded rd) (n : Nat) (strain : Rounded rd) :
    velocityLoop l s depth tho0 thob (n + 2) strain = velocityLoop l s depth tho0 thob 2 strain := by
  rw [velocityLoop_settles (rounded_settles R), velocityLoop_settles (rounded_settles R) l s depth tho0 thob 0]

/-- **C84**. ... so that `compute_mean_velocity` never raises RuntimeError. -/
theorem C84_velocity_converges {rd : ℝ → ℝ} (R : Rounding rd) (l : Lava (Rounded rd)) (t : Terrain (Rounded rd))
    (s : FlowState (Rounded rd)) : l.meanVelocity t s ≠ .error .runtimeError := by
  rw [rounded_meanVelocity R]
  exact NotRT.bind (yield_notRT _ _) fun t0 => NotRT.bind (basal_notRT _ _ _) fun tb => pass_notRT _ _ _ _ _

end PyFlowGo
