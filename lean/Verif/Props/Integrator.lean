import Verif.Proofs.StepReal
import Verif.Proofs.ExampleRun
import Mathlib.Algebra.BigOperators.Group.Finset.Basic
import Mathlib.Algebra.BigOperators.Ring.Finset
import Mathlib.Algebra.Order.Floor.Semiring
/-
  C05-C16: `single_step` and the integration loop.
-/
namespace PyFlowGo
open Spec

section poly
variable {α : Type} [Add α] [Sub α] [Mul α] [Neg α] [OfScientific α] [PyNum α]

/-- **C23** (any number type). Evaluating a flux touches nothing but the strain rate of the state and the
    log: position, time, temperature, crystal fraction, terrain and integrator fields are unchanged,
    whether the evaluation succeeds or raises. -/
theorem C23_flux_frame (m : Models α) (f : Flux α) (width depth : α) (w w' : World α) (r : Except Err α)
    (h : f.compute m width depth w = (r, w')) :
    ∃ x L, w' = { w with st := { w.st with strain := x }, log := L } := by
  obtain ⟨x, es, hw, _⟩ := Emits.flux m width depth f w r w' h
  exact ⟨x, _, hw⟩

/-- **C23**. The same for the effective cover fraction (which does not even log). -/
theorem C23_cover_frame (m : Models α) (w w' : World α) (r : Except Err α)
    (h : effectiveCover m w = (r, w')) :
    ∃ x, w' = { w with st := { w.st with strain := x } } := by
  obtain ⟨x, es, hw, hn, _⟩ := Emits.cover m w r w' h
  have : es = [] := by
    have := List.prefix_nil.mp hn
    simpa using this
  subst this
  exact ⟨x, hw⟩

/-- **C23**. The same for the total heat budget. -/
theorem C23_heat_budget_frame (m : Models α) (width depth : α) (w w' : World α) (r : Except Err α)
    (h : heatBudget m width depth w = (r, w')) :
    ∃ x L, w' = { w with st := { w.st with strain := x }, log := L } := by
  obtain ⟨x, es, hw, _⟩ := Emits.heatBudget m width depth w r w' h
  exact ⟨x, _, hw⟩

end poly

/-! ### Stop tests -/

theorem stopTest_false {g : Integrator ℝ} {t : Terrain ℝ} {s : FlowState ℝ}
    (h : stopTest g t s = .ok false) :
    g.models.cryst.solidTemperature < s.temp ∧ g.models.lava.notCompatible s = .ok false ∧
    g.models.lava.yieldNotCompatible t s = .ok false ∧ s.pos < t.maxLength := by
  unfold stopTest at h
  split at h
  · cases h
  · rename_i h1
    obtain ⟨nc, hnc, h⟩ := bind_ok_iff.mp h
    split at h
    · cases h
    · rename_i h2
      obtain ⟨yc, hyc, h⟩ := bind_ok_iff.mp h
      split at h
      · cases h
      · rename_i h3
        rw [pure_ok_iff, Bool.eq_false_iff] at h
        simp only [Bool.not_eq_true] at h2 h3
        subst h2 h3
        exact ⟨by simpa using h1, hnc, hyc, by simpa using h⟩

theorem stopTest_true {g : Integrator ℝ} {t : Terrain ℝ} {s : FlowState ℝ}
    (h : stopTest g t s = .ok true) :
    s.temp ≤ g.models.cryst.solidTemperature ∨ g.models.lava.notCompatible s = .ok true ∨
    g.models.lava.yieldNotCompatible t s = .ok true ∨ t.maxLength ≤ s.pos := by
  unfold stopTest at h
  split at h
  · rename_i h1; left; simpa using h1
  · right
    obtain ⟨nc, hnc, h⟩ := bind_ok_iff.mp h
    split at h
    · rename_i h2; left; rw [hnc, h2]
    · right
      obtain ⟨yc, hyc, h⟩ := bind_ok_iff.mp h
      split at h
      · rename_i h3; left; rw [hyc, h3]
      · right
        rw [pure_ok_iff] at h
        simpa using h

namespace AcceptedFacts
variable {g : Integrator ℝ} {w w' : World ℝ} (A : AcceptedFacts g w w')
include A

theorem st_eq : w'.st = A.s' := congrArg World.st A.hw
theorem crystal_eq : w'.st.crystal = A.d.newPhi :=
  (congrArg FlowState.crystal A.st_eq).trans (congrArg FlowState.crystal A.hs)
theorem temp_eq : w'.st.temp = A.d.newTemp :=
  (congrArg FlowState.temp A.st_eq).trans (congrArg FlowState.temp A.hs)
theorem eff_eq : w'.effusionRate = w.stepEffusion A.v := congrArg World.effusionRate A.hw
theorem log_eq : w'.log = w.log.addAll (.num w.st.pos)
    (A.es ++ stepEntries g A.d A.w1.st (w.stepEffusion A.v) A.visc A.tc A.f A.tho0 A.thob) :=
  congrArg World.log A.hw
theorem fin_eq : w'.finished = (w.finished || A.stop) := congrArg World.finished A.hw
theorem terrain_eq : w'.terrain = w.terrain := by rw [A.hw]
theorem flux_eq : w'.fluxRate = w.fluxRate := by rw [A.hw]

end AcceptedFacts

/-! ### C05, C06 -/

/-- One accepted step: position, time, iteration, terrain, configuration. -/
theorem accepted_advance {g : Integrator ℝ} {w w' : World ℝ} (h : AcceptedStep g w w') :
    w'.st.pos = w.st.pos + g.dx ∧ w'.iteration = w.iteration + 1 ∧ w'.terrain = w.terrain ∧
    w'.fluxRate = w.fluxRate ∧
    ∃ v x, g.models.lava.meanVelocity w.terrain w.st = .ok (v, x) ∧ 0 < v ∧
      w'.st.time = w.st.time + g.dx / v ∧ w'.st.strain = 3 * v / w.terrain.depth := by
  obtain ⟨A⟩ := acceptedFacts h
  have hw := A.hw
  rw [A.hs] at hw
  rw [hw]
  exact ⟨rfl, rfl, rfl, rfl, A.v, A.x, A.hv, A.vpos, rfl, rfl⟩

/-- **C05**. With a positive step size the loop ends (normally or with an exception) within `n`
    iterations as soon as `n` is at least 1 and at least (L - x0)/dx. -/
theorem C05_terminates (g : Integrator ℝ) (hdx : 0 < g.dx) (w : World ℝ) (n : Nat) (hn : 1 ≤ n)
    (hL : (w.terrain.maxLength - w.st.pos) / g.dx ≤ n) : ∃ r w', runLoop g n w = some (r, w') := by
  induction n generalizing w with
  | zero => omega
  | succ n ih =>
    unfold runLoop
    split
    · exact ⟨_, _, rfl⟩
    · rename_i hf
      have hf : w.finished = false := by simpa using hf
      split
      · rename_i w2 hstep
        by_cases hfin : w2.finished = true
        · cases n <;> unfold runLoop <;> rw [if_pos hfin] <;> exact ⟨_, _, rfl⟩
        · rcases acceptedStep_cases hstep with ⟨_, h2⟩ | hit
          · exact absurd h2 hfin
          · have hacc : AcceptedStep g w w2 := ⟨hf, hstep, hit⟩
            obtain ⟨hpos, _, hter, _, _⟩ := accepted_advance hacc
            obtain ⟨A⟩ := acceptedFacts hacc
            have hst := A.hstop
            have hs : A.stop = false := by
              have := A.hw; rw [this] at hfin; simpa [hf] using hfin
            rw [hs] at hst
            have hlt := (stopTest_false hst).2.2.2
            have hpos2 : A.s'.pos = w.st.pos + g.dx := by rw [A.hs]
            rw [hpos2] at hlt
            have hcast : ((n + 1 : Nat) : ℝ) = n + 1 := by push_cast; ring
            rw [hcast] at hL
            have hL2 : (w2.terrain.maxLength - w2.st.pos) / g.dx ≤ n := by
              rw [hter, hpos]
              have : (w.terrain.maxLength - (w.st.pos + g.dx)) / g.dx =
                  (w.terrain.maxLength - w.st.pos) / g.dx - 1 := by field_simp; ring
              rw [this]; linarith
            refine ih w2 ?_ hL2
            have : 0 < (w2.terrain.maxLength - w2.st.pos) / g.dx := by
              rw [hter, hpos]; exact div_pos (by linarith) hdx
            have : (0 : ℝ) < n := lt_of_lt_of_le this hL2
            exact_mod_cast this
      · exact ⟨_, _, rfl⟩

/-- **C05**, the bound as stated: at most ceil((L - x0)/dx) iterations when x0 < L, one when x0 >= L. -/
theorem C05_bound (g : Integrator ℝ) (hdx : 0 < g.dx) (w : World ℝ) :
    (w.st.pos < w.terrain.maxLength →
      ∃ r w', runLoop g ⌈(w.terrain.maxLength - w.st.pos) / g.dx⌉₊ w = some (r, w')) ∧
    (w.terrain.maxLength ≤ w.st.pos → ∃ r w', runLoop g 1 w = some (r, w')) := by
  constructor
  · intro h
    apply C05_terminates g hdx w _ _ (Nat.le_ceil _)
    exact Nat.ceil_pos.mpr (div_pos (by linarith) hdx)
  · intro h
    apply C05_terminates g hdx w 1 le_rfl
    have : (w.terrain.maxLength - w.st.pos) / g.dx ≤ 0 := div_nonpos_of_nonpos_of_nonneg (by linarith) hdx.le
    push_cast; linarith

/-- A longer budget does not change the outcome of a loop that ended. -/
theorem C05_budget_irrelevant {α : Type} [Add α] [Sub α] [Mul α] [Neg α] [OfScientific α] [PyNum α]
    (g : Integrator α) (n m : Nat) (hnm : n ≤ m) (w : World α)
    (r : Except Err Unit × World α) (h : runLoop g n w = some r) : runLoop g m w = some r := by
  induction n generalizing w m with
  | zero =>
    unfold runLoop at h
    split at h
    · rename_i hf
      cases m <;> unfold runLoop <;> rw [if_pos hf] <;> exact h
    · cases h
  | succ n ih =>
    cases m with
    | zero => omega
    | succ m =>
      unfold runLoop at h ⊢
      split
      · rename_i hf; rw [if_pos hf] at h; exact h
      · rename_i hf
        rw [if_neg hf] at h
        split
        · rename_i w2 hs
          rw [hs] at h
          exact ih m (by omega) w2 h
        · rename_i e w2 hs
          rw [hs] at h
          exact h

/-- **C06**. After k accepted steps the position is x0 + k*dx, the iteration counter has grown by k, and
    time by the sum of dx/v over the steps, v > 0 being the velocity computed at the start of each. -/
theorem C06_position_time (g : Integrator ℝ) (k : Nat) (ws : Nat → World ℝ) (h : AcceptedRun g k ws) :
    (ws k).st.pos = (ws 0).st.pos + k * g.dx ∧ (ws k).iteration = (ws 0).iteration + k ∧
    ∃ v : Nat → ℝ, (∀ i, i < k → 0 < v i ∧
        ∃ x, g.models.lava.meanVelocity (ws i).terrain (ws i).st = .ok (v i, x)) ∧
      (ws k).st.time = (ws 0).st.time + ∑ i ∈ Finset.range k, g.dx / v i := by
  induction k with
  | zero => exact ⟨by simp, by simp, fun _ => 1, fun i hi => absurd hi (Nat.not_lt_zero i), by simp⟩
  | succ k ih =>
    obtain ⟨h1, h2, v, h3, h4⟩ := ih (fun i hi => h i (by omega))
    obtain ⟨a1, a2, _, _, vk, x, hv, hpos, a3, _⟩ := accepted_advance (h k (by omega))
    refine ⟨by rw [a1, h1]; push_cast; ring, by rw [a2, h2]; ring, fun i => if i = k then vk else v i, ?_, ?_⟩
    · intro i hi
      by_cases hik : i = k
      · subst hik; simp only [if_true]; exact ⟨hpos, x, hv⟩
      · simp only [if_neg hik]; exact h3 i (by omega)
    · rw [a3, h4, Finset.sum_range_succ, add_assoc]
      simp only [if_true]
      congr 2
      apply Finset.sum_congr rfl
      intro i hi
      rw [if_neg (by have := Finset.mem_range.mp hi; omega)]

/-- **C06**. With a positive step size positions and times strictly increase along the run. -/
theorem C06_strictly_increasing (g : Integrator ℝ) (hdx : 0 < g.dx) (k : Nat) (ws : Nat → World ℝ)
    (h : AcceptedRun g k ws) (i j : Nat) (hij : i < j) (hj : j ≤ k) :
    (ws i).st.pos < (ws j).st.pos ∧ (ws i).st.time < (ws j).st.time := by
  induction j with
  | zero => omega
  | succ j ih =>
    obtain ⟨a1, _, _, _, v, _, _, hpos, a3, _⟩ := accepted_advance (h j (by omega))
    have hq : 0 < g.dx / v := div_pos hdx hpos
    rcases Nat.lt_or_ge i j with hlt | hge
    · obtain ⟨b1, b2⟩ := ih hlt (by omega)
      exact ⟨by rw [a1]; linarith, by rw [a3]; linarith⟩
    · have : i = j := by omega
      subst this
      exact ⟨by rw [a1]; linarith, by rw [a3]; linarith⟩

/-- **C06**/**C13** (whole runs). A loop that ended normally is a sequence of accepted steps followed by at
    most one rejected one; it ended in a finished state and every earlier state was unfinished. -/
theorem C06_run_shape {α : Type} [Add α] [Sub α] [Mul α] [Neg α] [OfScientific α] [PyNum α]
    (g : Integrator α) (n : Nat) (w w' : World α)
    (h : runLoop g n w = some (.ok (), w')) :
    w'.finished = true ∧ ∃ k ws, ws 0 = w ∧ AcceptedRun g k ws ∧ (∀ i, i < k → (ws i).finished = false) ∧
      (w' = ws k ∨ ((ws k).finished = false ∧ RejectedStep g (ws k) w')) := runLoop_ok h

/-! ### C07 - C10 -/

/-- **C07**. Every accepted step strictly increases the crystal fraction. -/
theorem C07_crystals_increase (g : Integrator ℝ) (w w' : World ℝ) (h : AcceptedStep g w w') :
    w.st.crystal < w'.st.crystal := by
  obtain ⟨A⟩ := acceptedFacts h
  rw [A.hw, A.hs]; exact A.grow

/-- **C07** along a run. -/
theorem C07_crystals_increase_run (g : Integrator ℝ) (k : Nat) (ws : Nat → World ℝ)
    (h : AcceptedRun g k ws) (i j : Nat) (hij : i < j) (hj : j ≤ k) :
    (ws i).st.crystal < (ws j).st.crystal := by
  induction j with
  | zero => omega
  | succ j ih =>
    have a := C07_crystals_increase g _ _ (h j (by omega))
    rcases Nat.lt_or_ge i j with hlt | hge
    · exact (ih hlt (by omega)).trans a
    · have : i = j := by omega
      subst this; exact a

/-- **C14** / **C07**. A step that raises nothing and is not accepted ends the run and moves nothing: state
    (but for the strain rate), terrain, flux rate and iteration are as before.  The effusion rate can
    only change on the first iteration. -/
theorem C14_rejected_step_moves_nothing (g : Integrator ℝ) (w w' : World ℝ) (h : RejectedStep g w w') :
    w'.finished = true ∧ w'.st.crystal = w.st.crystal ∧ w'.st.temp = w.st.temp ∧
    w'.st.pos = w.st.pos ∧ w'.st.time = w.st.time ∧ w'.iteration = w.iteration ∧
    w'.terrain = w.terrain ∧ w'.fluxRate = w.fluxRate ∧
    (w.iteration ≠ 0 → w'.effusionRate = w.effusionRate) := by
  cases singleStep_ok h.2.1 with
  | still v x hv hle hw => rw [hw]; simp
  | noGrowth v x hv hle d w1 es y facts hphi hw =>
    rw [hw, facts.touched]
    refine ⟨rfl, rfl, rfl, rfl, rfl, rfl, rfl, rfl, fun h0 => ?_⟩
    simp [World.touched, World.stepEffusion, h0]
  | accepted v x hv hle d w1 es y facts hphi visc tc f v2 y2 tho0 thob hvisc htc hv2 hf ht0 htb dt strain
      hdt hst s' hs stop hstop hw => exact absurd (by rw [hw]) h.2.2

/-- A number written by the log section of an accepted step. -/
theorem AcceptedFacts.logged {g : Integrator ℝ} {w w' : World ℝ} (A : AcceptedFacts g w w')
    {name : String} (hn : name ≠ "position") {c : Cell ℝ}
    (h : ((stepEntries g A.d A.w1.st (w.stepEffusion A.v) A.visc A.tc A.f A.tho0 A.thob).reverse.find?
      (fun e => e.1 == name)).map Prod.snd = some c) :
    cellAt w'.log (.num w.st.pos) name = some c := by
  rw [A.log_eq]
  exact cellAt_addAll_append _ _ A.facts.names_ne (stepEntries_ne _ _ _ _ _ _ _ _ _) _ hn _ _ h

/-- The heat budget an accepted step leaves in the log. -/
theorem AcceptedFacts.logged_heat {g : Integrator ℝ} {w w' : World ℝ} (A : AcceptedFacts g w w') :
    cellAt w'.log (.num w.st.pos) "heat_budget" = some (.num A.d.heat) := by
  rw [A.log_eq]
  obtain ⟨es0, he, hn⟩ := A.facts.names
  have hne := A.facts.names_ne
  rw [cellAt_addAll_last_of_not_mem _ _ hne (stepEntries_ne _ _ _ _ _ _ _ _ _) _ (by decide)]
  · rw [he, cellAt_addAll_append _ _ (fun e h => hne e (by rw [he]; simp [h])) (fun e h => ?_) _ (by decide)]
    · simp
    · simp at h; rw [h]; show "heat_budget" ≠ "position"; decide
  · intro e he' hc
    have : e.1 ∈ stepColumns := by
      rw [← stepEntries_names g A.d A.w1.st (w.stepEffusion A.v) A.visc A.tc A.f A.tho0 A.thob]
      exact List.mem_map.mpr ⟨e, he', rfl⟩
    rw [hc] at this
    revert this; decide

theorem loggedNum_of_cell {log : Log (Cell ℝ)} {p x : ℝ} {n : String}
    (h : cellAt log (.num p) n = some (.num x)) : loggedNum log p n = some x := by
  unfold loggedNum; rw [h]

/-- **C08**. On every accepted step the change of crystal fraction is minus the crystallisation rate (at
    the state before the step) times the change of temperature, and the logged gradients obey the same
    relation. -/
theorem C08_crystallisation_tied_to_cooling (g : Integrator ℝ) (w w' : World ℝ)
    (h : AcceptedStep g w w') :
    ∃ rate a b, g.models.cryst.rate w.st = .ok rate ∧
      w'.st.crystal - w.st.crystal = -rate * (w'.st.temp - w.st.temp) ∧
      loggedNum w'.log w.st.pos "dphi_dtemp" = some rate ∧
      loggedNum w'.log w.st.pos "dphi_dx" = some a ∧
      loggedNum w'.log w.st.pos "dtemp_dx" = some b ∧
      a = -rate * b ∧ w'.st.crystal = w.st.crystal + a * g.dx ∧ w'.st.temp = w.st.temp + b * g.dx := by
  obtain ⟨A⟩ := acceptedFacts h
  obtain ⟨_, _, _, h4⟩ := A.facts.real
  have e1 := A.crystal_eq
  have e2 := A.temp_eq
  refine ⟨A.d.rate, A.d.dphiDx, A.d.dtempDx, A.facts.rate, by rw [e1, e2]; exact h4,
    loggedNum_of_cell (A.logged (by decide) (by rfl)), loggedNum_of_cell (A.logged (by decide) (by rfl)),
    loggedNum_of_cell (A.logged (by decide) (by rfl)), ?_, by rw [e1, A.facts.newPhi],
    by rw [e2, A.facts.newTemp]⟩
  rw [A.facts.dphi]; ring

/-- **C09**. If the crystallisation rate is positive an accepted step cools the core, if it is negative it
    warms it; it cannot be zero. -/
theorem C09_core_cools (g : Integrator ℝ) (w w' : World ℝ) (h : AcceptedStep g w w') (rate : ℝ)
    (hr : g.models.cryst.rate w.st = .ok rate) :
    (0 < rate → w'.st.temp < w.st.temp) ∧ (rate < 0 → w.st.temp < w'.st.temp) ∧ rate ≠ 0 := by
  obtain ⟨A⟩ := acceptedFacts h
  obtain ⟨h1, _, _, h4⟩ := A.facts.real
  have hrr := A.facts.rate
  rw [hr] at hrr
  injection hrr with hrr
  have e2 := A.temp_eq
  have hg := A.grow
  rw [e2]
  refine ⟨fun hp => ?_, fun hp => ?_, by rw [hrr]; exact h1⟩
  · rw [hrr] at hp
    by_contra hc
    have := mul_nonneg hp.le (sub_nonneg.mpr (not_lt.mp hc))
    linarith
  · rw [hrr] at hp
    by_contra hc
    have := mul_nonneg_of_nonpos_of_nonpos hp.le (sub_nonpos.mpr (not_lt.mp hc))
    linarith

/-- **C10**. With the basic crystallisation model, started by `initialize_state`, the crystal fraction is
    at every point of the run the initial one plus rate*(T_eruption - T), rate =
    crystals_grown/(T_eruption - T_solid). -/
theorem C10_crystal_budget (g : Integrator ℝ) (f grown ts : ℝ) (t0 : Terrain ℝ) (x0 time0 : ℝ)
    (hc : g.models.cryst = .basic f grown ts g.models.lava.eruptionT)
    (k : Nat) (ws : Nat → World ℝ) (h : AcceptedRun g k ws)
    (hinit : initialState g.models t0 x0 time0 = .ok (ws 0).st) (hk : 0 < k) :
    g.models.lava.eruptionT - ts ≠ 0 ∧
    ∀ i, i ≤ k → (ws i).st.crystal =
      f + grown / (g.models.lava.eruptionT - ts) * (g.models.lava.eruptionT - (ws i).st.temp) := by
  have hrate : ∀ s r, g.models.cryst.rate s = .ok r → g.models.lava.eruptionT - ts ≠ 0 ∧
      r = grown / (g.models.lava.eruptionT - ts) := by
    intro s r hr
    rw [hc] at hr
    exact div_ok_iff.mp hr
  obtain ⟨r0, _, _, hr0, _⟩ := C08_crystallisation_tied_to_cooling g _ _ (h 0 hk)
  refine ⟨(hrate _ _ hr0).1, ?_⟩
  intro i hi
  induction i with
  | zero =>
    unfold initialState at hinit
    rw [hc] at hinit
    simp only [CrystModel.crystalFraction, ok_bind] at hinit
    obtain ⟨a, _, hinit⟩ := bind_ok_iff.mp hinit
    obtain ⟨b, _, hinit⟩ := bind_ok_iff.mp hinit
    rw [pure_ok_iff] at hinit
    rw [← hinit]; simp
  | succ i ih =>
    obtain ⟨r, _, _, hr, h2, _⟩ := C08_crystallisation_tied_to_cooling g _ _ (h i (by omega))
    have := (hrate _ _ hr).2
    have ih := ih (by omega)
    rw [this] at h2
    have e : (ws (i + 1)).st.crystal = (ws i).st.crystal +
        -(grown / (g.models.lava.eruptionT - ts)) * ((ws (i + 1)).st.temp - (ws i).st.temp) := by linarith
    rw [e, ih]; ring

/-- **C10**. Hence the crystal fraction stays below initial + crystals_grown while the core is above the
    solidus. -/
theorem C10_crystal_bound (g : Integrator ℝ) (f grown ts : ℝ) (t0 : Terrain ℝ) (x0 time0 : ℝ)
    (hc : g.models.cryst = .basic f grown ts g.models.lava.eruptionT)
    (hts : ts < g.models.lava.eruptionT) (hgrown : 0 < grown)
    (k : Nat) (ws : Nat → World ℝ) (h : AcceptedRun g k ws)
    (hinit : initialState g.models t0 x0 time0 = .ok (ws 0).st) (hk : 0 < k) (i : Nat) (hi : i ≤ k)
    (hT : ts < (ws i).st.temp) : (ws i).st.crystal < f + grown := by
  rw [(C10_crystal_budget g f grown ts t0 x0 time0 hc k ws h hinit hk).2 i hi]
  have h1 : 0 < g.models.lava.eruptionT - ts := by linarith
  have : grown / (g.models.lava.eruptionT - ts) * (g.models.lava.eruptionT - (ws i).st.temp) <
      grown / (g.models.lava.eruptionT - ts) * (g.models.lava.eruptionT - ts) := by
    apply mul_lt_mul_of_pos_left _ (div_pos hgrown h1); linarith
  rw [div_mul_cancel₀ _ h1.ne'] at this
  linarith

/-! ### C11, C12 -/

/-- **C11**. With mass_conservation off, on every accepted step the logged channel_width times the logged
    mean_velocity times the logged channel_depth is the effusion rate, which is kept from the second step
    on; on the first step the width is the configured one. -/
theorem C11_volume_conservation (g : Integrator ℝ) (hm : g.massConservation = false) (w w' : World ℝ)
    (h : AcceptedStep g w w') :
    ∃ width v depth, loggedNum w'.log w.st.pos "channel_width" = some width ∧
      loggedNum w'.log w.st.pos "mean_velocity" = some v ∧
      loggedNum w'.log w.st.pos "channel_depth" = some depth ∧
      cellAt w'.log (.num w.st.pos) "effusion_rate" = some (.text w'.effusionRate) ∧
      width * v * depth = w'.effusionRate ∧
      (w.iteration = 0 → width = w.terrain.width) ∧
      (w.iteration ≠ 0 → w'.effusionRate = w.effusionRate) := by
  obtain ⟨A⟩ := acceptedFacts h
  have hwid := A.facts.width
  rw [hm] at hwid
  simp only [channelWidth, Bool.false_eq_true, if_false] at hwid
  obtain ⟨hne, hw⟩ := div_ok_iff.mp hwid
  have he := A.eff_eq
  have hv : A.v ≠ 0 := A.vpos.ne'
  have hd := A.depth_ne
  refine ⟨A.d.width, A.v, w.terrain.depth, loggedNum_of_cell (A.logged (by decide) (by rfl)),
    loggedNum_of_cell (A.logged (by decide) (by rw [← A.facts.v_eq]; rfl)),
    loggedNum_of_cell (A.logged (by decide) (by rw [← A.facts.depth_eq]; rfl)),
    by rw [he]; exact A.logged (by decide) (by rfl), ?_, ?_, ?_⟩
  · rw [hw, he]; field_simp
  · intro h0
    rw [hw]
    have : w.stepEffusion A.v = A.v * w.terrain.width * w.terrain.depth := by
      simp [World.stepEffusion, h0]
    rw [this]; field_simp
  · intro h0
    rw [he]; simp [World.stepEffusion, h0]

/-- **C11** along a run that starts at iteration 0: one effusion rate for all accepted steps, namely
    v0 * configured width * depth. -/
theorem C11_constant_effusion_rate (g : Integrator ℝ) (k : Nat) (ws : Nat → World ℝ)
    (h : AcceptedRun g k ws) (h0 : (ws 0).iteration = 0) (hk : 0 < k) :
    ∃ v x, g.models.lava.meanVelocity (ws 0).terrain (ws 0).st = .ok (v, x) ∧
      ∀ i, 0 < i → i ≤ k →
        (ws i).effusionRate = v * (ws 0).terrain.width * (ws 0).terrain.depth := by
  obtain ⟨A⟩ := acceptedFacts (h 0 hk)
  refine ⟨A.v, A.x, A.hv, ?_⟩
  intro i hi hik
  induction i with
  | zero => omega
  | succ i ih =>
    by_cases hi0 : i = 0
    · subst hi0
      rw [A.eff_eq]; simp [World.stepEffusion, h0]
    · rw [← ih (by omega) (by omega)]
      obtain ⟨B⟩ := acceptedFacts (h i (by omega))
      have hit := (C06_position_time g i ws (fun j hj => h j (by omega))).2.1
      have : (ws i).iteration ≠ 0 := by omega
      rw [B.hw]; simp [World.stepEffusion, this]

/-- **C12**. With mass_conservation on, on every accepted step the logged width * velocity * depth *
    density is the mass flux fixed by init_effusion_rate, and that flux is kept. -/
theorem C12_mass_conservation (g : Integrator ℝ) (hm : g.massConservation = true) (w w' : World ℝ)
    (h : AcceptedStep g w w') :
    ∃ flux width v depth rho, w.fluxRate = some flux ∧ w'.fluxRate = some flux ∧
      loggedNum w'.log w.st.pos "channel_width" = some width ∧
      loggedNum w'.log w.st.pos "mean_velocity" = some v ∧
      loggedNum w'.log w.st.pos "channel_depth" = some depth ∧
      loggedNum w'.log w.st.pos "density" = some rho ∧
      width * v * depth * rho = flux := by
  obtain ⟨A⟩ := acceptedFacts h
  have hwid := A.facts.width
  rw [hm] at hwid
  simp only [channelWidth, if_true] at hwid
  cases hf : w.fluxRate with
  | none => rw [hf] at hwid; cases hwid
  | some fr =>
    rw [hf] at hwid
    obtain ⟨a, ha, hb⟩ := bind_ok_iff.mp hwid
    obtain ⟨_, rfl⟩ := div_ok_iff.mp ha
    obtain ⟨hrho, hw⟩ := div_ok_iff.mp hb
    have hv : A.v ≠ 0 := A.vpos.ne'
    have hd := A.depth_ne
    have hdens : g.models.lava.density A.w1.st = g.models.lava.density w.st := by
      rw [A.facts.touched]; exact density_strain _ _ _
    refine ⟨fr, A.d.width, A.v, w.terrain.depth, g.models.lava.density w.st, rfl, by rw [A.hw]; exact hf,
      loggedNum_of_cell (A.logged (by decide) (by rfl)),
      loggedNum_of_cell (A.logged (by decide) (by rw [← A.facts.v_eq]; rfl)),
      loggedNum_of_cell (A.logged (by decide) (by rw [← A.facts.depth_eq]; rfl)),
      loggedNum_of_cell (A.logged (by decide) (by rw [← hdens]; rfl)), ?_⟩
    rw [hw]; field_simp

/-- **C12**. With mass_conservation on and no flux rate (effusion_rate_init = 0), a step of a moving flow
    raises AttributeError. -/
theorem C12_attribute_error (g : Integrator ℝ) (hm : g.massConservation = true) (w : World ℝ)
    (hf : w.fluxRate = none) (v x : ℝ)
    (hv : g.models.lava.meanVelocity w.terrain w.st = .ok (v, x)) (hpos : 0 < v) :
    (singleStep g w).1 = .error .attributeError := by
  have h1 : meanVelocityM g.models.lava w = (.ok v, { w with st := { w.st with strain := x } }) := by
    unfold meanVelocityM; rw [hv]
  unfold singleStep
  rw [PyM.bind_of_ok h1, if_neg (by simp only [leB_real]; norm_num; exact hpos)]
  have h2 : ∃ w2, stepCompute g v { w with st := { w.st with strain := x } } =
      (.error .attributeError, w2) := by
    unfold stepCompute setEffusionRate
    rw [PyM.bind_of_ok (PyM.modify_apply _ _), PyM.bind_of_ok (PyM.get_apply _)]
    simp only [hm]
    have hfl : (if w.iteration == 0 then
      ({ w with st := { w.st with strain := x },
                effusionRate := v * w.terrain.width * w.terrain.depth } : World ℝ)
      else { w with st := { w.st with strain := x } }).fluxRate = none := by
      split <;> exact hf
    simp only at hfl
    rw [hfl]
    exact ⟨_, PyM.bind_of_error rfl⟩
  obtain ⟨w2, h2⟩ := h2
  rw [PyM.bind_of_error h2]

/-- **C12**. effusion_rate_init = 0 leaves no flux rate behind. -/
theorem C12_zero_rate_has_no_flux (l : Lava ℝ) (grid : List ℝ) (t : Terrain ℝ) (s : FlowState ℝ)
    (log : Log (Cell ℝ)) (h0 : t.effusionRateInit = 0) :
    initEffusionRateOn grid l (newWorld t s log) = (.ok (), newWorld t s log) ∧
      (newWorld t s log).fluxRate = none := by
  refine ⟨?_, rfl⟩
  unfold initEffusionRateOn
  rw [PyM.bind_of_ok (PyM.get_apply _), if_pos]
  · rfl
  · simp only [newWorld, eqB_real, h0]; norm_num

/-! ### C13, C15, C16 -/

/-- The part of a step that computes the heat budget ran: what it left in the log, and how it decided. -/
theorem rejected_cases {g : Integrator ℝ} {w w' : World ℝ} (h : RejectedStep g w w') :
    (∃ v x, g.models.lava.meanVelocity w.terrain w.st = .ok (v, x) ∧ v ≤ 0) ∨
    (∃ v x q, g.models.lava.meanVelocity w.terrain w.st = .ok (v, x) ∧ 0 < v ∧
      loggedNum w'.log w.st.pos "heat_budget" = some q ∧
      w'.effusionRate * g.models.lava.density w.st * g.models.lava.latentHeat ≠ 0 ∧
      q / (w'.effusionRate * g.models.lava.density w.st * g.models.lava.latentHeat) * g.dx ≤ 0) := by
  cases singleStep_ok h.2.1 with
  | still v x hv hle hw =>
    left; refine ⟨v, x, hv, ?_⟩
    simp only [leB_real] at hle; norm_num at hle; exact hle
  | noGrowth v x hv hle d w1 es y facts hphi hw =>
    right
    have hvpos : 0 < v := by
      rw [Bool.eq_false_iff] at hle
      simp only [ne_eq, leB_real, not_le] at hle
      norm_num at hle; exact hle
    obtain ⟨_, hne, h3, _⟩ := facts.real
    have he : w'.effusionRate = w.stepEffusion v := by rw [hw, facts.touched]; rfl
    refine ⟨v, x, d.heat, hv, hvpos, ?_, by rw [he]; exact hne, ?_⟩
    · apply loggedNum_of_cell
      rw [hw, facts.touched]
      simp only [World.touched]
      obtain ⟨es0, hes, hn⟩ := facts.names
      have hnn := facts.names_ne
      rw [hes, cellAt_addAll_append _ _ (fun e h => hnn e (by rw [hes]; simp [h])) (fun e h => ?_) _
        (by decide)]
      · simp
      · simp at h; rw [h]; show "heat_budget" ≠ "position"; decide
    · rw [he, ← h3]
      simp only [leB_real, facts.newPhi] at hphi
      linarith
  | accepted v x hv hle d w1 es y facts hphi visc tc f v2 y2 tho0 thob hvisc htc hv2 hf ht0 htb dt strain
      hdt hst s' hs stop hstop hw => exact absurd (by rw [hw]) h.2.2

/-- **C15**. On every accepted step effusion_rate * density * latent_heat * (phi_new - phi_old) =
    heat_budget * dx, heat_budget being the logged one. -/
theorem C15_energy_balance (g : Integrator ℝ) (w w' : World ℝ) (h : AcceptedStep g w w') :
    ∃ q, loggedNum w'.log w.st.pos "heat_budget" = some q ∧
      w'.effusionRate * g.models.lava.density w.st * g.models.lava.latentHeat *
        (w'.st.crystal - w.st.crystal) = q * g.dx := by
  obtain ⟨A⟩ := acceptedFacts h
  obtain ⟨_, hne, h3, _⟩ := A.facts.real
  refine ⟨A.d.heat, loggedNum_of_cell A.logged_heat, ?_⟩
  have e1 := A.crystal_eq
  have e2 := A.eff_eq
  rw [e1, e2, A.facts.newPhi, h3]
  generalize w.stepEffusion A.v * g.models.lava.density w.st * g.models.lava.latentHeat = E at hne
  field_simp
  ring

/-- **C16**. For a moving flow with effusion_rate*density*latent_heat > 0 and dx > 0, a step that raises
    nothing is accepted if and only if the logged heat budget is positive; otherwise the run ends. -/
theorem C16_accepted_iff_heat_loss (g : Integrator ℝ) (hdx : 0 < g.dx) (w w' : World ℝ)
    (hfin : w.finished = false) (hstep : singleStep g w = (.ok (), w'))
    (v x : ℝ) (hv : g.models.lava.meanVelocity w.terrain w.st = .ok (v, x)) (hvpos : 0 < v)
    (hE : 0 < w'.effusionRate * g.models.lava.density w.st * g.models.lava.latentHeat) :
    ∃ q, loggedNum w'.log w.st.pos "heat_budget" = some q ∧
      (0 < q → AcceptedStep g w w') ∧
      (q ≤ 0 → RejectedStep g w w' ∧ w'.finished = true) := by
  by_cases hit : w'.iteration = w.iteration + 1
  · have hacc : AcceptedStep g w w' := ⟨hfin, hstep, hit⟩
    obtain ⟨q, hq, he⟩ := C15_energy_balance g w w' hacc
    refine ⟨q, hq, fun _ => hacc, fun hle => ?_⟩
    exfalso
    have hgrow := C07_crystals_increase g w w' hacc
    have : 0 < w'.effusionRate * g.models.lava.density w.st * g.models.lava.latentHeat *
        (w'.st.crystal - w.st.crystal) := mul_pos hE (by linarith)
    have := mul_nonneg (neg_nonneg.mpr hle) hdx.le
    linarith
  · have hrej : RejectedStep g w w' := ⟨hfin, hstep, hit⟩
    rcases rejected_cases hrej with ⟨v', x', hv', hle⟩ | ⟨v', x', q, _, _, hq, hne, hle⟩
    · rw [hv] at hv'; cases hv'; linarith
    · refine ⟨q, hq, fun hp => ?_, fun _ => ⟨hrej, (C14_rejected_step_moves_nothing g w w' hrej).1⟩⟩
      exfalso
      have : 0 < q / (w'.effusionRate * g.models.lava.density w.st * g.models.lava.latentHeat) * g.dx :=
        mul_pos (div_pos hp hE) hdx
      linarith

/-- **C13** (rejected last step). A step that ends the run without moving the lava does so because the
    velocity is <= 0 or because the crystal increment heat/(E*rho*Lambda)*dx is not positive. -/
theorem C13_rejected_reason (g : Integrator ℝ) (w w' : World ℝ) (h : RejectedStep g w w') :
    (∃ v x, g.models.lava.meanVelocity w.terrain w.st = .ok (v, x) ∧ v ≤ 0) ∨
    (∃ v x q, g.models.lava.meanVelocity w.terrain w.st = .ok (v, x) ∧ 0 < v ∧
      loggedNum w'.log w.st.pos "heat_budget" = some q ∧
      w'.effusionRate * g.models.lava.density w.st * g.models.lava.latentHeat ≠ 0 ∧
      q / (w'.effusionRate * g.models.lava.density w.st * g.models.lava.latentHeat) * g.dx ≤ 0) :=
  rejected_cases h

/-- **C13** (accepted step). After an accepted step the run is finished exactly when the new temperature is
    at or below the solid temperature, or the new state is incompatible with the viscosity model, or the
    yield strength reaches the basal stress, or the channel end is reached. -/
theorem C13_accepted_reason (g : Integrator ℝ) (w w' : World ℝ) (h : AcceptedStep g w w') :
    (w'.finished = true →
      w'.st.temp ≤ g.models.cryst.solidTemperature ∨ g.models.lava.notCompatible w'.st = .ok true ∨
      g.models.lava.yieldNotCompatible w'.terrain w'.st = .ok true ∨ w'.terrain.maxLength ≤ w'.st.pos) ∧
    (w'.finished = false →
      g.models.cryst.solidTemperature < w'.st.temp ∧ g.models.lava.notCompatible w'.st = .ok false ∧
      g.models.lava.yieldNotCompatible w'.terrain w'.st = .ok false ∧
      w'.st.pos < w'.terrain.maxLength) := by
  obtain ⟨A⟩ := acceptedFacts h
  have hst := A.hstop
  have e1 := A.st_eq
  have e2 := A.terrain_eq
  have e3 : w'.finished = A.stop := by rw [A.fin_eq, h.1]; rfl
  rw [e1, e2, e3]
  constructor
  · intro hf; rw [hf] at hst; exact stopTest_true hst
  · intro hf; rw [hf] at hst; exact stopTest_false hst

/-- **C13**, whole run: a loop that ended normally ended for one of the listed reasons. -/
theorem C13_why_a_run_stopped (g : Integrator ℝ) (n : Nat) (w w' : World ℝ) (h0 : w.finished = false)
    (h : runLoop g n w = some (.ok (), w')) :
    ∃ wl, (wl.finished = false) ∧ singleStep g wl = (.ok (), w') ∧
      ((∃ v x, g.models.lava.meanVelocity wl.terrain wl.st = .ok (v, x) ∧ v ≤ 0 ∧ w'.st.crystal = wl.st.crystal) ∨
       (∃ q, loggedNum w'.log wl.st.pos "heat_budget" = some q ∧
         q / (w'.effusionRate * g.models.lava.density wl.st * g.models.lava.latentHeat) * g.dx ≤ 0 ∧
         w'.st.crystal = wl.st.crystal) ∨
       w'.st.temp ≤ g.models.cryst.solidTemperature ∨ g.models.lava.notCompatible w'.st = .ok true ∨
       g.models.lava.yieldNotCompatible w'.terrain w'.st = .ok true ∨
       w'.terrain.maxLength ≤ w'.st.pos) := by
  obtain ⟨hfin, k, ws, e0, hacc, hnf, hlast⟩ := runLoop_ok h
  rcases hlast with hlast | ⟨hf, hrej⟩
  · cases k with
    | zero => rw [hlast, e0, h0] at hfin; cases hfin
    | succ k =>
      have ha := hacc k (by omega)
      rw [← hlast] at ha
      refine ⟨ws k, ha.1, ha.2.1, ?_⟩
      right; right
      exact (C13_accepted_reason g _ _ ha).1 hfin
  · refine ⟨ws k, hf, hrej.2.1, ?_⟩
    have hc := (C14_rejected_step_moves_nothing g _ _ hrej).2.1
    rcases rejected_cases hrej with ⟨v, x, hv, hle⟩ | ⟨v, x, q, hv, hp, hq, hne, hle⟩
    · left; exact ⟨v, x, hv, hle, hc⟩
    · right; left; exact ⟨q, hq, hle, hc⟩

/-- **C24**. After an accepted step that did not end the run, the next velocity (if it can be computed) is
    positive, for lava with positive viscosity and non-negative yield strength in a channel of positive
    depth: the velocity-zero stop only occurs on the first step. -/
theorem C24_next_step_moves (g : Integrator ℝ) (w w' : World ℝ) (h : AcceptedStep g w w')
    (hnf : w'.finished = false) (hdepth : 0 < w.terrain.depth)
    (hmu : ∀ mu, g.models.lava.bulkViscosity w'.st = .ok mu → 0 < mu)
    (hy : ∀ t0, g.models.lava.yieldStrength w'.st = .ok t0 → 0 ≤ t0)
    (v x : ℝ) (hv : g.models.lava.meanVelocity w'.terrain w'.st = .ok (v, x)) : 0 < v := by
  obtain ⟨_, _, hyc, _⟩ := (C13_accepted_reason g w w' h).2 hnf
  obtain ⟨t0, tb, mu, h0, hb, h1, _, _, _, e, _⟩ := (meanVelocity_ok_iff _ _ _ _ _).mp hv
  have hter := (accepted_advance h).2.2.1
  unfold Lava.yieldNotCompatible at hyc
  rw [h0, ok_bind, hb, ok_bind, pure_ok_iff, Bool.eq_false_iff] at hyc
  simp only [ne_eq, leB_real, not_le] at hyc
  have ht0 := hy t0 h0
  rw [e]
  exact bingham_pos (by rw [hter]; exact hdepth) (by linarith) (hmu mu h1) ht0 hyc.ne

/-! ### The hypotheses are satisfiable -/

/-- A rejected step: the flow sits exactly at its yield strength. -/
theorem ex_rejected : ∃ (g : Integrator ℝ) (w w' : World ℝ), RejectedStep g w w' ∧
    ∃ x, g.models.lava.meanVelocity w.terrain w.st = .ok (0, x) := by
  have hy : (exLava 1 (.mp 2) .ryerson).yieldStrength (exState 1 0) = .ok 6500 := ryerson_one 0
  have hb := exLava_basal 6500 1 (.mp 2) .ryerson (exState 1 0)
  have hm := exLava_bulk 1 1 0 4 (.mp 2) .ryerson (mp_two 0)
  have hv : (exLava 1 (.mp 2) .ryerson).meanVelocity (exTerrain 6500) (exState 1 0) = .ok (0, 0) := by
    rw [meanVelocity_ok_iff]
    exact ⟨6500, 6500, 1 * 4, hy, hb, hm, by norm_num, by norm_num, by norm_num [exTerrain],
      by norm_num [binghamVelocity], by norm_num⟩
  refine ⟨{ exIntegrator false with models := { exModels with lava := exLava 1 (.mp 2) .ryerson } },
    newWorld (exTerrain 6500) (exState 1 0) [],
    { newWorld (exTerrain 6500) (exState 1 0) [] with
      st := { exState 1 0 with strain := 0 }, finished := true }, ⟨rfl, ?_, ?_⟩, 0, hv⟩
  · unfold singleStep
    rw [PyM.bind_of_ok (meanVelocityM_forward hv), if_pos (by simp only [leB_real]; norm_num)]
    rfl
  · simp [newWorld]

/-- Accepted steps exist, with and without mass conservation, and they satisfy the hypotheses of C24. -/
example : ∃ w', AcceptedStep (exIntegrator false) exWorld w' := by
  obtain ⟨w', h, _⟩ := ex_accepted false; exact ⟨w', h⟩
example : ∃ w', AcceptedStep (exIntegrator true) exWorld w' := by
  obtain ⟨w', h, _⟩ := ex_accepted true; exact ⟨w', h⟩
example : ∃ ws : Nat → World ℝ, AcceptedRun (exIntegrator false) 1 ws ∧ (ws 0).iteration = 0 := by
  obtain ⟨w', h, _⟩ := ex_accepted false
  refine ⟨fun i => if i = 0 then exWorld else w', ?_, rfl⟩
  intro i hi
  have : i = 0 := by omega
  subst this
  exact h

/-- C24 applies to the example: the second step of the example flow moves. -/
example : ∃ w', AcceptedStep (exIntegrator false) exWorld w' ∧ w'.finished = false ∧
    0 < exWorld.terrain.depth ∧
    ∃ v x, (exIntegrator false).models.lava.meanVelocity w'.terrain w'.st = .ok (v, x) ∧ 0 < v := by
  obtain ⟨w', h, hf, hc, hT, ht⟩ := ex_accepted false
  refine ⟨w', h, hf, by norm_num [exWorld, newWorld, exTerrain], ?_⟩
  obtain ⟨t0, hy, h0, h3⟩ := ryerson_small w'.st hc
  have hmelt : (exLava 1 .er .ryerson).melt.viscosity w'.st = .ok (Real.exp (2 / 5)) := by
    simp only [exLava, MeltModel.viscosity, hT, exp_real]; norm_num
  have hrel : (RelModel.er : RelModel ℝ).relative w'.st = .ok ((1.0 - 1.51 * (1 / 100)) ^ (-2.5 : ℝ)) := by
    unfold RelModel.relative
    rw [hc, mpow_of_pos _ (by norm_num)]
  have hmu : (exLava 1 .er .ryerson).bulkViscosity w'.st =
      .ok (Real.exp (2 / 5) * ((1.0 - 1.51 * (1 / 100)) ^ (-2.5 : ℝ)) * 1.0) := by
    unfold Lava.bulkViscosity
    rw [hmelt, ok_bind]
    show ((RelModel.er : RelModel ℝ).relative w'.st >>= _) = _
    rw [hrel, ok_bind]; rfl
  have hpos : 0 < Real.exp (2 / 5) * ((1.0 - 1.51 * (1 / 100)) ^ (-2.5 : ℝ)) * 1.0 := by
    have := Real.exp_pos (2 / 5)
    have : 0 < ((1.0 - 1.51 * (1 / 100)) ^ (-2.5 : ℝ) : ℝ) := Real.rpow_pos_of_pos (by norm_num) _
    positivity
  obtain ⟨v, x, hv⟩ : ∃ v x, (exIntegrator false).models.lava.meanVelocity w'.terrain w'.st =
      .ok (v, x) := by
    rw [ht]
    simp only [meanVelocity_ok_iff]
    exact ⟨_, _, t0, 3, _, hy, exLava_basal 3 1 .er .ryerson _, hmu, hpos.ne', by norm_num,
      by norm_num [exTerrain], rfl, rfl⟩
  refine ⟨_, _, hv, C24_next_step_moves _ _ _ h hf (by norm_num [exWorld, newWorld, exTerrain]) ?_ ?_ _ _ hv⟩
  · intro mu h'
    have : (exLava 1 .er .ryerson).bulkViscosity w'.st = .ok mu := h'
    rw [hmu] at this
    injection this with this
    rw [← this]; exact hpos
  · intro t h'
    have : (YieldModel.ryerson : YieldModel ℝ).strength w'.st = .ok t := h'
    rw [hy] at this
    injection this with this
    rw [← this]; exact h0

end PyFlowGo
