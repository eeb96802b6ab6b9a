import Verif.Props.Factory
import Verif.Props.Budget
import Verif.Props.Melts
import Verif.Proofs.ExampleConfig
/-
  C37, C45, C51-C53, C55: consequences of the factory for a simulation, and non-vacuity of the factory
  theorems.
-/
namespace PyFlowGo
open Spec

/-! ### The heat budget of a factory-built simulation -/

/-- Column of a kind of flux. -/
def kindColumn : FluxKind → String
  | .radBasic | .radTwoEmi | .radCont | .radLin => "flowgofluxradiationheat"
  | .conduction => "flowgofluxconductionheat"
  | .convection => "flowgofluxforcedconvectionheat"
  | .rain => "flowgofluxheatlossrain"
  | .viscous => "flowgofluxviscousheating"
  | .snyder => "flowgofluxsnyderheat"

/-- Columns a kind of flux sets to zero. -/
def kindZeroes : FluxKind → List String
  | .convection => ["flowgofluxsnyderheat"]
  | .snyder => ["flowgofluxforcedconvectionheat", "flowgofluxradiationheat"]
  | _ => []

theorem kindColumn_eq (f : Flux ℝ) : fluxColumn f = kindColumn (kindOf f) := by cases f <;> rfl
theorem kindZeroes_eq (f : Flux ℝ) : zeroedBy f = kindZeroes (kindOf f) := by cases f <;> rfl

/-- **C52**. In every simulation the factory accepts, no flux overwrites the log column of another one, so the
    logged flux columns are those of C45. -/
theorem C52_columns_kept (env : Env ℝ) (data : Json ℝ) (m : Models ℝ) (h : factory env data = .ok m) :
    ColumnsKept m.fluxes := by
  obtain ⟨c, hc, hd⟩ := C51_success_means_documented env data m h
  obtain ⟨hk, _, _⟩ := C52_exactly_the_requested_fluxes env data m h c hc
  have hd' := hd.2.2.2.2.2.2.2.2.2.2.2.2.2.2
  have key : (m.fluxes.map kindOf).Pairwise
      (fun f g => kindColumn f ≠ kindColumn g ∧ kindColumn f ∉ kindZeroes g) := by
    rw [hk]
    unfold requestedFluxes
    by_cases hs : c.snyder = "yes"
    · obtain ⟨h1, h2⟩ := hd' hs
      rw [h1, h2, hs, if_neg (by decide : ¬ ("no" = "yes")), if_pos rfl]
      split_ifs <;> decide
    · rw [if_neg hs]
      unfold radiationKind
      split <;> split_ifs <;> decide
  rw [List.pairwise_map] at key
  unfold ColumnsKept
  simpa only [kindColumn_eq, kindZeroes_eq] using key

/-- **C45/C52**. For every configuration with a strain-independent lava: the logged flux columns of a row add up
    to its logged `heat_budget`, one column per requested flux. -/
theorem C52_logged_budget_adds_up (env : Env ℝ) (data : Json ℝ) (m : Models ℝ) (h : factory env data = .ok m)
    (hl : StrainIndependent m.lava) (width depth Q : ℝ) (w w' : World ℝ)
    (hb : heatBudget m width depth w = (.ok Q, w')) :
    ∃ qs : List ℝ, Q = qs.sum ∧ loggedNum w'.log w.st.pos "heat_budget" = some Q ∧
      List.Forall₂ (fun f q => loggedNum w'.log w.st.pos (fluxColumn f) = some q) m.fluxes qs := by
  obtain ⟨qs, _, h1, h2, h3⟩ := C45_log_agrees hl (C52_columns_kept env data m h) width depth Q w w' hb
  exact ⟨qs, h1, h2, h3⟩

/-! ### Non-vacuity of the factory theorems -/

/-- The example configuration builds for every documented choice of names, whatever its numbers. -/
theorem exConfig_builds (num : String → String → ℝ) (c : Choice) (hd : Documented c) :
    ∃ m, factory exEnv (exConfig num c) = .ok m :=
  C55_sufficient_entries exEnv _ c (exConfig_selects num c) hd
    (fun e he => ⟨_, exConfig_number exEnv num c e (required_subset c e he)⟩) (exConfig_tables num c)

theorem exChoice_documented : Documented exChoice := by
  refine ⟨?_, ?_, ?_, ?_, ?_, ?_, ?_, ?_, ?_, ?_, ?_, ?_, ?_, ?_, ?_⟩ <;> decide

/-- Non-vacuity of C51 (refusal), C55 (success) and C52. -/
example : ∃ m, factory exEnv (exConfig (fun _ _ => 1) exChoice) = .ok m ∧ m.fluxes.map kindOf = [.rain] ∧
    factory exEnv (exConfig (fun _ _ => 1) { exChoice with rel := "einstein" }) = .error .nameError := by
  obtain ⟨m, hm⟩ := exConfig_builds (fun _ _ => 1) exChoice exChoice_documented
  refine ⟨m, hm, (C52_exactly_the_requested_fluxes _ _ _ hm exChoice (exConfig_selects _ _)).1, ?_⟩
  refine C51_unknown_is_NameError exEnv _ { exChoice with rel := "einstein" } (exConfig_selects _ _) ?_
    (fun e he => ⟨_, exConfig_number exEnv _ _ e (required_subset _ e he)⟩) (exConfig_tables _ _)
  intro hd
  exact absurd hd.2.2.1 (by decide)

/-! ### C37 -/

/-- **C37**. The consequence of the missing wiring: two configurations that differ only in the vesicle fraction
    (0.1 and 0.5), with the bll yield strength; the model built is the same, but with the configured fraction
    the yield strength would be different in every state. -/
theorem C37_bll_yield_is_wrong (s : FlowState ℝ) (v : ℝ) (hv : v ≠ 0.1) :
    ∃ a b, (YieldModel.bll VesicleModel.dflt).strength s = .ok a ∧
      (YieldModel.bll (.constant v)).strength s = .ok b ∧ a ≠ b := by
  have key : ∀ v : ℝ, (YieldModel.bll (.constant v)).strength s =
      .ok ((10 : ℝ) ^ (80.0 * (s.crystal - 0.35)) + (10 : ℝ) ^ (1.98 * (s.crystal + v - 0.35))) := by
    intro v
    unfold YieldModel.strength VesicleModel.fraction
    dsimp only
    rw [show (10.0 : ℝ) = 10 by norm_num, mpow_of_pos _ (by norm_num), ok_bind, mpow_of_pos _ (by norm_num), ok_bind]
    rfl
  refine ⟨_, _, key 0.1, key v, fun he => hv ?_⟩
  have h2 : (10 : ℝ) ^ (1.98 * (s.crystal + 0.1 - 0.35)) = (10 : ℝ) ^ (1.98 * (s.crystal + v - 0.35)) := by
    linarith
  have h3 := (Real.strictMono_rpow_of_base_gt_one (by norm_num : (1 : ℝ) < 10)).injective h2
  have h4 : (1.98 : ℝ) * (v - 0.1) = 0 := by linarith
  rcases mul_eq_zero.mp h4 with h | h
  · norm_num at h
  · linarith

/-- Non-vacuity of C37: a bll yield strength with a vesicle fraction of 0.5 configured; the lava has 0.5, its
    yield strength 0.1. -/
example : ∃ m, factory exEnv (exConfig (fun _ _ => 0.5) { exChoice with yld := "bll", rel := "ptp1" }) = .ok m ∧
    m.lava.ves = .constant 0.5 ∧ relVesicles m.lava.rel = some (.constant 0.5) ∧
    m.lava.yld = .bll (.constant 0.1) := by
  obtain ⟨m, hm⟩ := exConfig_builds (fun _ _ => 0.5) { exChoice with yld := "bll", rel := "ptp1" }
    (by refine ⟨?_, ?_, ?_, ?_, ?_, ?_, ?_, ?_, ?_, ?_, ?_, ?_, ?_, ?_, ?_⟩ <;> decide)
  have hc := exConfig_selects (extra := []) (rate := .num (0.5 : ℝ)) (fun _ _ => (0.5 : ℝ)) { exChoice with yld := "bll", rel := "ptp1" }
  obtain ⟨c', hc', _, _, ⟨_, h4, h5, _⟩, _⟩ := (C55_models_come_from_the_configuration _ _ m).mp hm
  obtain rfl := selects_unique hc hc'
  obtain ⟨v, hv, h4⟩ := h4
  have : v = 0.5 := number_unique hv (exConfig_number exEnv _ _ ("lava_state", "vesicle_fraction") (by decide))
  subst this
  refine ⟨m, hm, h4, ?_, C37_bll_yield_ignores_vesicles _ _ m hm _ hc rfl⟩
  have h5 : m.lava.rel = .ptp1 m.lava.ves := h5
  rw [h5, h4]; rfl

/-! ### C53 -/

/-- **C53**. With the melts model as the factory builds it, no step of any run ever advances the flow. -/
theorem C53_melts_never_advances (env : Env ℝ) (data : Json ℝ) (m : Models ℝ) (h : factory env data = .ok m)
    (c : Choice) (hc : Selects data c) (hy : c.cryst = "melts") (g : Integrator ℝ) (hg : g.models = m)
    (w w' : World ℝ) : ¬ AcceptedStep g w w' := by
  intro ha
  obtain ⟨f, ts, hm⟩ := C53_melts_has_no_table env data m h c hc hy
  obtain ⟨F⟩ := acceptedFacts ha
  have h1 := F.facts.rate
  rw [hg, hm, C62_no_table] at h1
  injection h1 with h1
  exact F.facts.real.1 h1.symm

/-- **C53**. A run with that model which ends without an exception has written nothing: the flow never started
    (the velocity at the vent is not positive). -/
theorem C53_melts_run_is_empty (env : Env ℝ) (data : Json ℝ) (m : Models ℝ) (h : factory env data = .ok m)
    (c : Choice) (hc : Selects data c) (hy : c.cryst = "melts") (g : Integrator ℝ) (hg : g.models = m)
    (n : Nat) (w w' : World ℝ) (hw : w.finished = false) (hrun : runLoop g n w = some (.ok (), w')) :
    w'.log = w.log ∧ w'.st.pos = w.st.pos ∧ ∃ v x, m.lava.meanVelocity w.terrain w.st = .ok (v, x) ∧ v ≤ 0 := by
  obtain ⟨f, ts, hm⟩ := C53_melts_has_no_table env data m h c hc hy
  obtain ⟨hfin, k, ws, h0, hacc, hnf, hlast⟩ := runLoop_ok hrun
  have hk : k = 0 := by
    rcases Nat.eq_zero_or_pos k with hk | hk
    · exact hk
    · exact absurd (hacc 0 hk) (C53_melts_never_advances env data m h c hc hy g hg _ _)
  subst hk
  rw [h0] at hlast
  rcases hlast with rfl | ⟨_, hr⟩
  · rw [hw] at hfin; cases hfin
  · cases singleStep_ok hr.2.1 with
    | still v x hv hle hw' =>
      rw [hw']
      refine ⟨rfl, rfl, v, x, by rw [← hg]; exact hv, ?_⟩
      rw [leB_real] at hle; norm_num at hle; exact hle
    | noGrowth v x hv hle d w1 es y facts hphi hw' =>
      exfalso
      have h1 := facts.rate
      rw [hg, hm, C62_no_table] at h1
      injection h1 with h1
      exact facts.real.1 h1.symm
    | accepted v x hv hle d w1 es y facts hphi visc tc f v2 y2 tho0 thob hvisc htc hv2 hf ht0 htb dt strain
      hdt hst s' hs stop hstop hw' =>
      exfalso
      have h1 := facts.rate
      rw [hg, hm, C62_no_table] at h1
      injection h1 with h1
      exact facts.real.1 h1.symm

/-- **C53**. If the flow does start, the first step that reaches the temperature update raises
    ZeroDivisionError. -/
theorem C53_melts_divides_by_zero (env : Env ℝ) (data : Json ℝ) (m : Models ℝ) (h : factory env data = .ok m)
    (c : Choice) (hc : Selects data c) (hy : c.cryst = "melts") (g : Integrator ℝ) (hg : g.models = m)
    (w w1 : World ℝ) (v x width slope heat : ℝ)
    (hv : m.lava.meanVelocity w.terrain w.st = .ok (v, x)) (hpos : 0 < v)
    (hwidth : channelWidth g.massConservation (w.stepEffusion v) w.fluxRate v w.terrain.depth
      (m.lava.density w.st) = .ok width)
    (hslope : w.terrain.slope w.st.pos = .ok slope)
    (hheat : heatBudget m width w.terrain.depth
      { w with st := { w.st with strain := x }, effusionRate := w.stepEffusion v } = (.ok heat, w1)) :
    singleStep g w = (.error .zeroDiv, w1) := by
  obtain ⟨f, ts, hm⟩ := C53_melts_has_no_table env data m h c hc hy
  subst hg
  have hs : (if w.iteration == 0 then
      ({ w with st := { w.st with strain := x },
                effusionRate := v * w.terrain.width * w.terrain.depth } : World ℝ)
      else { w with st := { w.st with strain := x } }) =
      { w with st := { w.st with strain := x }, effusionRate := w.stepEffusion v } := by
    unfold World.stepEffusion; split <;> rfl
  have hcomp : stepCompute g v { w with st := { w.st with strain := x } } = (.error .zeroDiv, w1) := by
    unfold stepCompute setEffusionRate
    rw [PyM.bind_of_ok (PyM.modify_apply _ _)]
    simp only [hs]
    rw [PyM.bind_of_ok (PyM.get_apply _)]
    simp only [density_strain]
    rw [lift_bind hwidth, lift_bind hslope, PyM.bind_of_ok hheat, PyM.bind_of_ok (PyM.get_apply _)]
    have hr : g.models.cryst.rate w1.st = .ok 0 := by rw [hm, C62_no_table]
    rw [lift_bind hr]
    refine PyM.bind_of_error ?_
    rw [PyM.lift_apply, mul_zero]
    simp [div_real]
  unfold singleStep
  have hle : leB v 0.0 = false := by
    rw [Bool.eq_false_iff]; simp only [ne_eq, leB_real]; norm_num; exact hpos
  rw [PyM.bind_of_ok (meanVelocityM_forward hv), hle]
  simp only [Bool.false_eq_true, if_false]
  exact PyM.bind_of_error hcomp

end PyFlowGo
