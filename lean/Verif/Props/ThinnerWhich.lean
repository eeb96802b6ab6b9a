import Verif.Props.Thinner
import Verif.Props.ModelOrder
import Verif.Props.FresherConfig
import Verif.Props.HarsherConfig
import Verif.Props.StrongerTemplate
/-
  C134: which lavas are not thicker; the statement for runs; and two runs of the template that meet its hypotheses.
-/
set_option linter.unusedSectionVars false
namespace PyFlowGo
open Spec

theorem same_strength {x0 Ts : ℝ} {l l' : Lava ℝ} (h : l'.yld = l.yld) :
    ∀ (s : FlowState ℝ) (t t' : ℝ), x0 ≤ s.pos → 0 ≤ s.crystal → Ts < s.temp → l.yieldStrength s = .ok t → l'.yieldStrength s = .ok t' → t ≤ t' := by
  intro s t t' _ _ _ h1 h2
  have h1 : l.yld.strength s = .ok t := h1
  have h2 : l'.yld.strength s = .ok t' := h2
  rw [h, h1, Except.ok.injEq] at h2
  exact h2.le

/-- **C134**, a melt that is nowhere more viscous makes a lava that is nowhere thicker. -/
theorem C134_melt (x0 Ts : ℝ) (l : Lava ℝ) (melt' : MeltModel ℝ) (hr : RelSensible x0 Ts l.rel) (hb : BubSensible x0 Ts l.rel l.bub)
    (h : ∀ (s : FlowState ℝ) (eta eta' : ℝ), Ts < s.temp → l.melt.viscosity s = .ok eta → melt'.viscosity s = .ok eta' → eta ≤ eta') :
    NotThicker Ts x0 l { l with melt := melt' } := by
  refine ⟨fun s _ _ _ h1 h2 => ⟨h1, h2⟩, fun s mu mu' hx h0 hT hc hp h1 h2 => ?_, same_strength rfl⟩
  obtain ⟨a, b, c, ha, hb1, hc1, rfl⟩ := (C33_bulk_is_product _ s mu).mp h1
  obtain ⟨a', b', c', ha', hb2, hc2, rfl⟩ := (C33_bulk_is_product _ s mu').mp h2
  dsimp only at ha' hb2 hc2
  obtain ⟨b0, k1, k2⟩ := rel_total x0 Ts _ hr s hx h0 hT hc hp
  obtain ⟨c0, k3, k4⟩ := bub_total x0 Ts _ _ hb s hx hT ⟨b0, k1⟩
  rw [k1] at hb1 hb2
  rw [k3] at hc1 hc2
  cases hb1; cases hb2; cases hc1; cases hc2
  have := h s a a' hT ha ha'
  gcongr

/-- **C134**, which melts. The basic law with a smaller viscosity at the eruption temperature; the law of Shaw with a smaller slope (below 6666 K, at which its curves cross);
    the Vogel-Fulcher-Tammann law with smaller constants A and B (above its temperature C). -/
theorem C134_which_melts (Ts : ℝ) (s : FlowState ℝ) (hT : Ts < s.temp) (eta eta' : ℝ) :
    (∀ e e' te, e ≤ e' → (MeltModel.basic e te).viscosity s = .ok eta → (MeltModel.basic e' te).viscosity s = .ok eta' → eta ≤ eta') ∧
    (∀ k k', 0 < s.temp → s.temp ≤ 6666 → k ≤ k' → (MeltModel.shaw k).viscosity s = .ok eta → (MeltModel.shaw k').viscosity s = .ok eta' → eta ≤ eta') ∧
    (∀ a a' b b' c, c ≤ Ts → a ≤ a' → b ≤ b' → (MeltModel.vft a b c).viscosity s = .ok eta → (MeltModel.vft a' b' c).viscosity s = .ok eta' → eta ≤ eta') := by
  obtain ⟨l1, l2, l3⟩ := C28_melt_laws s
  refine ⟨fun e e' te h h1 h2 => ?_, fun k k' h0 h6 h h1 h2 => ?_, fun a a' b b' c hc ha hb h1 h2 => ?_⟩
  · rw [l1, Except.ok.injEq] at h1 h2
    rw [← h1, ← h2]
    unfold meltBasic
    gcongr
  · rw [l2, if_neg h0.ne', Except.ok.injEq] at h1 h2
    rw [← h1, ← h2]
    unfold meltShaw
    apply Real.rpow_le_rpow_of_exponent_le (by norm_num)
    have : 1.5 ≤ 10000 / s.temp := by rw [le_div_iff₀ h0]; linarith
    have := mul_le_mul_of_nonneg_right h (sub_nonneg.mpr this)
    have : (k * (10000 / s.temp) - 1.5 * k - 6.4) ≤ (k' * (10000 / s.temp) - 1.5 * k' - 6.4) := by linarith
    gcongr
  · have hne : s.temp ≠ c := by intro e; linarith
    rw [l3, if_neg hne, Except.ok.injEq] at h1 h2
    rw [← h1, ← h2]
    unfold meltVft
    apply Real.rpow_le_rpow_of_exponent_le (by norm_num)
    have : 0 < s.temp - c := by linarith
    gcongr

/-- **C134**, which crystal laws: the three laws of Phan-Thien and Pham on the same vesicles, in the order of C133. -/
theorem C134_phan_thien_pham (x0 Ts : ℝ) (l : Lava ℝ) (ves : VesicleModel ℝ) (hv : VesiclesWithin x0 ves) (hpos : ∀ s : FlowState ℝ, x0 ≤ s.pos → 0 < ves.fraction s)
    (hm : MeltAbove Ts l.melt) (hn : ∀ a b c d e, l.bub ≠ .mader a b c d e) (hb : BubSensible x0 Ts (.ptp3 ves) l.bub) :
    NotThicker Ts x0 { l with rel := .ptp3 ves } { l with rel := .ptp2 ves } ∧ NotThicker Ts x0 { l with rel := .ptp2 ves } { l with rel := .ptp1 ves } := by
  have key : ∀ s : FlowState ℝ, x0 ≤ s.pos → 0 ≤ s.crystal → (RelModel.ptp1 ves).notCompatible s = .ok false → ¬ AtPacking s (.ptp1 ves) →
      s.crystal + ves.fraction s < 1 ∧ Spec.bubVesicles s l.bub < 1 := by
    intro s hx h0 hc hp
    have hc : (Except.ok (ltB (1.0 - ves.fraction s) s.crystal) : Except Err Bool) = .ok false := hc
    rw [Except.ok.injEq, ← Bool.not_eq_true, ltB_real, one_lit, not_lt] at hc
    have hp : ¬ s.crystal = 1 - ves.fraction s := hp
    refine ⟨by rcases hc.lt_or_eq with h | h; linarith; exact absurd h hp, ?_⟩
    cases hbe : l.bub with
    | no => unfold Spec.bubVesicles; norm_num
    | rigid v => rw [hbe] at hb; exact (hb s hx).2
    | defo v => rw [hbe] at hb; exact (hb s hx).2
    | mader a b c d e => exact absurd hbe (hn _ _ _ _ _)
  constructor
  · refine ⟨fun s _ _ _ h1 h2 => ⟨h1, h2⟩, fun s mu mu' hx h0 hT hc hp h1 h2 => ?_, same_strength rfl⟩
    obtain ⟨k1, k2⟩ := key s hx h0 hc hp
    have kv := hpos s hx
    obtain ⟨r1, r2, r3, e1, e2, e3, o0, o1, o2, _⟩ := C133_order ves s h0 kv.le (by linarith) k1
    exact (bulk_swap l _ _ s hm.1 k2 e2 e3 o0 h2 h1).2.1 o1
  · refine ⟨fun s _ _ _ h1 h2 => ⟨h1, h2⟩, fun s mu mu' hx h0 hT hc hp h1 h2 => ?_, same_strength rfl⟩
    obtain ⟨k1, k2⟩ := key s hx h0 hc hp
    have kv := hpos s hx
    obtain ⟨r1, r2, r3, e1, e2, e3, o0, o1, o2, _⟩ := C133_order ves s h0 kv.le (by linarith) k1
    exact (bulk_swap l _ _ s hm.1 k2 e1 e2 (o0.trans o1) h2 h1).2.1 o2

/-- **C134**, which bubble laws: deformable bubbles make the lava thinner than no bubble law, and rigid bubbles thicker. -/
theorem C134_bubbles (x0 Ts : ℝ) (l : Lava ℝ) (ves : VesicleModel ℝ) (hv : VesiclesWithin x0 ves) (hm : MeltAbove Ts l.melt) (hr : RelSensible x0 Ts l.rel) :
    NotThicker Ts x0 { l with bub := .defo ves } { l with bub := .no } ∧ NotThicker Ts x0 { l with bub := .no } { l with bub := .rigid ves } := by
  have key : ∀ (B B' : BubModel ℝ) (s : FlowState ℝ) (mu mu' : ℝ), x0 ≤ s.pos → 0 ≤ s.crystal → Ts < s.temp → l.rel.notCompatible s = .ok false → ¬ AtPacking s l.rel →
      ({ l with bub := B } : Lava ℝ).bulkViscosity s = .ok mu → ({ l with bub := B' } : Lava ℝ).bulkViscosity s = .ok mu' →
      (∀ c c', B.relative s = .ok c → B'.relative s = .ok c' → c ≤ c') → mu ≤ mu' := by
    intro B B' s mu mu' hx h0 hT hc hp h1 h2 hle
    obtain ⟨a, b, c, ha, hb1, hc1, rfl⟩ := (C33_bulk_is_product _ s mu).mp h1
    obtain ⟨a', b', c', ha', hb2, hc2, rfl⟩ := (C33_bulk_is_product _ s mu').mp h2
    dsimp only at ha hb1 hc1 ha' hb2 hc2
    obtain ⟨a0, k3, k4⟩ := C28_melt_positive _ hm.1 s (hm.2 _ hT)
    obtain ⟨b0, k1, k2⟩ := rel_total x0 Ts _ hr s hx h0 hT hc hp
    rw [k1] at hb1 hb2
    rw [k3] at ha ha'
    cases hb1; cases hb2; cases ha; cases ha'
    have := hle c c' hc1 hc2
    gcongr
  constructor
  · refine ⟨fun s _ _ _ h1 h2 => ⟨h1, h2⟩, fun s mu mu' hx h0 hT hc hp h1 h2 => key _ _ s mu mu' hx h0 hT hc hp h1 h2 fun c c' e e' => ?_, same_strength rfl⟩
    obtain ⟨q0, q1⟩ := hv s hx
    obtain ⟨l1, _, l3⟩ := C31_bubble_laws ves s q1
    rw [l3, Except.ok.injEq] at e
    rw [l1, Except.ok.injEq] at e'
    rw [← e, ← e']
    unfold bubblesDeformable
    exact Real.rpow_le_one (by linarith) (by linarith) (by norm_num)
  · refine ⟨fun s _ _ _ h1 h2 => ⟨h1, h2⟩, fun s mu mu' hx h0 hT hc hp h1 h2 => key _ _ s mu mu' hx h0 hT hc hp h1 h2 fun c c' e e' => ?_, same_strength rfl⟩
    obtain ⟨q0, q1⟩ := hv s hx
    obtain ⟨l1, l2, _⟩ := C31_bubble_laws ves s q1
    rw [l1, Except.ok.injEq] at e
    rw [l2, Except.ok.injEq] at e'
    rw [← e, ← e']
    unfold bubblesRigid
    first
      | exact Real.one_le_rpow_of_pos_of_le_one_of_nonpos (by linarith) (by linarith) (by norm_num)
      | (rw [le_div_iff₀ (by linarith)]; linarith)
      | exact (one_le_inv₀ (by linarith)).mpr (by linarith)

/-- **C134**, which yield strengths. The laws of Dragoni and Ryerson alone give no more than their sum, and the term of Dragoni grows with its reference temperature (the eruption temperature of
    the basic law, the liquidus of the other). -/
theorem C134_yield (x0 Ts : ℝ) (l : Lava ℝ) (te te' : ℝ) (h : te ≤ te') :
    NotThicker Ts x0 { l with yld := .ryerson } { l with yld := .basic te } ∧
    NotThicker Ts x0 { l with yld := .ryerson } { l with yld := .dragoni te } ∧
    NotThicker Ts x0 { l with yld := .dragoniAlone te } { l with yld := .dragoni te } ∧
    NotThicker Ts x0 { l with yld := .dragoniAlone te } { l with yld := .dragoniAlone te' } ∧
    NotThicker Ts x0 { l with yld := .dragoni te } { l with yld := .dragoni te' } ∧
    NotThicker Ts x0 { l with yld := .basic te } { l with yld := .basic te' } := by
  have key : ∀ y y' : YieldModel ℝ, (∀ s : FlowState ℝ, 0 ≤ s.crystal → yieldLaw s y ≤ yieldLaw s y') → NotThicker Ts x0 { l with yld := y } { l with yld := y' } := by
    intro y y' hy
    refine ⟨fun s _ _ _ h1 h2 => ⟨h1, h2⟩, fun s mu mu' _ _ _ _ _ h1 h2 => ?_, fun s t t' _ h0 _ h1 h2 => ?_⟩
    · have h1 : l.bulkViscosity s = .ok mu := h1
      have h2 : l.bulkViscosity s = .ok mu' := h2
      rw [h1, Except.ok.injEq] at h2
      exact h2.le
    · have h1 : y.strength s = .ok t := h1
      have h2 : y'.strength s = .ok t' := h2
      rw [C34_yield_laws _ _ h0, Except.ok.injEq] at h1 h2
      rw [← h1, ← h2]
      exact hy s h0
  have d0 : ∀ (s : FlowState ℝ) (t : ℝ), 0 ≤ yieldDragoni t s.temp := fun s t => by unfold yieldDragoni; positivity
  have r0 : ∀ s : FlowState ℝ, 0 ≤ s.crystal → 0 ≤ yieldRyerson s.crystal := fun s hs => by unfold yieldRyerson; positivity
  have dm : ∀ s : FlowState ℝ, yieldDragoni te s.temp ≤ yieldDragoni te' s.temp := fun s => by unfold yieldDragoni; gcongr
  refine ⟨key _ _ fun s hs => ?_, key _ _ fun s hs => ?_, key _ _ fun s hs => ?_, key _ _ fun s hs => ?_, key _ _ fun s hs => ?_, key _ _ fun s hs => ?_⟩ <;> simp only [yieldLaw]
  · linarith [d0 s te]
  · linarith [d0 s te]
  · linarith [r0 s hs]
  · exact dm s
  · linarith [dm s]
  · linarith [dm s]

/-- **C134** on the runs of two configuration files whose set-ups differ in the viscosity and yield-strength models of the lava only, in a channel whose depth is configured (an effusion rate of zero). -/
theorem C134_run (n n' : Nat) (env : Env ℝ) (jsonFile folder : String) (p p' : Proc ℝ)
    (d d' : Json ℝ) (hd : lookup p.json (env.canon jsonFile) = some d) (hd' : lookup p'.json (env.canon jsonFile) = some d') (hlog : p.log = []) (hlog' : p'.log = [])
    (pr pr' : Prepared ℝ) (hprep : prepare env d [] = .ok pr) (hprep' : prepare env d' [] = .ok pr')
    (melt : MeltModel ℝ) (rel : RelModel ℝ) (bub : BubModel ℝ) (yld : YieldModel ℝ) (hg' : pr'.integrator = withRheology pr.integrator melt rel bub yld)
    (hT : pr'.world.terrain = pr.world.terrain) (hsame : SameVent pr.world.st pr'.world.st)
    (hrate : pr.world.terrain.effusionRateInit = 0) (hmass : pr.integrator.massConservation = false)
    (ha : Sensible pr.integrator pr.world.terrain pr.world.st.pos) (hb : Sensible pr'.integrator pr.world.terrain pr.world.st.pos)
    (r : ℝ) (he : Everyday pr.integrator pr.world.st.pos r) (hn' : NoStrainRate pr'.integrator.models.lava)
    (hthin : NotThicker pr.integrator.models.cryst.solidTemperature pr.world.st.pos pr.integrator.models.lava pr'.integrator.models.lava)
    (hv : AtVent pr'.integrator pr'.world) (hvent : pr'.integrator.models.lava.yieldNotCompatible pr'.world.terrain pr'.world.st = .ok false)
    (q q' : Proc ℝ) (hrun : run n env jsonFile folder p = some (.ok (), q)) (hrun' : run n' env jsonFile folder p' = some (.ok (), q'))
    (hsmall : StepIsSmall pr.integrator pr.world.terrain.depth (pr.world.st.temp - pr.integrator.models.lava.buffer) r q.log) :
    (∀ x T T', BothShow q.log q'.log "core_temperature" x T T' → T' ≤ T) ∧
    (∀ x phi phi', BothShow q.log q'.log "crystal_fraction" x phi phi' → phi ≤ phi') ∧
    (∀ x v v', BothShow q.log q'.log "mean_velocity" x v v' → v' ≤ v) ∧
    ((∀ x y, loggedNum q.log x "heat_budget" = some y → 0 < y) → ∀ x, CompleteRow q'.log x → CompleteRow q.log x) := by
  obtain ⟨_, _, _, f4, f5, f6, _⟩ := prepared_facts hprep
  obtain ⟨_, _, _, g4, g5, g6, _⟩ := prepared_facts hprep'
  obtain ⟨w, hsim, hql⟩ := run_log hd (by rw [hlog]; exact hprep) hrun
  obtain ⟨w', hsim', hql'⟩ := run_log hd' (by rw [hlog']; exact hprep') hrun'
  rw [open_rate _ _ _ _ hrate] at hsim
  rw [open_rate _ _ _ _ (by rw [hT]; exact hrate)] at hsim'
  rw [hg'] at hb hn' hthin hv hsim' hvent
  rw [hql] at hsmall
  rw [hql, hql']
  obtain ⟨c1, c2, c3, c4⟩ := C134_sensible pr.integrator melt rel bub yld pr.world.st.pos r n n' pr.world pr'.world w w' ha hb he hn' hthin hT hv le_rfl hsame f4 g4 f5 g5
    hvent (fun h => by rw [hmass] at h; cases h) hsim hsim' hsmall
  exact ⟨c1, c2, c3, fun h => (c4 f6 h).2⟩

/-- The lava of the template with 64% vesicles: the two chains of C134 hold of it, and none of the lavas is refused at the vent. -/
example : NotThicker 1237.15 0 { templateModels.lava with rel := .ptp3 (.constant 0.64) } { templateModels.lava with rel := .ptp2 (.constant 0.64) } ∧
    NotThicker 1237.15 0 { templateModels.lava with rel := .ptp2 (.constant 0.64) } { templateModels.lava with rel := .ptp1 (.constant 0.64) } ∧
    NotThicker 1237.15 0 { templateModels.lava with bub := .defo (.constant 0.64) } { templateModels.lava with bub := .no } ∧
    NotThicker 1237.15 0 { templateModels.lava with bub := .no } { templateModels.lava with bub := .rigid (.constant 0.64) } ∧
    (RelModel.ptp1 (.constant 0.64)).notCompatible (⟨0.104, 1387.15, 0, 1, 0⟩ : FlowState ℝ) = .ok false := by
  have hv : VesiclesWithin 0 (.constant 0.64) := fun s _ => ⟨by show (0 : ℝ) ≤ 0.64; norm_num, by show (0.64 : ℝ) < 1; norm_num⟩
  have hm : MeltAbove 1237.15 templateModels.lava.melt := by
    refine ⟨by show MeltValid (.vft (-4.52) 5558 582.9); first | trivial | norm_num [MeltValid], fun T hT => ?_⟩
    show MeltDomain (.vft (-4.52) 5558 582.9) T
    unfold MeltDomain
    first | linarith | (intro h; linarith)
  obtain ⟨a, b⟩ := C134_phan_thien_pham 0 1237.15 templateModels.lava (.constant 0.64) hv (fun s _ => by show (0 : ℝ) < 0.64; norm_num) hm (fun _ _ _ _ _ h => by cases h) trivial
  obtain ⟨c, d⟩ := C134_bubbles 0 1237.15 templateModels.lava (.constant 0.64) hv hm trivial
  refine ⟨a, b, c, d, ?_⟩
  show (Except.ok (ltB (1.0 - 0.64) (0.104 : ℝ)) : Except Err Bool) = .ok false
  rw [Except.ok.injEq, ← Bool.not_eq_true, ltB_real]
  norm_num

end PyFlowGo
