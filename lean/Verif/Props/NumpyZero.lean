import Verif.Props.Numpy
import Verif.Spec.ZeroRate
import Verif.Proofs.StepForward
import Verif.Proofs.LogShape
/-
  C113: a division by zero with numpy scalars.
-/
set_option linter.unusedSectionVars false
namespace PyFlowGo
open Spec Classical Rounded

section
variable {rd : ℝ → ℝ}

/-- C113, the division: a zero divisor is an exception exactly when neither operand is a numpy scalar. -/
theorem C113_division (a b : Scalar rd) :
    ((∃ e, PyNum.div a b = .error e) ↔ b.val.IsZero ∧ a.np = false ∧ b.np = false) ∧
    (b.val.IsZero → (a.np = true ∨ b.np = true) → ∃ c, PyNum.div a b = .ok c ∧ c.np = true ∧ (c.val = .nan ∨ ∃ s, c.val = .inf s)) := by
  constructor
  · show (∃ e, Scalar.quot a b = .error e) ↔ _
    unfold Scalar.quot
    split
    · rename_i h; exact ⟨fun _ => h, fun _ => ⟨_, rfl⟩⟩
    · rename_i h; exact ⟨fun ⟨e, he⟩ => (by cases he), fun h' => absurd h' h⟩
  · intro hz hn
    refine ⟨⟨a.np || b.np, .quot rd a.val b.val⟩, ?_, by simpa using hn, ?_⟩
    · show Scalar.quot a b = _
      unfold Scalar.quot
      rw [if_neg]
      rintro ⟨_, h1, h2⟩
      rcases hn with h | h <;> simp_all
    · obtain ⟨bn, bv⟩ := b
      obtain ⟨an, av⟩ := a
      dsimp only at hz ⊢
      cases bv with
      | fin t y =>
        have hy : y = 0 := hz
        cases av with
        | fin s x =>
          simp only [Ext.quot, hy, if_true]
          split
          · exact .inl rfl
          · exact .inr ⟨_, rfl⟩
        | inf s => exact .inr ⟨_, rfl⟩
        | nan => exact .inl rfl
      | inf t => exact absurd hz (by simp [Ext.IsZero])
      | nan => exact absurd hz (by simp [Ext.IsZero])

/-- The gradient: `-heat / (+0)` is minus infinity. -/
theorem zero_gradient (h0 : rd 0 = 0) {heat : Rounded rd} {heat' prod' rate' : Scalar rd} {prod : Rounded rd}
    (hh : SameValue heat heat') (hpos : 0 < heat.val) (hp : SameValue prod prod') (hp0 : 0 < prod.val)
    (hr : rate'.val = .fin false 0) (hn : (prod' * rate').np = true) :
    ∃ d, PyNum.div (-heat') (prod' * rate') = .ok d ∧ d.val = .inf true := by
  obtain ⟨s, hs⟩ := hh
  obtain ⟨t, ht⟩ := hp
  have hv : (prod' * rate').val = .fin false 0 := by
    show Ext.mul rd prod'.val rate'.val = _
    rw [ht, hr]
    simp only [Ext.mul, Ext.isNeg, mul_zero, h0, if_true, if_neg hp0.ne']
    simp [hp0.le, not_lt.mpr hp0.le]
  refine ⟨⟨(-heat').np || (prod' * rate').np, .quot rd (-heat').val (prod' * rate').val⟩, ?_, ?_⟩
  · show Scalar.quot _ _ = _
    unfold Scalar.quot
    rw [if_neg]
    rintro ⟨_, _, h⟩
    rw [hn] at h
    cases h
  · have h2 : (-heat').val = .fin (!s) (-heat.val) := by
      show heat'.val.neg = _
      rw [hs]; rfl
    dsimp only
    rw [hv, h2]
    simp only [Ext.quot, if_true, if_neg (neg_ne_zero.mpr hpos.ne'), Ext.isNeg]
    simp [hpos]

theorem usedRate_step {α : Type} [Add α] [Sub α] [Mul α] [Neg α] [OfScientific α] [PyNum α] (w : World α) (v : α) :
    usedRate w v = w.stepEffusion v := rfl

theorem usedRate_same {w : World (Rounded rd)} {w' : World (Scalar rd)} (hw : SameWorld SameValue w w') {v : Rounded rd}
    {v' : Scalar rd} (hv : SameValue v v') : SameValue (usedRate w v) (usedRate w' v') := by
  unfold usedRate
  rw [← hw.iteration]
  split
  · exact NumRel.mul (NumRel.mul hv hw.terrain.width) hw.terrain.depth
  · exact hw.rate

/-- On Python floats the step raises `ZeroDivisionError`. -/
theorem zero_rate_floats (h0 : rd 0 = 0) {g : Integrator (Rounded rd)} {w w1 : World (Rounded rd)} {v heat : Rounded rd}
    (h : AllButGradient g w v heat w1) (hv : 0 < v.val) {rate : Rounded rd} (hr : g.models.cryst.rate w.st = .ok rate)
    (hz : rate.val = 0) : singleStep g w = (.error .zeroDiv, w1) := by
  obtain ⟨x, width, slope, hvel, hwid, hsl, hheat⟩ := h.budget
  have hs : (if w.iteration == 0 then
      ({ w with st := { w.st with strain := x },
                effusionRate := v * w.terrain.width * w.terrain.depth } : World (Rounded rd))
      else { w with st := { w.st with strain := x } }) =
      { w with st := { w.st with strain := x }, effusionRate := usedRate w v } := by
    unfold usedRate; split <;> rfl
  obtain ⟨y, es0, ht, _, _⟩ := heatBudget_ok hheat
  have hst : w1.st = { w.st with strain := y } := by rw [ht]; rfl
  have hcomp : stepCompute g v { w with st := { w.st with strain := x } } = (.error .zeroDiv, w1) := by
    unfold stepCompute setEffusionRate
    rw [PyM.bind_of_ok (PyM.modify_apply _ _)]
    simp only [hs]
    rw [PyM.bind_of_ok (PyM.get_apply _)]
    simp only [density_strain]
    rw [lift_bind hwid, lift_bind hsl, PyM.bind_of_ok hheat, PyM.bind_of_ok (PyM.get_apply _)]
    rw [hst, crystRate_strain, lift_bind hr]
    refine PyM.bind_of_error ?_
    rw [PyM.lift_apply]
    have : ∀ p q : Rounded rd, val (q * rate) = 0 → PyNum.div p (q * rate) = .error .zeroDiv := by
      intro p q hq
      show (if val (q * rate) = 0 then Except.error Err.zeroDiv else _) = _
      rw [if_pos hq]
    rw [this]
    show rd (_ * rate.val) = 0
    rw [hz, mul_zero, h0]
  unfold singleStep
  have hle : leB v 0.0 = false := by
    show decide (v.val ≤ rd _) = false
    rw [decide_eq_false_iff_not, not_le]
    have : (OfScientific.ofScientific 0 true 1 : ℝ) = 0 := by norm_num
    rw [this, h0]
    exact hv
  rw [PyM.bind_of_ok (meanVelocityM_forward hvel), hle]
  simp only [Bool.false_eq_true, if_false]
  rw [PyM.bind_of_error hcomp]

/-- C113.  A step in which the lava moves and loses heat and the crystallisation rate is zero, everything else being computed
    without an exception.  On Python floats it raises `ZeroDivisionError`.  In the program, once the depth and the effusion
    rate are numpy scalars (as after the search for the depth), it raises nothing: the temperature becomes minus infinity and
    the crystal fraction not-a-number, the step counts as an advance of the flow, its row shows `dtemp_dx` minus infinity and
    `dphi_dx` not-a-number, and the run has ended. -/
theorem C113_zero_rate (h0 : rd 0 = 0) {g : Integrator (Rounded rd)} {g' : Integrator (Scalar rd)}
    (hg : SameIntegrator SameValue g g') {w w1 : World (Rounded rd)} {w' : World (Scalar rd)} (hw : SameWorld SameValue w w')
    {v heat : Rounded rd} (h : AllButGradient g w v heat w1) (hv : 0 < v.val) (hheat : 0 < heat.val)
    (hprod : 0 < val (usedRate w v * g.models.lava.density w.st * g.models.lava.latentHeat)) (hdx : 0 < g.dx.val)
    {rate' : Scalar rd} (hr : g'.models.cryst.rate w'.st = .ok rate') (hz : rate'.val = .fin false 0)
    {rate : Rounded rd} (hr0 : g.models.cryst.rate w.st = .ok rate)
    (hn : w'.terrain.depth.np = true) (hn2 : w'.iteration = 0 ∨ w'.effusionRate.np = true) :
    singleStep g w = (.error .zeroDiv, w1) ∧
    ∃ u, singleStep g' w' = (.ok (), u) ∧ u.finished = true ∧ u.iteration = w'.iteration + 1 ∧
      u.st.temp.val = .inf true ∧ u.st.crystal.val = .nan ∧
      ∃ es d p, u.log = w'.log.addAll (.num w'.st.pos) es ∧ ("dtemp_dx", .num d) ∈ es ∧ d.val = .inf true ∧
        ("dphi_dx", .num p) ∈ es ∧ p.val = .nan ∧ ("core_temperature", .num w'.st.temp) ∈ es := by
  have hrz : rate.val = 0 := by
    obtain ⟨r, e, s, hs⟩ := rate_same hg.models.cryst hw.st rate hr0
    rw [hr] at e
    cases e
    rw [hz] at hs
    injection hs with _ hs
    exact hs.symm
  refine ⟨zero_rate_floats h0 h hv hr0 hrz, ?_⟩
  obtain ⟨x, width, slope, hvel, hwid, hsl, hh⟩ := h.budget
  obtain ⟨⟨v', x'⟩, hvel', hv', hx'⟩ := velocity_same hg.models.lava hw.terrain hw.st _ hvel
  dsimp only at hv' hx'
  have hE := usedRate_same hw hv'
  obtain ⟨width', hwid', hw2⟩ := widthOf_same g.massConservation hE hw.flux hv' hw.terrain.depth
    (density_same hg.models.lava hw.st) width hwid
  rw [hg.mass] at hwid'
  obtain ⟨slope', hsl', _⟩ := slope_same hw.terrain hw.st.pos slope hsl
  obtain ⟨heat', w1', hh', hheat', hw1⟩ := budget_same hg.models hw2 hw.terrain.depth
    { w with st := { w.st with strain := x }, effusionRate := usedRate w v }
    { w' with st := { w'.st with strain := x' }, effusionRate := usedRate w' v' }
    { hw with st := { hw.st with strain := hx' }, rate := hE } heat w1 hh
  obtain ⟨d, hd, hdv⟩ := zero_gradient h0 hheat' hheat
    (NumRel.mul (NumRel.mul hE (density_same hg.models.lava hw.st)) hg.models.lava.latent) hprod hz (by
      have hu : (usedRate w' v').np = true := by
        unfold usedRate
        split
        · show ((v' * w'.terrain.width).np || w'.terrain.depth.np) = true
          rw [hn, Bool.or_true]
        · rename_i hi
          rcases hn2 with h | h
          · rw [h] at hi; exact absurd rfl hi
          · exact h
      show ((((usedRate w' v').np || _) || _) || _) = true
      rw [hu]; rfl)
  obtain ⟨visc, hvisc⟩ := h.viscosity
  obtain ⟨visc', hvisc', _⟩ := viscosity_same hg.models.lava hw1.st visc hvisc
  obtain ⟨tc, htc⟩ := h.crust
  obtain ⟨tc', htc', _⟩ := crust_same hg.models.crust hw1.st tc htc
  obtain ⟨⟨v2, y2⟩, hv2⟩ := h.velocity
  obtain ⟨⟨v2', y2'⟩, hv2', _⟩ := velocity_same hg.models.lava hw1.terrain hw1.st _ hv2
  obtain ⟨t0, ht0⟩ := h.yield
  obtain ⟨t0', ht0', _⟩ := yield_same hg.models.lava.yld hw1.st t0 ht0
  obtain ⟨tb, htb⟩ := h.basal
  obtain ⟨tb', htb', _⟩ := basal_same hg.models.lava hw1.terrain hw1.st tb htb
  obtain ⟨dt, hdt⟩ := h.time
  obtain ⟨dt', hdt', _⟩ := NumRel.div (R := SameValue) hg.dx hv' dt hdt
  obtain ⟨st, hst⟩ := h.strain
  obtain ⟨st', hst', _⟩ := NumRel.div (R := SameValue) (NumRel.mul (NumRel.lit _ _ _) hv') hw.terrain.depth st hst
  obtain ⟨sdx, hdx'⟩ := hg.dx
  have hmul : (d * g'.dx).val = .inf true := by
    show Ext.mul rd d.val g'.dx.val = _
    rw [hdv, hdx']
    simp only [Ext.mul, if_neg hdx.ne', Ext.isNeg]
    simp [not_lt.mpr hdx.le]
  have htemp : (w'.st.temp + d * g'.dx).val = .inf true := by
    obtain ⟨s, hs⟩ := hw.st.temp
    show Ext.add rd w'.st.temp.val (d * g'.dx).val = _
    rw [hmul, hs]; rfl
  have hphi0 : (d * -rate').val = .nan := by
    show Ext.mul rd d.val rate'.val.neg = _
    rw [hdv, hz]
    simp [Ext.mul, Ext.neg]
  have hphi : (w'.st.crystal + d * -rate' * g'.dx).val = .nan := by
    show Ext.add rd w'.st.crystal.val (Ext.mul rd (d * -rate').val g'.dx.val) = _
    rw [hphi0]
    cases g'.dx.val <;> cases w'.st.crystal.val <;> rfl
  have hle : leB v' 0.0 = false := by
    have h1 : leB v (0.0 : Rounded rd) = leB v' 0.0 := NumRel.le hv' (NumRel.lit _ _ _)
    rw [← h1]
    show decide (v.val ≤ rd _) = false
    rw [decide_eq_false_iff_not, not_le]
    have : (OfScientific.ofScientific 0 true 1 : ℝ) = 0 := by norm_num
    rw [this, h0]
    exact hv
  have hstop : leB (w'.st.temp + d * g'.dx) g'.models.cryst.solidTemperature = true := by
    show Ext.le _ _ = true
    have hsol : ∃ s x, g'.models.cryst.solidTemperature.val = .fin s x := by
      have := hg.models.cryst
      generalize g.models.cryst = c at this
      generalize g'.models.cryst = c' at this
      cases this with
      | basic h1 h2 h3 h4 => obtain ⟨s, h⟩ := h3; exact ⟨_, _, h⟩
      | bimodal h1 h2 h3 h4 h5 => obtain ⟨s, h⟩ := h5; exact ⟨_, _, h⟩
      | bimodalFTemp h1 h2 h3 h4 h5 => obtain ⟨s, h⟩ := h5; exact ⟨_, _, h⟩
      | melts h1 h2 h3 => obtain ⟨s, h⟩ := h2; exact ⟨_, _, h⟩
    obtain ⟨s, y, hs⟩ := hsol
    rw [htemp, hs]; rfl
  obtain ⟨u, hu, hit, hfin, _, hust⟩ := singleStep_forward g' w' v' x' width' slope' heat' rate' d w1' visc' tc' v2' y2' t0' tb' dt' st'
    true hvel' hle hwid' hsl' hh' hr hd
    (by show Ext.le _ _ = false; rw [hphi]; rfl)
    hvisc' htc' hv2' ht0' htb' hdt' hst'
    (by unfold stopTest; rw [if_pos hstop])
  refine ⟨u, hu, by rw [hfin, Bool.or_true], hit, by rw [hust]; exact htemp, by rw [hust]; exact hphi, ?_⟩
  cases singleStep_ok hu with
  | still v x hv hle hw => exfalso; rw [hw] at hit; simp at hit
  | noGrowth v x hv hle d w1 es y facts hphi hw =>
    exfalso; rw [hw, facts.touched] at hit; simp [World.touched] at hit
  | accepted v3 x3 hv3 hle3 D W1 es y facts hphi3 visc3 tc3 f3 v23 y23 tho03 thob3 hvisc3 htc3 hv23 hf3 ht03 htb3 dt3 strain3
      hdt3 hst3 s3 hs3 stop3 hstop3 hw3 =>
    have e1 : v3 = v' ∧ x3 = x' := by rw [hvel'] at hv3; cases hv3; exact ⟨rfl, rfl⟩
    obtain ⟨rfl, rfl⟩ := e1
    have e2 : D.width = width' := by
      have := facts.width
      rw [← usedRate_step, hwid'] at this
      exact (Except.ok.inj this).symm
    have e3 : D.heat = heat' := by
      have := facts.heat
      rw [e2, ← usedRate_step, hh'] at this
      cases this; rfl
    have e4 : D.rate = rate' := by
      have := facts.rate
      rw [hr] at this
      exact (Except.ok.inj this).symm
    have e5 : D.dtempDx = d := by
      have := facts.dtemp
      rw [e3, e4, ← usedRate_step, hd] at this
      exact (Except.ok.inj this).symm
    refine ⟨_, d, D.dphiDx, by rw [hw3], ?_, hdv, ?_, ?_, ?_⟩
    · rw [← e5]; simp [stepEntries]
    · simp [stepEntries]
    · rw [facts.dphi, e4, e5]; exact hphi0
    · have : W1.st.temp = w'.st.temp := by rw [facts.touched]; rfl
      rw [← this]; simp [stepEntries]

/-- C113, the whole run: it ends there, without an exception, and what is written is the log with that row. -/
theorem C113_run_ends (h0 : rd 0 = 0) {g : Integrator (Rounded rd)} {g' : Integrator (Scalar rd)}
    (hg : SameIntegrator SameValue g g') {w w1 : World (Rounded rd)} {w' : World (Scalar rd)} (hw : SameWorld SameValue w w')
    {v heat : Rounded rd} (h : AllButGradient g w v heat w1) (hv : 0 < v.val) (hheat : 0 < heat.val)
    (hprod : 0 < val (usedRate w v * g.models.lava.density w.st * g.models.lava.latentHeat)) (hdx : 0 < g.dx.val)
    {rate' : Scalar rd} (hr : g'.models.cryst.rate w'.st = .ok rate') (hz : rate'.val = .fin false 0)
    {rate : Rounded rd} (hr0 : g.models.cryst.rate w.st = .ok rate)
    (hn : w'.terrain.depth.np = true) (hn2 : w'.iteration = 0 ∨ w'.effusionRate.np = true)
    (hfin : w.finished = false) (n : Nat) :
    runLoop g (n + 1) w = some (.error .zeroDiv, w1) ∧
    ∃ u, runLoop g' (n + 1) w' = some (.ok (), u) ∧ u.iteration = w'.iteration + 1 ∧ u.st.temp.val = .inf true ∧
      u.st.crystal.val = .nan := by
  obtain ⟨a, u, b, c, d, e, f, _⟩ := C113_zero_rate h0 hg hw h hv hheat hprod hdx hr hz hr0 hn hn2
  refine ⟨?_, u, ?_, d, e, f⟩
  · simp only [runLoop, hfin, a]; rfl
  · have hf' : w'.finished = false := by rw [← hw.finished]; exact hfin
    simp only [runLoop, hf', b]
    cases n <;> simp [runLoop, c]

/-- Without a table the rate of the melts model is minus zero. -/
theorem melts_minus_zero (h0 : rd 0 = 0) (h2 : 0 < rd 2) (f ts : Scalar rd) (x : Rounded rd) (hf : SameValue x f) (s : FlowState (Scalar rd)) :
    ∃ r, (CrystModel.melts f ts none).rate s = .ok r ∧ r.val = .fin true 0 := by
  obtain ⟨t, ht⟩ := hf
  have hsub : (f - f).val = .fin false 0 := by
    show Ext.add rd f.val f.val.neg = _
    rw [ht]
    show Ext.fin (if x.val = 0 ∧ -x.val = 0 then t && !t else decide (x.val + -x.val < 0)) (rd (x.val + -x.val)) = _
    rw [add_neg_cancel, h0]
    simp
  have hneg : (-(f - f)).val = .fin true 0 := by
    show (f - f).val.neg = _
    rw [hsub]
    simp [Ext.neg]
  have htwo : ((2.0 : Scalar rd)).val = .fin false (rd 2) := by
    show Ext.fin (decide ((OfScientific.ofScientific 20 true 1 : ℝ) < 0)) (rd (OfScientific.ofScientific 20 true 1 : ℝ)) = _
    have : (OfScientific.ofScientific 20 true 1 : ℝ) = 2 := by norm_num
    rw [this]
    norm_num
  refine ⟨⟨(-(f - f)).np || (2.0 : Scalar rd).np, .quot rd (-(f - f)).val (2.0 : Scalar rd).val⟩, ?_, ?_⟩
  · simp only [CrystModel.rate, CrystModel.crystalFraction]
    show Scalar.quot (-(f - f)) 2.0 = _
    unfold Scalar.quot
    rw [if_neg]
    rintro ⟨h, _⟩
    rw [htwo] at h
    exact h2.ne' h
  · dsimp only
    rw [hneg, htwo]
    simp only [Ext.quot, if_neg h2.ne', zero_div, h0, Ext.isNeg]
    simp [not_lt.mpr h2.le]

/-- C113, the melts model, which the factory builds without a table: its rate is minus zero, so a step that raises nothing and
    in which the lava moves and loses heat makes the lava infinitely hot; its row shows `dtemp_dx` plus infinity. -/
theorem C113_melts (h0 : rd 0 = 0) (h2 : 0 < rd 2) {g : Integrator (Rounded rd)} {g' : Integrator (Scalar rd)}
    (hg : SameIntegrator SameValue g g') {w w1 : World (Rounded rd)} {w' u : World (Scalar rd)} (hw : SameWorld SameValue w w')
    {v heat : Rounded rd} (h : AllButGradient g w v heat w1) (hv : 0 < v.val) (hheat : 0 < heat.val)
    (hprod : 0 < val (usedRate w v * g.models.lava.density w.st * g.models.lava.latentHeat)) (hdx : 0 < g.dx.val)
    {f ts : Rounded rd} (hc : g.models.cryst = .melts f ts none) (hu : singleStep g' w' = (.ok (), u)) :
    u.iteration = w'.iteration + 1 ∧ u.st.temp.val = .inf false ∧ u.st.crystal.val = .nan ∧
      ∃ es d p, u.log = w'.log.addAll (.num w'.st.pos) es ∧ ("dtemp_dx", .num d) ∈ es ∧ d.val = .inf false ∧
        ("dphi_dx", .num p) ∈ es ∧ p.val = .nan := by
  obtain ⟨x, width, slope, hvel, hwid, hsl, hh⟩ := h.budget
  obtain ⟨⟨v', x'⟩, hvel', hv', hx'⟩ := velocity_same hg.models.lava hw.terrain hw.st _ hvel
  dsimp only at hv' hx'
  have hE := usedRate_same hw hv'
  obtain ⟨width', hwid', hw2⟩ := widthOf_same g.massConservation hE hw.flux hv' hw.terrain.depth
    (density_same hg.models.lava hw.st) width hwid
  rw [hg.mass] at hwid'
  obtain ⟨heat', w1', hh', hheat', hw1⟩ := budget_same hg.models hw2 hw.terrain.depth
    { w with st := { w.st with strain := x }, effusionRate := usedRate w v }
    { w' with st := { w'.st with strain := x' }, effusionRate := usedRate w' v' }
    { hw with st := { hw.st with strain := hx' }, rate := hE } heat w1 hh
  obtain ⟨rate', hr, hz⟩ : ∃ r, g'.models.cryst.rate w'.st = .ok r ∧ r.val = .fin true 0 := by
    have := hg.models.cryst
    rw [hc] at this
    generalize g'.models.cryst = c' at this
    cases this with
    | melts h1 _ h3 => cases h3; exact melts_minus_zero h0 h2 _ _ f h1 _
  have hle : leB v' 0.0 = false := by
    have h1 : leB v (0.0 : Rounded rd) = leB v' 0.0 := NumRel.le hv' (NumRel.lit _ _ _)
    rw [← h1]
    show decide (v.val ≤ rd _) = false
    rw [decide_eq_false_iff_not, not_le]
    have : (OfScientific.ofScientific 0 true 1 : ℝ) = 0 := by norm_num
    rw [this, h0]
    exact hv
  have key : ∀ {v3 x3 : Scalar rd} {D : StepData (Scalar rd)} {W1 es y}, g'.models.lava.meanVelocity w'.terrain w'.st = .ok (v3, x3) →
      StepFacts g' w' v3 x3 D W1 es y → D.dtempDx.val = .inf false ∧ D.dphiDx.val = .nan ∧ D.newTemp.val = .inf false ∧ D.newPhi.val = .nan := by
    intro v3 x3 D W1 es y hv3 facts
    have e1 : v3 = v' ∧ x3 = x' := by rw [hvel'] at hv3; cases hv3; exact ⟨rfl, rfl⟩
    obtain ⟨rfl, rfl⟩ := e1
    have e2 : D.width = width' := by
      have := facts.width
      rw [← usedRate_step, hwid'] at this
      exact (Except.ok.inj this).symm
    have e3 : D.heat = heat' := by
      have := facts.heat
      rw [e2, ← usedRate_step, hh'] at this
      cases this; rfl
    have e4 : D.rate = rate' := by
      have := facts.rate
      rw [hr] at this
      exact (Except.ok.inj this).symm
    have e5 : D.dtempDx.val = .inf false := by
      have hd := facts.dtemp
      rw [e3, e4, ← usedRate_step] at hd
      have hp := NumRel.mul (NumRel.mul hE (density_same hg.models.lava hw.st)) hg.models.lava.latent
      generalize usedRate w' v3 * g'.models.lava.density w'.st * g'.models.lava.latentHeat = P' at hd hp
      generalize usedRate w v * g.models.lava.density w.st * g.models.lava.latentHeat = P at hp hprod
      obtain ⟨t, ht⟩ := hp
      obtain ⟨s, hs⟩ := hheat'
      have hval : (P' * rate').val = .fin true 0 := by
        show Ext.mul rd P'.val rate'.val = _
        rw [ht, hz]
        simp only [Ext.mul, Ext.isNeg, mul_zero, h0, if_true, if_neg hprod.ne']
        simp [not_lt.mpr hprod.le]
      have hn : (-heat').val = .fin (!s) (-heat.val) := by
        show heat'.val.neg = _
        rw [hs]; rfl
      have hd' : Scalar.quot (-heat') (P' * rate') = .ok D.dtempDx := hd
      unfold Scalar.quot at hd'
      split at hd'
      · cases hd'
      · rw [← Except.ok.inj hd']
        dsimp only
        rw [hval, hn]
        simp only [Ext.quot, if_true, if_neg (neg_ne_zero.mpr hheat.ne'), Ext.isNeg]
        simp [hheat]
    have e6 : D.dphiDx.val = .nan := by
      rw [facts.dphi, e4]
      show Ext.mul rd D.dtempDx.val rate'.val.neg = _
      rw [e5, hz]
      simp [Ext.mul, Ext.neg]
    refine ⟨e5, e6, ?_, ?_⟩
    · rw [facts.newTemp]
      obtain ⟨s, hs⟩ := hw.st.temp
      obtain ⟨t, ht⟩ := hg.dx
      show Ext.add rd w'.st.temp.val (Ext.mul rd D.dtempDx.val g'.dx.val) = _
      rw [e5, ht, hs]
      simp only [Ext.mul, if_neg hdx.ne', Ext.isNeg]
      simp [not_lt.mpr hdx.le, Ext.add]
    · rw [facts.newPhi]
      show Ext.add rd w'.st.crystal.val (Ext.mul rd D.dphiDx.val g'.dx.val) = _
      rw [e6]
      cases g'.dx.val <;> cases w'.st.crystal.val <;> rfl
  cases singleStep_ok hu with
  | still v3 x3 hv3 hle3 hw3 => rw [hvel'] at hv3; cases hv3; rw [hle] at hle3; cases hle3
  | noGrowth v3 x3 hv3 hle3 D W1 es y facts hphi hw3 =>
    exfalso
    have : Ext.le D.newPhi.val w'.st.crystal.val = true := hphi
    rw [(key hv3 facts).2.2.2] at this
    cases hx : w'.st.crystal.val <;> rw [hx] at this <;> cases this
  | accepted v3 x3 hv3 hle3 D W1 es y facts hphi3 visc3 tc3 f3 v23 y23 tho03 thob3 hvisc3 htc3 hv23 hf3 ht03 htb3 dt3 strain3
      hdt3 hst3 s3 hs3 stop3 hstop3 hw3 =>
    obtain ⟨k1, k2, k3, k4⟩ := key hv3 facts
    refine ⟨by rw [hw3], by rw [hw3, hs3]; exact k3, by rw [hw3, hs3]; exact k4, _, D.dtempDx, D.dphiDx, by rw [hw3], ?_, k1, ?_, k2⟩
    · simp [stepEntries]
    · simp [stepEntries]

/-- C113: the velocity and the strain rate are never not-a-number: the iteration that computes them does not converge then, and
    raises `RuntimeError`. -/
theorem C113_velocity_is_a_number (l : Lava (Scalar rd)) (t : Terrain (Scalar rd)) (s : FlowState (Scalar rd)) (v x : Scalar rd)
    (h : l.meanVelocity t s = .ok (v, x)) : v.val ≠ .nan ∧ x.val ≠ .nan := by
  unfold Lava.meanVelocity at h
  obtain ⟨t0, _, h⟩ := bind_ok_iff.mp h
  obtain ⟨tb, _, h⟩ := bind_ok_iff.mp h
  revert h
  generalize (if eqB s.strain 0.0 then (1e-8 : Scalar rd) else s.strain) = y
  generalize 50 = n
  intro h
  induction n generalizing y with
  | zero => cases h
  | succ n ih =>
    rw [velocityLoop] at h
    obtain ⟨visc, _, h⟩ := bind_ok_iff.mp h
    obtain ⟨v1, _, h⟩ := bind_ok_iff.mp h
    obtain ⟨x1, hx1, h⟩ := bind_ok_iff.mp h
    dsimp only at h
    split at h
    · rename_i hc
      rw [pure_ok_iff] at h
      cases h
      have hx : x.val ≠ .nan := by
        intro hnan
        have : Ext.le (Ext.add rd x.val y.val.neg).abs (pyMax (1e-2 * PyNum.absv x) 1e-8 : Scalar rd).val = true := hc
        rw [hnan] at this
        have e : (Ext.add rd Ext.nan y.val.neg).abs = .nan := by cases y.val <;> rfl
        rw [e] at this
        cases hb : (pyMax (1e-2 * PyNum.absv x) 1e-8 : Scalar rd).val <;> rw [hb] at this <;> cases this
      refine ⟨fun hnan => hx ?_, hx⟩
      have hd : Scalar.quot (3.0 * v) t.depth = .ok x := hx1
      unfold Scalar.quot at hd
      split at hd
      · cases hd
      · rw [← Except.ok.inj hd]
        show Ext.quot rd (Ext.mul rd _ v.val) _ = .nan
        rw [hnan]
        have e : ∀ a : Ext, Ext.mul rd a .nan = .nan := fun a => by cases a <;> rfl
        rw [e]
        cases t.depth.val <;> rfl
    · exact ih _ h

end

section
variable {α : Type} [Add α] [Sub α] [Mul α] [Neg α] [OfScientific α] [PyNum α]
theorem compute_cryst (m : Models α) (c : CrystModel α) (width depth : α) (f : Flux α) :
    f.compute { m with cryst := c } width depth = f.compute m width depth := by
  cases f <;> rfl
theorem heatBudgetLoop_cryst (m : Models α) (c : CrystModel α) (width depth : α) (l : List (Flux α)) :
    ∀ a, heatBudgetLoop { m with cryst := c } width depth l a = heatBudgetLoop m width depth l a := by
  induction l with
  | nil => intro a; rfl
  | cons f l ih => intro a; simp only [heatBudgetLoop, compute_cryst, ih]
theorem heatBudget_cryst (m : Models α) (c : CrystModel α) (width depth : α) (w : World α) :
    heatBudget { m with cryst := c } width depth w = heatBudget m width depth w := by
  simp only [heatBudget, heatBudgetLoop_cryst]
end

/-- A step that is accepted with some other crystallisation model computes everything but the gradient. -/
theorem allButGradient_of {α : Type} [Add α] [Sub α] [Mul α] [Neg α] [OfScientific α] [PyNum α] {g : Integrator α}
    {c : CrystModel α} {w u : World α}
    (h : AcceptedStep { g with models := { g.models with cryst := c } } w u) :
    ∃ v heat w1 rate d phi, AllButGradient g w v heat w1 ∧ leB v 0.0 = false ∧ c.rate w.st = .ok rate ∧
      PyNum.div (-heat) (usedRate w v * g.models.lava.density w.st * g.models.lava.latentHeat * rate) = .ok d ∧
      phi = w.st.crystal + d * (-rate) * g.dx ∧ leB phi w.st.crystal = false := by
  cases singleStep_ok h.2.1 with
  | still v x hv hle hw => exfalso; have := h.2.2; rw [hw] at this; simp at this
  | noGrowth v x hv hle d w1 es y facts hphi hw =>
    exfalso; have := h.2.2; rw [hw, facts.touched] at this; simp [World.touched] at this
  | accepted v x hv hle d w1 es y facts hphi visc tc f v2 y2 tho0 thob hvisc htc hv2 hf ht0 htb dt strain
      hdt hst s' hs stop hstop hw =>
    have hst1 : w1.st = { w.st with strain := y } := by rw [facts.touched]; rfl
    have hte1 : w1.terrain = w.terrain := by rw [facts.touched]; rfl
    refine ⟨v, d.heat, w1, d.rate, d.dtempDx, d.newPhi, ⟨⟨x, d.width, d.slope, hv, facts.width, facts.slope, ?_⟩, ⟨visc, hvisc⟩, ⟨tc, htc⟩,
      ⟨(v2, y2), by rw [hte1]; exact hv2⟩, ⟨tho0, ?_⟩, ⟨thob, ?_⟩, ⟨dt, hdt⟩, ⟨strain, hst⟩⟩, hle, facts.rate, facts.dtemp, ?_, hphi⟩
    · exact (heatBudget_cryst g.models c d.width w.terrain.depth _).symm.trans facts.heat
    · rw [hst1]; simp only [Lava.yieldStrength, yield_strain]; exact ht0
    · rw [hst1, hte1, basal_strain]; exact htb
    · rw [facts.newPhi, facts.dphi]

/-! ### The example: the lava of the rounded example with crystallisation rates of zero -/

noncomputable def zeroCryst (rd : ℝ → ℝ) : CrystModel (Rounded rd) :=
  .bimodal (exactly 0) (exactly 0) (exactly 0) (exactly 0) (exactly 0)
noncomputable def zeroG (rd : ℝ → ℝ) : Integrator (Rounded rd) :=
  { rfG rd (rfYield rd) false with models := { rfModels rd (rfYield rd) with cryst := zeroCryst rd } }
noncomputable def zeroNp (rd : ℝ → ℝ) : Integrator (Scalar rd) :=
  { npG rd with models := { (npG rd).models with cryst := .bimodal (pyFloat (exactly 0)) (pyFloat (exactly 0)) (pyFloat (exactly 0)) (pyFloat (exactly 0)) (pyFloat (exactly 0)) } }

theorem zero_same {rd : ℝ → ℝ} : SameIntegrator SameValue (zeroG rd) (zeroNp rd) :=
  { np_g with models := { np_g.models with cryst := .bimodal ⟨_, rfl⟩ ⟨_, rfl⟩ ⟨_, rfl⟩ ⟨_, rfl⟩ ⟨_, rfl⟩ } }

theorem zero_reaches {rd : ℝ → ℝ} (D : Decent rd) : ∃ heat w1, AllButGradient (zeroG rd) (rfWorld rd 0) (exactly (rfV rd)) heat w1 ∧ 0 < val heat ∧
    0 < val (usedRate (rfWorld rd 0) (exactly (rfV rd)) * (zeroG rd).models.lava.density (rfWorld rd 0).st * (zeroG rd).models.lava.latentHeat) := by
  obtain ⟨ws, h0, h1, _, _⟩ := rf_run D false 0 (by norm_num) 1 (by norm_num)
  have hacc := h1 0 (by norm_num)
  rw [h0] at hacc
  have hacc' : AcceptedStep { zeroG rd with models := { (zeroG rd).models with cryst := (rfModels rd (rfYield rd)).cryst } } (rfWorld rd 0) (ws 1) := hacc
  obtain ⟨v, heat, w1, rate, d, phi, A, hle, hr, hd, hphi, hgt⟩ := allButGradient_of hacc'
  obtain ⟨t0, ht0, ht1, ht2⟩ := rf_yield D (rfWorld rd 0).st (by show (0 : ℝ) ≤ 1000; norm_num)
  have hT : rd (val (rfWorld rd 0).st.temp) ≠ 0 := by
    have := D.dyadic 1000 0 (by norm_num) (by norm_num) (by norm_num)
    norm_num at this
    show rd 1000 ≠ 0
    rw [this]; norm_num
  have hvel := rf_velocity D (rfYield rd) (rfWorld rd 0).st hT t0 ht0 ht1 ht2
  have hv : v = exactly (rfV rd) := by
    obtain ⟨x, _, _, h, _⟩ := A.budget
    have h2 : (rfLava rd (rfYield rd)).meanVelocity (rfTerrain rd) (rfWorld rd 0).st = .ok (v, x) := h
    rw [hvel] at h2
    cases h2; rfl
  subst hv
  obtain ⟨hv1, _⟩ := rf_v D
  have hvrep : rd (rfV rd) = rfV rd := D.rounding.idem _
  have hprod : val (usedRate (rfWorld rd 0) (exactly (rfV rd)) * (zeroG rd).models.lava.density (rfWorld rd 0).st * (zeroG rd).models.lava.latentHeat) =
      rd (rfV rd * 2 ^ 20) := by
    have hdens : (zeroG rd).models.lava.density (rfWorld rd 0).st = exactly 1 := rf_density D (rfYield rd) _
    rw [hdens]
    show rd (rd (rd (rd (rfV rd * 1) * 1) * 1) * 2 ^ 20) = _
    simp [hvrep]
  have hden := (rf_den D).1
  have hP : 0 < val (usedRate (rfWorld rd 0) (exactly (rfV rd)) * (zeroG rd).models.lava.density (rfWorld rd 0).st * (zeroG rd).models.lava.latentHeat) := by
    rw [hprod]; exact lt_of_lt_of_le (by norm_num) hden
  refine ⟨heat, w1, A, ?_, hP⟩
  by_contra hneg
  have hneg : val heat ≤ 0 := not_lt.mp hneg
  have hr1 : rate = exactly 1 := by
    have : (Except.ok (if _ then exactly 1 else exactly 1) : Except Err (Rounded rd)) = .ok rate := hr
    rw [ite_self] at this
    exact (Except.ok.inj this).symm
  subst hr1
  generalize hq : usedRate (rfWorld rd 0) (exactly (rfV rd)) * (zeroG rd).models.lava.density (rfWorld rd 0).st * (zeroG rd).models.lava.latentHeat = P at hd hP
  have hd' : (if val (P * exactly 1) = 0 then Except.error Err.zeroDiv else Except.ok (near (val (-heat) / val (P * exactly 1)))) = .ok d := hd
  split at hd'
  · cases hd'
  · have hdn : 0 ≤ val d := by
      rw [← Except.ok.inj hd']
      refine D.rounding.nonneg (div_nonneg (by show 0 ≤ -(val heat); linarith) (D.rounding.nonneg ?_))
      show 0 ≤ val P * 1
      linarith
    rw [leB_false] at hgt
    have : val phi ≤ 0 := by
      rw [hphi]
      show rd (0 + rd (rd (val d * -1) * 1)) ≤ 0
      refine D.rounding.nonpos ?_
      have h1 := D.rounding.nonpos (show val d * -1 ≤ 0 by linarith)
      have h2 := D.rounding.nonpos (show rd (val d * -1) * 1 ≤ 0 by linarith)
      linarith
    have h3 : (0 : ℝ) < val phi := hgt
    linarith

/-- In double arithmetic: with crystallisation rates of zero and a numpy depth the first step writes a row of infinities and
    the run ends; with Python floats it raises. -/
theorem zero_rate_example : ∃ w1 u, singleStep (zeroG (binary 53 (-1074))) (rfWorld _ 0) = (.error .zeroDiv, w1) ∧
    singleStep (zeroNp (binary 53 (-1074))) (npWorld _) = (.ok (), u) ∧ u.finished = true ∧ u.st.temp.val = .inf true ∧
    u.st.crystal.val = .nan := by
  obtain ⟨heat, w1, A, hh, hP⟩ := zero_reaches doubles_decent
  obtain ⟨a, u, b, c, _, d, e, _⟩ := C113_zero_rate doubles_decent.zero zero_same np_world A
    (lt_of_lt_of_le (by norm_num) (rf_v doubles_decent).1) hh hP (by show (0 : ℝ) < 1; norm_num)
    (rate' := pyFloat (exactly 0)) (by show Except.ok (if _ then _ else _) = _; rw [ite_self])
    (by show Ext.fin (decide ((0 : ℝ) < 0)) 0 = _; simp) (rate := exactly 0)
    (by show Except.ok (if _ then _ else _) = _; rw [ite_self]) rfl (.inl rfl)
  exact ⟨w1, u, a, b, c, d, e⟩

/-- The step ends without an exception when the gradient is computed, the crystal fraction is not found to decrease and the stop
    test raises nothing. -/
theorem np_forward {rd : ℝ → ℝ} (h0 : rd 0 = 0) {g : Integrator (Rounded rd)} {g' : Integrator (Scalar rd)}
    (hg : SameIntegrator SameValue g g') {w w1 : World (Rounded rd)} {w' : World (Scalar rd)} (hw : SameWorld SameValue w w')
    {v heat : Rounded rd} (h : AllButGradient g w v heat w1) (hv : 0 < v.val) :
    ∃ v' heat' : Scalar rd, SameValue v v' ∧ SameValue heat heat' ∧ ∀ rate' d, g'.models.cryst.rate w'.st = .ok rate' →
      PyNum.div (-heat') (usedRate w' v' * g'.models.lava.density w'.st * g'.models.lava.latentHeat * rate') = .ok d →
      leB (w'.st.crystal + d * -rate' * g'.dx) w'.st.crystal = false →
      (∀ s : FlowState (Scalar rd), s.crystal = w'.st.crystal + d * -rate' * g'.dx → s.temp = w'.st.temp + d * g'.dx →
        ∃ b, stopTest g' w'.terrain s = .ok b) → ∃ u, singleStep g' w' = (.ok (), u) := by
  obtain ⟨x, width, slope, hvel, hwid, hsl, hh⟩ := h.budget
  obtain ⟨⟨v', x'⟩, hvel', hv', hx'⟩ := velocity_same hg.models.lava hw.terrain hw.st _ hvel
  dsimp only at hv' hx'
  have hE := usedRate_same hw hv'
  obtain ⟨width', hwid', hw2⟩ := widthOf_same g.massConservation hE hw.flux hv' hw.terrain.depth
    (density_same hg.models.lava hw.st) width hwid
  rw [hg.mass] at hwid'
  obtain ⟨slope', hsl', _⟩ := slope_same hw.terrain hw.st.pos slope hsl
  obtain ⟨heat', w1', hh', hheat', hw1⟩ := budget_same hg.models hw2 hw.terrain.depth
    { w with st := { w.st with strain := x }, effusionRate := usedRate w v }
    { w' with st := { w'.st with strain := x' }, effusionRate := usedRate w' v' }
    { hw with st := { hw.st with strain := hx' }, rate := hE } heat w1 hh
  obtain ⟨visc, hvisc⟩ := h.viscosity
  obtain ⟨visc', hvisc', _⟩ := viscosity_same hg.models.lava hw1.st visc hvisc
  obtain ⟨tc, htc⟩ := h.crust
  obtain ⟨tc', htc', _⟩ := crust_same hg.models.crust hw1.st tc htc
  obtain ⟨⟨v2, y2⟩, hv2⟩ := h.velocity
  obtain ⟨⟨v2', y2'⟩, hv2', _⟩ := velocity_same hg.models.lava hw1.terrain hw1.st _ hv2
  obtain ⟨t0, ht0⟩ := h.yield
  obtain ⟨t0', ht0', _⟩ := yield_same hg.models.lava.yld hw1.st t0 ht0
  obtain ⟨tb, htb⟩ := h.basal
  obtain ⟨tb', htb', _⟩ := basal_same hg.models.lava hw1.terrain hw1.st tb htb
  obtain ⟨dt, hdt⟩ := h.time
  obtain ⟨dt', hdt', _⟩ := NumRel.div (R := SameValue) hg.dx hv' dt hdt
  obtain ⟨st, hst⟩ := h.strain
  obtain ⟨st', hst', _⟩ := NumRel.div (R := SameValue) (NumRel.mul (NumRel.lit _ _ _) hv') hw.terrain.depth st hst
  have hle : leB v' 0.0 = false := by
    have h1 : leB v (0.0 : Rounded rd) = leB v' 0.0 := NumRel.le hv' (NumRel.lit _ _ _)
    rw [← h1]
    show decide (v.val ≤ rd _) = false
    rw [decide_eq_false_iff_not, not_le]
    have : (OfScientific.ofScientific 0 true 1 : ℝ) = 0 := by norm_num
    rw [this, h0]
    exact hv
  refine ⟨v', heat', hv', hheat', fun rate' d hr hd hphi hstop => ?_⟩
  obtain ⟨b, hb⟩ := hstop
    { crystal := w'.st.crystal + d * -rate' * g'.dx, temp := w'.st.temp + d * g'.dx, pos := w'.st.pos + g'.dx,
      time := w'.st.time + dt', strain := st' } rfl rfl
  obtain ⟨u, hu, _⟩ := singleStep_forward g' w' v' x' width' slope' heat' rate' d w1' visc' tc' v2' y2' t0' tb' dt' st'
    b hvel' hle hwid' hsl' hh' hr hd hphi hvisc' htc' hv2' ht0' htb' hdt' hst' hb
  exact ⟨u, hu⟩

/-! ### The same lava with the melts model -/

noncomputable def meltsG (rd : ℝ → ℝ) : Integrator (Rounded rd) :=
  { rfG rd (rfYield rd) false with models := { rfModels rd (rfYield rd) with cryst := .melts (exactly 0) (exactly 0) none } }
noncomputable def meltsNp (rd : ℝ → ℝ) : Integrator (Scalar rd) :=
  { npG rd with models := { (npG rd).models with cryst := .melts (pyFloat (exactly 0)) (pyFloat (exactly 0)) none } }

theorem melts_same {rd : ℝ → ℝ} : SameIntegrator SameValue (meltsG rd) (meltsNp rd) :=
  { np_g with models := { np_g.models with cryst := .melts ⟨_, rfl⟩ ⟨_, rfl⟩ .none } }

theorem melts_stop (s : FlowState (Scalar (binary 53 (-1074)))) (h1 : s.crystal.val = .nan) (h2 : s.temp.val = .inf false) :
    ∃ b, stopTest (meltsNp _) (npTerrain _) s = .ok b := by
  unfold stopTest
  split
  · exact ⟨true, rfl⟩
  · have hnc : (meltsNp (binary 53 (-1074))).models.lava.notCompatible s = .ok false := by
      show (do let q ← PyNum.div s.crystal (pyFloat (exactly 1)); return ltB 1.0 q) = _
      have : PyNum.div s.crystal (pyFloat (exactly 1)) = .ok (⟨s.crystal.np || false, .nan⟩ : Scalar (binary 53 (-1074))) := by
        show Scalar.quot _ _ = _
        unfold Scalar.quot
        rw [if_neg]
        · rw [h1]; rfl
        · rintro ⟨h, _⟩
          exact one_ne_zero h
      rw [this, ok_bind, pure_ok_iff]
      show Ext.lt _ .nan = false
      cases (1.0 : Scalar (binary 53 (-1074))).val <;> rfl
    rw [hnc, ok_bind, if_neg (by decide)]
    have hy : ∃ y, (meltsNp (binary 53 (-1074))).models.lava.yieldNotCompatible (npTerrain _) s = .ok y := ⟨_, rfl⟩
    obtain ⟨y, hy⟩ := hy
    rw [hy, ok_bind]
    split
    · exact ⟨_, rfl⟩
    · exact ⟨_, rfl⟩

theorem melts_reaches {rd : ℝ → ℝ} (D : Decent rd) : ∃ heat w1, AllButGradient (meltsG rd) (rfWorld rd 0) (exactly (rfV rd)) heat w1 ∧ 0 < val heat ∧
    0 < val (usedRate (rfWorld rd 0) (exactly (rfV rd)) * (meltsG rd).models.lava.density (rfWorld rd 0).st * (meltsG rd).models.lava.latentHeat) := by
  obtain ⟨heat, w1, A, h1, h2⟩ := zero_reaches D
  obtain ⟨x, width, slope, a, b, c, d⟩ := A.budget
  refine ⟨heat, w1, ⟨⟨x, width, slope, a, b, c, ?_⟩, A.viscosity, A.crust, A.velocity, A.yield, A.basal, A.time, A.strain⟩, h1, h2⟩
  refine Eq.trans ?_ d
  exact (heatBudget_cryst (rfModels rd (rfYield rd)) _ width _ _).trans (heatBudget_cryst (rfModels rd (rfYield rd)) (zeroCryst rd) width _ _).symm

/-- In double arithmetic with a numpy depth the melts model heats the lava to infinity in the first step. -/
theorem melts_example : ∃ u, singleStep (meltsNp (binary 53 (-1074))) (npWorld _) = (.ok (), u) ∧ u.st.temp.val = .inf false ∧
    u.st.crystal.val = .nan := by
  have D := doubles_decent
  obtain ⟨heat, w1, A, hh, hP⟩ := melts_reaches D
  have hv : 0 < rfV (binary 53 (-1074)) := lt_of_lt_of_le (by norm_num) (rf_v D).1
  have h2 : 0 < binary 53 (-1074) 2 := by
    have := D.dyadic 1 1 (by norm_num) (by norm_num) (by norm_num)
    norm_num at this
    rw [this]; norm_num
  obtain ⟨v', heat', hv', hheat', fwd⟩ := np_forward D.zero melts_same np_world A hv
  obtain ⟨rate', hr, hz⟩ := melts_minus_zero (rd := binary 53 (-1074)) D.zero h2 (pyFloat (exactly 0)) (pyFloat (exactly 0)) (exactly 0) ⟨_, rfl⟩ (npWorld _).st
  have hE := usedRate_same (np_world (rd := binary 53 (-1074))) hv'
  have hp := NumRel.mul (NumRel.mul hE (density_same (melts_same (rd := binary 53 (-1074))).models.lava np_world.st)) (melts_same (rd := binary 53 (-1074))).models.lava.latent
  obtain ⟨d, hd, hdv⟩ : ∃ d, PyNum.div (-heat') (usedRate (npWorld (binary 53 (-1074))) v' * (meltsNp (binary 53 (-1074))).models.lava.density (npWorld (binary 53 (-1074))).st *
      (meltsNp (binary 53 (-1074))).models.lava.latentHeat * rate') = .ok d ∧ d.val = .inf false := by
    have hnp : (usedRate (npWorld (binary 53 (-1074))) v' * (meltsNp (binary 53 (-1074))).models.lava.density (npWorld (binary 53 (-1074))).st *
      (meltsNp (binary 53 (-1074))).models.lava.latentHeat).np = true := by
      show ((((v' * _).np || true) || _) || _) = true
      simp
    generalize usedRate (npWorld (binary 53 (-1074))) v' * (meltsNp (binary 53 (-1074))).models.lava.density (npWorld (binary 53 (-1074))).st *
      (meltsNp (binary 53 (-1074))).models.lava.latentHeat = P' at hnp hp
    generalize usedRate (rfWorld (binary 53 (-1074)) 0) (exactly (rfV (binary 53 (-1074)))) * (meltsG (binary 53 (-1074))).models.lava.density (rfWorld (binary 53 (-1074)) 0).st *
      (meltsG (binary 53 (-1074))).models.lava.latentHeat = P at hp hP
    obtain ⟨t, ht⟩ := hp
    obtain ⟨s, hs⟩ := hheat'
    have hval : (P' * rate').val = .fin true 0 := by
      show Ext.mul _ P'.val rate'.val = _
      rw [ht, hz]
      simp only [Ext.mul, Ext.isNeg, mul_zero, D.zero, if_true, if_neg hP.ne']
      simp [not_lt.mpr hP.le]
    have hn : (-heat').val = .fin (!s) (-val heat) := by
      show heat'.val.neg = _
      rw [hs]; rfl
    refine ⟨⟨(-heat').np || (P' * rate').np, .quot (binary 53 (-1074)) (-heat').val (P' * rate').val⟩, ?_, ?_⟩
    · show Scalar.quot _ _ = _
      unfold Scalar.quot
      rw [if_neg]
      rintro ⟨_, _, h⟩
      have : (P'.np || rate'.np) = false := h
      rw [hnp] at this
      cases this
    · dsimp only
      rw [hval, hn]
      simp only [Ext.quot, if_true, if_neg (neg_ne_zero.mpr hh.ne'), Ext.isNeg]
      simp [hh]
  have hdx : (meltsNp (binary 53 (-1074))).dx.val = .fin false 1 := by
    show Ext.fin (decide ((1 : ℝ) < 0)) 1 = _
    norm_num
  have hphi : ((npWorld (binary 53 (-1074))).st.crystal + d * -rate' * (meltsNp (binary 53 (-1074))).dx).val = .nan := by
    show Ext.add _ _ (Ext.mul _ (Ext.mul _ d.val rate'.val.neg) _) = _
    rw [hdv, hz, hdx]
    simp only [Ext.mul, Ext.neg, neg_zero, if_true]
    cases (npWorld (binary 53 (-1074))).st.crystal.val <;> rfl
  have htemp : ((npWorld (binary 53 (-1074))).st.temp + d * (meltsNp (binary 53 (-1074))).dx).val = .inf false := by
    show Ext.add _ (Ext.fin _ _) (Ext.mul _ d.val _) = _
    rw [hdv, hdx]
    simp [Ext.mul, Ext.isNeg, Ext.add]
  obtain ⟨u, hu⟩ := fwd rate' d hr hd (by show Ext.le _ _ = false; rw [hphi]; rfl)
    (fun s h1 h2 => melts_stop s (by rw [h1]; exact hphi) (by rw [h2]; exact htemp))
  obtain ⟨_, a, b, _⟩ := C113_melts D.zero h2 melts_same np_world A hv hh hP (by show (0 : ℝ) < 1; norm_num) rfl hu
  exact ⟨u, hu, a, b⟩

end PyFlowGo
