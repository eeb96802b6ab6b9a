import Verif.Props.Lifetime
/-
  C106: flows of any length that meet the hypotheses.
-/
set_option linter.unusedSectionVars false
namespace PyFlowGo
open Spec

/-- In a log made of accepted steps only, every number shown stands in the row of an accepted step. -/
theorem accepted_shown (g : Integrator ℝ) (hdx : 0 < g.dx) (n : Nat) (ws : Nat → World ℝ) (h : AcceptedRun g n ws) (h0 : (ws 0).log = [])
    (x y : ℝ) (name : String) (hs : loggedNum (ws n).log x name = some y) :
    ∃ i, i < n ∧ x = (ws i).st.pos ∧ ∀ name, loggedNum (ws n).log x name = loggedNum (ws (i + 1)).log x name := by
  obtain ⟨row, r1, r2⟩ := acceptedRun_rows g hdx n ws h h0
  have hlog := r2 n le_rfl
  obtain ⟨r, hr⟩ : ∃ r, (ws n).log.find? (fun r => r.atPosition (.num x)) = some r := by
    cases hf : (ws n).log.find? (fun r => r.atPosition (.num x)) with
    | none =>
      unfold loggedNum cellAt at hs
      rw [hf] at hs
      cases hs
    | some r => exact ⟨r, rfl⟩
  have hm := List.mem_of_find?_eq_some hr
  rw [hlog] at hm
  obtain ⟨i, hi, rfl⟩ := List.mem_map.mp hm
  have hi := List.mem_range.mp hi
  have hat : (row i).atPosition (.num x) = true := by
    have := List.find?_some hr
    exact this
  have hx : x = (ws 0).st.pos + i * g.dx := (atPosition_num _ _ _ (r1 i hi).1).mp hat
  refine ⟨i, hi, by rw [hx, (C06_position_time g i ws (fun j hj => h j (by omega))).1], fun name => ?_⟩
  unfold loggedNum cellAt
  have hnone : ((List.range i).map row).find? (fun r => r.atPosition (.num x)) = none := by
    rw [List.find?_eq_none]
    intro r hr
    obtain ⟨j, hj, rfl⟩ := List.mem_map.mp hr
    have hj := List.mem_range.mp hj
    rw [atPosition_num _ _ _ (r1 j (by omega)).1, hx]
    intro e
    have : (j : ℝ) < i := by exact_mod_cast hj
    nlinarith
  have : (ws (i + 1)).log.find? (fun r => r.atPosition (.num x)) = some (row i) := by
    rw [r2 (i + 1) (by omega), List.range_succ, List.map_append, List.find?_append, hnone]
    simp only [List.map_cons, List.map_nil, Option.none_or]
    rw [List.find?_cons_of_pos (by exact hat)]
  rw [hr, this]

theorem forall₂_left {β γ : Type} {R : β → γ → Prop} {l : List β} {u : List γ} (h : List.Forall₂ R l u) (x : β) (hx : x ∈ l) :
    ∃ y, R x y := by
  induction h with
  | nil => cases hx
  | @cons a b l u hab _ ih =>
    rcases List.mem_cons.mp hx with rfl | hx
    · exact ⟨b, hab⟩
    · exact ih hx

/-- The rate and the terrain of a run's steps. -/
theorem accepted_rate (g : Integrator ℝ) (n : Nat) (ws : Nat → World ℝ) (h : AcceptedRun g n ws) (hit : (ws 0).iteration = 0)
    (hW : 0 < (ws 0).terrain.width) (hD : 0 < (ws 0).terrain.depth) :
    ∀ i, i < n → 0 < (ws (i + 1)).effusionRate ∧ (ws i).terrain = (ws 0).terrain := by
  intro i
  induction i with
  | zero =>
    intro hi
    obtain ⟨A⟩ := acceptedFacts (h 0 hi)
    obtain ⟨d, hr, _⟩ := accepted_row (h 0 hi)
    obtain ⟨x, hv⟩ := hr.velocity
    rw [A.hv, Except.ok.injEq, Prod.mk.injEq] at hv
    refine ⟨?_, rfl⟩
    rw [A.eff_eq, hv.1]
    unfold World.stepEffusion
    rw [hit]
    exact mul_pos (mul_pos hr.moving hW) hD
  | succ i ih =>
    intro hi
    obtain ⟨h1, h2⟩ := ih (by omega)
    obtain ⟨A⟩ := acceptedFacts (h i (by omega))
    obtain ⟨B⟩ := acceptedFacts (h (i + 1) hi)
    have hit := (C06_position_time g (i + 1) ws (fun j hj => h j (by omega))).2.1
    have : (ws (i + 1)).iteration ≠ 0 := by omega
    refine ⟨?_, by rw [A.terrain_eq, h2]⟩
    rw [B.eff_eq]
    simpa [World.stepEffusion, this] using h1

/-- A log shows finitely many numbers, so each column has an upper bound. -/
theorem shown_bounded (g : Integrator ℝ) (hdx : 0 < g.dx) (n : Nat) (ws : Nat → World ℝ) (h : AcceptedRun g n ws) (h0 : (ws 0).log = [])
    (name : String) : ∃ V, ∀ x y, loggedNum (ws n).log x name = some y → y ≤ V := by
  obtain ⟨V, hV⟩ := ((Finset.range n).image fun i => (loggedNum (ws n).log (ws i).st.pos name).getD 0).bddAbove
  refine ⟨V, fun x y hs => ?_⟩
  obtain ⟨i, hi, rfl, _⟩ := accepted_shown g hdx n ws h h0 x y name hs
  refine hV ?_
  simp only [Finset.coe_image, Set.mem_image, Finset.coe_range, Set.mem_Iio]
  exact ⟨i, hi, by rw [hs]; rfl⟩

/-- Rain takes `eps` from every square metre, at every row. -/
theorem long_facts (eps : ℝ) (heps : 0 < eps) (n : Nat) (hn : 1 ≤ n) (hsmall : 3 * eps * n ≤ 1 / 100) :
    ∃ w', runLoop (longG eps) n (longWorld 0 n) = some (.ok (), w') ∧ w'.log.length = n ∧
      (∀ x y, loggedNum w'.log x "density" = some y → y ≤ 1) ∧
      (∀ x b y, loggedNum w'.log x "heat_budget" = some y → loggedNum w'.log x "channel_width" = some b → eps * b ≤ y) ∧
      ∃ V, ∀ x y, loggedNum w'.log x "mean_velocity" = some y → y ≤ V := by
  obtain ⟨ws, w', g1, g2, rfl, _, g5, _⟩ := long_run eps 0 n heps n hn hsmall (by linarith) (by linarith)
  have hdx : 0 < (longG eps).dx := one_pos
  have h0 : (ws 0).log = [] := by rw [g1]; rfl
  obtain ⟨row, _, r2⟩ := acceptedRun_rows _ hdx n ws g2 h0
  refine ⟨ws n, g5, by rw [r2 n le_rfl]; simp, fun x y hs => ?_, fun x b y h1 h2 => ?_, shown_bounded _ hdx n ws g2 h0 _⟩
  · obtain ⟨i, hi, rfl, he⟩ := accepted_shown _ hdx n ws g2 h0 x y _ hs
    obtain ⟨d, _, hsh, _⟩ := accepted_row (g2 i hi)
    rw [he, hsh.density] at hs
    rw [← Option.some.inj hs]
    exact (exLava_density 1 (.kd 1 0) .ryerson _).le
  · obtain ⟨i, hi, rfl, he⟩ := accepted_shown _ hdx n ws g2 h0 x y _ h1
    obtain ⟨d, _, hsh, _, hf⟩ := accepted_row (g2 i hi)
    obtain ⟨_, _, qs, hqs, hsum, _⟩ := hf fun _ _ => rfl
    rw [he, hsh.heat_budget] at h1
    rw [he, hsh.channel_width] at h2
    rw [← Option.some.inj h1, ← Option.some.inj h2, hsum]
    cases hqs with
    | cons hq hrest =>
      cases hrest
      have hq : _ = eps * 1 * 1 * d.width := hq
      rw [hq]
      simp

theorem long_init (eps : ℝ) : initialState (longG eps).models (exTerrain 3) 0 1 = .ok (longWorld 0 n).st := by
  unfold initialState
  show (do
    let a ← PyNum.div (3.0 * (0 : ℝ)) (PyNum.npow (1 : ℝ) 2)
    let strain ← PyNum.div a 1
    pure ({ crystal := 0, temp := 1000, pos := 0, time := 1, strain := strain } : FlowState ℝ)) = _
  rw [div_of_ne (by rw [npow_real]; norm_num), ok_bind, div_of_ne one_ne_zero, ok_bind, pure_ok_iff]
  show _ = ({ crystal := 0, temp := 1000, pos := 0, time := 1, strain := 0 } : FlowState ℝ)
  congr 1
  norm_num

/-- **C106**: flows of any length meet the hypotheses of the bound on the life time. -/
example (n : Nat) (hn : 1 ≤ n) : ∃ (g : Integrator ℝ) (w w' : World ℝ) (rho q : ℝ), 0 < g.dx ∧ g.massConservation = false ∧ w.log = [] ∧
    w.iteration = 0 ∧ 0 < w.terrain.width ∧ 0 < w.terrain.depth ∧ 0 < g.models.lava.latentHeat ∧ runLoop g n w = some (.ok (), w') ∧
    w'.log.length = n ∧ 0 < q ∧ (∀ x y, loggedNum w'.log x "density" = some y → y ≤ rho) ∧
    ∀ x b y, loggedNum w'.log x "heat_budget" = some y → loggedNum w'.log x "channel_width" = some b → q * b ≤ y := by
  have hn' : (0 : ℝ) < n := by positivity
  obtain ⟨w', h1, h2, h3, h4, _⟩ := long_facts (1 / (300 * n)) (by positivity) n hn (by field_simp; norm_num)
  exact ⟨_, _, w', 1, _, one_pos, rfl, rfl, rfl, one_pos, one_pos, one_pos, h1, h2, by positivity, h3, h4⟩

/-- **C106**: and those of the bound on age and run-out. -/
example (n : Nat) (hn : 1 ≤ n) : ∃ (g : Integrator ℝ) (f grown ts : ℝ) (t0 : Terrain ℝ) (x0 time0 : ℝ) (w w' : World ℝ) (rho q V : ℝ),
    0 < g.dx ∧ g.massConservation = false ∧ g.models.cryst = .basic f grown ts g.models.lava.eruptionT ∧ ts < g.models.lava.eruptionT ∧
    0 < grown ∧ w.log = [] ∧ initialState g.models t0 x0 time0 = .ok w.st ∧ w.iteration = 0 ∧ 0 < w.terrain.width ∧ 0 < w.terrain.depth ∧
    0 < g.models.lava.latentHeat ∧ runLoop g n w = some (.ok (), w') ∧ w'.log.length = n ∧ 0 < q ∧ 0 ≤ rho ∧
    (∀ x y, loggedNum w'.log x "density" = some y → y ≤ rho) ∧
    (∀ x b y, loggedNum w'.log x "heat_budget" = some y → loggedNum w'.log x "channel_width" = some b → q * b ≤ y) ∧
    ∀ x y, loggedNum w'.log x "mean_velocity" = some y → y ≤ V := by
  have hn' : (0 : ℝ) < n := by positivity
  obtain ⟨w', h1, h2, h3, h4, V, h5⟩ := long_facts (1 / (300 * n)) (by positivity) n hn (by field_simp; norm_num)
  exact ⟨_, 0, 1, 0, exTerrain 3, 0, 1, _, w', 1, _, V, one_pos, rfl, rfl, by show (0 : ℝ) < 1000; norm_num, one_pos, rfl, long_init _, rfl,
    one_pos, one_pos, one_pos, h1, h2, by positivity, zero_le_one, h3, h4, h5⟩

/-- **C106**: flows of any length that radiate. -/
example (n : Nat) (hn : 1 ≤ n) : ∃ (g : Integrator ℝ) (σ ε Tc : ℝ) (w w' : World ℝ), 0 < g.dx ∧ g.massConservation = false ∧
    StrainIndependent g.models.lava ∧ Flux.radBasic σ ε ∈ g.models.fluxes ∧ ColumnsKept g.models.fluxes ∧ g.models.crust = .constant Tc ∧
    0 < σ * ε * (Tc ^ 4 - g.models.air.temp ^ 4) ∧ 0 ≤ σ * ε ∧ 0 ≤ Tc ∧ w.log = [] ∧ w.iteration = 0 ∧ 0 < w.terrain.width ∧ 0 < w.terrain.depth ∧
    runLoop g n w = some (.ok (), w') ∧ w'.log.length = n ∧
    (∀ f ∈ g.models.fluxes, ∀ x y, loggedNum w'.log x (fluxColumn f) = some y → 0 ≤ y) ∧
    ∀ x c y, loggedNum w'.log x "effective_cover_fraction" = some c → loggedNum w'.log x "core_temperature" = some y →
      c ≤ 1 ∧ (c = 1 ∨ Tc + g.models.lava.buffer ≤ y) := by
  have hn' : (0 : ℝ) < n := by positivity
  have hair : exModels.air.temp = 300 := rfl
  set eps : ℝ := 1 / (300 * n) with he
  have heps : 0 < eps := by positivity
  set σ := eps / (500 ^ 4 - exModels.air.temp ^ 4) with hσ
  have hσ0 : 0 < σ := by rw [hσ, hair]; exact div_pos heps (by norm_num)
  obtain ⟨ws, w', g1, g2, rfl, _, g5, _⟩ := flow_run (longTerrain_channel n) [.radBasic σ 1, .convection] eps 0 _ slow_basic
    (gentle_glow (longTerrain_channel n) eps heps) heps n hn (by rw [he]; field_simp; norm_num) (by linarith) (by linarith)
    (longWorld 0 n) (longInv_zero eps 0 n)
  have hdx : 0 < (flowG [.radBasic σ 1, .convection]).dx := one_pos
  have h0 : (ws 0).log = [] := by rw [g1]; rfl
  obtain ⟨row, _, r2⟩ := acceptedRun_rows _ hdx n ws g2 h0
  have hkept : ColumnsKept [Flux.radBasic σ 1, Flux.convection] := by
    refine List.Pairwise.cons (fun f hf => ?_) (List.Pairwise.cons (fun f hf => by cases hf) List.Pairwise.nil)
    rw [List.mem_singleton.mp hf]
    simp [fluxColumn, zeroedBy]
  have hcov : ∀ x v, coverLaw (flowModels [.radBasic σ 1, .convection]).cover x v = 1 := fun x v => by
    show coverLaw (CoverModel.basic 0 1) x v = 1
    simp [coverLaw]
  refine ⟨_, σ, 1, 500, _, ws n, hdx, rfl, fun _ _ => rfl, List.mem_cons_self, hkept, rfl, ?_, by linarith, by norm_num, rfl, rfl, one_pos, one_pos,
    g5, by rw [r2 n le_rfl]; simp, fun f hf x y hs => ?_, fun x c y hc _ => ?_⟩
  · have : (flowG [.radBasic σ 1, .convection]).models.air.temp = 300 := rfl
    rw [this, mul_one]
    exact mul_pos hσ0 (by norm_num)
  · obtain ⟨i, hi, rfl, hn⟩ := accepted_shown _ hdx n ws g2 h0 x y _ hs
    obtain ⟨d, hr, hsh, _, hfl⟩ := accepted_row (g2 i hi)
    obtain ⟨_, _, qs, hqs, _, hshow⟩ := hfl fun _ _ => rfl
    have hshow := hshow hkept
    rw [hn] at hs
    have hpos : ∀ f q, f ∈ [Flux.radBasic σ 1, Flux.convection] →
        FluxIs (flowG [.radBasic σ 1, .convection]).models d.width (ws i).terrain.depth (ws i).terrain (ws i).st f q → 0 ≤ d.width → 0 ≤ q := by
      intro f q hf hq hw
      rcases List.mem_cons.mp hf with rfl | hf
      · obtain ⟨v, x, Tc, σ', e', _, hT, _, _, _, hem, rfl⟩ := hq
        cases hem
        obtain rfl : (500 : ℝ) = Tc := Except.ok.inj hT
        refine mul_nonneg (mul_nonneg (by linarith) ?_) hw
        have hcov' := hcov (ws i).st.pos v
        have ha : (flowG [.radBasic σ 1, .convection]).models.air.temp = 300 := rfl
        rw [ha]
        unfold radiantExchange
        have hcov' : coverLaw (flowG [.radBasic σ 1, .convection]).models.cover (ws i).st.pos v = 1 := hcov'
        rw [hcov']
        norm_num
      · rw [List.mem_singleton.mp hf] at hq
        obtain ⟨v, x, Tc, _, _, _, _, _, rfl⟩ := hq
        have : (flowG [.radBasic σ 1, .convection]).models.air.convCoef = 0 := by
          simp [flowG, flowModels, exModels, Air.convCoef]
        rw [this]
        simp
    have hw : 0 ≤ d.width := by
      obtain ⟨e1, e2⟩ := accepted_rate _ n ws g2 (by rw [g1]; rfl) (by rw [g1]; exact one_pos) (by rw [g1]; exact one_pos) i hi
      rw [hr.volume rfl]
      refine (div_pos e1 (mul_pos hr.moving ?_)).le
      rw [e2, g1]
      exact one_pos
    have hboth := forall₂_pair hqs hshow
    obtain ⟨q, h1, h2⟩ := forall₂_left hboth f hf
    rw [h2] at hs
    rw [← Option.some.inj hs]
    exact hpos f q hf h1 hw
  · obtain ⟨i, hi, rfl, hn⟩ := accepted_shown _ hdx n ws g2 h0 x c _ hc
    obtain ⟨d, _, hsh, _⟩ := accepted_row (g2 i hi)
    rw [hn, hsh.effective_cover_fraction] at hc
    have : c = 1 := by
      rw [← Option.some.inj hc]
      exact hcov _ _
    exact ⟨this.le, Or.inl this⟩

end PyFlowGo
