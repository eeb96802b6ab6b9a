import Verif.Props.Sensible
import Verif.Spec.Template
/-
  C117 for configuration files like the shipped template.
-/
set_option linter.unusedSectionVars false
namespace PyFlowGo
open Spec

/-- **C117**: a configuration with the models of the template and numbers that make physical sense is sensible, whatever its slope profile. -/
theorem C117_template_sensible (env : Env ℝ) (data : Json ℝ) (log : Log (Cell ℝ)) (pr : Prepared ℝ) (hprep : prepare env data log = .ok pr)
    (c : Choice) (hsel : Selects data c) (hc : TemplateModels c) (hp : Physical env data) :
    pr.integrator.models.lava.rel = .er ∧ Sensible pr.integrator pr.world.terrain pr.world.st.pos := by
  rw [C55_run_starts_from_the_configuration] at hprep
  obtain ⟨⟨_, _, _, ⟨sz, hsz, hsz'⟩, _⟩, ⟨t0, path, rows, ⟨_, gd, gw, gg, gm, _⟩, _, _, _, hslope⟩, hm, hdx, _, _, _, _, _, _⟩ := hprep
  have hpos := (C48_read_slope _ _ _).mp hslope
  obtain ⟨c', hsel', hcr, hair, ⟨hmelt, hves, hrel, hbub, _, _, hbuf, hlat, hden, _⟩, hcov, hcru, hflux⟩ :=
    (C55_models_come_from_the_configuration env data _).mp hm
  obtain rfl := selects_unique hsel' hsel
  obtain ⟨k1, k2, k3, k4, k5, k6⟩ := hc
  rw [k1] at hcr
  rw [k2] at hrel
  rw [k3] at hbub
  rw [k4] at hcru
  rw [k5] at hcov
  rw [k6] at hves
  obtain ⟨f, grown, ts, te, n1, n2, n3, n4, ecr⟩ := hcr
  obtain ⟨tc, n5, ecru⟩ := hcru
  obtain ⟨al, cf, n6, n7, ecov⟩ := hcov
  obtain ⟨vf, n8, eves⟩ := hves
  have hrel : pr.integrator.models.lava.rel = .er := hrel
  have hbub : pr.integrator.models.lava.bub = .no := hbub
  have hts : pr.integrator.models.cryst.solidTemperature = ts := by rw [ecr]; rfl
  have hst := hp.solidus ts n3 te n4
  refine ⟨hrel, ?_⟩
  have ht := hpos.2.2.2
  refine ⟨?_, ?_, ?_, ?_, ?_, ?_, ?_, ?_, ?_, ?_, ?_, ?_, ?_, ?_, ?_, ?_⟩
  · rw [hdx]; exact hp.step _ _ hsz hsz'
  · rw [ht]; exact (hp.gravity _ gg).ne'
  · rw [ht]; exact hp.width _ gw
  · exact fun x => (C50_interpolation _ _ _ hslope x).1
  · exact hp.density _ hden
  · exact hp.latent _ hlat
  · rw [eves]
    exact (C117_sensible_vesicles _).1 vf (hp.vesicles _ n8).1 (hp.vesicles _ n8).2
  · rw [hts]
    have h0 := (hp.molten ts n3).1
    revert hmelt
    unfold MeltFrom
    split
    · rintro ⟨v, te', q1, _, e⟩
      rw [e]
      exact ⟨hp.viscosity _ q1, fun T _ => trivial⟩
    · rintro ⟨sl, q1, e⟩
      rw [e]
      exact ⟨hp.shaw _ q1, fun T hT => lt_of_le_of_lt h0 hT⟩
    · rintro ⟨a, b, cc, _, q1, q2, e⟩
      rw [e]
      exact ⟨hp.vft _ q1, fun T hT => lt_of_le_of_lt (hp.vftc _ q2 _ n3) hT⟩
    · exact False.elim
  · rw [hrel]; trivial
  · rw [hbub]; trivial
  · intro s _ _
    rw [ecr]
    exact (C117_sensible_rates s).1 f grown ts te (hp.grown _ n2) hst
  · rw [ecov]
    exact ⟨hp.alpha _ n6, hp.cover _ n7⟩
  · intro s _ _
    rw [ecru]
    exact ⟨tc, (hp.crust _ n5).1, (hp.crust _ n5).2 _ hair.1, rfl⟩
  · exact hp.air _ hair.1
  · rw [hts]
    have h1 := (hp.molten ts n3).2 _ hbuf
    exact ⟨h1.1, h1.2 _ hair.1⟩
  · intro base q hq
    obtain ⟨rad, cond, conv, rain, visc, sny, e, h1, h2, h3, h4, h5, h6, _⟩ := hflux
    rw [e] at hq
    simp only [List.mem_append] at hq
    rcases hq with ((((hq | hq) | hq) | hq) | hq) | hq
    · exfalso
      revert h1
      unfold RadiationFrom
      split
      · rintro ⟨_, _, _, _, rfl⟩; simp at hq
      · rintro ⟨_, _, _, _, _, _, rfl⟩; simp at hq
      · rintro ⟨_, _, rfl⟩; simp at hq
      · rintro ⟨_, _, rfl⟩; simp at hq
      · rintro rfl; simp at hq
      · exact False.elim
    · rcases h2 with ⟨_, _, ⟨b, d, _, hd, rfl⟩, rfl⟩ | ⟨_, rfl⟩
      · simp only [List.mem_singleton, Flux.conduction.injEq] at hq
        rw [hq.2]; exact hp.ground _ hd
      · simp at hq
    · rcases h3 with ⟨_, _, rfl, rfl⟩ | ⟨_, rfl⟩ <;> simp at hq
    · rcases h4 with ⟨_, _, ⟨_, _, _, _, _, _, rfl⟩, rfl⟩ | ⟨_, rfl⟩ <;> simp at hq
    · rcases h5 with ⟨_, _, rfl, rfl⟩ | ⟨_, rfl⟩ <;> simp at hq
    · rcases h6 with ⟨_, _, ⟨_, rfl⟩, rfl⟩ | ⟨_, rfl⟩ <;> simp at hq

/-- Ground between two samples of the profile is not level. -/
theorem vent_ground (t t' : Terrain ℝ) (rows : List (SlopeLine ℝ)) (h : t.readSlope rows = .ok t') (x : ℝ)
    (hin : ∃ r ∈ usableRows rows, ∃ r' ∈ usableRows rows, r.dist ≤ x ∧ x ≤ r'.dist) (hsteep : ∀ q ∈ usableRows rows, q.slopeDeg < 180)
    (y : ℝ) (hy : t'.slope x = .ok y) : Real.sin y ≠ 0 := by
  obtain ⟨r, hr, r', hr', h1, h2⟩ := hin
  obtain ⟨y', hy', hlo, a, _, b, hb, _, hhi⟩ := C50_inside_positive t t' rows h x r r' hr hr' h1 h2
  rw [hy] at hy'
  obtain rfl := Except.ok.inj hy'
  refine (Real.sin_pos_of_pos_of_lt_pi ?_ ?_).ne'
  · refine lt_trans ?_ hlo
    unfold degToRad
    have := Real.pi_pos
    positivity
  · refine lt_of_le_of_lt hhi ?_
    have := hsteep b hb
    unfold degToRad
    have := Real.pi_pos
    rw [div_lt_iff₀ (by norm_num)]
    nlinarith

/-- The lava of a configuration like the template can flow at its vent. -/
theorem template_vent (env : Env ℝ) (data : Json ℝ) (pr : Prepared ℝ) (hprep : prepare env data [] = .ok pr)
    (c : Choice) (hsel : Selects data c) (hc : TemplateModels c) (hp : Physical env data)
    (path : String) (rows : List (SlopeLine ℝ)) (hpath : SlopePath pr.cfg.slopeFile path) (hrows : env.slopeFile path = some rows)
    (hin : ∃ r ∈ usableRows rows, ∃ r' ∈ usableRows rows, r.dist ≤ pr.world.st.pos ∧ pr.world.st.pos ≤ r'.dist)
    (hsteep : ∀ q ∈ usableRows rows, q.slopeDeg < 180) : AtVent pr.integrator pr.world := by
  obtain ⟨hrel, hg⟩ := C117_template_sensible env data [] pr hprep c hsel hc hp
  have hprep' := hprep
  rw [C55_run_starts_from_the_configuration] at hprep'
  obtain ⟨_, ⟨t0, path', rows', ⟨_, gd, _⟩, _, hpath', hrows', hslope⟩, hmod, _, _, _, _, hcr, hT, _, _, _⟩ := hprep'
  have epath : path' = path := by
    rcases hpath with h1 | ⟨h1, h2⟩ <;> rcases hpath' with h3 | ⟨h3, h4⟩ <;> rw [h1] at h3
    · exact (Json.str.inj h3).symm
    · cases h3
    · cases h3
    · rw [h2, h4]
  subst epath
  rw [hrows] at hrows'
  obtain rfl := Option.some.inj hrows'
  have hts : NumberAt env data "crystals_parameters" "solid_temperature" pr.integrator.models.cryst.solidTemperature := by
    obtain ⟨c', hsel', hcr', _⟩ := (C55_models_come_from_the_configuration env data _).mp hmod
    obtain rfl := selects_unique hsel' hsel
    rw [hc.1] at hcr'
    obtain ⟨f, grown, ts, te, _, _, n3, _, ecr⟩ := hcr'
    rw [ecr]; exact n3
  obtain ⟨c0, c1⟩ := hp.crystals _ hcr
  refine ⟨c0, hp.solidus _ hts _ hT, ?_, by rw [hrel]; exact fun h => h, ?_, vent_ground t0 _ rows hslope _ hin hsteep⟩
  · unfold Lava.notCompatible
    rw [hrel]
    unfold RelModel.notCompatible
    dsimp only
    rw [div_of_ne (by norm_num), ok_bind]
    congr 1
    rw [← Bool.not_eq_true, leB_real, not_le, one_lit, lt_div_iff₀ (by norm_num)]
    linarith
  · rw [((C48_read_slope _ _ _).mp hslope).2.2.2]
    exact hp.depth _ gd

/-- **C117** for a configuration file like the template: if it can be loaded, its numbers make physical sense and its vent lies on its slope
    profile, then the run ends without an exception -- for every slope file, every effusion rate, every step size, every choice of melt
    viscosity, yield strength and heat fluxes. -/
theorem C117_template_completes (env : Env ℝ) (jsonFile folder : String) (p : Proc ℝ) (data : Json ℝ) (pr : Prepared ℝ)
    (hdata : lookup p.json (env.canon jsonFile) = some data) (hprep : prepare env data [] = .ok pr)
    (c : Choice) (hsel : Selects data c) (hc : TemplateModels c) (hp : Physical env data)
    (path : String) (rows : List (SlopeLine ℝ)) (hpath : SlopePath pr.cfg.slopeFile path) (hrows : env.slopeFile path = some rows)
    (hin : ∃ r ∈ usableRows rows, ∃ r' ∈ usableRows rows, r.dist ≤ pr.world.st.pos ∧ pr.world.st.pos ≤ r'.dist)
    (hsteep : ∀ q ∈ usableRows rows, q.slopeDeg < 180)
    (hm : pr.integrator.massConservation = true → pr.world.terrain.effusionRateInit ≠ 0)
    (n : Nat) (hn : 1 ≤ n) (hL : (pr.world.terrain.maxLength - pr.world.st.pos) / pr.integrator.dx ≤ n) :
    ∃ p', run n env jsonFile folder (newRunner p) = some (.ok (), p') := by
  obtain ⟨hrel, hg⟩ := C117_template_sensible env data [] pr hprep c hsel hc hp
  refine C117_never_raises env jsonFile folder p data pr hdata hprep hg (template_vent env data pr hprep c hsel hc hp path rows hpath hrows hin hsteep) hm
    (Or.inl hrel) n hn hL

end PyFlowGo
