import Verif.Proofs.FactoryLemmas
/-
  C37, C51, C52, C53, C55: what the factory builds from a configuration, and when it refuses.
  Everything here holds for every number type.
-/
set_option linter.unusedSectionVars false
namespace PyFlowGo
open Spec
variable {α : Type} [Add α] [Sub α] [Mul α] [Neg α] [OfScientific α] [PyNum α]

theorem readNames_iff (data : Json α) (n : Names α) :
    readNames data = .ok n ↔
      EntryAt data "models" "crystallization_rate_model" n.cryst ∧
      EntryAt data "models" "melt_viscosity_model" n.melt ∧
      EntryAt data "models" "relative_viscosity_model" n.rel ∧
      EntryAt data "models" "relative_viscosity_bubbles_model" n.bub ∧
      EntryAt data "models" "yield_strength_model" n.yld ∧
      EntryAt data "models" "crust_temperature_model" n.crust ∧
      EntryAt data "models" "effective_cover_crust_model" n.cover ∧
      EntryAt data "models" "vesicle_fraction_model" n.ves ∧
      EntryAt data "heat_budget_models" "radiation" n.radiation ∧
      EntryAt data "heat_budget_models" "snyder" n.snyder ∧
      EntryAt data "heat_budget_models" "conduction" n.conduction ∧
      EntryAt data "heat_budget_models" "convection" n.convection ∧
      EntryAt data "heat_budget_models" "rain" n.rain ∧
      EntryAt data "heat_budget_models" "viscous_heating" n.viscous := by
  unfold readNames
  simp only [bind_ok_iff, pure_ok_iff, getJ_ok_iff]
  constructor
  · rintro ⟨_, h1, _, h2, _, h3, _, h4, _, h5, _, h6, _, h7, _, h8, _, h9, _, h10, _, h11, _, h12, _, h13, _, h14, rfl⟩
    exact ⟨h1, h2, h3, h4, h5, h6, h7, h8, h9, h10, h11, h12, h13, h14⟩
  · rintro ⟨h1, h2, h3, h4, h5, h6, h7, h8, h9, h10, h11, h12, h13, h14⟩
    exact ⟨_, h1, _, h2, _, h3, _, h4, _, h5, _, h6, _, h7, _, h8, _, h9, _, h10, _, h11, _, h12, _, h13, _, h14, rfl⟩

/-- The names as JSON values. -/
def Spec.Choice.names (c : Choice) : Names α :=
  { cryst := .str c.cryst, melt := .str c.melt, rel := .str c.rel, bub := .str c.bub, yld := .str c.yld,
    crust := .str c.crust, cover := .str c.cover, ves := .str c.ves, radiation := .str c.radiation,
    snyder := .str c.snyder, conduction := .str c.conduction, convection := .str c.convection,
    rain := .str c.rain, viscous := .str c.viscous }

theorem readNames_selects (data : Json α) (c : Choice) : readNames data = .ok (c.names) ↔ Selects data c :=
  readNames_iff data _

theorem cryst_str {env : Env α} {data name : Json α} {m : CrystModel α} (h : buildCryst env data name = .ok m) :
    ∃ s, name = .str s := by
  cases name <;> simp [buildCryst, Json.isStr] at h ⊢
theorem ves_str {env : Env α} {data name : Json α} {m : VesicleModel α} (h : buildVes env data name = .ok m) :
    ∃ s, name = .str s := by
  cases name <;> simp [buildVes, Json.isStr] at h ⊢
theorem melt_str {env : Env α} {data name : Json α} {m : MeltModel α} (h : buildMelt env data name = .ok m) :
    ∃ s, name = .str s := by
  cases name <;> simp [buildMelt, Json.isStr] at h ⊢
theorem rel_str {env : Env α} {data name : Json α} {v : VesicleModel α} {t : MeltModel α} {m : RelModel α}
    (h : buildRel env data name v t = .ok m) : ∃ s, name = .str s := by
  cases name <;> simp [buildRel, Json.isStr] at h ⊢
theorem bub_str {env : Env α} {data name : Json α} {v : VesicleModel α} {t : MeltModel α} {r : RelModel α}
    {m : BubModel α} (h : buildBub env data name v t r = .ok m) : ∃ s, name = .str s := by
  cases name <;> simp [buildBub, Json.isStr] at h ⊢
theorem yield_str {env : Env α} {data name : Json α} {m : YieldModel α} (h : buildYield env data name = .ok m) :
    ∃ s, name = .str s := by
  cases name <;> simp [buildYield, Json.isStr] at h ⊢
theorem cover_str {env : Env α} {data name : Json α} {m : CoverModel α} (h : buildCover env data name = .ok m) :
    ∃ s, name = .str s := by
  cases name <;> simp [buildCover, Json.isStr] at h ⊢
theorem crust_str {env : Env α} {data name : Json α} {m : CrustModel α} (h : buildCrust env data name = .ok m) :
    ∃ s, name = .str s := by
  cases name <;> simp [buildCrust, Json.isStr] at h ⊢

theorem buildLava_iff (env : Env α) (data : Json α) (melt : MeltModel α) (rel : RelModel α) (bub : BubModel α)
    (yld : YieldModel α) (ves : VesicleModel α) (l : Lava α) :
    buildLava env data melt rel bub yld ves = .ok l ↔
      l.melt = melt ∧ l.rel = rel ∧ l.bub = bub ∧ l.yld = yld ∧ l.ves = ves ∧
      NumberAt env data "eruption_condition" "eruption_temperature" l.eruptionT ∧
      NumberAt env data "thermal_parameters" "buffer" l.buffer ∧
      NumberAt env data "crystals_parameters" "latent_heat_of_crystallization" l.latentHeat ∧
      NumberAt env data "lava_state" "density_dre" l.densityDre ∧
      ∃ x, NumberAt env data "relative_viscosity_parameters" "max_packing" x := by
  unfold buildLava
  simp only [bind_ok_iff, pure_ok_iff, getF_ok_iff]
  constructor
  · rintro ⟨_, h1, _, h2, _, h3, _, h4, x, h5, rfl⟩
    exact ⟨rfl, rfl, rfl, rfl, rfl, h1, h2, h3, h4, x, h5⟩
  · rintro ⟨rfl, rfl, rfl, rfl, rfl, h1, h2, h3, h4, x, h5⟩
    exact ⟨_, h1, _, h2, _, h3, _, h4, x, h5, rfl⟩

/-- C55 (and C51, C52, C37): the factory succeeds with models `m` exactly if the configuration selects
    models by name and `m` is what these names stand for, every parameter being the number found in the
    named entry of the configuration (`Spec.ModelsFrom`): there is no default value. -/
theorem C55_models_come_from_the_configuration (env : Env α) (data : Json α) (m : Models α) :
    factory env data = .ok m ↔ ∃ c, Selects data c ∧ ModelsFrom env data c m := by
  unfold factory
  simp only [bind_ok_iff, pure_ok_iff]
  constructor
  · rintro ⟨n, hn, cr, hcr, air, hair, ves, hves, melt, hmelt, rel, hrel, bub, hbub, yld, hyld, lava, hlava,
      cover, hcover, crust, hcrust, ks, hks, fl, hfl, rfl⟩
    obtain ⟨s1, e1⟩ := cryst_str hcr
    obtain ⟨s2, e2⟩ := ves_str hves
    obtain ⟨s3, e3⟩ := melt_str hmelt
    obtain ⟨s4, e4⟩ := rel_str hrel
    obtain ⟨s5, e5⟩ := bub_str hbub
    obtain ⟨s6, e6⟩ := yield_str hyld
    obtain ⟨s7, e7⟩ := cover_str hcover
    obtain ⟨s8, e8⟩ := crust_str hcrust
    obtain ⟨cf, f1, f2, f3, f4, f5, f6, hff⟩ := (fluxes_iff env data n fl).mp ⟨ks, hks, hfl⟩
    rw [e1, buildCryst_iff] at hcr
    rw [buildAir_iff] at hair
    rw [e2, buildVes_iff] at hves
    rw [e3, buildMelt_iff] at hmelt
    rw [e4, buildRel_iff] at hrel
    rw [e5, buildBub_iff] at hbub
    rw [e6, buildYield_iff] at hyld
    rw [e7, buildCover_iff] at hcover
    rw [e8, buildCrust_iff] at hcrust
    rw [buildLava_iff] at hlava
    obtain ⟨l1, l2, l3, l4, l5, l6, l7, l8, l9, l10⟩ := hlava
    subst l1 l2 l3 l4 l5
    rw [readNames_iff, e1, e2, e3, e4, e5, e6, e7, e8, f1, f2, f3, f4, f5, f6] at hn
    exact ⟨⟨s1, s3, s4, s5, s6, s8, s7, s2, cf.radiation, cf.snyder, cf.conduction, cf.convection, cf.rain, cf.viscous⟩,
      hn, hcr, hair, ⟨hmelt, hves, hrel, hbub, hyld, l6, l7, l8, l9, l10⟩, hcover, hcrust, hff⟩
  · rintro ⟨c, hc, hcr, hair, ⟨hmelt, hves, hrel, hbub, hyld, hl⟩, hcover, hcrust, hff⟩
    obtain ⟨ks, hks, hfl⟩ := (fluxes_iff env data (c.names) m.fluxes).mpr ⟨c, rfl, rfl, rfl, rfl, rfl, rfl, hff⟩
    exact ⟨c.names, (readNames_selects data c).mpr hc, m.cryst, (buildCryst_iff _ _ _ _).mpr hcr,
      m.air, (buildAir_iff _ _ _).mpr hair, m.lava.ves, (buildVes_iff _ _ _ _).mpr hves,
      m.lava.melt, (buildMelt_iff _ _ _ _).mpr hmelt, m.lava.rel, (buildRel_iff _ _ _ _ _ _).mpr hrel,
      m.lava.bub, (buildBub_iff _ _ _ _ _ _ _).mpr hbub, m.lava.yld, (buildYield_iff _ _ _ _).mpr hyld,
      m.lava, (buildLava_iff _ _ _ _ _ _ _ _).mpr ⟨rfl, rfl, rfl, rfl, rfl, hl⟩,
      m.cover, (buildCover_iff _ _ _ _).mpr hcover, m.crust, (buildCrust_iff _ _ _ _).mpr hcrust,
      ks, hks, m.fluxes, hfl, rfl⟩

theorem selects_unique {data : Json α} {c c' : Choice} (h : Selects data c) (h' : Selects data c') : c = c' := by
  obtain ⟨a1, a2, a3, a4, a5, a6, a7, a8, a9, a10, a11, a12, a13, a14⟩ := h
  obtain ⟨b1, b2, b3, b4, b5, b6, b7, b8, b9, b10, b11, b12, b13, b14⟩ := h'
  cases c
  cases c'
  simp only [Choice.mk.injEq]
  exact ⟨Json.str.inj (entry_unique a1 b1), Json.str.inj (entry_unique a2 b2), Json.str.inj (entry_unique a3 b3),
    Json.str.inj (entry_unique a4 b4), Json.str.inj (entry_unique a5 b5), Json.str.inj (entry_unique a6 b6),
    Json.str.inj (entry_unique a7 b7), Json.str.inj (entry_unique a8 b8), Json.str.inj (entry_unique a9 b9),
    Json.str.inj (entry_unique a10 b10), Json.str.inj (entry_unique a11 b11), Json.str.inj (entry_unique a12 b12),
    Json.str.inj (entry_unique a13 b13), Json.str.inj (entry_unique a14 b14)⟩

/-! ### C51: names -/

theorem crystFrom_name {env : Env α} {data : Json α} {s : String} {m : CrystModel α} (h : CrystFrom env data s m) :
    s ∈ crystNames := by
  unfold CrystFrom at h; unfold crystNames; split at h <;> first | exact False.elim h | simp
theorem vesFrom_name {env : Env α} {data : Json α} {s : String} {m : VesicleModel α} (h : VesFrom env data s m) :
    s ∈ vesNames := by
  unfold VesFrom at h; unfold vesNames; split at h <;> first | exact False.elim h | simp
theorem meltFrom_name {env : Env α} {data : Json α} {s : String} {m : MeltModel α} (h : MeltFrom env data s m) :
    s ∈ meltNames := by
  unfold MeltFrom at h; unfold meltNames; split at h <;> first | exact False.elim h | simp
theorem relFrom_name {env : Env α} {data : Json α} {v : VesicleModel α} {t : MeltModel α} {s : String}
    {m : RelModel α} (h : RelFrom env data v t s m) : s ∈ relNames := by
  unfold RelFrom at h; unfold relNames; split at h <;> first | exact False.elim h | simp
theorem bubFrom_name {env : Env α} {data : Json α} {v : VesicleModel α} {t : MeltModel α} {r : RelModel α} {s : String}
    {m : BubModel α} (h : BubFrom env data v t r s m) : s ∈ bubNames := by
  unfold BubFrom at h; unfold bubNames; split at h <;> first | exact False.elim h | simp
theorem yieldFrom_name {env : Env α} {data : Json α} {s : String} {m : YieldModel α} (h : YieldFrom env data s m) :
    s ∈ yldNames := by
  unfold YieldFrom at h; unfold yldNames; split at h <;> first | exact False.elim h | simp
theorem coverFrom_name {env : Env α} {data : Json α} {s : String} {m : CoverModel α} (h : CoverFrom env data s m) :
    s ∈ coverNames := by
  unfold CoverFrom at h; unfold coverNames; split at h <;> first | exact False.elim h | simp
theorem crustFrom_name {env : Env α} {data : Json α} {s : String} {m : CrustModel α} (h : CrustFrom env data s m) :
    s ∈ crustNames := by
  unfold CrustFrom at h; unfold crustNames; split at h <;> first | exact False.elim h | simp
theorem radFrom_name {env : Env α} {data : Json α} {s : String} {l : List (Flux α)} (h : RadiationFrom env data s l) :
    s ∈ radNames := by
  unfold RadiationFrom at h; unfold radNames; split at h <;> first | exact False.elim h | simp
theorem switchFrom_name {s : String} {l : List (Flux α)} {p : Flux α → Prop} (h : SwitchFrom s l p) :
    s ∈ switchNames := by
  unfold switchNames
  rcases h with ⟨rfl, _⟩ | ⟨rfl, _⟩ <;> simp

/-- C51: if the factory succeeds then all fourteen entries are documented names, and snyder is not combined
    with radiation or convection. -/
theorem C51_success_means_documented (env : Env α) (data : Json α) (m : Models α) (h : factory env data = .ok m) :
    ∃ c, Selects data c ∧ Documented c := by
  obtain ⟨c, hc, h1, _, ⟨h3, h4, h5, h6, h7, _⟩, h8, h9, rad, cond, conv, rain, visc, sny, _, g1, g2, g3, g4, g5, g6, g7⟩ :=
    (C55_models_come_from_the_configuration env data m).mp h
  exact ⟨c, hc, crystFrom_name h1, meltFrom_name h3, relFrom_name h5, bubFrom_name h6, yieldFrom_name h7,
    crustFrom_name h9, coverFrom_name h8, vesFrom_name h4, radFrom_name g1, switchFrom_name g6, switchFrom_name g2,
    switchFrom_name g3, switchFrom_name g4, switchFrom_name g5, g7⟩

/-- C51: an undocumented name (or a forbidden combination) is always refused. -/
theorem C51_unknown_refused (env : Env α) (data : Json α) (c : Choice) (hc : Selects data c) (hd : ¬ Documented c) :
    ∃ e, factory env data = .error e := by
  cases h : factory env data with
  | error e => exact ⟨e, rfl⟩
  | ok m =>
    obtain ⟨c', hc', hd'⟩ := C51_success_means_documented env data m h
    exact absurd (selects_unique hc hc' ▸ hd') hd

/-! ### C55: required entries -/

theorem cryst_required {env : Env α} {data : Json α} {s : String} {m : CrystModel α}
    (h : CrystFrom env data s m) : ∀ e ∈ crystReq s, ∃ x, NumberAt env data e.1 e.2 x := by
  unfold CrystFrom at h
  split at h <;> first | exact False.elim h | (simp [crystReq]; try grind)

theorem cryst_sufficient {env : Env α} {data : Json α} {s : String} (hs : s ∈ crystNames)
    (h : ∀ e ∈ crystReq s, ∃ x, NumberAt env data e.1 e.2 x) (hm : s = "melts" → ∃ v, TopEntry data "melts_look-up_table" v) :
    ∃ m, CrystFrom env data s m := by
  simp only [crystNames, List.mem_cons, List.not_mem_nil, or_false] at hs
  repeat' (first | (rcases hs with rfl | hs) | subst hs)
  all_goals (simp [crystReq] at h; simp [CrystFrom]; try grind)

theorem ves_required {env : Env α} {data : Json α} {s : String} {m : VesicleModel α}
    (h : VesFrom env data s m) : ∀ e ∈ vesReq s, ∃ x, NumberAt env data e.1 e.2 x := by
  unfold VesFrom at h
  split at h <;> first | exact False.elim h | (simp [vesReq]; try grind)

theorem ves_sufficient {env : Env α} {data : Json α} {s : String} (hs : s ∈ vesNames)
    (h : ∀ e ∈ vesReq s, ∃ x, NumberAt env data e.1 e.2 x) :
    ∃ m, VesFrom env data s m := by
  simp only [vesNames, List.mem_cons, List.not_mem_nil, or_false] at hs
  repeat' (first | (rcases hs with rfl | hs) | subst hs)
  all_goals (simp [vesReq] at h; simp [VesFrom]; try grind)

theorem melt_required {env : Env α} {data : Json α} {s : String} {m : MeltModel α}
    (h : MeltFrom env data s m) : ∀ e ∈ meltReq s, ∃ x, NumberAt env data e.1 e.2 x := by
  unfold MeltFrom at h
  split at h <;> first | exact False.elim h | (simp [meltReq]; try grind)

theorem melt_sufficient {env : Env α} {data : Json α} {s : String} (hs : s ∈ meltNames)
    (h : ∀ e ∈ meltReq s, ∃ x, NumberAt env data e.1 e.2 x) :
    ∃ m, MeltFrom env data s m := by
  simp only [meltNames, List.mem_cons, List.not_mem_nil, or_false] at hs
  repeat' (first | (rcases hs with rfl | hs) | subst hs)
  all_goals (simp [meltReq] at h; simp [MeltFrom]; try grind)

theorem rel_required {env : Env α} {data : Json α} {v : VesicleModel α} {t : MeltModel α} {s : String} {m : RelModel α}
    (h : RelFrom env data v t s m) : ∀ e ∈ relReq s, ∃ x, NumberAt env data e.1 e.2 x := by
  unfold RelFrom at h
  split at h <;> first | exact False.elim h | (simp [relReq]; try grind)

theorem rel_sufficient {env : Env α} {data : Json α} (v : VesicleModel α) (t : MeltModel α) {s : String} (hs : s ∈ relNames)
    (h : ∀ e ∈ relReq s, ∃ x, NumberAt env data e.1 e.2 x) :
    ∃ m, RelFrom env data v t s m := by
  simp only [relNames, List.mem_cons, List.not_mem_nil, or_false] at hs
  repeat' (first | (rcases hs with rfl | hs) | subst hs)
  all_goals (simp [relReq] at h; simp [RelFrom]; try grind)

theorem bub_required {env : Env α} {data : Json α} {v : VesicleModel α} {t : MeltModel α} {r : RelModel α} {s : String} {m : BubModel α}
    (h : BubFrom env data v t r s m) : ∀ e ∈ bubReq s, ∃ x, NumberAt env data e.1 e.2 x := by
  unfold BubFrom at h
  split at h <;> first | exact False.elim h | (simp [bubReq]; try grind)

theorem bub_sufficient {env : Env α} {data : Json α} (v : VesicleModel α) (t : MeltModel α) (r : RelModel α) {s : String} (hs : s ∈ bubNames)
    (h : ∀ e ∈ bubReq s, ∃ x, NumberAt env data e.1 e.2 x) :
    ∃ m, BubFrom env data v t r s m := by
  simp only [bubNames, List.mem_cons, List.not_mem_nil, or_false] at hs
  repeat' (first | (rcases hs with rfl | hs) | subst hs)
  all_goals (simp [bubReq] at h; simp [BubFrom]; try grind)

theorem yld_required {env : Env α} {data : Json α} {s : String} {m : YieldModel α}
    (h : YieldFrom env data s m) : ∀ e ∈ yldReq s, ∃ x, NumberAt env data e.1 e.2 x := by
  unfold YieldFrom at h
  split at h <;> first | exact False.elim h | (simp [yldReq]; try grind)

theorem yld_sufficient {env : Env α} {data : Json α} {s : String} (hs : s ∈ yldNames)
    (h : ∀ e ∈ yldReq s, ∃ x, NumberAt env data e.1 e.2 x) :
    ∃ m, YieldFrom env data s m := by
  simp only [yldNames, List.mem_cons, List.not_mem_nil, or_false] at hs
  repeat' (first | (rcases hs with rfl | hs) | subst hs)
  all_goals (simp [yldReq] at h; simp [YieldFrom]; try grind)

theorem cover_required {env : Env α} {data : Json α} {s : String} {m : CoverModel α}
    (h : CoverFrom env data s m) : ∀ e ∈ coverReq s, ∃ x, NumberAt env data e.1 e.2 x := by
  unfold CoverFrom at h
  split at h <;> first | exact False.elim h | (simp [coverReq]; try grind)

theorem cover_sufficient {env : Env α} {data : Json α} {s : String} (hs : s ∈ coverNames)
    (h : ∀ e ∈ coverReq s, ∃ x, NumberAt env data e.1 e.2 x) :
    ∃ m, CoverFrom env data s m := by
  simp only [coverNames, List.mem_cons, List.not_mem_nil, or_false] at hs
  repeat' (first | (rcases hs with rfl | hs) | subst hs)
  all_goals (simp [coverReq] at h; simp [CoverFrom]; try grind)

theorem crust_required {env : Env α} {data : Json α} {s : String} {m : CrustModel α}
    (h : CrustFrom env data s m) : ∀ e ∈ crustReq s, ∃ x, NumberAt env data e.1 e.2 x := by
  unfold CrustFrom at h
  split at h <;> first | exact False.elim h | (simp [crustReq]; try grind)

theorem crust_sufficient {env : Env α} {data : Json α} {s : String} (hs : s ∈ crustNames)
    (h : ∀ e ∈ crustReq s, ∃ x, NumberAt env data e.1 e.2 x) (hf : s = "field" → (∃ v, EntryAt data "thermal_parameters" "crust_temperature_file" v) ∧
      ∃ rows sp, env.crustFile "resources/crust_temperature_profile.txt" = some rows ∧ readCrustField rows = .ok sp) :
    ∃ m, CrustFrom env data s m := by
  simp only [crustNames, List.mem_cons, List.not_mem_nil, or_false] at hs
  repeat' (first | (rcases hs with rfl | hs) | subst hs)
  all_goals (simp [crustReq] at h; simp [CrustFrom]; try grind)

theorem cryst_name_error (env : Env α) (data : Json α) (s : String) (hs : s ∉ crystNames) :
    buildCryst env data (.str s) = .error .nameError := by
  simp only [crystNames, List.mem_cons, List.not_mem_nil, or_false, not_or] at hs
  simp [buildCryst, Json.isStr, hs]

theorem ves_name_error (env : Env α) (data : Json α) (s : String) (hs : s ∉ vesNames) :
    buildVes env data (.str s) = .error .nameError := by
  simp only [vesNames, List.mem_cons, List.not_mem_nil, or_false, not_or] at hs
  simp [buildVes, Json.isStr, hs]

theorem melt_name_error (env : Env α) (data : Json α) (s : String) (hs : s ∉ meltNames) :
    buildMelt env data (.str s) = .error .nameError := by
  simp only [meltNames, List.mem_cons, List.not_mem_nil, or_false, not_or] at hs
  simp [buildMelt, Json.isStr, hs]

theorem rel_name_error (env : Env α) (data : Json α) (v : VesicleModel α) (t : MeltModel α) (s : String) (hs : s ∉ relNames) :
    buildRel env data (.str s) v t = .error .nameError := by
  simp only [relNames, List.mem_cons, List.not_mem_nil, or_false, not_or] at hs
  simp [buildRel, Json.isStr, hs]

theorem bub_name_error (env : Env α) (data : Json α) (v : VesicleModel α) (t : MeltModel α) (r : RelModel α) (s : String) (hs : s ∉ bubNames) :
    buildBub env data (.str s) v t r = .error .nameError := by
  simp only [bubNames, List.mem_cons, List.not_mem_nil, or_false, not_or] at hs
  simp [buildBub, Json.isStr, hs]

theorem yld_name_error (env : Env α) (data : Json α) (s : String) (hs : s ∉ yldNames) :
    buildYield env data (.str s) = .error .nameError := by
  simp only [yldNames, List.mem_cons, List.not_mem_nil, or_false, not_or] at hs
  simp [buildYield, Json.isStr, hs]

theorem cover_name_error (env : Env α) (data : Json α) (s : String) (hs : s ∉ coverNames) :
    buildCover env data (.str s) = .error .nameError := by
  simp only [coverNames, List.mem_cons, List.not_mem_nil, or_false, not_or] at hs
  simp [buildCover, Json.isStr, hs]

theorem crust_name_error (env : Env α) (data : Json α) (s : String) (hs : s ∉ crustNames) :
    buildCrust env data (.str s) = .error .nameError := by
  simp only [crustNames, List.mem_cons, List.not_mem_nil, or_false, not_or] at hs
  simp [buildCrust, Json.isStr, hs]

theorem rad_required {env : Env α} {data : Json α} {s : String} {l : List (Flux α)}
    (h : RadiationFrom env data s l) : ∀ e ∈ radReq s, ∃ x, NumberAt env data e.1 e.2 x := by
  unfold RadiationFrom at h
  split at h <;> first | exact False.elim h | (simp [radReq]; try grind)

theorem rad_sufficient {env : Env α} {data : Json α} {s : String} (hs : s ∈ radNames)
    (h : ∀ e ∈ radReq s, ∃ x, NumberAt env data e.1 e.2 x) : ∃ l, RadiationFrom env data s l := by
  simp only [radNames, List.mem_cons, List.not_mem_nil, or_false] at hs
  repeat' (first | (rcases hs with rfl | hs) | subst hs)
  all_goals (simp [radReq] at h; simp [RadiationFrom]; try grind)

theorem switch_required {s : String} {l : List (Flux α)} {p : Flux α → Prop} (h : SwitchFrom s l p) {req : List Req}
    {q : Req → Prop} (hp : ∀ f, p f → ∀ e ∈ req, q e) : ∀ e ∈ ifYes s req, q e := by
  unfold ifYes
  intro e he
  rcases h with ⟨rfl, f, hf, _⟩ | ⟨rfl, _⟩
  · exact hp f hf e (by simpa using he)
  · simp at he

theorem switch_sufficient {s : String} (hs : s ∈ switchNames) {p : Flux α → Prop} (hp : s = "yes" → ∃ f, p f) :
    ∃ l, SwitchFrom s l p := by
  simp only [switchNames, List.mem_cons, List.not_mem_nil, or_false] at hs
  rcases hs with rfl | rfl
  · obtain ⟨f, hf⟩ := hp rfl
    exact ⟨[f], Or.inl ⟨rfl, f, hf, rfl⟩⟩
  · exact ⟨[], Or.inr ⟨rfl, rfl⟩⟩

/-- C55: when the factory succeeds, every number the selected models need is in the configuration. Read
    backwards: if one required entry is missing (or is not a number), building fails. -/
theorem C55_required_entries (env : Env α) (data : Json α) (m : Models α) (h : factory env data = .ok m)
    (c : Choice) (hc : Selects data c) : ∀ e ∈ requiredNumbers c, ∃ x, NumberAt env data e.1 e.2 x := by
  obtain ⟨c', hc', h1, h2, ⟨h3, h4, h5, h6, h7, hl⟩, h8, h9, rad, cond, conv, rain, visc, sny, _, g1, g2, g3, g4, g5, g6, g7⟩ :=
    (C55_models_come_from_the_configuration env data m).mp h
  obtain rfl := selects_unique hc hc'
  unfold requiredNumbers
  simp only [List.forall_mem_append]
  refine ⟨⟨⟨⟨⟨⟨⟨⟨⟨⟨⟨⟨⟨cryst_required h1, ?_⟩, ves_required h4⟩, melt_required h3⟩, rel_required h5⟩, bub_required h6⟩,
    yld_required h7⟩, ?_⟩, cover_required h8⟩, crust_required h9⟩, rad_required g1⟩, ?_⟩, ?_⟩, ?_⟩
  · unfold AirFrom at h2; simp [airReq]; grind
  · simp [lavaReq]; grind
  · refine switch_required g2 ?_
    rintro f ⟨b, d, hb, hd, _⟩
    simp; exact ⟨⟨_, hb⟩, _, hd⟩
  · refine switch_required g4 ?_
    rintro f ⟨r, d, l, hr, hd, hl, _⟩
    simp; exact ⟨⟨_, hr⟩, ⟨_, hd⟩, _, hl⟩
  · refine switch_required g6 ?_
    rintro f ⟨⟨x, hx⟩, _⟩
    simp; exact ⟨_, hx⟩

/-- C55: a missing required entry is noticed. -/
theorem C55_missing_entry_refused (env : Env α) (data : Json α) (c : Choice) (hc : Selects data c) (e : Req)
    (he : e ∈ requiredNumbers c) (hmiss : ∀ v, ¬ EntryAt data e.1 e.2 v) : ∃ err, factory env data = .error err := by
  cases h : factory env data with
  | error e => exact ⟨e, rfl⟩
  | ok m =>
    obtain ⟨x, v, hv, _⟩ := C55_required_entries env data m h c hc e he
    exact absurd hv (hmiss v)

/-- C55: nothing else is needed: documented names, the required numbers and the tables suffice. -/
theorem C55_sufficient_entries (env : Env α) (data : Json α) (c : Choice) (hc : Selects data c) (hd : Documented c)
    (hn : ∀ e ∈ requiredNumbers c, ∃ x, NumberAt env data e.1 e.2 x) (ht : TablesPresent env data c) :
    ∃ m, factory env data = .ok m := by
  obtain ⟨d1, d2, d3, d4, d5, d6, d7, d8, d9, d10, d11, d12, d13, d14, d15⟩ := hd
  unfold requiredNumbers at hn
  simp only [List.forall_mem_append] at hn
  obtain ⟨⟨⟨⟨⟨⟨⟨⟨⟨⟨⟨⟨⟨n1, n2⟩, n3⟩, n4⟩, n5⟩, n6⟩, n7⟩, n8⟩, n9⟩, n10⟩, n11⟩, n12⟩, n13⟩, n14⟩ := hn
  obtain ⟨cr, hcr⟩ := cryst_sufficient d1 n1 ht.1
  obtain ⟨ves, hves⟩ := ves_sufficient d8 n3
  obtain ⟨melt, hmelt⟩ := melt_sufficient d2 n4
  obtain ⟨rel, hrel⟩ := rel_sufficient ves melt d3 n5
  obtain ⟨bub, hbub⟩ := bub_sufficient ves melt rel d4 n6
  obtain ⟨yld, hyld⟩ := yld_sufficient d5 n7
  obtain ⟨cover, hcover⟩ := cover_sufficient d7 n9
  obtain ⟨crust, hcrust⟩ := crust_sufficient d6 n10 ht.2
  obtain ⟨rad, hrad⟩ := rad_sufficient d9 n11
  simp only [airReq, lavaReq, List.forall_mem_cons, List.not_mem_nil, false_implies, implies_true, and_true] at n2 n8
  obtain ⟨⟨a1, ha1⟩, ⟨a2, ha2⟩, ⟨a3, ha3⟩, ⟨a4, ha4⟩, ⟨a5, ha5⟩⟩ := n2
  obtain ⟨⟨l1, hl1⟩, ⟨l2, hl2⟩, ⟨l3, hl3⟩, ⟨l4, hl4⟩, hl5⟩ := n8
  obtain ⟨cond, hcond⟩ := switch_sufficient d11 (p := fun f => ∃ b d,
      NumberAt env data "conduction_parameters" "basal_temperature" b ∧
      NumberAt env data "conduction_parameters" "core_base_distance" d ∧ f = .conduction b d) (by
    intro hy
    simp only [ifYes, hy, if_true, List.forall_mem_cons] at n12
    obtain ⟨⟨b, hb⟩, ⟨d, hd⟩, _⟩ := n12
    exact ⟨_, b, d, hb, hd, rfl⟩)
  obtain ⟨conv, hconv⟩ := switch_sufficient (α := α) d12 (p := fun f => f = .convection) (fun _ => ⟨_, rfl⟩)
  obtain ⟨rain, hrain⟩ := switch_sufficient d13 (p := fun f => ∃ r d l,
      NumberAt env data "rain_parameters" "rainfall_rate" r ∧ NumberAt env data "rain_parameters" "density_water" d ∧
      NumberAt env data "rain_parameters" "latent_heat_vaporization" l ∧ f = .rain r d l) (by
    intro hy
    simp only [ifYes, hy, if_true, List.forall_mem_cons] at n13
    obtain ⟨⟨b, hb⟩, ⟨d, hd⟩, ⟨l, hl⟩, _⟩ := n13
    exact ⟨_, b, d, l, hb, hd, hl, rfl⟩)
  obtain ⟨visc, hvisc⟩ := switch_sufficient (α := α) d14 (p := fun f => f = .viscous) (fun _ => ⟨_, rfl⟩)
  obtain ⟨sny, hsny⟩ := switch_sufficient (α := α) d10 (p := fun f =>
      (∃ x, NumberAt env data "convection_parameters" "air_temperature" x) ∧ f = .snyder)
    (fun _ => ⟨_, ⟨a1, ha1⟩, rfl⟩)
  refine ⟨⟨⟨l1, l2, l3, l4, melt, rel, bub, yld, ves⟩, ⟨a1, a2, a3, a4, a5⟩, crust, cover, cr,
    rad ++ cond ++ conv ++ rain ++ visc ++ sny⟩, ?_⟩
  rw [C55_models_come_from_the_configuration]
  exact ⟨c, hc, hcr, ⟨ha1, ha2, ha3, ha4, ha5⟩, ⟨hmelt, hves, hrel, hbub, hyld, hl1, hl2, hl3, hl4, hl5⟩, hcover, hcrust,
    rad, cond, conv, rain, visc, sny, rfl, hrad, hcond, hconv, hrain, hvisc, hsny, d15⟩

theorem select_error {n : Names α} {e : Err} (h : selectFluxes n = .error e) : e = .nameError := by
  have hs : ∀ (j : Json α) k e, selectSwitch j k = .error e → e = .nameError := by
    intro j k e h; unfold selectSwitch at h; grind
  have hr : ∀ e, selectRadiation n.radiation = .error e → e = .nameError := by
    intro e h; unfold selectRadiation at h; grind
  have hy : ∀ e, selectSnyder n = .error e → e = .nameError := by
    intro e h; unfold selectSnyder at h; grind
  unfold selectFluxes at h
  simp only [bind_error_iff, pure_ne_error, and_false, exists_false, or_false] at h
  rcases h with h | ⟨_, _, h | ⟨_, _, h | ⟨_, _, h | ⟨_, _, h | ⟨_, _, h⟩⟩⟩⟩⟩
  · exact hr _ h
  · exact hs _ _ _ h
  · exact hs _ _ _ h
  · exact hs _ _ _ h
  · exact hs _ _ _ h
  · exact hy _ h

/-- C51: when nothing else is wrong, an undocumented name (or forbidden combination) is a NameError. -/
theorem C51_unknown_is_NameError (env : Env α) (data : Json α) (c : Choice) (hc : Selects data c) (hd : ¬ Documented c)
    (hn : ∀ e ∈ requiredNumbers c, ∃ x, NumberAt env data e.1 e.2 x) (ht : TablesPresent env data c) :
    factory env data = .error .nameError := by
  have hn' := hn
  unfold requiredNumbers at hn
  simp only [List.forall_mem_append] at hn
  obtain ⟨⟨⟨⟨⟨⟨⟨⟨⟨⟨⟨⟨⟨n1, n2⟩, n3⟩, n4⟩, n5⟩, n6⟩, n7⟩, n8⟩, n9⟩, n10⟩, n11⟩, n12⟩, n13⟩, n14⟩ := hn
  simp only [airReq, lavaReq, List.forall_mem_cons, List.not_mem_nil, false_implies, implies_true, and_true] at n2 n8
  obtain ⟨⟨a1, ha1⟩, ⟨a2, ha2⟩, ⟨a3, ha3⟩, ⟨a4, ha4⟩, ⟨a5, ha5⟩⟩ := n2
  obtain ⟨⟨l1, hl1⟩, ⟨l2, hl2⟩, ⟨l3, hl3⟩, ⟨l4, hl4⟩, hl5⟩ := n8
  unfold factory
  rw [(readNames_selects data c).mpr hc, ok_bind]
  unfold Choice.names
  dsimp only
  by_cases d1 : c.cryst ∈ crystNames
  case neg => rw [cryst_name_error env data _ d1]; rfl
  obtain ⟨cr, hcr⟩ := cryst_sufficient d1 n1 ht.1
  rw [(buildCryst_iff env data _ cr).mpr hcr, ok_bind,
    (buildAir_iff env data ⟨a1, a2, a3, a4, a5⟩).mpr ⟨ha1, ha2, ha3, ha4, ha5⟩, ok_bind]
  by_cases d8 : c.ves ∈ vesNames
  case neg => rw [ves_name_error env data _ d8]; rfl
  obtain ⟨ves, hves⟩ := ves_sufficient d8 n3
  rw [(buildVes_iff env data _ ves).mpr hves, ok_bind]
  by_cases d2 : c.melt ∈ meltNames
  case neg => rw [melt_name_error env data _ d2]; rfl
  obtain ⟨melt, hmelt⟩ := melt_sufficient d2 n4
  rw [(buildMelt_iff env data _ melt).mpr hmelt, ok_bind]
  by_cases d3 : c.rel ∈ relNames
  case neg => rw [rel_name_error env data ves melt _ d3]; rfl
  obtain ⟨rel, hrel⟩ := rel_sufficient ves melt d3 n5
  rw [(buildRel_iff env data ves melt _ rel).mpr hrel, ok_bind]
  by_cases d4 : c.bub ∈ bubNames
  case neg => rw [bub_name_error env data ves melt rel _ d4]; rfl
  obtain ⟨bub, hbub⟩ := bub_sufficient ves melt rel d4 n6
  rw [(buildBub_iff env data ves melt rel _ bub).mpr hbub, ok_bind]
  by_cases d5 : c.yld ∈ yldNames
  case neg => rw [yld_name_error env data _ d5]; rfl
  obtain ⟨yld, hyld⟩ := yld_sufficient d5 n7
  rw [(buildYield_iff env data _ yld).mpr hyld, ok_bind,
    (buildLava_iff env data melt rel bub yld ves ⟨l1, l2, l3, l4, melt, rel, bub, yld, ves⟩).mpr
      ⟨rfl, rfl, rfl, rfl, rfl, hl1, hl2, hl3, hl4, hl5⟩, ok_bind]
  by_cases d7 : c.cover ∈ coverNames
  case neg => rw [cover_name_error env data _ d7]; rfl
  obtain ⟨cover, hcover⟩ := cover_sufficient d7 n9
  rw [(buildCover_iff env data _ cover).mpr hcover, ok_bind]
  by_cases d6 : c.crust ∈ crustNames
  case neg => rw [crust_name_error env data _ d6]; rfl
  obtain ⟨crust, hcrust⟩ := crust_sufficient d6 n10 ht.2
  rw [(buildCrust_iff env data _ crust).mpr hcrust, ok_bind]
  have hsel : selectFluxes (c.names : Names α) = .error .nameError := by
    cases h : selectFluxes (c.names : Names α) with
    | error e => rw [select_error h]
    | ok ks =>
      exfalso
      unfold selectFluxes at h
      simp only [bind_ok_iff] at h
      obtain ⟨k1, h1, k2, h2, k3, h3, k4, h4, k5, h5, k6, h6, _⟩ := h
      rw [selectRadiation_iff] at h1
      rw [selectSwitch_iff] at h2 h3 h4 h5
      rw [selectSnyder_iff] at h6
      simp only [Choice.names, Json.str.injEq, exists_eq_left'] at h1 h2 h3 h4 h5 h6
      refine hd ⟨d1, d2, d3, d4, d5, d6, d7, d8, ?_, ?_, ?_, ?_, ?_, ?_, ?_⟩
      · simp only [radNames, List.mem_cons, List.not_mem_nil, or_false]; grind
      · simp only [switchNames, List.mem_cons, List.not_mem_nil, or_false]; grind
      · simp only [switchNames, List.mem_cons, List.not_mem_nil, or_false]; grind
      · simp only [switchNames, List.mem_cons, List.not_mem_nil, or_false]; grind
      · simp only [switchNames, List.mem_cons, List.not_mem_nil, or_false]; grind
      · simp only [switchNames, List.mem_cons, List.not_mem_nil, or_false]; grind
      · grind
  unfold Choice.names at hsel
  rw [hsel]
  rfl

/-! ### C52: the heat budget -/

theorem switch_kinds {s : String} {l : List (Flux α)} {p : Flux α → Prop} {k : FluxKind} (h : SwitchFrom s l p)
    (hp : ∀ f, p f → kindOf f = k) : l.map kindOf = if s = "yes" then [k] else [] := by
  rcases h with ⟨rfl, f, hf, rfl⟩ | ⟨rfl, rfl⟩
  · simp [hp f hf]
  · simp

theorem radiation_kinds {env : Env α} {data : Json α} {s : String} {l : List (Flux α)}
    (h : RadiationFrom env data s l) : l.map kindOf = radiationKind s := by
  unfold RadiationFrom at h
  split at h
  · obtain ⟨_, _, _, _, rfl⟩ := h; rfl
  · obtain ⟨_, _, _, _, _, _, rfl⟩ := h; rfl
  · obtain ⟨_, _, rfl⟩ := h; rfl
  · obtain ⟨_, _, rfl⟩ := h; rfl
  · subst h; rfl
  · exact h.elim

/-- C52: a successful factory puts exactly the requested fluxes in the heat budget, once each and in the
    documented order; snyder comes alone (no radiation, no convection). -/
theorem C52_exactly_the_requested_fluxes (env : Env α) (data : Json α) (m : Models α) (h : factory env data = .ok m)
    (c : Choice) (hc : Selects data c) :
    m.fluxes.map kindOf = requestedFluxes c ∧ (m.fluxes.map kindOf).Nodup ∧
    (FluxKind.snyder ∈ m.fluxes.map kindOf → ∀ k ∈ m.fluxes.map kindOf,
      k ∈ [FluxKind.conduction, .rain, .viscous, .snyder]) := by
  obtain ⟨c', hc', _, _, _, _, _, rad, cond, conv, rain, visc, sny, hfl, g1, g2, g3, g4, g5, g6, g7⟩ :=
    (C55_models_come_from_the_configuration env data m).mp h
  obtain rfl := selects_unique hc hc'
  have hmap : m.fluxes.map kindOf = requestedFluxes c := by
    rw [hfl]
    simp only [List.map_append]
    unfold requestedFluxes
    have hr := radiation_kinds g1
    rw [hr, switch_kinds g2 (k := .conduction) (by rintro f ⟨_, _, _, _, rfl⟩; rfl),
      switch_kinds g3 (k := .convection) (by rintro f rfl; rfl),
      switch_kinds g4 (k := .rain) (by rintro f ⟨_, _, _, _, _, _, rfl⟩; rfl),
      switch_kinds g5 (k := .viscous) (by rintro f rfl; rfl),
      switch_kinds g6 (k := .snyder) (by rintro f ⟨_, rfl⟩; rfl)]
  rw [hmap]
  refine ⟨rfl, ?_, ?_⟩
  · unfold requestedFluxes
    unfold radiationKind
    split <;> split_ifs <;> decide
  · intro hs k hk
    have hsy : c.snyder = "yes" := by
      by_contra hne
      unfold requestedFluxes at hs
      rw [if_neg hne] at hs
      revert hs
      unfold radiationKind
      split <;> split_ifs <;> decide
    obtain ⟨hr, hv⟩ := g7 hsy
    unfold requestedFluxes at hk
    simp only [hr, hv, radiationKind] at hk
    revert hk
    split_ifs <;> simp <;> grind

/-! ### C37: the vesicle model -/

/-- The vesicle model held by a relative-viscosity model, if it holds one. -/
def relVesicles : RelModel α → Option (VesicleModel α)
  | .bll _ _ _ _ _ _ v _ => some v
  | .ptp1 v => some v
  | .ptp2 v => some v
  | .ptp3 v => some v
  | _ => none

/-- The vesicle model held by a bubble model, if it holds one. -/
def bubVesicles : BubModel α → Option (VesicleModel α)
  | .rigid v => some v
  | .defo v => some v
  | .mader _ _ v _ _ => some v
  | .no => none

/-- C37: the configured vesicle model is the one used for density and conduction (`lava.ves`), by the
    relative-viscosity model and by the bubble model; the melt model is shared in the same way. -/
theorem C37_vesicles_shared (env : Env α) (data : Json α) (m : Models α) (h : factory env data = .ok m)
    (c : Choice) (hc : Selects data c) :
    VesFrom env data c.ves m.lava.ves ∧ (∀ v, relVesicles m.lava.rel = some v → v = m.lava.ves) ∧
    (∀ v, bubVesicles m.lava.bub = some v → v = m.lava.ves) := by
  obtain ⟨c', hc', _, _, ⟨_, h4, h5, h6, _⟩, _⟩ := (C55_models_come_from_the_configuration env data m).mp h
  obtain rfl := selects_unique hc hc'
  refine ⟨h4, ?_, ?_⟩
  · intro v hv
    unfold RelFrom at h5
    split at h5 <;> first
      | exact False.elim h5
      | (simp only [h5, relVesicles] at hv; grind)
      | (obtain ⟨_, _, h5⟩ := h5; simp only [h5, relVesicles] at hv; grind)
      | grind [relVesicles]
  · intro v hv
    unfold BubFrom at h6
    split at h6 <;> first
      | exact False.elim h6
      | grind [bubVesicles]

/-- C37: but the bll yield-strength model never gets it: whatever the configuration says, it holds the
    constant 0.1. -/
theorem C37_bll_yield_ignores_vesicles (env : Env α) (data : Json α) (m : Models α) (h : factory env data = .ok m)
    (c : Choice) (hc : Selects data c) (hy : c.yld = "bll") : m.lava.yld = .bll (.constant 0.1) := by
  obtain ⟨c', hc', _, _, ⟨_, _, _, _, h7, _⟩, _⟩ := (C55_models_come_from_the_configuration env data m).mp h
  obtain rfl := selects_unique hc hc'
  rw [hy] at h7
  obtain ⟨_, _, h⟩ := h7
  exact h

/-! ### C53: tables -/

/-- C53: a melts model built by the factory has no table, whatever the configuration names. -/
theorem C53_melts_has_no_table (env : Env α) (data : Json α) (m : Models α) (h : factory env data = .ok m)
    (c : Choice) (hc : Selects data c) (hy : c.cryst = "melts") : ∃ f ts, m.cryst = .melts f ts none := by
  obtain ⟨c', hc', h1, _⟩ := (C55_models_come_from_the_configuration env data m).mp h
  obtain rfl := selects_unique hc hc'
  rw [hy] at h1
  obtain ⟨f, ts, _, _, _, _, _, h⟩ := h1
  exact ⟨f, ts, h⟩

/-- C53: a field crust model built by the factory uses the fixed file `resources/crust_temperature_profile.txt`,
    whatever file the configuration names. -/
theorem C53_field_uses_fixed_file (env : Env α) (data : Json α) (m : Models α) (h : factory env data = .ok m)
    (c : Choice) (hc : Selects data c) (hy : c.crust = "field") :
    ∃ rows sp t, env.crustFile "resources/crust_temperature_profile.txt" = some rows ∧ readCrustField rows = .ok sp ∧
      m.crust = .field t (some sp) := by
  obtain ⟨c', hc', _, _, _, _, h9, _⟩ := (C55_models_come_from_the_configuration env data m).mp h
  obtain rfl := selects_unique hc hc'
  rw [hy] at h9
  obtain ⟨rows, sp, _, t, hr, hsp, _, _, h⟩ := h9
  exact ⟨rows, sp, t, hr, hsp, h⟩

end PyFlowGo
