import Verif.Spec.Switched
import Verif.Proofs.SameLaws
import Verif.Props.Renamed
/-
  C140: what counts is the law, not the class that implements it.
-/
set_option linter.unusedSectionVars false
set_option linter.unusedSimpArgs false
namespace PyFlowGo
open Spec
variable {α : Type} [Add α] [Sub α] [Mul α] [Neg α] [OfScientific α] [PyNum α]

theorem topEntry_obj (l : List (String × Json α)) (k : String) (x : Json α) : TopEntry (.obj l) k x ↔ lookup l k = some x :=
  ⟨fun ⟨m, h, hx⟩ => by injection h with h; rw [h]; exact hx, fun h => ⟨l, rfl, h⟩⟩

theorem option_ext_iff {γ : Type} {a b : Option γ} (h : ∀ x, a = some x ↔ b = some x) : a = b := by
  cases a with
  | some x => exact ((h x).mp rfl).symm
  | none =>
    cases b with
    | none => rfl
    | some x => exact (h x).mpr rfl

theorem switched_lookup {d d' : Json α} {key a b : String} (h : Switched d d' key a b) :
    ∃ l l' n n', d = .obj l ∧ d' = .obj l' ∧ (∀ k, k ≠ "models" → lookup l k = lookup l' k) ∧ lookup l "models" = some (.obj n) ∧ lookup l' "models" = some (.obj n') ∧
      (∀ k, k ≠ key → lookup n k = lookup n' k) ∧ lookup n key = some (.str a) ∧ lookup n' key = some (.str b) := by
  obtain ⟨ht, hm, ⟨l, n, rfl, e1, e2⟩, ⟨l', n', rfl, e3, e4⟩⟩ := h
  refine ⟨l, l', n, n', rfl, rfl, fun k hk => option_ext_iff fun x => ?_, e1, e3, fun k hk => option_ext_iff fun x => ?_, e2, e4⟩
  · rw [← topEntry_obj, ← topEntry_obj]; exact ht k hk x
  · have en : ∀ (l n : List (String × Json α)) x, lookup l "models" = some (.obj n) → (EntryAt (.obj l) "models" k x ↔ lookup n k = some x) := by
      intro l n x e
      constructor
      · rintro ⟨m, i, h1, h2, h3⟩
        injection h1 with h1
        subst h1
        rw [e] at h2
        injection h2 with h2
        injection h2 with h2
        rw [h2]
        exact h3
      · intro h
        exact ⟨l, n, rfl, e, h⟩
    rw [← en l n x e1, ← en l' n' x e3]
    exact hm k hk x

section
variable {d d' : Json α} {key a b : String} (h : Switched d d' key a b)
include h

theorem switched_get (k : String) (hk : k ≠ "models") : d.get k = d'.get k := by
  obtain ⟨l, l', n, n', rfl, rfl, e, _⟩ := switched_lookup h
  unfold Json.get
  dsimp only
  rw [e k hk]

theorem switched_has (k : String) : d.has k = d'.has k := by
  obtain ⟨l, l', n, n', rfl, rfl, e, e1, e2, _⟩ := switched_lookup h
  unfold Json.has
  dsimp only
  by_cases hk : k = "models"
  · subst hk; rw [e1, e2]; rfl
  · rw [e k hk]

theorem switched_getF (env : Env α) (sec k : String) (hk : sec ≠ "models") : getF env d sec k = getF env d' sec k := by
  unfold getF; rw [switched_get h sec hk]

theorem switched_getJ (sec k : String) (hk : sec ≠ "models") : getJ d sec k = getJ d' sec k := by
  unfold getJ; rw [switched_get h sec hk]

theorem switched_name (k : String) (hk : k ≠ key) : getJ d "models" k = getJ d' "models" k := by
  obtain ⟨l, l', n, n', rfl, rfl, _, e1, e2, e, _⟩ := switched_lookup h
  simp only [getJ, Json.get, e1, e2, ok_bind, e k hk]

theorem switched_require (sec k : String) (hk : sec ≠ "models") : requireKey d sec k = requireKey d' sec k := by
  unfold requireKey; rw [switched_get h sec hk]

theorem switched_requireTop (k : String) (hk : k ≠ "models") : requireTop d k = requireTop d' k := by
  unfold requireTop; rw [switched_has h, switched_get h k hk]

theorem switched_cryst (env : Env α) : buildCryst env d = buildCryst env d' := by
  funext n; unfold buildCryst; simp (disch := decide) only [switched_getJ h, switched_getF h, switched_get h, switched_has h, switched_require h]

theorem switched_ves (env : Env α) : buildVes env d = buildVes env d' := by
  funext n; unfold buildVes; simp (disch := decide) only [switched_getJ h, switched_getF h, switched_get h, switched_has h, switched_require h]

theorem switched_cover (env : Env α) : buildCover env d = buildCover env d' := by
  funext n; unfold buildCover; simp (disch := decide) only [switched_getJ h, switched_getF h, switched_get h, switched_has h, switched_require h]

/-- Names of models that give the same laws with the entries of `d`. -/
def NamesLaw (env : Env α) (d : Json α) (n n' : Names α) : Prop :=
  BothE SameCrystLaw (buildCryst env d n.cryst) (buildCryst env d n'.cryst) ∧
  BothE SameVesLaw (buildVes env d n.ves) (buildVes env d n'.ves) ∧
  BothE SameCoverLaw (buildCover env d n.cover) (buildCover env d n'.cover) ∧
  n' = { n with cryst := n'.cryst, ves := n'.ves, cover := n'.cover }

theorem switched_factory (env : Env α) (hn : BothE (NamesLaw env d) (readNames d) (readNames d')) :
    BothE SameLaws (factory env d) (factory env d') := by
  have e3 : buildAir env d = buildAir env d' := by
    unfold buildAir; simp (disch := decide) only [switched_getJ h, switched_getF h, switched_get h, switched_has h, switched_require h]
  have e5 : buildMelt env d = buildMelt env d' := by
    funext n; unfold buildMelt; simp (disch := decide) only [switched_getJ h, switched_getF h, switched_get h, switched_has h, switched_require h]
  have e6 : buildRel env d = buildRel env d' := by
    funext n v m; unfold buildRel; simp (maxSteps := 2000000) (disch := decide) only [switched_getJ h, switched_getF h, switched_get h, switched_has h, switched_require h]
  have e7 : buildBub env d = buildBub env d' := by
    funext n v m r; unfold buildBub; simp (disch := decide) only [switched_getJ h, switched_getF h, switched_get h, switched_has h, switched_require h]
  have e8 : buildYield env d = buildYield env d' := by
    funext n; unfold buildYield; simp (disch := decide) only [switched_getJ h, switched_getF h, switched_get h, switched_has h, switched_require h]
  have e9 : buildLava env d = buildLava env d' := by
    funext a b c e f; unfold buildLava; simp (disch := decide) only [switched_getJ h, switched_getF h, switched_get h, switched_has h, switched_require h]
  have e11 : buildCrust env d = buildCrust env d' := by
    funext n; unfold buildCrust; simp (disch := decide) only [switched_getJ h, switched_getF h, switched_get h, switched_has h, switched_require h]
  have e12 : readFlux env d = readFlux env d' := by
    funext n; unfold readFlux; simp (disch := decide) only [switched_getJ h, switched_getF h, switched_get h, switched_has h, switched_require h]
  unfold factory
  rw [← switched_cryst h, ← switched_ves h, ← switched_cover h, ← e3, ← e5, ← e6, ← e7, ← e8, ← e9, ← e11, ← e12]
  refine hn.bind fun n n' hnn => ?_
  obtain ⟨hc, hv, ho, hn'⟩ := hnn
  obtain ⟨x1, x2, x3, x4, x5, x6, x7, x8, x9, x10, x11, x12, x13, x14⟩ := n'
  dsimp only at hc hv ho hn'
  rw [hn']
  dsimp only
  refine hc.bind fun c c' hc => ?_
  refine BothE.eqBind rfl fun air => ?_
  refine hv.bind fun v v' hv => ?_
  refine BothE.eqBind rfl fun melt => ?_
  refine (rel_laws env d n.rel v v' melt hv).bind fun r r' hr => ?_
  refine (bub_laws env d n.bub v v' melt r r' hv hr).bind fun bu bu' hb => ?_
  refine BothE.eqBind rfl fun y => ?_
  have hl : BothE (fun l l' : Lava α => l.melt = melt ∧ l.rel = r ∧ l.bub = bu ∧ l.yld = y ∧ l.ves = v ∧ l' = { l with rel := r', bub := bu', ves := v' })
      (buildLava env d melt r bu y v) (buildLava env d melt r' bu' y v') := by
    unfold buildLava
    repeat refine BothE.eqBind rfl fun _ => ?_
    exact .inr ⟨_, _, rfl, rfl, rfl, rfl, rfl, rfl, rfl, rfl⟩
  refine hl.bind fun l l' hl => ?_
  refine ho.bind fun o o' ho => ?_
  refine BothE.eqBind rfl fun cr => ?_
  have hs : selectFluxes n = selectFluxes { n with cryst := x1, ves := x8, cover := x7 } := rfl
  refine BothE.eqBind hs fun ks => ?_
  refine BothE.eqBind rfl fun fs => ?_
  obtain ⟨h1, h2, h3, h4, h5, rfl⟩ := hl
  refine .inr ⟨_, _, rfl, rfl, rfl, rfl, rfl, rfl, ?_, ?_, ?_, fun s => rfl, rfl, fun s => rfl, ho, hc.1, hc.2.1, hc.2.2, rfl⟩
  · intro s
    unfold Lava.vesicleFraction
    dsimp only
    rw [h5]
    exact hv s
  · intro s
    unfold Lava.bulkViscosity
    dsimp only
    rw [h1, h2, h3, hr.1 s, hb s]
  · intro s
    unfold Lava.notCompatible
    dsimp only
    rw [h2, hr.2 s]

/-- The same law: the same run. -/
theorem switched_run (grid : List α) (fuel : Nat) (env : Env α) (jsonFile jsonFile' folder : String) (p p' : Proc α)
    (hd : lookup p.json (env.canon jsonFile) = some d) (hd' : lookup p'.json (env.canon jsonFile') = some d') (hlog : p'.log = p.log) (hres : p'.results = p.results)
    (hn : BothE (NamesLaw env d) (readNames d) (readNames d')) :
    runOn grid fuel env jsonFile' folder p' = (runOn grid fuel env jsonFile folder p).map fun q => (q.1, { q.2 with json := p'.json }) := by
  obtain ⟨json, results, log⟩ := p
  obtain ⟨json', results', log'⟩ := p'
  dsimp only at hd hd' hlog hres
  subst hlog hres
  have h2 : buildTerrain env d = buildTerrain env d' := by
    unfold buildTerrain readSmoothingPoints
    simp (disch := decide) only [switched_getJ h, switched_getF h, switched_get h, switched_has h, switched_require h]
  have h3 : rawMassConservation d = rawMassConservation d' := by
    unfold rawMassConservation
    simp (disch := decide) only [switched_getJ h, switched_getF h, switched_get h, switched_has h, switched_require h]
  have h1 : readRunConfig env d = readRunConfig env d' := by
    unfold readRunConfig
    simp (disch := decide) only [switched_requireTop h, switched_get h, h3]
  have hp : BothE (fun pr pr' : Prepared α => pr'.cfg = pr.cfg ∧ pr'.world = pr.world ∧
      ∃ m m', SameLaws m m' ∧ pr.integrator = ⟨pr.cfg.stepSize, m, pr.cfg.massConservation⟩ ∧ pr'.integrator = ⟨pr.cfg.stepSize, m', pr.cfg.massConservation⟩)
      (prepare env d log') (prepare env d' log') := by
    unfold prepare
    rw [← h1, ← h2, ← switched_getF h env _ _ (by decide), ← switched_getF h env _ _ (by decide)]
    refine BothE.eqBind rfl fun cfg => BothE.eqBind rfl fun t0 => BothE.eqBind rfl fun t => ?_
    refine (switched_factory h env hn).bind fun m m' hm => ?_
    refine BothE.eqBind rfl fun x => BothE.eqBind rfl fun y => BothE.eqBind (laws_initial hm t x y) fun st => ?_
    exact .inr ⟨_, _, rfl, rfl, rfl, rfl, m, m', hm, rfl, rfl⟩
  unfold runOn
  dsimp only
  rw [hd, hd']
  dsimp only
  rcases hp with ⟨e, a, b⟩ | ⟨pr, pr', a, b, e1, e2, m, m', hm, e3, e4⟩
  · rw [a, b]; rfl
  · rw [a, b]
    dsimp only
    rw [e1, e2, e3, e4, laws_simulate hm]
    cases simulateOn grid fuel ⟨pr.cfg.stepSize, m', pr.cfg.massConservation⟩ pr.world with
    | none => rfl
    | some x =>
      obtain ⟨r, w⟩ := x
      cases r with
      | error e => rfl
      | ok u =>
        dsimp only
        cases writeValues w.log with
        | error e => rfl
        | ok t => cases t <;> rfl

end

section instances
variable {d d' : Json α} {a b : String}

/-- One name of a model apart: the names that are read. -/
theorem names_cover (env : Env α) (h : Switched d d' "effective_cover_crust_model" a b)
    (hb : BothE SameCoverLaw (buildCover env d (.str a)) (buildCover env d (.str b))) : BothE (NamesLaw env d) (readNames d) (readNames d') := by
  have e1 : getJ d "models" "effective_cover_crust_model" = .ok (.str a) := (getJ_ok_iff _ _ _ _).mpr h.first
  have e2 : getJ d' "models" "effective_cover_crust_model" = .ok (.str b) := (getJ_ok_iff _ _ _ _).mpr h.second
  unfold readNames
  rw [e1, e2]
  simp (disch := decide) only [switched_getJ h, switched_name h, ok_bind]
  repeat refine BothE.eqBind rfl fun _ => ?_
  exact .inr ⟨_, _, rfl, rfl, .of_eq (fun c => ⟨fun _ => rfl, fun _ => rfl, rfl⟩) rfl, .of_eq (fun v _ => rfl) rfl, hb, rfl⟩

theorem names_cryst (env : Env α) (h : Switched d d' "crystallization_rate_model" a b)
    (hb : BothE SameCrystLaw (buildCryst env d (.str a)) (buildCryst env d (.str b))) : BothE (NamesLaw env d) (readNames d) (readNames d') := by
  have e1 : getJ d "models" "crystallization_rate_model" = .ok (.str a) := (getJ_ok_iff _ _ _ _).mpr h.first
  have e2 : getJ d' "models" "crystallization_rate_model" = .ok (.str b) := (getJ_ok_iff _ _ _ _).mpr h.second
  unfold readNames
  rw [e1, e2]
  simp (disch := decide) only [switched_getJ h, switched_name h, ok_bind]
  repeat refine BothE.eqBind rfl fun _ => ?_
  exact .inr ⟨_, _, rfl, rfl, hb, .of_eq (fun v _ => rfl) rfl, .of_eq (fun v _ _ => rfl) rfl, rfl⟩

theorem names_ves (env : Env α) (h : Switched d d' "vesicle_fraction_model" a b)
    (hb : BothE SameVesLaw (buildVes env d (.str a)) (buildVes env d (.str b))) : BothE (NamesLaw env d) (readNames d) (readNames d') := by
  have e1 : getJ d "models" "vesicle_fraction_model" = .ok (.str a) := (getJ_ok_iff _ _ _ _).mpr h.first
  have e2 : getJ d' "models" "vesicle_fraction_model" = .ok (.str b) := (getJ_ok_iff _ _ _ _).mpr h.second
  unfold readNames
  rw [e1, e2]
  simp (disch := decide) only [switched_getJ h, switched_name h, ok_bind]
  repeat refine BothE.eqBind rfl fun _ => ?_
  exact .inr ⟨_, _, rfl, rfl, .of_eq (fun c => ⟨fun _ => rfl, fun _ => rfl, rfl⟩) rfl, hb, .of_eq (fun v _ _ => rfl) rfl, rfl⟩

theorem number_required {env : Env α} {sec key : String} {x : α} (h : NumberAt env d sec key x) : requireKey d sec key = .ok () :=
  (requireKey_ok_iff _ _ _ _).mpr (.inl ⟨h.choose, h.choose_spec.1⟩)

theorem number_getF {env : Env α} {sec key : String} {x : α} (h : NumberAt env d sec key x) : getF env d sec key = .ok x := (getF_ok_iff _ _ _ _ _).mpr h

theorem cover_one (env : Env α) (name : String) (alpha f : α) (h : OneCover env d name alpha f) :
    ∃ c, buildCover env d (.str name) = .ok c ∧ ∀ pos v, c.value pos v = f * PyNum.exp (alpha * v) := by
  rcases h with ⟨rfl, h1, h2⟩ | ⟨rfl, ⟨c, h0⟩, h1, h2, h3, h4⟩
  · refine ⟨.basic alpha f, ?_, fun pos v => rfl⟩
    simp [buildCover, Json.isStr, number_getF h1, number_getF h2, bind, Except.bind, pure, Except.pure]
  · refine ⟨.bimodal c alpha alpha f f, ?_, fun pos v => ite_self _⟩
    simp [buildCover, Json.isStr, number_required h0, number_required h1, number_required h2, number_getF h0, number_getF h1, number_getF h2, number_getF h3, number_getF h4, bind, Except.bind, pure, Except.pure]

theorem rate_one (env : Env α) (name : String) (r phi solid eruption : α) (h : OneRate env d name r) (hphi : NumberAt env d "lava_state" "crystal_fraction" phi)
    (hs : NumberAt env d "crystals_parameters" "solid_temperature" solid) (he : NumberAt env d "eruption_condition" "eruption_temperature" eruption) :
    ∃ c, buildCryst env d (.str name) = .ok c ∧ (∀ t, c.crystalFraction t = .ok phi) ∧ (∀ s, c.rate s = .ok r) ∧ c.solidTemperature = solid := by
  rcases h with ⟨rfl, grown, solid', eruption', h1, h2, h3, hr⟩ | ⟨rfl, ⟨c, h0⟩, h1, h2⟩ | ⟨rfl, ⟨c, h0⟩, h1, h2⟩
  · cases number_unique hs h2
    cases number_unique he h3
    refine ⟨.basic phi grown solid eruption, ?_, fun t => rfl, fun s => hr, rfl⟩
    simp [buildCryst, Json.isStr, number_getF h1, number_getF hphi, number_getF hs, number_getF he, bind, Except.bind, pure, Except.pure]
  · refine ⟨.bimodal phi c r r solid, ?_, fun t => rfl, fun s => congrArg Except.ok (ite_self _), rfl⟩
    simp [buildCryst, Json.isStr, number_required h0, number_required h1, number_required h2, number_getF h0, number_getF h1, number_getF h2, number_getF hphi, number_getF hs, number_getF he, bind, Except.bind, pure, Except.pure]
  · refine ⟨.bimodalFTemp phi c r r solid, ?_, fun t => rfl, fun s => congrArg Except.ok (ite_self _), rfl⟩
    simp [buildCryst, Json.isStr, number_required h0, number_required h1, number_required h2, number_getF h0, number_getF h1, number_getF h2, number_getF hphi, number_getF hs, number_getF he, bind, Except.bind, pure, Except.pure]

theorem vesicles_one (env : Env α) (name : String) (v : α) (h : OneVesicularity env d name v) :
    ∃ m, buildVes env d (.str name) = .ok m ∧ ∀ s, m.fraction s = v := by
  rcases h with ⟨rfl, h1⟩ | ⟨rfl, ⟨c, h0⟩, h1, h2⟩
  · refine ⟨.constant v, ?_, fun s => rfl⟩
    simp [buildVes, Json.isStr, number_getF h1, bind, Except.bind, pure, Except.pure]
  · refine ⟨.bimodal c v v, ?_, fun s => ite_self _⟩
    simp [buildVes, Json.isStr, number_required h0, number_required h1, number_required h2, number_getF h0, number_getF h1, number_getF h2, bind, Except.bind, pure, Except.pure]

/-- **C140**, crust cover: `basic`, or `bimodal` with the same parameters before and after the critical distance: the same outcome, the same log and the same result files. -/
theorem C140_cover (grid : List α) (fuel : Nat) (env : Env α) (jsonFile jsonFile' folder : String) (p p' : Proc α)
    (hd : lookup p.json (env.canon jsonFile) = some d) (hd' : lookup p'.json (env.canon jsonFile') = some d') (hlog : p'.log = p.log) (hres : p'.results = p.results)
    (h : Switched d d' "effective_cover_crust_model" a b) (alpha f : α) (ha : OneCover env d a alpha f) (hb : OneCover env d b alpha f) :
    runOn grid fuel env jsonFile' folder p' = (runOn grid fuel env jsonFile folder p).map fun q => (q.1, { q.2 with json := p'.json }) := by
  obtain ⟨c, e, l⟩ := cover_one env a alpha f ha
  obtain ⟨c', e', l'⟩ := cover_one env b alpha f hb
  exact switched_run h grid fuel env jsonFile jsonFile' folder p p' hd hd' hlog hres (names_cover env h (.inr ⟨c, c', e, e', fun pos v => by rw [l, l']⟩))

/-- **C140**, crystallisation: `basic`, `bimodal` and `bimodal_f_temp` with one rate: the same outcome, the same log and the same result files. -/
theorem C140_crystallisation (grid : List α) (fuel : Nat) (env : Env α) (jsonFile jsonFile' folder : String) (p p' : Proc α)
    (hd : lookup p.json (env.canon jsonFile) = some d) (hd' : lookup p'.json (env.canon jsonFile') = some d') (hlog : p'.log = p.log) (hres : p'.results = p.results)
    (h : Switched d d' "crystallization_rate_model" a b) (r phi solid eruption : α) (ha : OneRate env d a r) (hb : OneRate env d b r)
    (hphi : NumberAt env d "lava_state" "crystal_fraction" phi)
    (hs : NumberAt env d "crystals_parameters" "solid_temperature" solid) (he : NumberAt env d "eruption_condition" "eruption_temperature" eruption) :
    runOn grid fuel env jsonFile' folder p' = (runOn grid fuel env jsonFile folder p).map fun q => (q.1, { q.2 with json := p'.json }) := by
  obtain ⟨c, e, l1, l2, l3⟩ := rate_one env a r phi solid eruption ha hphi hs he
  obtain ⟨c', e', m1, m2, m3⟩ := rate_one env b r phi solid eruption hb hphi hs he
  exact switched_run h grid fuel env jsonFile jsonFile' folder p p' hd hd' hlog hres
    (names_cryst env h (.inr ⟨c, c', e, e', fun t => by rw [l1, m1], fun s => by rw [l2, m2], by rw [l3, m3]⟩))

/-- **C140**, vesicles: `constant`, or `bimodal` with the same fraction before and after the critical distance: the same outcome, the same log and the same result files. -/
theorem C140_vesicles (grid : List α) (fuel : Nat) (env : Env α) (jsonFile jsonFile' folder : String) (p p' : Proc α)
    (hd : lookup p.json (env.canon jsonFile) = some d) (hd' : lookup p'.json (env.canon jsonFile') = some d') (hlog : p'.log = p.log) (hres : p'.results = p.results)
    (h : Switched d d' "vesicle_fraction_model" a b) (v : α) (ha : OneVesicularity env d a v) (hb : OneVesicularity env d b v) :
    runOn grid fuel env jsonFile' folder p' = (runOn grid fuel env jsonFile folder p).map fun q => (q.1, { q.2 with json := p'.json }) := by
  obtain ⟨c, e, l⟩ := vesicles_one env a v ha
  obtain ⟨c', e', l'⟩ := vesicles_one env b v hb
  exact switched_run h grid fuel env jsonFile jsonFile' folder p p' hd hd' hlog hres (names_ves env h (.inr ⟨c, c', e, e', fun s => by rw [l, l']⟩))

end instances

theorem vesicles_even {d : Json ℝ} (env : Env ℝ) (name : String) (v : ℝ) (hv : 0 ≤ v) (h : EvenVesicularity env d name v) :
    ∃ m, buildVes env d (.str name) = .ok m ∧ ∀ s, m.fraction s = v := by
  rcases h with h | ⟨rfl, h1, h2⟩ | ⟨rfl, ⟨c, h0⟩, h1, h2⟩ | ⟨rfl, h1, h2, h3⟩
  · exact vesicles_one env name v h
  · refine ⟨.variable v 0, ?_, fun s => ?_⟩
    · simp [buildVes, Json.isStr, number_required h2, number_getF h1, number_getF h2, bind, Except.bind, pure, Except.pure]
    · simp only [VesicleModel.fraction, zero_mul, sub_zero]
      split
      · next hl => simp at hl ⊢; linarith
      · rfl
  · refine ⟨.variableBimodal c v 0, ?_, fun s => ?_⟩
    · simp [buildVes, Json.isStr, number_required h0, number_required h2, number_getF h0, number_getF h1, number_getF h2, bind, Except.bind, pure, Except.pure]
    · simp only [VesicleModel.fraction, zero_mul, sub_zero, ite_self]
  · refine ⟨.poly v 0 0, ?_, fun s => ?_⟩
    · simp [buildVes, Json.isStr, number_getF h1, number_getF h2, number_getF h3, bind, Except.bind, pure, Except.pure]
    · simp only [VesicleModel.fraction, zero_mul, add_zero]
      split
      · next hl => simp at hl ⊢; linarith
      · rfl

/-- **C140**, vesicles in exact arithmetic: also `variable`, `variable_bimodal` and `poly` whose coefficients are zero. -/
theorem C140_even_vesicles (grid : List ℝ) (fuel : Nat) (env : Env ℝ) (jsonFile jsonFile' folder : String) (p p' : Proc ℝ) (d d' : Json ℝ) (a b : String)
    (hd : lookup p.json (env.canon jsonFile) = some d) (hd' : lookup p'.json (env.canon jsonFile') = some d') (hlog : p'.log = p.log) (hres : p'.results = p.results)
    (h : Switched d d' "vesicle_fraction_model" a b) (v : ℝ) (hv : 0 ≤ v) (ha : EvenVesicularity env d a v) (hb : EvenVesicularity env d b v) :
    runOn grid fuel env jsonFile' folder p' = (runOn grid fuel env jsonFile folder p).map fun q => (q.1, { q.2 with json := p'.json }) := by
  obtain ⟨c, e, l⟩ := vesicles_even env a v hv ha
  obtain ⟨c', e', l'⟩ := vesicles_even env b v hv hb
  exact switched_run h grid fuel env jsonFile jsonFile' folder p p' hd hd' hlog hres (names_ves env h (.inr ⟨c, c', e, e', fun s => by rw [l, l']⟩))

/-- One exchange. -/
theorem exchange_run (grid : List α) (fuel : Nat) (env : Env α) (jsonFile jsonFile' folder : String) (p p' : Proc α) (d d' : Json α)
    (hd : lookup p.json (env.canon jsonFile) = some d) (hd' : lookup p'.json (env.canon jsonFile') = some d') (hlog : p'.log = p.log) (hres : p'.results = p.results)
    (h : SameLawModel env d d') :
    runOn grid fuel env jsonFile' folder p' = (runOn grid fuel env jsonFile folder p).map fun q => (q.1, { q.2 with json := p'.json }) := by
  obtain ⟨a, b, ⟨h, alpha, f, ha, hb⟩ | ⟨h, r, ha, hb, ⟨x, hx⟩, ⟨y, hy⟩, ⟨z, hz⟩⟩ | ⟨h, v, ha, hb⟩⟩ := h
  · exact C140_cover grid fuel env jsonFile jsonFile' folder p p' hd hd' hlog hres h alpha f ha hb
  · exact C140_crystallisation grid fuel env jsonFile jsonFile' folder p p' hd hd' hlog hres h r x y z ha hb hx hy hz
  · exact C140_vesicles grid fuel env jsonFile jsonFile' folder p p' hd hd' hlog hres h v ha hb

/-- The configuration alone decides. -/
theorem same_config_run (grid : List α) (fuel : Nat) (env : Env α) (jsonFile jsonFile' folder : String) (p p' : Proc α) (d : Json α)
    (hd : lookup p.json (env.canon jsonFile) = some d) (hd' : lookup p'.json (env.canon jsonFile') = some d) (hlog : p'.log = p.log) (hres : p'.results = p.results) :
    runOn grid fuel env jsonFile' folder p' = (runOn grid fuel env jsonFile folder p).map fun q => (q.1, { q.2 with json := p'.json }) := by
  obtain ⟨json, results, log⟩ := p
  obtain ⟨json', results', log'⟩ := p'
  dsimp only at hd hd' hlog hres
  subst hlog hres
  unfold runOn
  dsimp only
  rw [hd, hd']
  dsimp only
  cases prepare env d log' with
  | error e => rfl
  | ok pr =>
    dsimp only
    cases simulateOn grid fuel pr.integrator pr.world with
    | none => rfl
    | some x =>
      obtain ⟨r, w⟩ := x
      cases r with
      | error e => rfl
      | ok u =>
        dsimp only
        cases writeValues w.log with
        | error e => rfl
        | ok t => cases t <;> rfl

/-- **C140**, any number of models exchanged for others with the same law: the same outcome, the same log and the same result files. -/
theorem C140_models (grid : List α) (fuel : Nat) (env : Env α) (jsonFile jsonFile' folder : String) (p p' : Proc α) (d d' : Json α)
    (hd : lookup p.json (env.canon jsonFile) = some d) (hd' : lookup p'.json (env.canon jsonFile') = some d') (hlog : p'.log = p.log) (hres : p'.results = p.results)
    (h : SameLawModels env d d') :
    runOn grid fuel env jsonFile' folder p' = (runOn grid fuel env jsonFile folder p).map fun q => (q.1, { q.2 with json := p'.json }) := by
  induction h generalizing p jsonFile with
  | refl d => exact same_config_run grid fuel env jsonFile jsonFile' folder p p' d hd hd' hlog hres
  | @step d₁ d₂ d₃ h _ ih =>
    have hm : lookup [(env.canon jsonFile', d₂)] (env.canon jsonFile') = some d₂ := by rw [lookup_cons_eq, if_pos rfl]
    rw [ih jsonFile' ⟨[(env.canon jsonFile', d₂)], p.results, p.log⟩ hm hd' hlog hres,
      exchange_run grid fuel env jsonFile jsonFile' folder p ⟨[(env.canon jsonFile', d₂)], p.results, p.log⟩ d₁ d₂ hd hm rfl rfl h, Option.map_map]
    rfl

/-- **C140**, from text to text: two configuration files on one disk whose models have the same laws leave the same disk. -/
theorem C140_text (F : TextFormat α) (grid : List α) (fuel : Nat) (jsonFile jsonFile' folder : String) (disk : List (String × List Char))
    (text text' : List Char) (d d' : Json α) (hl : lookup disk (F.canon jsonFile) = some text) (hl' : lookup disk (F.canon jsonFile') = some text')
    (hd : JsonText F.float (universal text) d) (hd' : JsonText F.float (universal text') d') (h : SameLawModels (textEnv F disk) d d') :
    runTextOn grid fuel F jsonFile folder disk = runTextOn grid fuel F jsonFile' folder disk := by
  rw [runTextOn_value F grid fuel jsonFile folder disk text d hl hd, runTextOn_value F grid fuel jsonFile' folder disk text' d' hl' hd']
  rw [C140_models grid fuel (textEnv F disk) jsonFile jsonFile' folder (newRunner ⟨[(F.canon jsonFile, d)], [], []⟩) (newRunner ⟨[(F.canon jsonFile', d')], [], []⟩) d d'
    (by show lookup [(F.canon jsonFile, d)] (F.canon jsonFile) = _; rw [lookup_cons_eq, if_pos rfl])
    (by show lookup [(F.canon jsonFile', d')] (F.canon jsonFile') = _; rw [lookup_cons_eq, if_pos rfl]) rfl rfl h, Option.map_map]
  rfl

end PyFlowGo
