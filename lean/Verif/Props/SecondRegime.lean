import Verif.Spec.SecondRegime
import Verif.Proofs.LawsUpTo
import Verif.Props.Ahead
import Verif.Props.OneRegime
/-
  C141: the second regime has no effect on a flow that does not get there.
-/
set_option linter.unusedSectionVars false
namespace PyFlowGo
open Spec

theorem lawsAt_upTo {D : ℝ} {m m' : Models ℝ} (h : ModelsUpTo D m m') : LawsAt (fun x => x ≤ D) m m' := by
  obtain ⟨h1, h2, h3, h4, h5, h6⟩ := h
  have le : ∀ {x d : ℝ}, x ≤ D → D ≤ d → leB x d = true := fun a b => (leB_real _ _).mpr (a.trans b)
  refine ⟨h1, h2, h3, ?_, ?_, ?_, ?_, ?_⟩
  · intro s hs
    rcases h4 with h | ⟨d, d', t, t', a, b, e, e'⟩
    · rw [h]
    · rw [e, e']
      unfold CrustModel.temperature
      dsimp only
      rw [if_pos (le hs a), if_pos (le hs b)]
  · intro x v hs
    rcases h5 with h | ⟨d, d', a1, a2, a2', f1, f2, f2', a, b, e, e'⟩
    · rw [h]
    · rw [e, e']
      unfold CoverModel.value
      dsimp only
      rw [if_pos (le hs a), if_pos (le hs b)]
  · intro s hs
    rcases h6 with h | ⟨d, d', f, r1, r2, r2', ts, a, b, e, e'⟩
    · rw [h]
    · rw [e, e']
      unfold CrystModel.rate
      dsimp only
      rw [if_pos (le hs a), if_pos (le hs b)]
  · intro t
    rcases h6 with h | ⟨d, d', f, r1, r2, r2', ts, a, b, e, e'⟩
    · rw [h]
    · rw [e, e']; rfl
  · rcases h6 with h | ⟨d, d', f, r1, r2, r2', ts, a, b, e, e'⟩
    · rw [h]
    · rw [e, e']; rfl

theorem loop_upTo {D : ℝ} {m m' : Models ℝ} (h : ModelsUpTo D m m') (dx : ℝ) (mass : Bool) (n : Nat) (w : World ℝ)
    (hs : ∀ x, Seen ⟨dx, m, mass⟩ w x → x ≤ D) : runLoop ⟨dx, m', mass⟩ n w = runLoop ⟨dx, m, mass⟩ n w := by
  induction n generalizing w with
  | zero => unfold runLoop; rfl
  | succ n ih =>
    unfold runLoop
    split
    · rfl
    · rename_i hf
      have hf : w.finished = false := by simpa using hf
      rw [← laws_step_at (lawsAt_upTo h) dx mass w (hs _ (.here w))]
      cases e : singleStep ⟨dx, m, mass⟩ w with
      | mk r w1 =>
        cases r with
        | error e => rfl
        | ok _ => exact ih w1 fun x hx => hs x (.later w w1 x hf e hx)

/-- **C141**. A simulation that ends no further than `D` is, in every respect, the simulation with any other second regime beyond `D`. -/
theorem C141_simulation {D : ℝ} {m m' : Models ℝ} (h : ModelsUpTo D m m') (grid : List ℝ) (n : Nat) (dx : ℝ) (hdx : 0 < dx) (mass : Bool) (w w' : World ℝ)
    (hrun : simulateOn grid n ⟨dx, m, mass⟩ w = some (.ok (), w')) (hend : w'.st.pos ≤ D) :
    simulateOn grid n ⟨dx, m', mass⟩ w = some (.ok (), w') := by
  unfold simulateOn at hrun ⊢
  dsimp only at hrun ⊢
  rw [h.lava]
  cases e : initEffusionRateOn grid m.lava w with
  | mk r w1 =>
    rw [e] at hrun
    cases r with
    | error e => exact hrun
    | ok _ =>
      dsimp only at hrun ⊢
      rw [loop_upTo h dx mass n w1 fun x hx => ((seen_between ⟨dx, m, mass⟩ hdx n w1 w' hrun).2 x hx).2.trans hend]
      exact hrun

section
variable {env : Env ℝ} {d d' : Json ℝ} (h : OtherSecondRegime env d d')
include h

theorem second_objects : ∃ l l', d = .obj l ∧ d' = .obj l' := by
  obtain ⟨⟨_, l, e, _⟩, ⟨_, l', e', _⟩, _⟩ := h.sections "thermal_parameters" (.inl rfl)
  exact ⟨l, l', e, e'⟩

theorem second_get (k : String) (h1 : k ≠ "thermal_parameters") (h2 : k ≠ "crystals_parameters") : d.get k = d'.get k := by
  have t := h.top k h1 h2
  obtain ⟨l, l', rfl, rfl⟩ := second_objects h
  have : lookup l k = lookup l' k := option_ext_iff fun x => by rw [← topEntry_obj, ← topEntry_obj]; exact t x
  unfold Json.get
  dsimp only
  rw [this]

theorem second_has (k : String) : d.has k = d'.has k := by
  by_cases h1 : k = "thermal_parameters" ∨ k = "crystals_parameters"
  · obtain ⟨⟨_, l, e, f⟩, ⟨_, l', e', f'⟩, _⟩ := h.sections k h1
    rw [e, e']
    unfold Json.has
    dsimp only
    rw [f, f']
    rfl
  · simp only [not_or] at h1
    have t := h.top k h1.1 h1.2
    obtain ⟨l, l', rfl, rfl⟩ := second_objects h
    have : lookup l k = lookup l' k := option_ext_iff fun x => by rw [← topEntry_obj, ← topEntry_obj]; exact t x
    unfold Json.has
    dsimp only
    rw [this]

theorem second_inner (sec k : String) (hk : (sec, k) ∉ secondRegime) : getJ d sec k = getJ d' sec k ∧ requireKey d sec k = requireKey d' sec k := by
  by_cases h1 : sec = "thermal_parameters" ∨ sec = "crystals_parameters"
  · obtain ⟨⟨n, l, e, f⟩, ⟨n', l', e', f'⟩, g⟩ := h.sections sec h1
    have : lookup n k = lookup n' k := option_ext_iff fun x => by
      have g := g k hk x
      have en : ∀ (d : Json ℝ) (l n : List (String × Json ℝ)) x, d = .obj l → lookup l sec = some (.obj n) → (EntryAt d sec k x ↔ lookup n k = some x) := by
        intro d l n x e f
        subst e
        constructor
        · rintro ⟨m, i, h1, h2, h3⟩
          injection h1 with h1
          subst h1
          rw [f] at h2
          injection h2 with h2
          injection h2 with h2
          rw [h2]
          exact h3
        · intro h
          exact ⟨l, n, rfl, f, h⟩
      rw [← en d l n x e f, ← en d' l' n' x e' f']
      exact g
    rw [e, e']
    constructor
    · simp only [getJ, Json.get, f, f', ok_bind, this]
    · simp only [requireKey, Json.get, Json.has, f, f', ok_bind, this]
  · simp only [not_or] at h1
    unfold getJ requireKey
    rw [second_get h sec h1.1 h1.2]
    exact ⟨rfl, rfl⟩

theorem second_getJ (sec k : String) (hk : (sec, k) ∉ secondRegime) : getJ d sec k = getJ d' sec k := (second_inner h sec k hk).1

theorem second_require (sec k : String) (hk : (sec, k) ∉ secondRegime) : requireKey d sec k = requireKey d' sec k := (second_inner h sec k hk).2

theorem second_getF (sec k : String) (hk : (sec, k) ∉ secondRegime) : getF env d sec k = getF env d' sec k := by
  have e : ∀ d : Json ℝ, getF env d sec k = (getJ d sec k >>= fun v => v.toFloat env) := fun d => by
    unfold getF getJ
    cases d.get sec <;> rfl
  rw [e, e, second_getJ h sec k hk]

theorem second_requireTop (k : String) (h1 : k ≠ "thermal_parameters") (h2 : k ≠ "crystals_parameters") : requireTop d k = requireTop d' k := by
  unfold requireTop; rw [second_has h, second_get h k h1 h2]

theorem second_number (sec k : String) (hk : (sec, k) ∈ secondRegime) (x : ℝ) (hx : getF env d sec k = .ok x) :
    ∃ x', getF env d' sec k = .ok x' ∧ requireKey d' sec k = .ok () := by
  obtain ⟨x', hx'⟩ := h.numbers _ hk x ((getF_ok_iff _ _ _ _ _).mp hx)
  exact ⟨x', (getF_ok_iff _ _ _ _ _).mpr hx', number_required hx'⟩

theorem second_cover (D : ℝ) (hD : NumberAt env d "lava_state" "critical_distance" D) (n : Json ℝ) (c : CoverModel ℝ) (hc : buildCover env d n = .ok c) :
    ∃ c', buildCover env d' n = .ok c' ∧ CoverUpTo D c c' := by
  unfold buildCover at hc ⊢
  split at hc
  · rename_i e
    rw [if_pos e]
    simp (disch := decide) only [second_getF h] at hc
    exact ⟨c, hc, .inl rfl⟩
  · rename_i e
    rw [if_neg e]
    split at hc
    · rename_i e
      rw [if_pos e]
      simp only [bind_ok_iff] at hc
      obtain ⟨_, r1, _, r2, _, r3, x1, g1, x2, g2, x3, g3, x4, g4, x5, g5, hc⟩ := hc
      cases hc
      obtain ⟨y3, k3, q3⟩ := second_number h _ _ (by decide) _ g3
      obtain ⟨y5, k5, q5⟩ := second_number h _ _ (by decide) _ g5
      have hx := number_unique hD ((getF_ok_iff _ _ _ _ _).mp g1)
      rw [second_require h _ _ (by decide)] at r1 r2
      rw [second_getF h _ _ (by decide)] at g1 g2 g4
      rw [r1, r2, q3, g1, g2, k3, g4, k5]
      exact ⟨_, rfl, .inr ⟨_, _, _, _, _, _, _, _, hx.le, hx.le, rfl, rfl⟩⟩
    · cases hc

theorem second_crust (D : ℝ) (hD : NumberAt env d "lava_state" "critical_distance" D) (n : Json ℝ) (c : CrustModel ℝ) (hc : buildCrust env d n = .ok c) :
    ∃ c', buildCrust env d' n = .ok c' ∧ CrustUpTo D c c' := by
  unfold buildCrust at hc ⊢
  by_cases e : n.isStr "bimodal" = true
  · have e1 : ¬ n.isStr "constant" = true := by
      intro e1
      unfold Json.isStr at e e1
      cases n <;> simp_all
    have e2 : ¬ n.isStr "hon" = true := by
      intro e1
      unfold Json.isStr at e e1
      cases n <;> simp_all
    rw [if_neg e1, if_neg e2, if_pos e] at hc ⊢
    simp only [bind_ok_iff] at hc
    obtain ⟨_, r1, _, r2, _, r3, x1, g1, x2, g2, x3, g3, hc⟩ := hc
    cases hc
    obtain ⟨y3, k3, q3⟩ := second_number h _ _ (by decide) _ g3
    have hx := number_unique hD ((getF_ok_iff _ _ _ _ _).mp g1)
    rw [second_require h _ _ (by decide)] at r1 r2
    rw [second_getF h _ _ (by decide)] at g1 g2
    rw [r1, r2, q3, g1, g2, k3]
    exact ⟨_, rfl, .inr ⟨_, _, _, _, hx.le, hx.le, rfl, rfl⟩⟩
  · rw [if_neg e] at hc ⊢
    simp (disch := decide) only [second_getF h, second_require h] at hc
    exact ⟨c, hc, .inl rfl⟩

theorem second_cryst (D : ℝ) (hD : NumberAt env d "lava_state" "critical_distance" D) (n : Json ℝ) (hn : ¬ n.isStr "bimodal_f_temp" = true) (c : CrystModel ℝ)
    (hc : buildCryst env d n = .ok c) : ∃ c', buildCryst env d' n = .ok c' ∧ CrystUpTo D c c' := by
  unfold buildCryst at hc ⊢
  by_cases e : n.isStr "bimodal" = true
  · have e1 : ¬ n.isStr "basic" = true := by
      intro e1
      unfold Json.isStr at e e1
      cases n <;> simp_all
    rw [if_neg e1, if_pos e] at hc ⊢
    simp only [bind_ok_iff] at hc
    obtain ⟨_, r1, _, r2, _, r3, x1, g1, x2, g2, x3, g3, x4, g4, x5, g5, x6, g6, hc⟩ := hc
    cases hc
    obtain ⟨y4, k4, q4⟩ := second_number h _ _ (by decide) _ g4
    have hx := number_unique hD ((getF_ok_iff _ _ _ _ _).mp g2)
    rw [second_require h _ _ (by decide)] at r1 r2
    rw [second_getF h _ _ (by decide)] at g1 g2 g3 g5 g6
    rw [r1, r2, q4, g1, g2, g3, k4, g5, g6]
    exact ⟨_, rfl, .inr ⟨_, _, _, _, _, _, _, hx.le, hx.le, rfl, rfl⟩⟩
  · rw [if_neg e, if_neg hn] at hc ⊢
    simp (disch := decide) only [second_getF h, second_require h, second_has h, second_getJ h, second_get h] at hc
    exact ⟨c, hc, .inl rfl⟩

theorem second_factory (D : ℝ) (hD : NumberAt env d "lava_state" "critical_distance" D) (hn : ¬ EntryAt d "models" "crystallization_rate_model" (.str "bimodal_f_temp"))
    (m : Models ℝ) (hm : factory env d = .ok m) : ∃ m', factory env d' = .ok m' ∧ ModelsUpTo D m m' := by
  have e1 : readNames d = readNames d' := by
    unfold readNames; simp (disch := decide) only [second_getJ h, second_getF h, second_get h, second_has h, second_require h]
  have e2 : buildVes env d = buildVes env d' := by
    funext n; unfold buildVes; simp (disch := decide) only [second_getJ h, second_getF h, second_get h, second_has h, second_require h]
  have e3 : buildAir env d = buildAir env d' := by
    unfold buildAir; simp (disch := decide) only [second_getJ h, second_getF h, second_get h, second_has h, second_require h]
  have e5 : buildMelt env d = buildMelt env d' := by
    funext n; unfold buildMelt; simp (disch := decide) only [second_getJ h, second_getF h, second_get h, second_has h, second_require h]
  have e6 : buildRel env d = buildRel env d' := by
    funext n v m; unfold buildRel; simp (maxSteps := 2000000) (disch := decide) only [second_getJ h, second_getF h, second_get h, second_has h, second_require h]
  have e7 : buildBub env d = buildBub env d' := by
    funext n v m r; unfold buildBub; simp (disch := decide) only [second_getJ h, second_getF h, second_get h, second_has h, second_require h]
  have e8 : buildYield env d = buildYield env d' := by
    funext n; unfold buildYield; simp (disch := decide) only [second_getJ h, second_getF h, second_get h, second_has h, second_require h]
  have e9 : buildLava env d = buildLava env d' := by
    funext a b c e f; unfold buildLava; simp (disch := decide) only [second_getJ h, second_getF h, second_get h, second_has h, second_require h]
  have e12 : readFlux env d = readFlux env d' := by
    funext n; unfold readFlux; simp (disch := decide) only [second_getJ h, second_getF h, second_get h, second_has h, second_require h]
  unfold factory at hm
  simp only [bind_ok_iff] at hm
  obtain ⟨n, hN, cr, h1, air, h2, ves, h3, melt, h4, rel, h5, bub, h6, yld, h7, lava, h8, cov, h9, cru, h10, ks, h11, fl, h12, hm⟩ := hm
  cases hm
  have hn' : ¬ n.cryst.isStr "bimodal_f_temp" = true := by
    intro hs
    unfold readNames at hN
    simp only [bind_ok_iff] at hN
    obtain ⟨c, hc, hN⟩ := hN
    have ec : n.cryst = c := by
      repeat replace hN := hN.choose_spec.2
      injection hN with hN
      rw [← hN]
    apply hn
    rw [ec] at hs
    have : c = .str "bimodal_f_temp" := by
      unfold Json.isStr at hs
      cases c <;> simp_all
    rw [← this]
    exact (getJ_ok_iff _ _ _ _).mp hc
  obtain ⟨cr', c1, c2⟩ := second_cryst h D hD _ hn' cr h1
  obtain ⟨cov', o1, o2⟩ := second_cover h D hD _ cov h9
  obtain ⟨cru', u1, u2⟩ := second_crust h D hD _ cru h10
  refine ⟨⟨lava, air, cru', cov', cr', fl⟩, ?_, rfl, rfl, rfl, u2, o2, c2⟩
  unfold factory
  rw [← e1, hN]
  simp only [ok_bind]
  rw [c1, ← e3, h2, ← e2]
  simp only [ok_bind]
  rw [h3, ← e5]
  simp only [ok_bind]
  rw [h4, ← e6]
  simp only [ok_bind]
  rw [h5, ← e7]
  simp only [ok_bind]
  rw [h6, ← e8]
  simp only [ok_bind]
  rw [h7, ← e9]
  simp only [ok_bind]
  rw [h8, o1, u1, h11]
  simp only [ok_bind]
  rw [← e12, h12]
  rfl

theorem second_prepare (D : ℝ) (hD : NumberAt env d "lava_state" "critical_distance" D) (hn : ¬ EntryAt d "models" "crystallization_rate_model" (.str "bimodal_f_temp"))
    (log : Log (Cell ℝ)) (pr : Prepared ℝ) (hp : prepare env d log = .ok pr) :
    ∃ m', prepare env d' log = .ok { pr with integrator := ⟨pr.integrator.dx, m', pr.integrator.massConservation⟩ } ∧ ModelsUpTo D pr.integrator.models m' := by
  have h2 : buildTerrain env d = buildTerrain env d' := by
    unfold buildTerrain readSmoothingPoints
    simp (disch := decide) only [second_getJ h, second_getF h, second_get h, second_has h, second_require h]
  have h3 : rawMassConservation d = rawMassConservation d' := by
    unfold rawMassConservation
    simp (disch := decide) only [second_getJ h, second_getF h, second_get h, second_has h, second_require h]
  have h1 : readRunConfig env d = readRunConfig env d' := by
    unfold readRunConfig
    simp (disch := decide) only [second_requireTop h, second_get h, h3]
  unfold prepare at hp
  simp only [bind_ok_iff] at hp
  obtain ⟨cfg, a1, t0, a2, t, a3, m, a4, x, a5, y, a6, st, a7, hp⟩ := hp
  cases hp
  obtain ⟨m', f1, f2⟩ := second_factory h D hD hn m a4
  refine ⟨m', ?_, f2⟩
  have hi : initialState m' t x y = initialState m t x y := by
    unfold initialState
    dsimp only
    rw [f2.lava, (lawsAt_upTo f2).crystals]
  unfold prepare
  rw [← h1, a1, ← h2]
  simp only [ok_bind]
  rw [a2]
  simp only [ok_bind]
  rw [a3, f1, ← second_getF h _ _ (by decide), a5, ← second_getF h _ _ (by decide), a6]
  simp only [ok_bind]
  rw [hi, a7]
  rfl

end

/-- **C141**. A completed run whose rows all lie at least one step before the critical distance is the run with any other entries for
    the second regime: the same outcome, the same log and the same result file. -/
theorem C141_second_regime (grid : List ℝ) (fuel : Nat) (env : Env ℝ) (jsonFile jsonFile' folder : String) (p p' q : Proc ℝ) (d d' : Json ℝ)
    (hd : lookup p.json (env.canon jsonFile) = some d) (hd' : lookup p'.json (env.canon jsonFile') = some d') (hlog : p.log = []) (hlog' : p'.log = [])
    (hres : p'.results = p.results) (h : OtherSecondRegime env d d')
    (hn : ¬ EntryAt d "models" "crystallization_rate_model" (.str "bimodal_f_temp"))
    (hrun : runOn grid fuel env jsonFile folder p = some (.ok (), q))
    (D : ℝ) (hD : NumberAt env d "lava_state" "critical_distance" D)
    (x0 : ℝ) (hx0 : NumberAt env d "lava_state" "position" x0) (hX0 : x0 ≤ D)
    (sz : Json ℝ) (hsz : TopEntry d "step_size" sz) (dx : ℝ) (hdx : sz.toFloat env = .ok dx) (hpos : 0 < dx)
    (hX : ∀ row ∈ q.log, ∀ x, row.get? "position" = some (.num x) → x + dx ≤ D) :
    runOn grid fuel env jsonFile' folder p' = some (.ok (), { q with json := p'.json }) := by
  obtain ⟨json, results, log⟩ := p
  obtain ⟨json', results', log'⟩ := p'
  dsimp only at hd hd' hlog hlog' hres
  subst hlog hlog' hres
  unfold runOn at hrun ⊢
  dsimp only at hrun ⊢
  rw [hd] at hrun
  rw [hd']
  dsimp only at hrun ⊢
  cases hp : prepare env d [] with
  | error e => rw [hp] at hrun; cases hrun
  | ok pr =>
    obtain ⟨_, _, _, hl, hit, hfin, hp0, ⟨sz', hsz', hdx'⟩, _⟩ := prepared_facts hp
    obtain rfl := topEntry_unique hsz hsz'
    have hdxe : pr.integrator.dx = dx := by rw [hdx] at hdx'; exact (Except.ok.inj hdx').symm
    have hx0e : pr.world.st.pos = x0 := number_unique hp0 hx0
    obtain ⟨m', hp', hm⟩ := second_prepare h D hD hn [] pr hp
    rw [hp] at hrun
    rw [hp']
    dsimp only at hrun ⊢
    obtain ⟨cfg, ⟨dx', m, mass⟩, w0⟩ := pr
    dsimp only at *
    subst hdxe
    cases hs : simulateOn grid fuel ⟨dx', m, mass⟩ w0 with
    | none => rw [hs] at hrun; cases hrun
    | some o =>
      obtain ⟨r, w'⟩ := o
      rw [hs] at hrun
      cases r with
      | error e => cases hrun
      | ok u =>
        have hq : q.log = w'.log := by
          dsimp only at hrun
          revert hrun
          cases writeValues w'.log with
          | error e => intro h; cases h
          | ok t => cases t <;> (intro h; cases h; rfl)
        have hend : w'.st.pos ≤ D := by
          have k := initEffusion_keeps m.lava grid w0
          have hs2 := hs
          unfold simulateOn at hs2
          cases hi : initEffusionRateOn grid m.lava w0 with
          | mk r w1 =>
            rw [hi] at k
            dsimp only at k hs2
            rw [hi] at hs2
            cases r with
            | error e => cases hs2
            | ok _ =>
              rcases end_position ⟨dx', m, mass⟩ hpos fuel w1 w' (by rw [k.1, hl]) hs2 with he | ⟨row, hrow, hrp⟩
              · rw [he, k.2.1, hx0e]
                exact hX0
              · have := hX row (by rw [hq]; exact hrow) _ hrp
                linarith
        rw [C141_simulation hm grid fuel dx' hpos mass w0 w' hs hend]
        dsimp only at hrun ⊢
        revert hrun
        cases writeValues w'.log with
        | error e => intro h; cases h
        | ok t => cases t <;> (intro h; cases h; rfl)

end PyFlowGo
