import Verif.Proofs.RunOutOrder
import Verif.Spec.SweepOrder
import Verif.Props.HarsherConfig
import Verif.Props.StrongerConfig
import Verif.Props.SweepFull
import Verif.Props.RunOutLine
/-
  C123: the run-outs of a sweep over effusion rates.
-/
set_option linter.unusedSectionVars false
namespace PyFlowGo
open Spec

/-- **C123**, two runs. Two runs as in C121, of which both results can be post-processed with the same slope file (distances ascending). The run-out of the one with the larger rate
    is not smaller, nor is its depth. -/
theorem C123_two_rates (n n' : Nat) (env : Env ℝ) (jsonFile folder : String) (p p' : Proc ℝ)
    (d d' : Json ℝ) (hd : lookup p.json (env.canon jsonFile) = some d) (hd' : lookup p'.json (env.canon jsonFile) = some d')
    (hlog : p.log = []) (hlog' : p'.log = [])
    (c : Choice) (hc : Selects d c) (h : SameButSupply env c d d') (hs : SameSwitch d d')
    (r r' : ℝ) (hr : RateIs env d r) (hr' : RateIs env d' r') (hr0 : r ≠ 0) (hr0' : r' ≠ 0) (hle : r ≤ r')
    (pr : Prepared ℝ) (hprep : prepare env d [] = .ok pr)
    (hg : Sensible pr.integrator pr.world.terrain pr.world.st.pos) (hv : AtVent pr.integrator pr.world) (k : ℝ) (he : Everyday pr.integrator pr.world.st.pos k)
    (hmass : pr.integrator.massConservation = true → ∀ s : FlowState ℝ, pr.world.st.pos ≤ s.pos →
      pr.integrator.models.lava.density pr.world.st ≤ pr.integrator.models.lava.density s)
    (q q' : Proc ℝ) (hrun : run n env jsonFile folder p = some (.ok (), q)) (hrun' : run n' env jsonFile folder p' = some (.ok (), q'))
    (hf : Flowed pr k q.log) (hf' : Flowed pr k q'.log)
    (round : Nat → ℝ → ℝ) (hround : ∀ a b, a ≤ b → round 0 a ≤ round 0 b) (lines : List (SlopeLine ℝ)) (hlines : lines.Pairwise fun a b => a.dist ≤ b.dist)
    (t t' : CsvTable (Cell ℝ)) (ht : writeValues q.log = .ok (some t)) (ht' : writeValues q'.log = .ok (some t')) (ro ro' : RunOut ℝ)
    (hro : getRunOut round t lines = .ok ro) (hro' : getRunOut round t' lines = .ok ro') : ro.runOut ≤ ro'.runOut ∧ ro.depth ≤ ro'.depth := by
  obtain ⟨D, a1, a2, _, _⟩ := hf
  obtain ⟨D', b1, _, b3, b4⟩ := hf'
  obtain ⟨c0, _, _, _, c4⟩ := C121_run n n' env jsonFile folder p p' d d' hd hd' hlog hlog' c hc h hs r r' hr hr' hr0 hr0' hle pr hprep hg hv k he hmass q q' hrun hrun'
    D D' a1 b1 a2 b3
  have c4 := c4 b4
  -- the second run starts from the same place
  obtain ⟨_, _, _, f4, _, _, f7, ⟨sz, f8, f8'⟩, _, _⟩ := prepared_facts hprep
  obtain ⟨v0, hv0, hx0v⟩ := id f7
  have f7' : NumberAt env d' "lava_state" "position" pr.world.st.pos :=
    ⟨v0, (h.entry ("lava_state", "position") (by simp [usedEntries, channelEntries]) (by decide) v0).mp hv0, hx0v⟩
  have hsz' := (h.top "step_size" (by simp [usedTop]) (by decide) sz).mp f8
  obtain ⟨pr', _, _, _, hp', _⟩ := run_depth hd' hlog' f7' hsz' f8' hg.step hrun' b1
  rw [hlog'] at hp'
  obtain ⟨Dc, x, e1, e2, _⟩ := supply_prepared h hs hc hprep hp'
  obtain ⟨_, _, _, g4, _⟩ := prepared_facts hp'
  obtain ⟨w, hsim, ew⟩ := run_log hd (by rw [hlog]; exact hprep) hrun
  obtain ⟨w', hsim', ew'⟩ := run_log hd' (by rw [hlog']; exact hp') hrun'
  have loop : ∀ (g : Integrator ℝ) (m : Nat) (W W2 : World ℝ), W.log = [] → simulateOn depthGrid m g W = some (.ok (), W2) →
      ∃ W1, W1.log = [] ∧ W1.st.pos = W.st.pos ∧ runLoop g m W1 = some (.ok (), W2) := by
    intro g m W W2 hW h2
    unfold simulateOn at h2
    have k0 := initEffusion_keeps g.models.lava depthGrid W
    cases hi : initEffusionRateOn depthGrid g.models.lava W with
    | mk o W1 =>
      rw [hi] at h2 k0
      obtain ⟨k1, k2, _⟩ := k0
      cases o with
      | error e => cases h2
      | ok _ => exact ⟨W1, k1.trans hW, k2, h2⟩
  obtain ⟨W, l1, l2, l3⟩ := loop _ _ _ _ f4 hsim
  obtain ⟨W', l1', l2', l3'⟩ := loop _ _ _ _ g4 hsim'
  rw [ew] at ht c4 a1
  rw [ew'] at ht' c4 b1
  have hstep' : pr'.integrator.dx = pr.integrator.dx := by rw [e1]
  have hpos' : W'.st.pos = W.st.pos := by rw [l2, l2', e2]; rfl
  refine ⟨run_out_le round hround lines hlines pr.integrator pr'.integrator hg.step hstep' n n' W W' w w' l1 l1' hpos' l3 l3' t t' ht ht' ro ro' hro hro' c4, ?_⟩
  obtain ⟨E, hE⟩ := vent_rate pr.integrator W
  obtain ⟨E', hE'⟩ := vent_rate pr'.integrator W'
  have hg' : 0 < pr'.integrator.dx := by rw [hstep']; exact hg.step
  rw [(C59_line_shows round _ hg.step n W w l1 l3 t ht lines ro hro E hE).2.1, (C59_line_shows round _ hg' n' W' w' l1' l3' t' ht' lines ro' hro' E' hE').2.1,
    ← (shown_depth _ hg.step n W w l1 l3 D (by rw [l2]; exact a1)).1, ← (shown_depth _ hg' n' W' w' l1' l3' D' (by rw [hpos', l2]; exact b1)).1]
  exact c0

/-- Two configurations that differ in the effusion rate only, which is not a section in either. -/
theorem rate_differs {env : Env ℝ} {d d' : Json ℝ} (top : ∀ k, k ≠ "effusion_rate_init" → ∀ v, TopEntry d k v ↔ TopEntry d' k v)
    (hn : ∀ l, ¬ TopEntry d "effusion_rate_init" (.obj l)) (hn' : ∀ l, ¬ TopEntry d' "effusion_rate_init" (.obj l)) {c : Choice} :
    SameButSupply env c d d' ∧ SameSwitch d d' := by
  have entry : ∀ s k v, EntryAt d s k v ↔ EntryAt d' s k v := by
    intro s k v
    by_cases hs : s = "effusion_rate_init"
    · subst hs
      constructor
      · rintro ⟨tp, inner, e, h1, _⟩; exact absurd ⟨tp, e, h1⟩ (hn inner)
      · rintro ⟨tp, inner, e, h1, _⟩; exact absurd ⟨tp, e, h1⟩ (hn' inner)
    constructor
    · rintro ⟨tp, inner, e, h1, h2⟩
      obtain ⟨tp', e', h1'⟩ := (top s hs _).mp ⟨tp, e, h1⟩
      exact ⟨tp', inner, e', h1', h2⟩
    · rintro ⟨tp, inner, e, h1, h2⟩
      obtain ⟨tp', e', h1'⟩ := (top s hs _).mpr ⟨tp, e, h1⟩
      exact ⟨tp', inner, e', h1', h2⟩
  refine ⟨⟨fun e _ _ v => entry _ _ v, fun k _ hk v => top k hk v, fun e _ => ?_, fun _ => ?_, fun _ => ?_⟩, fun v => entry _ _ v⟩
  · exact exists_congr fun x => exists_congr fun v => and_congr_left fun _ => entry _ _ v
  · exact exists_congr fun v => top _ (by decide) v
  · exact exists_congr fun v => entry _ _ v

/-- The lines computed from the results of such a sweep never decrease. -/
theorem C123_lines (fuel : Nat) (round : Nat → ℝ → ℝ) (env : Env ℝ) (jsonFile folder : String) (first last step : Int)
    (template : Json ℝ) (rates : List Int) (runs : List (SweepRun ℝ))
    (hrates : sweepRates first last step = .ok rates)
    (hruns : List.Forall₂ (IsSweepRun depthGrid fuel env template (workingFile jsonFile folder) folder) rates runs)
    (hfirst : 0 < first) (hstep : 0 < step)
    (c : Choice) (hc : Selects template c) (pr : Prepared ℝ) (hprep : prepare env template [] = .ok pr)
    (hg : Sensible pr.integrator pr.world.terrain pr.world.st.pos) (hv : AtVent pr.integrator pr.world) (k : ℝ) (he : Everyday pr.integrator pr.world.st.pos k)
    (hmass : pr.integrator.massConservation = true → ∀ s : FlowState ℝ, pr.world.st.pos ≤ s.pos →
      pr.integrator.models.lava.density pr.world.st ≤ pr.integrator.models.lava.density s)
    (hflow : ∀ o ∈ runs, Flowed pr k o.log)
    (hround : ∀ a b, a ≤ b → round 0 a ≤ round 0 b)
    (lines : List (SlopeLine ℝ)) (hlines : lines.Pairwise fun a b => a.dist ≤ b.dist) (ls : List (RunOut ℝ))
    (hls : List.Forall₂ (fun o l => ∃ t, writeValues o.log = .ok (some t) ∧ getRunOut round t lines = .ok l) runs ls) :
    ls.Pairwise fun a b => a.runOut ≤ b.runOut ∧ a.depth ≤ b.depth := by
  obtain ⟨hasc, hmem⟩ := C56_rates first last step rates hstep hrates
  have hpos : ∀ r ∈ rates, 0 < r := by
    intro r hr
    obtain ⟨i, e, _⟩ := (hmem r).mp hr
    have : 0 ≤ step * (i : Int) := by positivity
    omega
  -- what is known of one run
  have hn0 : ∀ l, ¬ TopEntry template "effusion_rate_init" (.obj l) := by
    intro l hl
    obtain ⟨⟨v, h1, h2⟩, _⟩ := prepared_facts hprep
    rw [topEntry_unique h1 hl] at h2
    cases h2
  have hnr : ∀ {r : Int} {d : Json ℝ}, WithRate template d r → ∀ l, ¬ TopEntry d "effusion_rate_init" (.obj l) := by
    intro r d hw l hl
    have := topEntry_unique hw.1 hl
    cases this
  have one : ∀ r o, 0 < r → o ∈ runs → IsSweepRun depthGrid fuel env template (workingFile jsonFile folder) folder r o →
      Selects o.config c ∧ RateIs env o.config (r : ℝ) ∧
      ∃ q pro, run fuel env (workingFile jsonFile folder) folder ⟨[(env.canon (workingFile jsonFile folder), o.config)], [], []⟩ = some (.ok (), q) ∧ q.log = o.log ∧
        prepare env o.config [] = .ok pro ∧ Sensible pro.integrator pro.world.terrain pro.world.st.pos ∧ AtVent pro.integrator pro.world ∧
        Everyday pro.integrator pro.world.st.pos k ∧
        (pro.integrator.massConservation = true → ∀ s : FlowState ℝ, pro.world.st.pos ≤ s.pos → pro.integrator.models.lava.density pro.world.st ≤ pro.integrator.models.lava.density s) ∧
        ∀ log, Flowed pr k log → Flowed pro k log := by
    intro r o hr ho ⟨hw, hfresh⟩
    obtain ⟨hsame, hswitch⟩ := rate_differs (env := env) (c := c) (fun k hk v => (hw.2 k hk v).symm) hn0 (hnr hw)
    unfold freshOutcome at hfresh
    rw [Option.map_eq_some_iff] at hfresh
    obtain ⟨⟨ro, q⟩, h4, h5⟩ := hfresh
    simp only [Prod.mk.injEq] at h5
    obtain ⟨rfl, h6, h7⟩ := h5
    have hrate : RateIs env o.config (r : ℝ) := ⟨_, hw.1, rfl⟩
    have hsel : Selects o.config c := same_selects (sameModels_of_supply hsame) hc
    have hlk : lookup [(env.canon (workingFile jsonFile folder), o.config)] (env.canon (workingFile jsonFile folder)) = some o.config := by
      rw [lookup_cons_eq]; exact if_pos rfl
    obtain ⟨_, hdep, hd0, _⟩ := prepared_facts hprep
    have hdep' : NumberAt env o.config "terrain_conditions" "depth" pr.world.terrain.depth := by
      obtain ⟨v, ⟨tp, inner, e, h1, h2⟩, hx⟩ := hdep
      obtain ⟨tp', e', h1'⟩ := (hw.2 "terrain_conditions" (by decide) _).mpr ⟨tp, e, h1⟩
      exact ⟨v, ⟨tp', inner, e', h1', h2⟩, hx⟩
    obtain ⟨x, hx⟩ := supply_prepare hsame hswitch hc (r : ℝ) pr.world.terrain.depth (.int r) hw.1 rfl hdep' hd0 [] pr hprep
    refine ⟨hsel, hrate, q, _, h4, h6, hx, ?_⟩
    have hv' : AtVent pr.integrator (pr.world.supplied (r : ℝ) pr.world.terrain.depth x) := by
      refine ⟨hv.crystals, hv.hot, (notCompatible_strain _ _ _).trans hv.room, fun hk => hv.off ((atPacking_strain _ pr.world.st x).mp hk), hv.depth, hv.ground⟩
    refine ⟨sensible_supplied hg _ _, hv', he, fun hm s hs => ?_, ?_⟩
    · have := hmass hm s hs
      rw [density_pos_only pr.integrator.models.lava (pr.world.supplied (r : ℝ) pr.world.terrain.depth x).st pr.world.st rfl]
      exact this
    · rintro log ⟨D, a1, a2, a3, a4⟩
      refine ⟨D, a1, ?_, a3, a4⟩
      rw [← a2]
      exact congrArg₂ (fun (a b : Except Err ℝ) => a.bind fun x => b.bind fun y => pure (leB y x)) (yield_strain pr.integrator.models.lava.yld pr.world.st x)
        (basal_strain pr.integrator.models.lava { pr.world.terrain with depth := D } pr.world.st x)
  rw [List.pairwise_iff_getElem]
  intro i j hi hj hij
  rw [List.pairwise_iff_getElem] at hasc
  have hli : i < runs.length := by rw [hls.length_eq]; exact hi
  have hlj : j < runs.length := by rw [hls.length_eq]; exact hj
  have hri : i < rates.length := by rw [hruns.length_eq]; exact hli
  have hrj : j < rates.length := by rw [hruns.length_eq]; exact hlj
  have hlt := hasc i j hri hrj hij
  obtain ⟨ti, wi, gi⟩ := (List.forall₂_iff_get.mp hls).2 i hli hi
  obtain ⟨tj, wj, gj⟩ := (List.forall₂_iff_get.mp hls).2 j hlj hj
  have ri := (List.forall₂_iff_get.mp hruns).2 i hri hli
  have rj := (List.forall₂_iff_get.mp hruns).2 j hrj hlj
  have mi : runs.get ⟨i, hli⟩ ∈ runs := List.get_mem _ _
  have mj : runs.get ⟨j, hlj⟩ ∈ runs := List.get_mem _ _
  have pi := hpos _ (List.getElem_mem hri)
  have pj := hpos _ (List.getElem_mem hrj)
  obtain ⟨seli, ratei, qi, pri, runi, logi, prepi, gi', vi, ei, massi, flowi⟩ := one _ _ pi mi ri
  obtain ⟨selj, ratej, qj, prj, runj, logj, prepj, gj', vj, ej, massj, flowj⟩ := one _ _ pj mj rj
  obtain ⟨hsame, hswitch⟩ := rate_differs (env := env) (c := c) (fun k hk v => (ri.1.2 k hk v).trans (rj.1.2 k hk v).symm) (hnr ri.1) (hnr rj.1)
  have fi := flowi _ (hflow _ mi)
  have fj := flowi _ (hflow _ mj)
  rw [← logi] at wi fi
  rw [← logj] at wj fj
  refine C123_two_rates fuel fuel env (workingFile jsonFile folder) folder _ _ _ _ ?_ ?_ rfl rfl c seli hsame hswitch _ _ ratei ratej ?_ ?_ ?_ pri prepi gi' vi k ei massi qi qj
    runi runj fi fj round hround lines hlines ti tj wi wj _ _ gi gj
  · rw [lookup_cons_eq]; exact if_pos rfl
  · rw [lookup_cons_eq]; exact if_pos rfl
  · exact_mod_cast pi.ne'
  · exact_mod_cast pj.ne'
  · exact_mod_cast hlt.le

/-- The runs of a sweep in which every run flowed left something to write. -/
theorem flowed_log {pr : Prepared ℝ} {k : ℝ} {log : Log (Cell ℝ)} (h : Flowed pr k log) : log ≠ [] := by
  rintro rfl
  obtain ⟨D, h, _⟩ := h
  cases h

/-- **C123**. A sweep with a positive step over positive rates, from a template with sensible parameters and the models of C121, that ends normally and whose runs all flowed (they show a
    depth at the vent at which the lava moves, their step was small, they lost heat at every row). If the slope file given for the post-processing has ascending distances and
    rounding to a metre is monotone, then the run-out table has one line per rate, and the run-outs and the depths in it never decrease. -/
theorem C123_sweep (fuel : Nat) (round : Nat → ℝ → ℝ) (env : Env ℝ)
    (jsonFile folder slopeFile : String) (first last step : Int) (p p1 : Proc ℝ) (names : List String)
    (template : Json ℝ) (rates : List Int) (lava : Json ℝ) (runs : List (SweepRun ℝ))
    (hsweep : sweep depthGrid fuel env jsonFile folder first last step p = some (.ok names, p1))
    (htemp : lookup p.json (env.canon jsonFile) = some template)
    (hrates : sweepRates first last step = .ok rates)
    (hlava : TopEntry template "lava_name" lava)
    (hruns : List.Forall₂ (IsSweepRun depthGrid fuel env template (workingFile jsonFile folder) folder) rates runs)
    (hres : p1.results = runs.reverse.flatMap (·.files) ++ p.results)
    (hdist : DistinctFiles env folder (lava.show env))
    (hfirst : 0 < first) (hstep : 0 < step)
    (c : Choice) (hc : Selects template c) (pr : Prepared ℝ) (hprep : prepare env template [] = .ok pr)
    (hg : Sensible pr.integrator pr.world.terrain pr.world.st.pos) (hv : AtVent pr.integrator pr.world) (k : ℝ) (he : Everyday pr.integrator pr.world.st.pos k)
    (hmass : pr.integrator.massConservation = true → ∀ s : FlowState ℝ, pr.world.st.pos ≤ s.pos →
      pr.integrator.models.lava.density pr.world.st ≤ pr.integrator.models.lava.density s)
    (hflow : ∀ o ∈ runs, Flowed pr k o.log)
    (hround : ∀ a b, a ≤ b → round 0 a ≤ round 0 b)
    (lines : List (SlopeLine ℝ)) (hslope : env.slopeFile slopeFile = some lines) (hlines : lines.Pairwise fun a b => a.dist ≤ b.dist)
    (out : SweepOutput ℝ) (hout : sweepFull depthGrid fuel round env jsonFile folder slopeFile first last step p = some (.ok (), p1, out)) :
    ∃ table, out.runOuts = some table ∧ table.lines.length = rates.length ∧ table.lines.Pairwise fun a b => a.runOut ≤ b.runOut ∧ a.depth ≤ b.depth := by
  obtain ⟨_, _, lines', cs, ls, e1, _, hls, rfl⟩ := (C68_sweep_output depthGrid fuel round env jsonFile folder slopeFile first last step p p1 names template rates lava runs
    hsweep htemp hrates hlava hruns hres hdist (fun o ho => flowed_log (hflow o ho)) out).mp hout
  rw [hslope] at e1
  obtain rfl := Option.some.inj e1
  refine ⟨_, rfl, ?_, C123_lines fuel round env jsonFile folder first last step template rates runs hrates hruns hfirst hstep c hc pr hprep hg hv k he hmass hflow hround
    _ hlines ls hls⟩
  show ls.length = _
  rw [← hls.length_eq, ← hruns.length_eq]

/-- **C123**, `get_run_outs` called with the result files of the sweep (whether or not they can be drawn). -/
theorem C123_run_outs (fuel : Nat) (round : Nat → ℝ → ℝ) (env : Env ℝ)
    (jsonFile folder slopeFile : String) (first last step : Int) (p p1 : Proc ℝ) (names : List String)
    (template : Json ℝ) (rates : List Int) (lava : Json ℝ) (runs : List (SweepRun ℝ))
    (hsweep : sweep depthGrid fuel env jsonFile folder first last step p = some (.ok names, p1))
    (htemp : lookup p.json (env.canon jsonFile) = some template)
    (hrates : sweepRates first last step = .ok rates)
    (hlava : TopEntry template "lava_name" lava)
    (hruns : List.Forall₂ (IsSweepRun depthGrid fuel env template (workingFile jsonFile folder) folder) rates runs)
    (hres : p1.results = runs.reverse.flatMap (·.files) ++ p.results)
    (hdist : DistinctFiles env folder (lava.show env))
    (hfirst : 0 < first) (hstep : 0 < step)
    (c : Choice) (hc : Selects template c) (pr : Prepared ℝ) (hprep : prepare env template [] = .ok pr)
    (hg : Sensible pr.integrator pr.world.terrain pr.world.st.pos) (hv : AtVent pr.integrator pr.world) (k : ℝ) (he : Everyday pr.integrator pr.world.st.pos k)
    (hmass : pr.integrator.massConservation = true → ∀ s : FlowState ℝ, pr.world.st.pos ≤ s.pos →
      pr.integrator.models.lava.density pr.world.st ≤ pr.integrator.models.lava.density s)
    (hflow : ∀ o ∈ runs, Flowed pr k o.log)
    (hround : ∀ a b, a ≤ b → round 0 a ≤ round 0 b)
    (lines : List (SlopeLine ℝ)) (hslope : env.slopeFile slopeFile = some lines) (hlines : lines.Pairwise fun a b => a.dist ≤ b.dist)
    (lavaName : String) (table : RunOutFile ℝ) (hout : getRunOuts round env p1 folder names slopeFile lavaName = (.ok (), table)) :
    table.lines.length = rates.length ∧ table.lines.Pairwise fun a b => a.runOut ≤ b.runOut ∧ a.depth ≤ b.depth := by
  obtain ⟨t', rates', lava', _, e1, e2, e3, e4, _, _⟩ := C57_sweep_is_fresh_runs _ _ _ _ _ _ _ _ _ _ _ hsweep
  rw [htemp] at e1
  obtain rfl := Option.some.inj e1
  rw [hrates] at e2
  injection e2 with e2
  subst e2
  have hnames : names = rates.map fun r => resultFileName folder (lava.show env) (toString r) := by
    rw [e4]
    by_cases hr : rates = []
    · rw [hr]; rfl
    · rw [topEntry_unique (e3 hr) hlava]
  have hnd : rates.Nodup := by
    have := C57_sweep_names _ _ _ _ _ _ _ _ _ _ _ hsweep
    rw [hnames] at this
    exact List.Nodup.of_map _ this
  have hF := sweep_file depthGrid fuel env template (workingFile jsonFile folder) folder rates lava runs p.results hnd
    (fun _ => hlava) hruns hdist (fun o ho => flowed_log (hflow o ho))
  rw [← hnames, ← hres] at hF
  unfold getRunOuts at hout
  rw [hslope] at hout
  cases hr : runOutsLoop round (some lines) (fun name => lookup p1.results (env.canon name)) names with
  | mk e ls =>
    rw [hr] at hout
    cases e with
    | error e => cases hout
    | ok u =>
      have htab : table.lines = ls := by
        dsimp only at hout
        split at hout
        · cases hout
        · rw [← (Prod.mk.inj hout).2]
      have hls := (transfer (fun name => lookup p1.results (env.canon name)) (fun t l => getRunOut round t lines = .ok l) names runs hF ls).mp
        ((runOutsLoop_ok round lines _ names ls).mp hr)
      rw [htab]
      refine ⟨by rw [← hls.length_eq, ← hruns.length_eq], C123_lines fuel round env jsonFile folder first last step template rates runs hrates hruns hfirst hstep
        c hc pr hprep hg hv k he hmass hflow hround _ hlines ls hls⟩

end PyFlowGo
