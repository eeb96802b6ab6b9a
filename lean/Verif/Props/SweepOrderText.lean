import Verif.Props.SweepOrder
import Verif.Props.SweepFullText
import Verif.Props.LastRow
/-
  C123 on the texts of the files: the figure of the run-outs drawn at the end of a sweep goes up.
-/
set_option linter.unusedSectionVars false
namespace PyFlowGo
open Spec

/-- What the line of the run-out table computed from the text of a result says of the run that wrote it. -/
theorem run_text_line {env : Env ℝ} {working folder : String} {p q : Proc ℝ} {d : Json ℝ} {pr : Prepared ℝ}
    (hd : lookup p.json (env.canon working) = some d) (hlog : p.log = []) (hprep : prepare env d [] = .ok pr)
    (hg : Sensible pr.integrator pr.world.terrain pr.world.st.pos) (hv : AtVent pr.integrator pr.world) {r : ℝ} (hr : RateIs env d r) (hr0 : r ≠ 0)
    {n : Nat} (hrun : run n env working folder p = some (.ok (), q)) (hheat : ∀ x y, loggedNum q.log x "heat_budget" = some y → 0 < y)
    {t : CsvTable (Cell ℝ)} (ht : writeValues q.log = .ok (some t)) (F : TextFormat ℝ) (rd : ℝ → ℝ) (hrd : Monotone rd)
    (hstr : ∀ c, F.float (F.str c) = some (rd c.value)) (hcr : ∀ c, '\r' ∉ F.str c) {round : Nat → ℝ → ℝ} {profile : List Char} {line : RunOut ℝ} {far second q0 : ℝ}
    {samples : List (ℝ × ℝ × ℝ × ℝ)} (hline : RunOutLine round F.float (stored F.windows (t.text F.str)) profile line far second q0 samples) :
    2 ≤ q.log.length ∧ far = rd (pr.world.st.pos + ((q.log.length - 1 : ℕ) : ℝ) * pr.integrator.dx) ∧ second = rd (pr.world.st.pos + pr.integrator.dx) ∧
    ∀ (round' : Nat → ℝ → ℝ) (lines : List (SlopeLine ℝ)), (∃ l ∈ lines, l.dist ≤ 2 * pr.world.st.pos + q.log.length * pr.integrator.dx) →
      ∃ ro l, getRunOut round' t lines = .ok ro ∧
        (lines.filter fun l => decide (l.dist ≤ 2 * pr.world.st.pos + q.log.length * pr.integrator.dx)).getLast? = some l ∧ ro.runOut = round' 0 l.dist ∧
        line.depth = rd ro.depth := by
  obtain ⟨f1, _, _, f4, _⟩ := prepared_facts hprep
  have hdx := hg.step
  obtain ⟨w, hsim, ew⟩ := run_log hd (by rw [hlog]; exact hprep) hrun
  obtain ⟨W, l1, l2, l3⟩ : ∃ W1, W1.log = [] ∧ W1.st.pos = pr.world.st.pos ∧ runLoop pr.integrator n W1 = some (.ok (), w) := by
    unfold simulateOn at hsim
    have k0 := initEffusion_keeps pr.integrator.models.lava depthGrid pr.world
    cases hi : initEffusionRateOn depthGrid pr.integrator.models.lava pr.world with
    | mk o W1 =>
      rw [hi] at hsim k0
      obtain ⟨k1, k2, _⟩ := k0
      cases o with
      | error e => cases hsim
      | ok _ => exact ⟨W1, k1.trans f4, k2, hsim⟩
  have hm : pr.integrator.massConservation = true → pr.world.terrain.effusionRateInit ≠ 0 := by
    intro _
    rw [rate_unique f1 hr]; exact hr0
  have hpos := run_positions pr.integrator hdx n W w l1 l3
  rw [← ew, l2] at hpos
  -- the header
  obtain ⟨r0, rest, hlog0, hh⟩ := writeValues_header ht
  have hr0m : q.log[0]? = some r0 := by rw [hlog0]; rfl
  have hkey : ∀ r ∈ q.log, "position" ∈ r.keys := by
    intro r hr
    obtain ⟨i, hi, rfl⟩ := List.getElem_of_mem hr
    have := (hpos i _ (List.getElem?_eq_getElem hi)).1
    exact get?_some_mem this
  have hne : t.header ≠ [] := by
    rw [hh]
    exact List.ne_nil_of_mem (hkey r0 (by rw [hlog0]; simp))
  have hn : ∀ n ∈ t.header, '\r' ∉ n.toList := by
    intro c hc
    rw [hh] at hc
    exact noCr_columns pr.integrator c ((hpos 0 r0 hr0m).2 c hc)
  -- the positions
  obtain ⟨xs, hxs⟩ := (columnIs_iff q.log "position").mpr hkey
  have hval : ∀ (i : ℕ) x, xs[i]? = some x → x = pr.world.st.pos + i * pr.integrator.dx := by
    intro i x hi
    obtain ⟨cells, h1, rfl⟩ := hxs
    rw [List.getElem?_map, Option.map_eq_some_iff] at hi
    obtain ⟨cell, hc, rfl⟩ := hi
    have h2 := congrArg (·[i]?) h1
    unfold Log.getValues at h2
    rw [List.getElem?_map, List.getElem?_map, hc] at h2
    obtain ⟨row, e1, e2⟩ := Option.map_eq_some_iff.mp h2
    rw [(hpos i row e1).1] at e2
    cases e2
    rfl
  have hlen := columnIs_length hxs
  obtain ⟨ys, hy, hfar, hmax, hsec⟩ := hline.positions
  rw [textColumn_of F rd hstr hcr q.log t ht hne hn "position" xs hxs, Except.ok.injEq] at hy
  subst hy
  rw [List.getElem?_map, Option.map_eq_some_iff] at hsec
  obtain ⟨x1, hx1, rfl⟩ := hsec
  have h2 : 2 ≤ q.log.length := by
    obtain ⟨hi, _⟩ := List.getElem?_eq_some_iff.mp hx1
    omega
  have hx1' := hval 1 x1 hx1
  have hfar' : far = rd (pr.world.st.pos + ((q.log.length - 1 : ℕ) : ℝ) * pr.integrator.dx) := by
    have hi : xs[q.log.length - 1]? = some (xs[q.log.length - 1]'(by omega)) := List.getElem?_eq_getElem _
    have hle := hmax _ (List.mem_map_of_mem (f := rd) (List.getElem_mem (l := xs) (n := q.log.length - 1) (by omega)))
    rw [hval _ _ hi] at hle
    refine le_antisymm ?_ hle
    obtain ⟨y, hy, rfl⟩ := List.mem_map.mp hfar
    obtain ⟨j, hj, rfl⟩ := List.getElem_of_mem hy
    rw [hval j _ (List.getElem?_eq_getElem hj)]
    apply hrd
    have : (j : ℝ) ≤ ((q.log.length - 1 : ℕ) : ℝ) := by exact_mod_cast (by omega : j ≤ q.log.length - 1)
    nlinarith
  refine ⟨h2, hfar', by rw [hx1', Nat.cast_one, one_mul], fun round' lines hlines => ?_⟩
  -- every row is complete
  obtain ⟨k, c1, c2⟩ := C124_complete_rows env working folder p q d pr hd hlog hprep hg hv n hrun
  have hk : q.log.length = k := by
    rcases c2 with c2 | ⟨_, y, hy, hy0⟩
    · exact c2
    · exact absurd (hheat _ _ hy) (not_lt.mpr hy0)
  have hlast : ∃ y, loggedNum q.log (pr.world.st.pos + (q.log.length - 1) * pr.integrator.dx) "heat_budget" = some y ∧ 0 < y := by
    have hc : CompleteRow q.log (pr.world.st.pos + (q.log.length - 1) * pr.integrator.dx) := by
      refine (c1 _).mpr ⟨k - 1, by omega, ?_⟩
      rw [hk, Nat.cast_sub (by omega), Nat.cast_one]
    have hp : newRunner p = p := by cases p; simp only at hlog; subst hlog; rfl
    obtain ⟨_, _, hp, _⟩ := C119_run env working folder p q d pr hd hprep hg hv hm n (by rw [hp]; exact hrun)
    exact (hp _ hc).heat_budget
  obtain ⟨ro, hro⟩ := (C124_post_processing env working folder p q d pr hd hlog hprep hg hv hm n hrun round' t ht lines).mpr ⟨h2, hlast, hlines⟩
  obtain ⟨l, hl, hl'⟩ := C59_run_out_of_a_run round' pr.integrator hdx n W w l1 l3 t (by rw [← ew]; exact ht) lines ro hro
  rw [← ew, l2] at hl
  refine ⟨ro, l, hro, hl, hl', ?_⟩
  obtain ⟨_, _, _, ds, _, _, _, hD, _, _, _, _, _, _, _, _, e2, _⟩ := (C59_run_out_line round' _ t ht lines ro).mp hro
  obtain ⟨zs, hz, hz1⟩ := hline.depth
  rw [textColumn_of F rd hstr hcr q.log t ht hne hn "channel_depth" ds hD, Except.ok.injEq] at hz
  subst hz
  rw [List.getElem?_map, e2] at hz1
  exact (Option.some.inj hz1).symm

/-- The distance of the last sample up to a limit grows with the limit. -/
theorem samples_last {pf : List Char → Option ℝ} {l l' : ℝ} (hle : l ≤ l') {rows : List (List (List Char))}
    (hasc : rows.Pairwise fun a b => ∀ x y, FieldIs pf a 3 x → FieldIs pf b 3 y → x ≤ y) {S S' : List (ℝ × ℝ × ℝ × ℝ)}
    (hS : SamplesUpTo pf l rows S) (hS' : SamplesUpTo pf l' rows S') {s s' : ℝ × ℝ × ℝ × ℝ} (hs : S.getLast? = some s) (hs' : S'.getLast? = some s') :
    s.2.2.2 ≤ s'.2.2.2 := by
  have uniq : ∀ {row : List (List Char)} {i x y}, FieldIs pf row i x → FieldIs pf row i y → x = y := by
    rintro row i x y ⟨t, a, b⟩ ⟨t', a', b'⟩
    rw [a] at a'
    cases a'
    rw [b] at b'
    exact Option.some.inj b'
  have src : ∀ {l : ℝ} {rows : List (List (List Char))} {S : List (ℝ × ℝ × ℝ × ℝ)}, SamplesUpTo pf l rows S → ∀ s ∈ S, s.2.2.2 ≤ l ∧ ∃ row ∈ rows, FieldIs pf row 3 s.2.2.2 := by
    intro l rows S h
    induction h with
    | nil => intro s hs; cases hs
    | near h0 _ _ _ h4 _ ih =>
      intro s hs
      rcases List.mem_cons.mp hs with rfl | hs
      · exact ⟨h0, _, List.mem_cons_self, h4⟩
      · obtain ⟨a, row, b, c⟩ := ih s hs
        exact ⟨a, row, List.mem_cons_of_mem _ b, c⟩
    | far _ _ _ ih =>
      intro s hs
      obtain ⟨a, row, b, c⟩ := ih s hs
      exact ⟨a, row, List.mem_cons_of_mem _ b, c⟩
  have sub : ∀ {rows : List (List (List Char))} {S' : List (ℝ × ℝ × ℝ × ℝ)}, SamplesUpTo pf l' rows S' → ∀ row ∈ rows, ∀ x, FieldIs pf row 3 x → x ≤ l →
      ∃ s ∈ S', s.2.2.2 = x := by
    intro rows S' h
    induction h with
    | nil => intro row hr; cases hr
    | near h0 _ _ _ h4 _ ih =>
      intro row hr x hx hxl
      rcases List.mem_cons.mp hr with rfl | hr
      · exact ⟨_, List.mem_cons_self, uniq h4 hx⟩
      · obtain ⟨s, a, b⟩ := ih row hr x hx hxl
        exact ⟨s, List.mem_cons_of_mem _ a, b⟩
    | far h0 h4 _ ih =>
      intro row hr x hx hxl
      rcases List.mem_cons.mp hr with rfl | hr
      · rw [uniq h4 hx] at h0
        exact absurd h0 (not_lt.mpr (hxl.trans hle))
      · exact ih row hr x hx hxl
  have asc : ∀ {rows : List (List (List Char))} {S' : List (ℝ × ℝ × ℝ × ℝ)}, SamplesUpTo pf l' rows S' →
      (rows.Pairwise fun a b => ∀ x y, FieldIs pf a 3 x → FieldIs pf b 3 y → x ≤ y) → S'.Pairwise fun a b => a.2.2.2 ≤ b.2.2.2 := by
    intro rows S' h
    induction h with
    | nil => intro _; exact List.Pairwise.nil
    | near h0 _ _ _ h4 hrest ih =>
      intro hp
      rw [List.pairwise_cons] at hp
      refine List.pairwise_cons.mpr ⟨fun b hb => ?_, ih hp.2⟩
      obtain ⟨_, row, hr, hf⟩ := src hrest b hb
      exact hp.1 row hr _ _ h4 hf
    | far _ _ _ ih =>
      intro hp
      rw [List.pairwise_cons] at hp
      exact ih hp.2
  obtain ⟨a, row, hr, hf⟩ := src hS s (List.mem_of_getLast? hs)
  obtain ⟨u, hu, e⟩ := sub hS' row hr _ hf a
  rw [← e]
  obtain ⟨init, rfl⟩ := List.getLast?_eq_some_iff.mp hs'
  rcases List.mem_append.mp hu with hu | hu
  · exact (List.pairwise_append.mp (asc hS' hasc)).2.2 u hu s' (by simp)
  · rw [List.mem_singleton.mp hu]

/-- **C123** on texts, two runs: one configuration with two rates, both runs flowed; the lines of the run-out table computed from the texts of the two results. -/
theorem C123_two_texts (n n' : Nat) (env : Env ℝ) (jsonFile folder : String) (p p' : Proc ℝ)
    (d d' : Json ℝ) (hd : lookup p.json (env.canon jsonFile) = some d) (hd' : lookup p'.json (env.canon jsonFile) = some d')
    (hlog : p.log = []) (hlog' : p'.log = [])
    (c : Choice) (hc : Selects d c) (h : SameButSupply env c d d') (hs : SameSwitch d d')
    (r r' : ℝ) (hr : RateIs env d r) (hr' : RateIs env d' r') (hr0 : r ≠ 0) (hr0' : r' ≠ 0) (hle : r ≤ r')
    (pr pr' : Prepared ℝ) (hprep : prepare env d [] = .ok pr) (hprep' : prepare env d' [] = .ok pr')
    (hg : Sensible pr.integrator pr.world.terrain pr.world.st.pos) (hv : AtVent pr.integrator pr.world) (k : ℝ) (he : Everyday pr.integrator pr.world.st.pos k)
    (hmass : pr.integrator.massConservation = true → ∀ s : FlowState ℝ, pr.world.st.pos ≤ s.pos →
      pr.integrator.models.lava.density pr.world.st ≤ pr.integrator.models.lava.density s)
    (hg' : Sensible pr'.integrator pr'.world.terrain pr'.world.st.pos) (hv' : AtVent pr'.integrator pr'.world)
    (q q' : Proc ℝ) (hrun : run n env jsonFile folder p = some (.ok (), q)) (hrun' : run n' env jsonFile folder p' = some (.ok (), q'))
    (hf : Flowed pr k q.log) (hf' : Flowed pr k q'.log)
    (t t' : CsvTable (Cell ℝ)) (ht : writeValues q.log = .ok (some t)) (ht' : writeValues q'.log = .ok (some t'))
    (F : TextFormat ℝ) (rd : ℝ → ℝ) (hrd : Monotone rd) (hstr : ∀ c, F.float (F.str c) = some (rd c.value)) (hcr : ∀ c, '\r' ∉ F.str c)
    (round : Nat → ℝ → ℝ) (hround : ∀ a b, a ≤ b → round 0 a ≤ round 0 b) (profile : List Char)
    (hasc : (dataLines profile).Pairwise fun a b => ∀ x y, FieldIs F.float a 3 x → FieldIs F.float b 3 y → x ≤ y)
    (line line' : RunOut ℝ) (hline : runOutOfText round F.float (stored F.windows (t.text F.str)) (some profile) = .ok line)
    (hline' : runOutOfText round F.float (stored F.windows (t'.text F.str)) (some profile) = .ok line') :
    line.runOut ≤ line'.runOut ∧ line.depth ≤ line'.depth := by
  obtain ⟨far, second, q0, S, hline⟩ := (C90_run_out_of_a_text round F.float _ profile line).mp hline
  obtain ⟨far', second', q0', S', hline'⟩ := (C90_run_out_of_a_text round F.float _ profile line').mp hline'
  obtain ⟨_, _, _, _, hheat⟩ := id hf
  obtain ⟨_, _, _, _, hheat'⟩ := id hf'
  obtain ⟨a1, a2, a3, a4⟩ := run_text_line hd hlog hprep hg hv hr hr0 hrun hheat ht F rd hrd hstr hcr hline
  obtain ⟨b1, b2, b3, b4⟩ := run_text_line hd' hlog' hprep' hg' hv' hr' hr0' hrun' hheat' ht' F rd hrd hstr hcr hline'
  obtain ⟨Dc, x, e1, e2, _⟩ := supply_prepared h hs hc hprep hprep'
  have edx : pr'.integrator.dx = pr.integrator.dx := by rw [e1]
  have epos : pr'.world.st.pos = pr.world.st.pos := by rw [e2]; rfl
  rw [edx, epos] at b2 b3 b4
  have hdx := hg.step
  set A := 2 * pr.world.st.pos + q.log.length * pr.integrator.dx with hA
  set B := 2 * pr.world.st.pos + q'.log.length * pr.integrator.dx with hB
  obtain ⟨ro, l, c1, c2, c3, c4⟩ := a4 (fun _ x => x) [⟨0, 0, 0, min A B, 0⟩, ⟨0, 0, 0, A, 0⟩] ⟨_, List.mem_cons_self, min_le_left _ _⟩
  obtain ⟨ro', l', d1, d2, d3, d4⟩ := b4 (fun _ x => x) [⟨0, 0, 0, min A B, 0⟩, ⟨0, 0, 0, A, 0⟩] ⟨_, List.mem_cons_self, min_le_right _ _⟩
  obtain ⟨hro, hdep⟩ := C123_two_rates n n' env jsonFile folder p p' d d' hd hd' hlog hlog' c hc h hs r r' hr hr' hr0 hr0' hle pr hprep hg hv k he hmass q q' hrun hrun' hf hf'
    (fun _ x => x) (fun _ _ h => h) [⟨0, 0, 0, min A B, 0⟩, ⟨0, 0, 0, A, 0⟩] (by simp) t t' ht ht' ro ro' c1 d1
  have hlast : l = ⟨0, 0, 0, A, 0⟩ := by
    rw [List.filter_cons_of_pos (by simp), List.filter_cons_of_pos (by simp)] at c2
    exact (Option.some.inj c2).symm
  have hAB : A ≤ B := by
    have := of_decide_eq_true (List.mem_filter.mp (List.mem_of_getLast? d2)).2
    rw [hlast] at c3
    rw [c3, d3] at hro
    exact hro.trans this
  have hlen : q.log.length ≤ q'.log.length := by
    have : (q.log.length : ℝ) * pr.integrator.dx ≤ q'.log.length * pr.integrator.dx := by rw [hA, hB] at hAB; linarith
    exact_mod_cast le_of_mul_le_mul_right this hdx
  refine ⟨?_, by rw [c4, d4]; exact hrd hdep⟩
  obtain ⟨s, g1, _, _, _, g5⟩ := hline.stop
  obtain ⟨s', k1, _, _, _, k5⟩ := hline'.stop
  rw [g5, k5]
  refine hround _ _ (samples_last ?_ hasc hline.profile hline'.profile g1 k1)
  rw [a2, a3, b2, b3]
  have hn : ((q.log.length - 1 : ℕ) : ℝ) ≤ ((q'.log.length - 1 : ℕ) : ℝ) := by exact_mod_cast (by omega : q.log.length - 1 ≤ q'.log.length - 1)
  have := hrd (show pr.world.st.pos + ((q.log.length - 1 : ℕ) : ℝ) * pr.integrator.dx ≤ pr.world.st.pos + ((q'.log.length - 1 : ℕ) : ℝ) * pr.integrator.dx by nlinarith)
  linarith

/-- The template with one of the rates of a sweep is as sensible as the template. -/
theorem rate_prepared {env : Env ℝ} {template d : Json ℝ} {r : Int} (hw : WithRate template d r) {c : Choice} (hc : Selects template c) {pr : Prepared ℝ}
    (hprep : prepare env template [] = .ok pr) (hg : Sensible pr.integrator pr.world.terrain pr.world.st.pos) (hv : AtVent pr.integrator pr.world) (k : ℝ)
    (he : Everyday pr.integrator pr.world.st.pos k)
    (hmass : pr.integrator.massConservation = true → ∀ s : FlowState ℝ, pr.world.st.pos ≤ s.pos →
      pr.integrator.models.lava.density pr.world.st ≤ pr.integrator.models.lava.density s) :
    Selects d c ∧ RateIs env d (r : ℝ) ∧ (∀ l, ¬ TopEntry d "effusion_rate_init" (.obj l)) ∧
    ∃ pro, prepare env d [] = .ok pro ∧ Sensible pro.integrator pro.world.terrain pro.world.st.pos ∧ AtVent pro.integrator pro.world ∧
      Everyday pro.integrator pro.world.st.pos k ∧
      (pro.integrator.massConservation = true → ∀ s : FlowState ℝ, pro.world.st.pos ≤ s.pos →
        pro.integrator.models.lava.density pro.world.st ≤ pro.integrator.models.lava.density s) ∧
      ∀ log, Flowed pr k log → Flowed pro k log := by
  have hn0 : ∀ l, ¬ TopEntry template "effusion_rate_init" (.obj l) := by
    intro l hl
    obtain ⟨⟨v, h1, h2⟩, _⟩ := prepared_facts hprep
    rw [topEntry_unique h1 hl] at h2
    cases h2
  have hnr : ∀ l, ¬ TopEntry d "effusion_rate_init" (.obj l) := by
    intro l hl
    have := topEntry_unique hw.1 hl
    cases this
  obtain ⟨hsame, hswitch⟩ := rate_differs (env := env) (c := c) (fun k hk v => (hw.2 k hk v).symm) hn0 hnr
  have hrate : RateIs env d (r : ℝ) := ⟨_, hw.1, rfl⟩
  have hsel : Selects d c := same_selects (sameModels_of_supply hsame) hc
  obtain ⟨_, hdep, hd0, _⟩ := prepared_facts hprep
  have hdep' : NumberAt env d "terrain_conditions" "depth" pr.world.terrain.depth := by
    obtain ⟨v, ⟨tp, inner, e, h1, h2⟩, hx⟩ := hdep
    obtain ⟨tp', e', h1'⟩ := (hw.2 "terrain_conditions" (by decide) _).mpr ⟨tp, e, h1⟩
    exact ⟨v, ⟨tp', inner, e', h1', h2⟩, hx⟩
  obtain ⟨x, hx⟩ := supply_prepare hsame hswitch hc (r : ℝ) pr.world.terrain.depth (.int r) hw.1 rfl hdep' hd0 [] pr hprep
  refine ⟨hsel, hrate, hnr, _, hx, ?_⟩
  have hv' : AtVent pr.integrator (pr.world.supplied (r : ℝ) pr.world.terrain.depth x) := by
    refine ⟨hv.crystals, hv.hot, (notCompatible_strain _ _ _).trans hv.room, fun hk => hv.off ((atPacking_strain _ pr.world.st x).mp hk), hv.depth, hv.ground⟩
  refine ⟨sensible_supplied hg _ _, hv', he, fun hm s hs => ?_, ?_⟩
  · have := hmass hm s hs
    rw [density_pos_only pr.integrator.models.lava (pr.world.supplied (r : ℝ) pr.world.terrain.depth x).st pr.world.st rfl]
    exact this
  · rintro log ⟨D, a1, a2, a3, a4⟩
    refine ⟨D, a1, ?_, a3, a4⟩
    rw [← a2]
    exact congrArg₂ (fun (a b : Except Err ℝ) => a.bind fun x => b.bind fun y => pure (leB y x)) (yield_strain pr.integrator.models.lava.yld pr.world.st x)
      (basal_strain pr.integrator.models.lava { pr.world.terrain with depth := D } pr.world.st x)

/-- A run of a sweep on texts, as a run that reads the profiles that were on the disk before the sweep. -/
theorem standAlone_run {grid : List ℝ} {fuel : Nat} {F : TextFormat ℝ} {template : Json ℝ} {working folder : String} {disk : List (String × List Char)} {r : Int} {o : TextRun ℝ}
    (h : StandAlone grid fuel F template working folder disk r o) (hsafe : ∀ path, MayRead template path → F.canon path ≠ F.canon working) :
    ∃ q, runOn grid fuel (textEnv F disk) working folder ⟨[(F.canon working, o.config)], [], []⟩ = some (.ok (), q) ∧ o.files = addedFiles F q.results := by
  set disk0 : List (String × List Char) := (F.canon working, o.configText) :: disk with hdisk0
  have hl : lookup disk0 (F.canon working) = some o.configText := by rw [hdisk0, lookup_cons_eq, if_pos rfl]
  have hkeep : ∀ path, MayRead template path → lookup disk0 (F.canon path) = lookup disk (F.canon path) := by
    intro path hp
    rw [hdisk0, lookup_cons_eq, if_neg (fun e => hsafe path hp e.symm)]
  have hr := h.same disk0 o.configText hl h.text (fun path hp => by rw [hkeep path hp])
  have hm : ∀ path, MayRead o.config path → MayRead template path := fun path hp => (mayRead_withRate h.config path).mp hp
  have hrun : runOn grid fuel (textEnv F disk0) working folder ⟨[(F.canon working, o.config)], [], []⟩ =
      runOn grid fuel (textEnv F disk) working folder ⟨[(F.canon working, o.config)], [], []⟩ := by
    have hsf : ∀ path, MayRead o.config path → (textEnv F disk0).slopeFile path = (textEnv F disk).slopeFile path := by
      intro path hp
      show (lookup disk0 (F.canon path)).bind _ = (lookup disk (F.canon path)).bind _
      rw [hkeep path (hm path hp)]
    refine runOn_congr (textEnv F disk) (textEnv F disk0).slopeFile (textEnv F disk0).crustFile ?_ grid fuel working folder _ ?_
    · show (lookup disk0 (F.canon _)).bind _ = (lookup disk (F.canon _)).bind _
      rw [hkeep _ (Or.inr (Or.inr rfl))]
    · intro d hd v hv t
      have : d = o.config := by
        have : lookup [(F.canon working, o.config)] (F.canon working) = some d := hd
        rw [lookup_cons_eq, if_pos rfl] at this
        exact (Option.some.inj this).symm
      subst this
      unfold loadSlope
      cases v with
      | str s => dsimp only; rw [← hsf s (Or.inl hv)]
      | null => dsimp only; rw [← hsf _ (Or.inr (Or.inl ⟨hv, rfl⟩))]
      | _ => rfl
  have hj : jsonLoad F.float o.configText = .ok o.config := (jsonLoads_iff F.float _ _).mpr h.text
  unfold runTextOn at hr
  rw [hl] at hr
  dsimp only at hr
  rw [hj] at hr
  dsimp only at hr
  have hnew : newRunner (⟨[(F.canon working, o.config)], [], []⟩ : Proc ℝ) = ⟨[(F.canon working, o.config)], [], []⟩ := rfl
  rw [hnew, hrun] at hr
  cases hq : runOn grid fuel (textEnv F disk) working folder ⟨[(F.canon working, o.config)], [], []⟩ with
  | none => rw [hq] at hr; cases hr
  | some rq =>
    obtain ⟨res, q⟩ := rq
    rw [hq] at hr
    dsimp only at hr
    rw [Option.some.injEq, Prod.mk.injEq] at hr
    obtain ⟨rfl, hd⟩ := hr
    refine ⟨q, rfl, ?_⟩
    cases hres : q.results with
    | nil =>
      rw [hres] at hd
      dsimp only at hd
      have := congrArg List.length hd
      rw [List.length_append] at this
      have : o.files.length = 0 := by omega
      rw [List.length_eq_zero_iff.mp this]; rfl
    | cons a rest =>
      obtain ⟨nm, t⟩ := a
      rw [hres] at hd
      have hd : [(nm, stored F.windows (t.text F.str))] ++ disk0 = o.files ++ disk0 := hd
      rw [← List.append_cancel_right hd]; rfl

/-- Two runs of a sweep on texts, for two rates. -/
theorem rate_line_le (fuel : Nat) (round : Nat → ℝ → ℝ) (F : TextFormat ℝ) (jsonFile folder : String) (disk : List (String × List Char)) (template : Json ℝ)
    (rd : ℝ → ℝ) (hrd : Monotone rd) (hstr : ∀ c, F.float (F.str c) = some (rd c.value)) (hcr : ∀ c, '\r' ∉ F.str c)
    (hsafe : ∀ path, MayRead template path → F.canon path ≠ F.canon (workingFile jsonFile folder)) (rates : List Int)
    (c : Choice) (hc : Selects template c) (pr : Prepared ℝ) (hprep : prepare (textEnv F disk) template [] = .ok pr)
    (hg : Sensible pr.integrator pr.world.terrain pr.world.st.pos) (hv : AtVent pr.integrator pr.world) (k : ℝ) (he : Everyday pr.integrator pr.world.st.pos k)
    (hmass : pr.integrator.massConservation = true → ∀ s : FlowState ℝ, pr.world.st.pos ≤ s.pos →
      pr.integrator.models.lava.density pr.world.st ≤ pr.integrator.models.lava.density s)
    (hflow : ∀ r ∈ rates, ∀ d q, WithRate template d r →
      run fuel (textEnv F disk) (workingFile jsonFile folder) folder ⟨[(F.canon (workingFile jsonFile folder), d)], [], []⟩ = some (.ok (), q) → Flowed pr k q.log)
    (hround : ∀ a b, a ≤ b → round 0 a ≤ round 0 b)
    (profile : List Char) (hasc : (dataLines profile).Pairwise fun a b => ∀ x y, FieldIs F.float a 3 x → FieldIs F.float b 3 y → x ≤ y)
    {a b : Int} (ha : a ∈ rates) (hb : b ∈ rates) (pa : 0 < a) (hlt : a < b) {oa ob : TextRun ℝ}
    (sa : StandAlone depthGrid fuel F template (workingFile jsonFile folder) folder disk a oa)
    (sb : StandAlone depthGrid fuel F template (workingFile jsonFile folder) folder disk b ob) {ta tb : List Char}
    (ea : oa.files = [] ∨ ∃ nm, oa.files = [(nm, ta)]) (eb : ob.files = [] ∨ ∃ nm, ob.files = [(nm, tb)]) {la lb : RunOut ℝ}
    (hla : ∃ far second q0 S, RunOutLine round F.float ta profile la far second q0 S) (hlb : ∃ far second q0 S, RunOutLine round F.float tb profile lb far second q0 S) :
    la.runOut ≤ lb.runOut ∧ la.depth ≤ lb.depth := by
  have one : ∀ x ∈ rates, ∀ o ta, StandAlone depthGrid fuel F template (workingFile jsonFile folder) folder disk x o → (o.files = [] ∨ ∃ nm, o.files = [(nm, ta)]) →
      ∃ q t, run fuel (textEnv F disk) (workingFile jsonFile folder) folder ⟨[(F.canon (workingFile jsonFile folder), o.config)], [], []⟩ = some (.ok (), q) ∧
        Flowed pr k q.log ∧ writeValues q.log = .ok (some t) ∧ ta = stored F.windows (t.text F.str) := by
    intro x hx o ta hd ht
    obtain ⟨q, hq, hfiles⟩ := standAlone_run hd hsafe
    have hf := hflow x hx _ q hd.config hq
    obtain ⟨_, _, _, _, _, _, _, hw⟩ := run_wrote _ _ _ _ _ _ _ hq
    rcases hw with ⟨hw, _⟩ | ⟨_, t, hw, hres⟩
    · exact absurd hw (flowed_log hf)
    refine ⟨q, t, hq, hf, hw, ?_⟩
    rw [hres] at hfiles
    rcases ht with e | ⟨nm, e⟩
    · rw [hfiles] at e
      cases e
    · rw [hfiles] at e
      simp only [addedFiles, List.head?_cons, Option.toList_some, List.map_cons, List.map_nil, List.cons.injEq, Prod.mk.injEq, and_true] at e
      exact e.2.symm
  obtain ⟨qa, ta', a1, a2, a3, a4⟩ := one a ha oa ta sa ea
  obtain ⟨qb, tb', b1, b2, b3, b4⟩ := one b hb ob tb sb eb
  have pb : 0 < b := pa.trans hlt
  obtain ⟨sela, ra, na, pra, prepa, ga, va, ea', ma, fa⟩ := rate_prepared sa.config hc hprep hg hv k he hmass
  obtain ⟨selb, rb, nb, prb, prepb, gb, vb, eb', mb, fb⟩ := rate_prepared sb.config hc hprep hg hv k he hmass
  obtain ⟨hsame, hswitch⟩ := rate_differs (env := textEnv F disk) (c := c) (fun k hk v => (sa.config.2 k hk v).trans (sb.config.2 k hk v).symm) na nb
  rw [a4] at hla
  rw [b4] at hlb
  refine C123_two_texts fuel fuel (textEnv F disk) (workingFile jsonFile folder) folder _ _ _ _ ?_ ?_ rfl rfl c sela hsame hswitch _ _ ra rb ?_ ?_ ?_ pra prb prepa prepb
    ga va k ea' ma gb vb qa qb a1 b1 (fa _ a2) (fa _ b2) ta' tb' a3 b3 F rd hrd hstr hcr round hround profile hasc la lb
    ((C90_run_out_of_a_text round F.float _ profile la).mpr hla) ((C90_run_out_of_a_text round F.float _ profile lb).mpr hlb)
  · show lookup [(F.canon (workingFile jsonFile folder), oa.config)] (F.canon (workingFile jsonFile folder)) = _
    rw [lookup_cons_eq, if_pos rfl]
  · show lookup [(F.canon (workingFile jsonFile folder), ob.config)] (F.canon (workingFile jsonFile folder)) = _
    rw [lookup_cons_eq, if_pos rfl]
  · exact_mod_cast pa.ne'
  · exact_mod_cast pb.ne'
  · exact_mod_cast hlt.le

/-- **C123** on texts, `get_run_outs` called on the results of a sweep. A sweep on the texts of the files with a positive step over positive rates, from a template with sensible
    parameters, that ends normally and whose runs all flowed. If the distances in the slope file given for the post-processing ascend, rounding to the metre is monotone, and
    reading back what was written is monotone, then the figure of the run-outs shows one point per rate and the distances in it never decrease; nor do the run-outs and the depths
    in the lines of the run-out table on the disk. -/
theorem C123_run_outs_texts (fuel : Nat) (round : Nat → ℝ → ℝ) (F : TextFormat ℝ) (sn : ℝ → List Char) (jsonFile folder slopeFile : String)
    (first last step : Int) (disk : List (String × List Char)) (text : List Char) (template lava : Json ℝ)
    (rd : ℝ → ℝ) (hrd : Monotone rd) (hstr : ∀ c, F.float (F.str c) = some (rd c.value)) (hcr : ∀ c, '\r' ∉ F.str c)
    (hl : lookup disk (F.canon jsonFile) = some text) (ht : JsonText F.float (universal text) template)
    (hnums : NumsAll (Readable F.float sn) template) (hlava : TopEntry template "lava_name" lava)
    (hid : '\r' ∉ (lava.show (textEnv F disk)).toList)
    (hapart : Apart F template (lava.show (textEnv F disk)) jsonFile folder slopeFile)
    (hfirst : 0 < first) (hstep : 0 < step) (rates : List Int) (hrates : sweepRates first last step = .ok rates)
    (c : Choice) (hc : Selects template c) (pr : Prepared ℝ) (hprep : prepare (textEnv F disk) template [] = .ok pr)
    (hg : Sensible pr.integrator pr.world.terrain pr.world.st.pos) (hv : AtVent pr.integrator pr.world) (k : ℝ) (he : Everyday pr.integrator pr.world.st.pos k)
    (hmass : pr.integrator.massConservation = true → ∀ s : FlowState ℝ, pr.world.st.pos ≤ s.pos →
      pr.integrator.models.lava.density pr.world.st ≤ pr.integrator.models.lava.density s)
    (hflow : ∀ r ∈ rates, ∀ d q, WithRate template d r →
      run fuel (textEnv F disk) (workingFile jsonFile folder) folder ⟨[(F.canon (workingFile jsonFile folder), d)], [], []⟩ = some (.ok (), q) → Flowed pr k q.log)
    (hround : ∀ a b, a ≤ b → round 0 a ≤ round 0 b)
    (profile : List Char) (hprofile : lookup disk (F.canon slopeFile) = some profile)
    (hasc : (dataLines profile).Pairwise fun a b => ∀ x y, FieldIs F.float a 3 x → FieldIs F.float b 3 y → x ≤ y)
    (names : List String) (disk1 disk' : List (String × List Char)) (fig : RunOutFigure ℝ)
    (h : sweepText depthGrid fuel F sn jsonFile folder first last step disk = some (.ok names, disk1))
    (hout : getRunOutsText round F folder names slopeFile (lava.show (textEnv F disk)) disk1 = (.ok fig, disk')) :
    fig.distance.length = rates.length ∧ fig.distance.Pairwise (· ≤ ·) ∧
    ∃ table rows lines, lookup disk' (F.canon (runOutsPath folder (lava.show (textEnv F disk)))) = some table ∧ dictRead ',' table = .ok rows ∧
      List.Forall₂ (RunOutShown F.float rd (lava.show (textEnv F disk))) lines rows ∧ lines.length = rates.length ∧
      lines.Pairwise fun a b => a.runOut ≤ b.runOut ∧ a.depth ≤ b.depth := by
  obtain ⟨rates', runs, h1, h2, h3, h4, h5, _⟩ := sweep_facts depthGrid fuel F sn jsonFile folder slopeFile first last step disk text template lava hl ht hnums hlava hapart names disk1 h
  rw [hrates, Except.ok.injEq] at h1
  subst h1
  have hpath : ∀ name ∈ slopeFile :: names, F.canon name ≠ F.canon (pathJoin folder ("run_outs_" ++ (lava.show (textEnv F disk)) ++ ".csv")) := by
    intro name hn
    rcases List.mem_cons.mp hn with rfl | hn
    · exact hapart.table.1
    · rw [h2] at hn
      obtain ⟨r, _, rfl⟩ := List.mem_map.mp hn
      exact hapart.table.2 r
  obtain ⟨hne, lines, hrep⟩ := C90_only_if round F hcr folder names slopeFile _ hid disk1 disk' fig hpath hout
  obtain ⟨out, rows, g1, g2, g3⟩ := C90_get_run_outs round F rd hstr hcr folder names slopeFile _ hid disk1 lines hne hpath hrep
  rw [hout, Prod.mk.injEq, Except.ok.injEq] at g1
  obtain ⟨rfl, rfl⟩ := g1
  have hslope : lookup disk1 (F.canon slopeFile) = some profile := by
    obtain ⟨a, b⟩ := hapart.inputs slopeFile (Or.inr rfl)
    rw [h5 slopeFile a b]; exact hprofile
  obtain ⟨hord, hmem⟩ := C56_rates first last step _ hstep hrates
  have hpos : ∀ r ∈ rates, 0 < r := by
    intro r hr
    obtain ⟨i, e, _⟩ := (hmem r).mp hr
    have : 0 ≤ step * (i : Int) := by positivity
    omega
  rw [h2, List.forall₂_map_left_iff] at hrep
  have hlines : lines.Pairwise fun a b => a.runOut ≤ b.runOut ∧ a.depth ≤ b.depth := by
    rw [List.pairwise_iff_getElem] at hord ⊢
    intro i j hi hj hij
    have hri : i < rates.length := by rw [hrep.length_eq]; exact hi
    have hrj : j < rates.length := by rw [hrep.length_eq]; exact hj
    have hoi : i < runs.length := by rw [← h3.length_eq]; exact hri
    have hoj : j < runs.length := by rw [← h3.length_eq]; exact hrj
    have si := (List.forall₂_iff_get.mp h3).2 i hri hoi
    have sj := (List.forall₂_iff_get.mp h3).2 j hrj hoj
    have fi := (List.forall₂_iff_get.mp h4).2 i hri hoi
    have fj := (List.forall₂_iff_get.mp h4).2 j hrj hoj
    obtain ⟨ti, pi, k1, k2, k3⟩ := (List.forall₂_iff_get.mp hrep).2 i hri hi
    obtain ⟨tj, pj, m1, m2, m3⟩ := (List.forall₂_iff_get.mp hrep).2 j hrj hj
    rw [hslope, Option.some.injEq] at k2 m2
    subst k2 m2
    have file : ∀ (r : Int) (o : TextRun ℝ) (tx : List Char), lookup disk1 (F.canon (resultFileName folder (lava.show (textEnv F disk)) (toString r))) = some tx →
        ((o.files = [] ∧ lookup disk1 (F.canon (resultFileName folder (lava.show (textEnv F disk)) (toString r))) =
          lookup disk (F.canon (resultFileName folder (lava.show (textEnv F disk)) (toString r)))) ∨
        ∃ out, o.files = [(F.canon (resultFileName folder (lava.show (textEnv F disk)) (toString r)), out)] ∧
          lookup disk1 (F.canon (resultFileName folder (lava.show (textEnv F disk)) (toString r))) = some out) →
        o.files = [] ∨ ∃ nm, o.files = [(nm, tx)] := by
      rintro r o tx hx (⟨e, _⟩ | ⟨out, e, e'⟩)
      · exact Or.inl e
      · rw [hx, Option.some.injEq] at e'
        rw [← e'] at e
        exact Or.inr ⟨_, e⟩
    exact rate_line_le fuel round F jsonFile folder disk template rd hrd hstr hcr (fun path hp => (hapart.inputs path (Or.inl hp)).1) rates c hc pr hprep hg hv k he hmass hflow hround
      profile hasc (List.getElem_mem hri) (List.getElem_mem hrj) (hpos _ (List.getElem_mem hri)) (hord i j hri hrj hij) si sj (file _ _ _ k1 fi) (file _ _ _ m1 fj) k3 m3
  refine ⟨by rw [List.length_map, hrep.length_eq], ?_, out, rows, lines, ?_, g2, g3, hrep.length_eq.symm, hlines⟩
  · rw [List.pairwise_map]
    exact hlines.imp fun h => hrd h.1
  · show lookup ((F.canon (runOutsPath folder (lava.show (textEnv F disk))), out) :: disk1) _ = _
    rw [lookup_cons_eq, if_pos rfl]

/-- **C123** on texts. A complete sweep (as in C92) with a positive step over positive rates, from a template with sensible parameters, whose runs all flowed. If the distances in the
    slope file given for the post-processing ascend, rounding to the metre is monotone, and reading back what was written is monotone, then the figure of the run-outs shows one
    point per rate and the distances in it never decrease; nor do the run-outs and the depths in the lines of the run-out table on the disk. -/
theorem C123_sweep_texts (fuel : Nat) (round : Nat → ℝ → ℝ) (F : TextFormat ℝ) (sn : ℝ → List Char) (jsonFile folder slopeFile : String)
    (first last step : Int) (disk : List (String × List Char)) (text : List Char) (template lava : Json ℝ)
    (rd : ℝ → ℝ) (hrd : Monotone rd) (hstr : ∀ c, F.float (F.str c) = some (rd c.value)) (hcr : ∀ c, '\r' ∉ F.str c)
    (hl : lookup disk (F.canon jsonFile) = some text) (ht : JsonText F.float (universal text) template)
    (hnums : NumsAll (Readable F.float sn) template) (hlava : TopEntry template "lava_name" lava)
    (hid : '\r' ∉ (lava.show (textEnv F disk)).toList)
    (hapart : Apart F template (lava.show (textEnv F disk)) jsonFile folder slopeFile)
    (hfirst : 0 < first) (hstep : 0 < step) (rates : List Int) (hrates : sweepRates first last step = .ok rates)
    (c : Choice) (hc : Selects template c) (pr : Prepared ℝ) (hprep : prepare (textEnv F disk) template [] = .ok pr)
    (hg : Sensible pr.integrator pr.world.terrain pr.world.st.pos) (hv : AtVent pr.integrator pr.world) (k : ℝ) (he : Everyday pr.integrator pr.world.st.pos k)
    (hmass : pr.integrator.massConservation = true → ∀ s : FlowState ℝ, pr.world.st.pos ≤ s.pos →
      pr.integrator.models.lava.density pr.world.st ≤ pr.integrator.models.lava.density s)
    (hflow : ∀ r ∈ rates, ∀ d q, WithRate template d r →
      run fuel (textEnv F disk) (workingFile jsonFile folder) folder ⟨[(F.canon (workingFile jsonFile folder), d)], [], []⟩ = some (.ok (), q) → Flowed pr k q.log)
    (hround : ∀ a b, a ≤ b → round 0 a ≤ round 0 b)
    (hasc : ∀ profile, lookup disk (F.canon slopeFile) = some profile →
      (dataLines profile).Pairwise fun a b => ∀ x y, FieldIs F.float a 3 x → FieldIs F.float b 3 y → x ≤ y)
    (figs : SweepFigures ℝ) (disk' : List (String × List Char))
    (h : sweepFullText depthGrid fuel round F sn jsonFile folder slopeFile first last step disk = some (.ok figs, disk')) :
    figs.runOuts.distance.length = rates.length ∧ figs.runOuts.distance.Pairwise (· ≤ ·) ∧
    ∃ table rows lines, lookup disk' (F.canon (runOutsPath folder (lava.show (textEnv F disk)))) = some table ∧ dictRead ',' table = .ok rows ∧
      List.Forall₂ (RunOutShown F.float rd (lava.show (textEnv F disk))) lines rows ∧ lines.length = rates.length ∧
      lines.Pairwise fun a b => a.runOut ≤ b.runOut ∧ a.depth ≤ b.depth := by
  obtain ⟨rs, _, e1, hdone, _, hfig, _, ⟨table, rows, t1, t2, t3⟩, _⟩ := C92_complete_sweep depthGrid fuel round F sn jsonFile folder slopeFile first last step disk text
    template lava rd hstr hcr hl ht hnums hlava hid hapart figs disk' h
  rw [hrates, Except.ok.injEq] at e1
  subst e1
  obtain ⟨hord, hmem⟩ := C56_rates first last step _ hstep hrates
  have hpos : ∀ r ∈ rs.map (·.rate), 0 < r := by
    intro r hr
    obtain ⟨i, e, _⟩ := (hmem r).mp hr
    have : 0 ≤ step * (i : Int) := by positivity
    omega
  have hlines : (rs.map (·.line)).Pairwise fun a b => a.runOut ≤ b.runOut ∧ a.depth ≤ b.depth := by
    rw [List.pairwise_map] at hord ⊢
    refine List.Pairwise.imp_of_mem ?_ hord
    intro a b ha hb hlt
    have da := hdone a ha
    have db := hdone b hb
    obtain ⟨profile, far, second, q0, S, l1, l2⟩ := da.line
    obtain ⟨profile', far', second', q0', S', l1', l2'⟩ := db.line
    rw [l1, Option.some.injEq] at l1'
    subst l1'
    have ma : a.rate ∈ rs.map (·.rate) := List.mem_map.mpr ⟨a, ha, rfl⟩
    have mb : b.rate ∈ rs.map (·.rate) := List.mem_map.mpr ⟨b, hb, rfl⟩
    exact rate_line_le fuel round F jsonFile folder disk template rd hrd hstr hcr (fun path hp => (hapart.inputs path (Or.inl hp)).1) _ c hc pr hprep hg hv k he hmass hflow hround
      profile (hasc profile l1) ma mb (hpos _ ma) hlt da.run db.run (da.text.elim (fun e => Or.inr ⟨_, e⟩) fun e => Or.inl e.1)
      (db.text.elim (fun e => Or.inr ⟨_, e⟩) fun e => Or.inl e.1) ⟨far, second, q0, S, l2⟩ ⟨far', second', q0', S', l2'⟩
  refine ⟨by rw [hfig]; simp, ?_, table, rows, _, t1, t2, t3, by simp, hlines⟩
  rw [hfig]
  rw [List.pairwise_map] at hlines
  show (rs.map fun x => rd x.line.runOut).Pairwise (· ≤ ·)
  rw [List.pairwise_map]
  exact hlines.imp fun h => hrd h.1

end PyFlowGo
