import Verif.Proofs.FluxColumns
import Verif.Props.Euler
/-
  C71: the columns of a row that the heat fluxes write, all of them.
-/
set_option linter.unusedSectionVars false
namespace PyFlowGo
open Spec

theorem aux_names (f Tc Tm Ta width : ℝ) (fl : Flux ℝ) : ∀ e ∈ auxColumns f Tc Tm Ta width fl, e.1 ≠ "position" := by
  cases fl <;> simp [auxColumns]

theorem writes_names (f Tc Tm Ta width : ℝ) (fs : List (Flux ℝ)) (qs : List ℝ) :
    ∀ e ∈ fluxWrites f Tc Tm Ta width fs qs, e.1 ≠ "position" := by
  intro e he
  obtain ⟨p, _, hp⟩ := List.mem_flatMap.mp he
  rcases List.mem_append.mp hp with h | h
  · exact aux_names _ _ _ _ _ _ e h
  · rw [List.mem_singleton.mp h]; cases p.1 <;> simp [fluxColumn]

theorem lastWritten_append (a b : List (String × ℝ)) (n : String) :
    lastWritten (a ++ b) n = (lastWritten b n).or (lastWritten a n) := by
  unfold lastWritten
  rw [List.reverse_append, List.find?_append]
  cases b.reverse.find? (fun e => e.1 == n) <;> simp

theorem lastWritten_mem {l : List (String × ℝ)} {n : String} {x : ℝ} (h : lastWritten l n = some x) : (n, x) ∈ l := by
  unfold lastWritten at h
  obtain ⟨e, he, rfl⟩ := Option.map_eq_some_iff.mp h
  have h1 := List.find?_some he
  have h2 := List.mem_of_find?_eq_some he
  rw [beq_iff_eq] at h1
  rw [← h1]; exact List.mem_reverse.mp h2

theorem lastEntry_of_mem {es : List (String × Cell ℝ)} {e : String × Cell ℝ} (h : e ∈ es) : lastEntry es e.1 ≠ none := by
  unfold lastEntry
  rw [ne_eq, Option.map_eq_none_iff, List.find?_eq_none]
  intro hall
  exact hall e (List.mem_reverse.mpr h) (by simp)

theorem loop_entries {m : Models ℝ} (hl : StrainIndependent m.lava) (width depth v x0 Tc : ℝ)
    (fs : List (Flux ℝ)) (acc Q : ℝ) (w w' : World ℝ)
    (hv : m.lava.meanVelocity w.terrain w.st = .ok (v, x0)) (hc : m.crust.temperature w.st = .ok Tc)
    (h : heatBudgetLoop m width depth fs acc w = (.ok Q, w')) :
    ∃ qs : List ℝ, List.Forall₂ (FluxIs m width depth w.terrain w.st) fs qs ∧ Q = acc + qs.sum ∧
      ∃ x es, w' = w.touched x es ∧ ∀ n, lastEntry es n = (lastWritten (fluxWrites (coverLaw m.cover w.st.pos v) Tc
        (coreTemperature m.lava w.st) m.air.temp width fs qs) n).map .num := by
  induction fs generalizing acc w with
  | nil =>
    simp only [heatBudgetLoop, PyM.pure_apply, Prod.mk.injEq, Except.ok.injEq] at h
    obtain ⟨rfl, rfl⟩ := h
    exact ⟨[], .nil, by simp, w.st.strain, [], rfl, fun _ => rfl⟩
  | cons f rest ih =>
    simp only [heatBudgetLoop] at h
    obtain ⟨q, w1, h1, ha⟩ := PyM.bind_eq_ok.mp h
    obtain ⟨q2, w2, h2, hb⟩ := PyM.bind_eq_ok.mp ha
    obtain ⟨_, w3, h3, hd⟩ := PyM.bind_eq_ok.mp hb
    rw [logNum_touched] at h3
    obtain ⟨x1, es1, e1, n1⟩ := flux_entries hl f width depth q w w1 v x0 Tc hv hc h1
    have hv1 : m.lava.meanVelocity w1.terrain w1.st = .ok (v, x0) := by
      rw [e1, touched_st_eq, touched_terrain_eq, meanVelocity_strain _ hl, hv]
    have hc1 : m.crust.temperature w1.st = .ok Tc := by rw [e1, touched_st_eq, crust_strain, hc]
    obtain ⟨x2, es2, e2, n2⟩ := flux_entries hl f width depth q2 w1 w2 v x0 Tc hv1 hc1 h2
    have F1 : FluxIs m width depth w.terrain w.st f q := (flux_value hl f width depth q w).mp ⟨w1, h1⟩
    have F2 : FluxIs m width depth w.terrain w.st f q2 := by
      have := (flux_value hl f width depth q2 w1).mp ⟨w2, h2⟩
      rw [e1, touched_st_eq, touched_terrain_eq] at this
      exact (fluxIs_strain hl width depth _ _ _ f q2).mp this
    have hq : q2 = q := fluxIs_unique hl F2 F1
    subst hq
    have hst1 : w1.st.pos = w.st.pos ∧ coreTemperature m.lava w1.st = coreTemperature m.lava w.st := by
      rw [e1]; exact ⟨rfl, rfl⟩
    rw [hst1.1, hst1.2] at n2
    rw [e2, e1, World.touched_touched, World.touched_touched] at h3
    have hv3 : m.lava.meanVelocity w3.terrain w3.st = .ok (v, x0) := by
      rw [h3]; exact (meanVelocity_strain m.lava hl w.terrain w.st _).trans hv
    have hc3 : m.crust.temperature w3.st = .ok Tc := by
      rw [h3]; exact (crust_strain m.crust w.st _).trans hc
    obtain ⟨qs, hf, hQ, x, es, e, n⟩ := ih _ _ hv3 hc3 hd
    have hst : List.Forall₂ (FluxIs m width depth w.terrain w.st) rest qs := by
      refine hf.imp fun g r hg => ?_
      rw [h3] at hg
      exact (fluxIs_strain hl width depth _ _ _ g r).mp hg
    have hst3 : w3.st.pos = w.st.pos ∧ coreTemperature m.lava w3.st = coreTemperature m.lava w.st := by
      rw [h3]; exact ⟨rfl, rfl⟩
    rw [hst3.1, hst3.2] at n
    refine ⟨q2 :: qs, .cons F1 hst, by rw [hQ, List.sum_cons]; ring, x,
      (es1 ++ es2 ++ [(f.logName, .num q2)]) ++ es, ?_, fun nm => ?_⟩
    · rw [e, h3, World.touched_touched]; simp only [List.append_assoc]
    · unfold fluxWrites
      rw [List.zip_cons_cons, List.flatMap_cons, lastWritten_append, lastEntry_append, n, lastEntry_append,
        lastEntry_append, n1, n2, lastWritten_append, logName_eq]
      unfold fluxWrites
      cases lastWritten _ nm with
      | some y => rfl
      | none =>
        rw [show ([(fluxColumn f, Cell.num q2)] : List (String × Cell ℝ)) = cells [(fluxColumn f, q2)] from rfl,
          lastEntry_cells]
        cases lastWritten [(fluxColumn f, q2)] nm with
        | some y => rfl
        | none =>
          cases lastWritten (auxColumns _ _ _ _ _ _) nm <;> rfl

/-- **C71**, one evaluation of the budget (strain-independent lava): in the row of the current position every column
    but `position` and `heat_budget` shows what the flux list wrote last under its name, and what it showed before if
    no flux writes it. -/
theorem C71_budget_columns {m : Models ℝ} (hl : StrainIndependent m.lava) (width depth Q v x0 Tc : ℝ) (w w' : World ℝ)
    (hv : m.lava.meanVelocity w.terrain w.st = .ok (v, x0)) (hc : m.crust.temperature w.st = .ok Tc)
    (h : heatBudget m width depth w = (.ok Q, w')) :
    ∃ qs : List ℝ, List.Forall₂ (FluxIs m width depth w.terrain w.st) m.fluxes qs ∧ Q = qs.sum ∧
      loggedNum w'.log w.st.pos "heat_budget" = some Q ∧
      ∀ n, n ≠ "position" → n ≠ "heat_budget" → cellAt w'.log (.num w.st.pos) n =
        ((lastWritten (fluxWrites (coverLaw m.cover w.st.pos v) Tc (coreTemperature m.lava w.st) m.air.temp width
          m.fluxes qs) n).map Cell.num).or (cellAt w.log (.num w.st.pos) n) := by
  unfold heatBudget at h
  obtain ⟨Q', w1, h1, h2⟩ := PyM.bind_eq_ok.mp h
  obtain ⟨qs, hf, hQ, x, es, rfl, n⟩ := loop_entries hl width depth v x0 Tc _ _ _ _ _ hv hc h1
  rw [log_step, PyM.pure_apply, Prod.mk.injEq, Except.ok.injEq] at h2
  obtain ⟨rfl, rfl⟩ := h2
  have ne1 : ∀ e ∈ es, e.1 ≠ "position" := by
    intro e he hp
    have := lastEntry_of_mem he
    rw [n, ne_eq, Option.map_eq_none_iff] at this
    obtain ⟨y, hy⟩ := Option.ne_none_iff_exists'.mp this
    exact writes_names _ _ _ _ _ _ _ _ (lastWritten_mem hy) hp
  have ne2 : ∀ e ∈ [("heat_budget", (.num Q' : Cell ℝ))], e.1 ≠ "position" := by
    intro e he; simp only [List.mem_singleton] at he; rw [he]; show "heat_budget" ≠ "position"; decide
  refine ⟨qs, hf, by rw [hQ]; norm_num, ?_, fun nm hp hb => ?_⟩
  · apply loggedNum_of_cell
    exact cellAt_addAll_append _ _ ne1 ne2 _ (by decide) _ _ (by simp)
  · show cellAt (w.log.addAll _ (es ++ _)) _ _ = _
    rw [cellAt_addAll_last_of_not_mem _ _ ne1 ne2 _ hp _ (by
      intro e he; simp only [List.mem_singleton] at he; rw [he]; exact fun h => hb h.symm),
      cellAt_addAll _ ne1 _ hp, if_pos rfl, ← n]
    rfl

/-- The columns written by the integrator itself. -/
theorem accepted_columns {g : Integrator ℝ} {w w' : World ℝ} (h : AcceptedStep g w w') (hl : StrainIndependent g.models.lava)
    (d : RowData) (hd : RowMade g w.terrain w.fluxRate w'.effusionRate w.st d) :
    ∃ qs : List ℝ, List.Forall₂ (FluxIs g.models d.width w.terrain.depth w.terrain w.st) g.models.fluxes qs ∧
      ∀ n, n ≠ "position" → n ≠ "heat_budget" → n ∉ stepColumns → cellAt w'.log (.num w.st.pos) n =
        ((lastWritten (fluxWrites (coverLaw g.models.cover w.st.pos d.v) d.crustT (coreTemperature g.models.lava w.st)
          g.models.air.temp d.width g.models.fluxes qs) n).map Cell.num).or (cellAt w.log (.num w.st.pos) n) := by
  obtain ⟨A⟩ := acceptedFacts h
  obtain ⟨x, hv⟩ := hd.velocity
  have hvv : A.v = d.v := by
    have := A.hv
    rw [hv, Except.ok.injEq, Prod.mk.injEq] at this
    exact this.1.symm
  have hwid : A.d.width = d.width := by
    have hwid := A.facts.width
    by_cases hm : g.massConservation = true
    · obtain ⟨flux, hfl, he⟩ := hd.mass hm
      rw [he]
      simp only [channelWidth, hm, if_true, hfl] at hwid
      obtain ⟨a, ha, hb⟩ := bind_ok_iff.mp hwid
      rw [(div_ok_iff.mp hb).2, (div_ok_iff.mp ha).2, ← hvv]
    · simp only [Bool.not_eq_true] at hm
      rw [hd.volume hm]
      simp only [channelWidth, hm, Bool.false_eq_true, if_false] at hwid
      rw [(div_ok_iff.mp hwid).2, ← hvv, A.eff_eq]
  have hheat := A.facts.heat
  rw [hwid] at hheat
  obtain ⟨qs, hf, _, _, hcol⟩ := C71_budget_columns hl _ _ _ d.v x d.crustT _ _
    (by exact (meanVelocity_strain g.models.lava hl w.terrain w.st _).trans hv)
    (by exact (crust_strain g.models.crust w.st _).trans hd.crust) hheat
  refine ⟨qs, hf.imp fun fl q hq => (fluxIs_strain hl _ _ _ _ _ _ _).mp hq, fun n hp hb hn => ?_⟩
  have hl1 : A.w1.log = w.log.addAll (.num w.st.pos) A.es := by rw [A.facts.touched]; rfl
  have e1 : cellAt w'.log (.num w.st.pos) n = cellAt A.w1.log (.num w.st.pos) n := by
    rw [A.log_eq, hl1]
    refine cellAt_addAll_last_of_not_mem _ _ A.facts.names_ne (stepEntries_ne _ _ _ _ _ _ _ _ _) _ hp _ fun e he hc => hn ?_
    rw [← stepEntries_names g A.d A.w1.st (w.stepEffusion A.v) A.visc A.tc A.f A.tho0 A.thob]
    exact List.mem_map.mpr ⟨e, he, hc⟩
  rw [e1]
  exact hcol n hp hb

/-- **C71**. Together with C70 this fixes every cell of the result of a run of a strain-independent lava (fresh log,
    positive step): in row `i` a column that is not one of the 21 written by the integrator shows what the configured
    flux list wrote last under that name for the state `s i` -- surface temperatures, emissivity, spectral radiance,
    the fluxes, the zeros of the classes that exclude each other -- and is empty if no flux writes it. -/
theorem C71_flux_columns (g : Integrator ℝ) (hdx : 0 < g.dx) (hl : StrainIndependent g.models.lava) (n : Nat)
    (w w' : World ℝ) (hw : w.log = []) (h : runLoop g n w = some (.ok (), w')) :
    ∃ (k : Nat) (s : Nat → FlowState ℝ) (d : Nat → RowData) (E : ℝ), (w'.log.length = k ∨ w'.log.length = k + 1) ∧
      s 0 = w.st ∧ ∀ i, i < k → RowMade g w.terrain w.fluxRate E (s i) (d i) ∧ RowShown g w.terrain E w'.log (s i) (d i) ∧
        EulerStep g w.terrain E (s i) (s (i + 1)) (d i) ∧
        ∃ qs : List ℝ, List.Forall₂ (FluxIs g.models (d i).width w.terrain.depth w.terrain (s i)) g.models.fluxes qs ∧
          (d i).heat = qs.sum ∧
          ∀ name, name ∉ integratorColumns → cellAt w'.log (.num (s i).pos) name =
            (lastWritten (fluxWrites (coverLaw g.models.cover (s i).pos (d i).v) (d i).crustT
              (coreTemperature g.models.lava (s i)) g.models.air.temp (d i).width g.models.fluxes qs) name).map Cell.num := by
  obtain ⟨k, ws, s, d, E, h0, hacc, rfl, hter, hflux, heff, hfinal, hlen, hs0, _, _, hrow⟩ := table_worlds g hdx n w w' hw h
  refine ⟨k, fun i => (ws i).st, d, E, hlen, hs0, fun i hi => ?_⟩
  obtain ⟨r1, r2, r3, r4⟩ := hrow i hi
  obtain ⟨_, _, qs', hq', hsum, _⟩ := r4 hl
  obtain ⟨qs, hq, hcol⟩ := accepted_columns (hacc i hi) hl (d i)
    (by rw [hter i hi.le, hflux i hi.le, heff i hi]; exact r1)
  rw [hter i hi.le] at hq
  have hqq : qs' = qs := by
    clear hcol hsum r4
    simp only at hq'
    clear * - hl hq hq'
    revert hq hq'
    generalize g.models.fluxes = fs
    intro h1 h2
    induction h1 generalizing qs with
    | nil => cases h2; rfl
    | cons a b ih =>
      obtain _ | ⟨c, e⟩ := h2
      have := fluxIs_unique hl (w := { ws i with terrain := w.terrain }) a c
      rw [this, ih _ e]
  subst hqq
  refine ⟨r1, r2, r3, qs', hq', hsum, fun name hn => ?_⟩
  have hn' : name ≠ "position" ∧ name ≠ "heat_budget" ∧ name ∉ stepColumns := by
    simpa [integratorColumns, stepColumns] using hn
  dsimp only
  rw [hfinal i hi, hcol name hn'.1 hn'.2.1 hn'.2.2]
  obtain ⟨row, hr1, hr2⟩ := acceptedRun_rows g hdx k ws hacc (by rw [h0, hw])
  have hfresh : cellAt (ws i).log (.num (ws i).st.pos) name = none := by
    unfold cellAt
    have : ((ws i).log.find? fun r => r.atPosition (.num (ws i).st.pos)) = none := by
      rw [List.find?_eq_none]
      intro r hr
      rw [hr2 i hi.le] at hr
      obtain ⟨j, hj, rfl⟩ := List.mem_map.mp hr
      have hji := List.mem_range.mp hj
      rw [atPosition_num _ _ _ (hr1 j (by omega)).1]
      have hpos := (C06_position_time g i ws (fun j hj => hacc j (by omega))).1
      rw [hpos]
      intro hc
      have hlt : (j : ℝ) < i := by exact_mod_cast hji
      nlinarith
    rw [this]; rfl
  rw [hfresh, Option.or_none]

theorem lastWritten_none {l : List (String × ℝ)} {n : String} (h : ∀ e ∈ l, e.1 ≠ n) : lastWritten l n = none := by
  cases hl : lastWritten l n with
  | none => rfl
  | some x => exact absurd rfl (h _ (lastWritten_mem hl))

theorem lastWritten_of_mem {l : List (String × ℝ)} (hn : (l.map Prod.fst).Nodup) {n : String} {x : ℝ} (h : (n, x) ∈ l) :
    lastWritten l n = some x := by
  induction l with
  | nil => cases h
  | cons e l ih =>
    rw [List.map_cons, List.nodup_cons] at hn
    rw [← List.singleton_append, lastWritten_append]
    rcases List.mem_cons.mp h with rfl | h
    · rw [lastWritten_none fun e he hc => hn.1 (List.mem_map.mpr ⟨e, he, hc⟩)]
      simp [lastWritten]
    · rw [ih hn.2 h]; rfl

theorem aux_nodup (f Tc Tm Ta width : ℝ) (fl : Flux ℝ) (q : ℝ) :
    ((auxColumns f Tc Tm Ta width fl ++ [(fluxColumn fl, q)]).map Prod.fst).Nodup := by
  cases fl <;> simp [auxColumns, fluxColumn]

/-- **C71**, flux by flux: the auxiliary column of a flux that no later flux of the list writes. -/
theorem C71_column_of_a_flux (f Tc Tm Ta width : ℝ) (pre post : List (Flux ℝ)) (fl : Flux ℝ) (qs : List ℝ)
    (hlen : qs.length = (pre ++ fl :: post).length) (name : String) (x : ℝ) (hx : (name, x) ∈ auxColumns f Tc Tm Ta width fl)
    (hpost : ∀ g ∈ post, fluxColumn g ≠ name ∧ ∀ e ∈ auxColumns f Tc Tm Ta width g, e.1 ≠ name) :
    lastWritten (fluxWrites f Tc Tm Ta width (pre ++ fl :: post) qs) name = some x := by
  induction pre generalizing qs with
  | nil =>
    cases qs with
    | nil => simp at hlen
    | cons q qs =>
      unfold fluxWrites
      rw [List.nil_append, List.zip_cons_cons, List.flatMap_cons, lastWritten_append, lastWritten_none, Option.none_or]
      · exact lastWritten_of_mem (aux_nodup _ _ _ _ _ _ _) (List.mem_append_left _ hx)
      · intro e he
        obtain ⟨p, hp, he⟩ := List.mem_flatMap.mp he
        have := hpost p.1 (List.of_mem_zip (a := p.1) (b := p.2) hp).1
        rcases List.mem_append.mp he with h | h
        · exact this.2 e h
        · rw [List.mem_singleton.mp h]; exact this.1
  | cons a pre ih =>
    cases qs with
    | nil => simp at hlen
    | cons q qs =>
      have := ih qs (by simpa using hlen)
      unfold fluxWrites at this ⊢
      rw [List.cons_append, List.zip_cons_cons, List.flatMap_cons, lastWritten_append, this]
      rfl

/-- A channel that only radiates (and convects, in still air). -/
theorem gentle_glow {len : ℝ} {T : Terrain ℝ} (hT : LongChannel len T) (eps : ℝ) (heps : 0 < eps) :
    Gentle [.radBasic (eps / (500 ^ 4 - exModels.air.temp ^ 4)) 1, .convection] T eps := by
  have hair : exModels.air.temp = 300 := rfl
  intro width w0 h0 h1 hc0 hc1 ht hw
  set fs : List (Flux ℝ) := [.radBasic (eps / (500 ^ 4 - exModels.air.temp ^ 4)) 1, .convection] with hfs
  have hsi : StrainIndependent (flowModels fs).lava := fun _ _ => rfl
  obtain ⟨v, hv, _, _⟩ := long_velocity hT w0.st hc0 hc1 ht
  have hm : coreTemperature (flowModels fs).lava w0.st = w0.st.temp := by
    show w0.st.temp - 0 = _; ring
  have hcov : coverLaw (flowModels fs).cover w0.st.pos v = 1 := by
    show coverLaw (CoverModel.basic 0 1) w0.st.pos v = 1
    simp [coverLaw]
  have hta : (flowModels fs).air.temp = 300 := rfl
  have key : List.Forall₂ (FluxIs (flowModels fs) width 1 w0.terrain w0.st) fs [eps * width, 0] := by
    refine List.Forall₂.cons ⟨v, _, 500, _, _, by rw [hw]; exact hv, rfl, by norm_num, ?_, ?_, rfl, ?_⟩
      (List.Forall₂.cons ⟨v, _, 500, by rw [hw]; exact hv, rfl, by norm_num, ?_, ?_, ?_⟩ List.Forall₂.nil)
    · rw [hm]; linarith [ht.1]
    · rw [hcov, hta]; unfold radiantExchange; norm_num
    · rw [hcov, hta, hair]; unfold radiantExchange; norm_num
    · rw [hm]; linarith [ht.1]
    · rw [hcov]
      simp only [mix]
      norm_num
      positivity
    · have : (flowModels fs).air.convCoef = 0 := by
        simp [flowModels, exModels, Air.convCoef]
      rw [this]; ring
  obtain ⟨w2, hw2⟩ := (C45_budget_is_sum hsi width 1 (eps * width) w0).mpr ⟨[eps * width, 0], key, by simp⟩
  exact ⟨_, w2, hw2, by positivity, by nlinarith⟩

/-- Runs of any length of a flow that radiates. -/
theorem glow_run (n : Nat) (hn : 1 ≤ n) : ∃ (σ : ℝ) (w w' : World ℝ), w.log = [] ∧
    runLoop (flowG [.radBasic σ 1, .convection]) n w = some (.ok (), w') ∧ n ≤ w'.log.length := by
  have hn' : (0:ℝ) < n := by positivity
  set eps : ℝ := 1 / (300 * n) with he
  have heps : 0 < eps := by positivity
  obtain ⟨ws, w', g1, g2, g3, _, g5, _⟩ := flow_run (longTerrain_channel n)
    [.radBasic (eps / (500 ^ 4 - exModels.air.temp ^ 4)) 1, .convection] eps 0 _ slow_basic
    (gentle_glow (longTerrain_channel n) eps heps) heps n hn (by rw [he]; field_simp; norm_num) (by linarith) (by linarith)
    (longWorld 0 n) (longInv_zero eps 0 n)
  obtain ⟨row, _, r2⟩ := acceptedRun_rows _ (by show (0:ℝ) < 1; norm_num) n ws g2 (by rw [g1]; rfl)
  refine ⟨_, _, w', rfl, g5, ?_⟩
  rw [g3, r2 n le_rfl]; simp

/-- **C71**: the hypotheses are met by runs of any length of a flow that radiates. -/
example (n : Nat) (hn : 1 ≤ n) : ∃ (g : Integrator ℝ) (w w' : World ℝ), 0 < g.dx ∧ w.log = [] ∧
    StrainIndependent g.models.lava ∧ (∃ σ, g.models.fluxes = [] ++ .radBasic σ 1 :: [.convection]) ∧
    runLoop g n w = some (.ok (), w') ∧ n ≤ w'.log.length := by
  obtain ⟨σ, w, w', h1, h2, h3⟩ := glow_run n hn
  exact ⟨_, w, w', by show (0:ℝ) < 1; norm_num, h1, fun _ _ => rfl, ⟨σ, rfl⟩, h2, h3⟩

end PyFlowGo
