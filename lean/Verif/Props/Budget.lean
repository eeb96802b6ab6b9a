import Verif.Props.Heat
import Verif.Props.Velocity
import Verif.Props.Integrator
/-
  C45-C47: the heat budget, viscous heating, emissivities.
-/
namespace PyFlowGo
open Spec

/-! ### C45 -/

theorem fluxIs_strain {m : Models ℝ} (hl : StrainIndependent m.lava) (width depth : ℝ) (t : Terrain ℝ)
    (s : FlowState ℝ) (x : ℝ) (fl : Flux ℝ) (q : ℝ) :
    FluxIs m width depth t { s with strain := x } fl q ↔ FluxIs m width depth t s fl q := by
  have a := meanVelocity_strain m.lava hl t s x
  have b := crust_strain m.crust s x
  have c := molten_strain m.lava s x
  have d := hl s x
  have e : m.lava.vesicleFraction { s with strain := x } = m.lava.vesicleFraction s := by
    unfold Lava.vesicleFraction; exact ves_strain _ _ _
  cases fl <;> simp only [FluxIs, core_eq, a, b, c, d, e]

/-- The value of a flux is unique. -/
theorem fluxIs_unique {m : Models ℝ} (hl : StrainIndependent m.lava) {width depth : ℝ} {w : World ℝ}
    {fl : Flux ℝ} {q q' : ℝ} (h : FluxIs m width depth w.terrain w.st fl q)
    (h' : FluxIs m width depth w.terrain w.st fl q') : q = q' := by
  obtain ⟨w1, h1⟩ := (flux_value hl fl width depth q w).mpr h
  obtain ⟨w2, h2⟩ := (flux_value hl fl width depth q' w).mpr h'
  rw [h1] at h2
  injection h2 with h2 _
  injection h2

theorem logName_eq (f : Flux ℝ) : f.logName = fluxColumn f := by cases f <;> rfl

theorem mem_columns_zeroed (f g : Flux ℝ) (h : fluxColumn f ∈ g.columns) : fluxColumn f ∈ zeroedBy g := by
  cases f <;> cases g <;> revert h <;> simp [fluxColumn, Flux.columns, zeroedBy]

theorem own_column (f : Flux ℝ) : fluxColumn f ∉ f.columns := by
  cases f <;> simp [fluxColumn, Flux.columns]

theorem not_mem_fluxColumns {f : Flux ℝ} {rest : List (Flux ℝ)}
    (h : ∀ g ∈ rest, fluxColumn f ≠ fluxColumn g ∧ fluxColumn f ∉ zeroedBy g) :
    fluxColumn f ∉ fluxColumns rest := by
  induction rest with
  | nil => simp [fluxColumns]
  | cons g rest ih =>
    have hg := h g (by simp)
    have hc : fluxColumn f ∉ g.columns := fun hm => hg.2 (mem_columns_zeroed f g hm)
    simp only [fluxColumns, List.mem_append, List.mem_cons, not_or]
    exact ⟨hc, hc, by rw [logName_eq]; exact hg.1, ih fun g hg => h g (by simp [hg])⟩

/-- The last value written under a name. -/
def lastEntry (es : List (String × Cell ℝ)) (n : String) : Option (Cell ℝ) :=
  (es.reverse.find? (fun e => e.1 == n)).map Prod.snd

theorem lastEntry_append (a b : List (String × Cell ℝ)) (n : String) :
    lastEntry (a ++ b) n = (lastEntry b n).or (lastEntry a n) := by
  unfold lastEntry
  rw [List.reverse_append, List.find?_append]
  cases b.reverse.find? (fun e => e.1 == n) <;> simp

theorem lastEntry_none {es : List (String × Cell ℝ)} {n : String} (h : n ∉ es.map Prod.fst) :
    lastEntry es n = none := by
  unfold lastEntry
  have : es.reverse.find? (fun e => e.1 == n) = none := by
    rw [List.find?_eq_none]
    intro e he heq
    exact h (List.mem_map.mpr ⟨e, List.mem_reverse.mp he, by simpa using heq⟩)
  rw [this]; rfl

theorem budgetLoop_value {m : Models ℝ} (hl : StrainIndependent m.lava) (width depth : ℝ)
    (fs : List (Flux ℝ)) (acc Q : ℝ) (w w' : World ℝ)
    (h : heatBudgetLoop m width depth fs acc w = (.ok Q, w')) :
    ∃ qs : List ℝ, List.Forall₂ (FluxIs m width depth w.terrain w.st) fs qs ∧ Q = acc + qs.sum ∧
      ∃ x es, w' = w.touched x es ∧ es.map Prod.fst = fluxColumns fs ∧
        (ColumnsKept fs → List.Forall₂ (fun f q => lastEntry es (fluxColumn f) = some (.num q)) fs qs) := by
  induction fs generalizing acc w with
  | nil =>
    simp only [heatBudgetLoop, PyM.pure_apply, Prod.mk.injEq, Except.ok.injEq] at h
    obtain ⟨rfl, rfl⟩ := h
    exact ⟨[], .nil, by simp, w.st.strain, [], rfl, rfl, fun _ => .nil⟩
  | cons f rest ih =>
    simp only [heatBudgetLoop] at h
    obtain ⟨q, w1, h1, ha⟩ := PyM.bind_eq_ok.mp h
    obtain ⟨q2, w2, h2, hb⟩ := PyM.bind_eq_ok.mp ha
    obtain ⟨_, w3, h3, hc⟩ := PyM.bind_eq_ok.mp hb
    rw [logNum_touched] at h3
    obtain ⟨x1, es1, e1, _, n1⟩ := Emits.flux m width depth f _ _ _ h1
    obtain ⟨x2, es2, e2, _, n2⟩ := Emits.flux m width depth f _ _ _ h2
    have n1' := n1 ⟨_, rfl⟩
    have n2' := n2 ⟨_, rfl⟩
    have F1 : FluxIs m width depth w.terrain w.st f q := (flux_value hl f width depth q w).mp ⟨w1, h1⟩
    have F2 : FluxIs m width depth w.terrain w.st f q2 := by
      have := (flux_value hl f width depth q2 w1).mp ⟨w2, h2⟩
      rw [e1, touched_st_eq, touched_terrain_eq] at this
      exact (fluxIs_strain hl width depth _ _ _ f q2).mp this
    have hq : q2 = q := fluxIs_unique hl F2 F1
    subst hq
    rw [e2, e1, World.touched_touched, World.touched_touched] at h3
    obtain ⟨qs, hf, hQ, x, es, e, n, hlog⟩ := ih _ _ hc
    have hst : List.Forall₂ (FluxIs m width depth w.terrain w.st) rest qs := by
      refine hf.imp fun g r hg => ?_
      rw [h3] at hg
      exact (fluxIs_strain hl width depth _ _ _ g r).mp hg
    refine ⟨q2 :: qs, .cons F1 hst, by rw [hQ, List.sum_cons]; ring, x,
      (es1 ++ es2 ++ [(f.logName, .num q2)]) ++ es, ?_, ?_, fun hk => ?_⟩
    · rw [e, h3, World.touched_touched]; simp only [List.append_assoc]
    · simp only [List.map_append, n1', n2', n, fluxColumns, List.map_cons, List.map_nil, List.append_assoc,
        List.cons_append, List.nil_append]
    · obtain ⟨hk1, hk2⟩ := List.pairwise_cons.mp hk
      refine .cons ?_ ?_
      · rw [lastEntry_append, lastEntry_none (by rw [n]; exact not_mem_fluxColumns hk1), Option.none_or,
          lastEntry_append]
        simp [lastEntry, logName_eq]
      · refine (hlog hk2).imp fun g r hg => ?_
        rw [lastEntry_append, hg, Option.some_or]

theorem budgetLoop_forward {m : Models ℝ} (hl : StrainIndependent m.lava) (width depth : ℝ)
    (fs : List (Flux ℝ)) (qs : List ℝ) (acc : ℝ) (w : World ℝ)
    (h : List.Forall₂ (FluxIs m width depth w.terrain w.st) fs qs) :
    ∃ w', heatBudgetLoop m width depth fs acc w = (.ok (acc + qs.sum), w') := by
  induction fs generalizing acc w qs with
  | nil => cases h; exact ⟨w, by simp [heatBudgetLoop]⟩
  | cons f rest ih =>
    obtain _ | ⟨hf, hr⟩ := h
    rename_i q qs
    obtain ⟨w1, h1⟩ := (flux_value hl f width depth q w).mpr hf
    obtain ⟨x1, es1, e1, _, _⟩ := Emits.flux m width depth f _ _ _ h1
    have hf1 : FluxIs m width depth w1.terrain w1.st f q := by
      rw [e1]; exact (fluxIs_strain hl width depth _ _ _ f q).mpr hf
    obtain ⟨w2, h2⟩ := (flux_value hl f width depth q w1).mpr hf1
    obtain ⟨x2, es2, e2, _, _⟩ := Emits.flux m width depth f _ _ _ h2
    have h3 : logNum f.logName q w2 = (.ok (), w2.touched w2.st.strain [(f.logName, .num q)]) :=
      logNum_touched.mpr rfl
    have e4 : w2.touched w2.st.strain [(f.logName, .num q)] =
        w.touched w2.st.strain (es1 ++ es2 ++ [(f.logName, .num q)]) := by
      conv_lhs => rw [e2, e1, World.touched_touched, World.touched_touched]
      rw [e2, List.append_assoc]; rfl
    rw [e4] at h3
    obtain ⟨w', h4⟩ := ih qs (acc + q) (w.touched w2.st.strain (es1 ++ es2 ++ [(f.logName, .num q)]))
      (hr.imp fun g r hg => (fluxIs_strain hl width depth _ _ _ g r).mpr hg)
    refine ⟨w', ?_⟩
    simp only [heatBudgetLoop]
    rw [PyM.bind_of_ok h1, PyM.bind_of_ok h2, PyM.bind_of_ok h3, h4, List.sum_cons, add_assoc]

/-- **C45**. For every strain-independent lava, flux list and state: the heat budget exists exactly when
    every flux does, and is the sum of the fluxes. -/
theorem C45_budget_is_sum {m : Models ℝ} (hl : StrainIndependent m.lava) (width depth Q : ℝ) (w : World ℝ) :
    (∃ w', heatBudget m width depth w = (.ok Q, w')) ↔
      ∃ qs : List ℝ, List.Forall₂ (FluxIs m width depth w.terrain w.st) m.fluxes qs ∧ Q = qs.sum := by
  constructor
  · rintro ⟨w', h⟩
    obtain ⟨y, es0, _, _, h1⟩ := heatBudget_ok h
    obtain ⟨qs, hf, hQ, _⟩ := budgetLoop_value hl width depth _ _ _ _ _ h1
    exact ⟨qs, hf, by rw [hQ]; norm_num⟩
  · rintro ⟨qs, hf, rfl⟩
    obtain ⟨w1, h1⟩ := budgetLoop_forward hl width depth _ _ 0.0 w hf
    unfold heatBudget
    rw [PyM.bind_of_ok h1, show (0.0 : ℝ) + qs.sum = qs.sum by norm_num]
    exact ⟨_, rfl⟩

/-- **C45**. The log agrees: the `heat_budget` column of the row at the current position holds the total
    and, when no flux of the list overwrites the column of an earlier one, each flux column holds its
    flux, so that the logged flux columns add up to the logged total. -/
theorem C45_log_agrees {m : Models ℝ} (hl : StrainIndependent m.lava) (hk : ColumnsKept m.fluxes)
    (width depth Q : ℝ) (w w' : World ℝ) (h : heatBudget m width depth w = (.ok Q, w')) :
    ∃ qs : List ℝ, List.Forall₂ (FluxIs m width depth w.terrain w.st) m.fluxes qs ∧ Q = qs.sum ∧
      loggedNum w'.log w.st.pos "heat_budget" = some Q ∧
      List.Forall₂ (fun f q => loggedNum w'.log w.st.pos (fluxColumn f) = some q) m.fluxes qs := by
  unfold heatBudget at h
  obtain ⟨Q', w1, h1, h2⟩ := PyM.bind_eq_ok.mp h
  obtain ⟨qs, hf, hQ, x, es, rfl, n, hlog⟩ := budgetLoop_value hl width depth _ _ _ _ _ h1
  rw [log_step, PyM.pure_apply, Prod.mk.injEq, Except.ok.injEq] at h2
  obtain ⟨rfl, rfl⟩ := h2
  have ne1 : ∀ e ∈ es, e.1 ≠ "position" := fun e he =>
    flux_names_ne m.fluxes e.1 (n ▸ List.mem_map.mpr ⟨e, he, rfl⟩)
  have ne2 : ∀ e ∈ [("heat_budget", (.num Q' : Cell ℝ))], e.1 ≠ "position" := by
    intro e he; simp only [List.mem_singleton] at he; rw [he]; show "heat_budget" ≠ "position"; decide
  refine ⟨qs, hf, by rw [hQ]; norm_num, ?_, ?_⟩
  · apply loggedNum_of_cell
    exact cellAt_addAll_append _ _ ne1 ne2 _ (by decide) _ _ (by simp)
  · refine (hlog hk).imp fun f q hfq => ?_
    apply loggedNum_of_cell
    have hb : fluxColumn f ≠ "heat_budget" := by cases f <;> simp [fluxColumn]
    have hp : fluxColumn f ≠ "position" := by cases f <;> simp [fluxColumn]
    show cellAt (w.log.addAll _ (es ++ _)) _ _ = _
    rw [cellAt_addAll_last_of_not_mem _ _ ne1 ne2 _ hp _ (by
      intro e he; simp only [List.mem_singleton] at he; rw [he]; exact fun h => hb h.symm)]
    have := cellAt_addAll_append [] es (by simp) ne1 w.log hp (.num w.st.pos) _ hfq
    simpa using this

/-- The flux lists the configuration can select keep their columns: at most one radiation class, then
    conduction, convection, rain, viscous heating; Snyder only without radiation and convection. -/
theorem C45_standard_lists_keep_columns (r : Flux ℝ) (hr : fluxColumn r = "flowgofluxradiationheat")
    (b p a c d : ℝ) :
    ColumnsKept [r, .conduction b p, .convection, .rain a c d, .viscous] ∧
    ColumnsKept ([.conduction b p, .rain a c d, .viscous, .snyder] : List (Flux ℝ)) := by
  constructor
  · unfold ColumnsKept
    simp only [List.pairwise_cons, List.mem_cons, List.not_mem_nil, or_false, forall_eq_or_imp, forall_eq, hr]
    simp [fluxColumn, zeroedBy]
  · unfold ColumnsKept; simp [fluxColumn, zeroedBy]

/-- A sub-list of a list that keeps its columns keeps its columns. -/
theorem C45_sublists_keep_columns (fs gs : List (Flux ℝ)) (h : fs.Sublist gs) (hg : ColumnsKept gs) :
    ColumnsKept fs := List.Pairwise.sublist h hg

theorem heatBudgetLoop_append (m : Models ℝ) (width depth : ℝ) (a b : List (Flux ℝ)) (acc : ℝ) (w : World ℝ) :
    heatBudgetLoop m width depth (a ++ b) acc w =
      (heatBudgetLoop m width depth a acc >>= fun acc' => heatBudgetLoop m width depth b acc') w := by
  induction a generalizing acc w with
  | nil => rfl
  | cons f rest ih =>
    simp only [List.cons_append, heatBudgetLoop, PyM.bind_apply]
    cases f.compute m width depth w with
    | mk r w1 =>
      cases r with
      | error e => rfl
      | ok q =>
        dsimp only
        cases f.compute m width depth w1 with
        | mk r w2 =>
          cases r with
          | error e => rfl
          | ok q2 =>
            dsimp only
            cases logNum f.logName q2 w2 with
            | mk r w3 =>
              cases r with
              | error e => rfl
              | ok u => dsimp only; rw [ih, PyM.bind_apply]

theorem snyder_writes {m : Models ℝ} {width depth q : ℝ} {w w' : World ℝ}
    (h : (Flux.snyder : Flux ℝ).compute m width depth w = (.ok q, w')) :
    ∃ x t, w' = w.touched x [("effective_temperature_snyder", .num t),
      ("characteristic_surface_temperature", .num 0.0), ("effective_radiation_temperature", .num 0.0),
      ("flowgofluxforcedconvectionheat", .num 0.0), ("flowgofluxradiationheat", .num 0.0)] := by
  simp only [Flux.compute] at h
  obtain ⟨tc, w1, h1, ha⟩ := PyM.bind_eq_ok.mp h
  obtain ⟨k1, rfl⟩ := crustTemperature_iff.mp h1
  obtain ⟨f, w2, h2, hb⟩ := PyM.bind_eq_ok.mp ha
  obtain ⟨v, x, hv, rfl, rfl⟩ := effectiveCover_iff.mp h2
  obtain ⟨tm, w3, h3, hc⟩ := PyM.bind_eq_ok.mp hb
  obtain ⟨rfl, rfl⟩ := moltenTemperature_iff.mp h3
  rw [log_step] at hc
  obtain ⟨t, w4, h4, hd⟩ := PyM.bind_eq_ok.mp hc
  obtain ⟨k4, rfl⟩ := PyM.lift_eq_ok.mp h4
  rw [log_step, log_step, log_step, log_step, PyM.pure_apply, Prod.mk.injEq] at hd
  exact ⟨x, _, hd.2.symm⟩

/-- **C45**, outside the configurations the factory allows: a Snyder flux after a radiation or convection
    flux overwrites their columns with 0 (for any lava), although they stay in the total. -/
theorem C45_snyder_overwrites {m : Models ℝ} (fs : List (Flux ℝ))
    (hf : m.fluxes = fs ++ [.snyder]) (width depth Q : ℝ) (w w' : World ℝ)
    (h : heatBudget m width depth w = (.ok Q, w')) :
    loggedNum w'.log w.st.pos "flowgofluxradiationheat" = some 0 ∧
    loggedNum w'.log w.st.pos "flowgofluxforcedconvectionheat" = some 0 ∧
    (StrainIndependent m.lava → ∃ qs q, List.Forall₂ (FluxIs m width depth w.terrain w.st) fs qs ∧
      FluxIs m width depth w.terrain w.st .snyder q ∧ Q = qs.sum + q) := by
  have hsum : StrainIndependent m.lava → ∃ qs q, List.Forall₂ (FluxIs m width depth w.terrain w.st) fs qs ∧
      FluxIs m width depth w.terrain w.st .snyder q ∧ Q = qs.sum + q := by
    intro hl
    obtain ⟨qs, h1, h2⟩ := (C45_budget_is_sum hl width depth Q w).mp ⟨w', h⟩
    rw [hf] at h1
    obtain ⟨l1, l2, e⟩ : ∃ l1 q, qs = l1 ++ [q] := by
      have hl := h1.length_eq
      rw [List.length_append, List.length_singleton] at hl
      have hne : qs ≠ [] := by rintro rfl; simp at hl
      exact ⟨qs.dropLast, qs.getLast hne, (List.dropLast_append_getLast hne).symm⟩
    subst e
    have hlen : fs.length = l1.length := by
      have := h1.length_eq; simpa using this
    refine ⟨l1, l2, ?_, ?_, by rw [h2]; simp⟩
    · have := List.forall₂_take fs.length h1
      simpa [List.take_left, hlen] using this
    · have := List.forall₂_drop fs.length h1
      rw [List.drop_left, hlen, List.drop_left] at this
      cases this; assumption
  have hlog : ∃ x es t q, w' = w.touched x (es ++ [("effective_temperature_snyder", .num t),
      ("characteristic_surface_temperature", .num 0.0), ("effective_radiation_temperature", .num 0.0),
      ("flowgofluxforcedconvectionheat", .num 0.0), ("flowgofluxradiationheat", .num 0.0),
      ("flowgofluxsnyderheat", .num q), ("heat_budget", .num Q)]) ∧ ∀ e ∈ es, e.1 ≠ "position" := by
    unfold heatBudget at h
    obtain ⟨Q', w1, h1, h2⟩ := PyM.bind_eq_ok.mp h
    rw [hf, heatBudgetLoop_append] at h1
    obtain ⟨acc, w2, h3, h4⟩ := PyM.bind_eq_ok.mp h1
    obtain ⟨x0, es0, e0, _, n0⟩ := Emits.heatBudgetLoop m width depth _ _ _ _ _ h3
    have n0' := n0 ⟨_, rfl⟩
    simp only [heatBudgetLoop] at h4
    obtain ⟨q, w3, h5, h6⟩ := PyM.bind_eq_ok.mp h4
    obtain ⟨q2, w4, h7, h8⟩ := PyM.bind_eq_ok.mp h6
    obtain ⟨_, w5, h9, h10⟩ := PyM.bind_eq_ok.mp h8
    rw [PyM.pure_apply, Prod.mk.injEq] at h10
    obtain ⟨x1, t1, e1⟩ := snyder_writes h5
    obtain ⟨x2, t2, e2⟩ := snyder_writes h7
    rw [logNum_touched] at h9
    rw [← h10.2, h9, e2, e1, e0, World.touched_touched, World.touched_touched, World.touched_touched,
      log_step, PyM.pure_apply, Prod.mk.injEq, Except.ok.injEq] at h2
    refine ⟨x2, es0 ++ [("effective_temperature_snyder", .num t1),
      ("characteristic_surface_temperature", .num 0.0), ("effective_radiation_temperature", .num 0.0),
      ("flowgofluxforcedconvectionheat", .num 0.0), ("flowgofluxradiationheat", .num 0.0)], t2, q2,
      ?_, ?_⟩
    · rw [← h2.2, ← h2.1]
      simp only [List.append_assoc, List.cons_append, List.nil_append]
      rfl
    · intro e he
      rcases List.mem_append.mp he with h | h
      · exact flux_names_ne fs e.1 (n0' ▸ List.mem_map.mpr ⟨e, h, rfl⟩)
      · simp only [List.mem_cons, List.not_mem_nil, or_false] at h
        rcases h with rfl | rfl | rfl | rfl | rfl <;> simp
  obtain ⟨x, es, t, q, rfl, hne⟩ := hlog
  have hz : (0.0 : ℝ) = 0 := by norm_num
  refine ⟨loggedNum_of_cell ?_, loggedNum_of_cell ?_, hsum⟩ <;>
  · rw [← hz]
    exact cellAt_addAll_append _ _ hne (by
      intro e h
      simp only [List.mem_cons, List.not_mem_nil, or_false] at h
      rcases h with rfl | rfl | rfl | rfl | rfl | rfl | rfl <;> simp) _ (by decide) _ _ (by simp)

/-- **C45**, strain-dependent rheology: there is a lava (mader relative viscosity) and a one-flux budget
    whose logged flux is less than 90 % of the logged total: the second evaluation, made for the log, uses
    the strain rate stored by the first. -/
theorem C45_strain_dependent_log_differs :
    ∃ (m : Models ℝ) (w w' : World ℝ) (Q q : ℝ), m.fluxes = [.viscous] ∧
      heatBudget m 1 1 w = (.ok Q, w') ∧ loggedNum w'.log w.st.pos "heat_budget" = some Q ∧
      loggedNum w'.log w.st.pos "flowgofluxviscousheating" = some q ∧ 0 < q ∧ q < 0.9 * Q := by
  obtain ⟨v1, c, mu, hv, hc0, hc1, hmu, a, b, m1, m2⟩ := mader_witness
  let l := exLava (10 ^ 4) (.mader 1) .ryerson
  let m : Models ℝ := { exModels with lava := l, fluxes := [.viscous] }
  let w : World ℝ := newWorld (exTerrain (10 ^ 4)) (exState 0.495 1) []
  have c1 : (Flux.viscous : Flux ℝ).compute m 1 1 w =
      (.ok (mu * (v1 / 1) ^ 2 * 1), { w with st := exState 0.495 (3 * v1 / 1) }) := by
    simp only [Flux.compute]
    rw [PyM.bind_of_ok (PyM.get_apply w), lift_bind (x := m.lava.bulkViscosity w.st) (b := mu) m1, PyM.bind_of_ok (meanVelocityM_forward (l := m.lava) (w := w) a),
      lift_bind (div_of_ne one_ne_zero), PyM.pure_apply, npow_real]
    rfl
  have c2 : (Flux.viscous : Flux ℝ).compute m 1 1 { w with st := exState 0.495 (3 * v1 / 1) } =
      (.ok (mu / c * ((c * v1) / 1) ^ 2 * 1), { w with st := exState 0.495 (3 * (c * v1) / 1) }) := by
    simp only [Flux.compute]
    rw [PyM.bind_of_ok (PyM.get_apply _), lift_bind (x := m.lava.bulkViscosity (exState 0.495 (3 * v1 / 1))) (b := mu / c) m2, PyM.bind_of_ok (meanVelocityM_forward (l := m.lava) (w := { w with st := exState 0.495 (3 * v1 / 1) }) b),
      lift_bind (div_of_ne one_ne_zero), PyM.pure_apply, npow_real]
    rfl
  have key : heatBudget m 1 1 w = (.ok (0.0 + mu * (v1 / 1) ^ 2 * 1),
      w.touched (3 * (c * v1) / 1) [("flowgofluxviscousheating", .num (mu / c * ((c * v1) / 1) ^ 2 * 1)),
        ("heat_budget", .num (0.0 + mu * (v1 / 1) ^ 2 * 1))]) := by
    unfold heatBudget
    have : m.fluxes = [.viscous] := rfl
    rw [this]
    rw [PyM.bind_of_ok (s1 := w.touched (3 * (c * v1) / 1)
      [("flowgofluxviscousheating", .num (mu / c * ((c * v1) / 1) ^ 2 * 1))])
      (b := 0.0 + mu * (v1 / 1) ^ 2 * 1)]
    · rfl
    · simp only [heatBudgetLoop]
      rw [PyM.bind_of_ok c1, PyM.bind_of_ok c2]
      rfl
  have ne : ∀ e ∈ [("flowgofluxviscousheating", (.num (mu / c * ((c * v1) / 1) ^ 2 * 1) : Cell ℝ)),
        ("heat_budget", .num (0.0 + mu * (v1 / 1) ^ 2 * 1))], e.1 ≠ "position" := by
    intro e h
    simp only [List.mem_cons, List.not_mem_nil, or_false] at h
    rcases h with rfl | rfl <;> simp
  refine ⟨m, w, _, _, mu / c * ((c * v1) / 1) ^ 2 * 1, rfl, key, loggedNum_of_cell ?_, loggedNum_of_cell ?_, ?_, ?_⟩
  · have := cellAt_addAll_append [] _ (by simp) ne w.log (m := "heat_budget") (by decide) (.num w.st.pos)
      (.num (0.0 + mu * (v1 / 1) ^ 2 * 1)) (by simp)
    exact this
  · have := cellAt_addAll_append [] _ (by simp) ne w.log (m := "flowgofluxviscousheating") (by decide)
      (.num w.st.pos) (.num (mu / c * ((c * v1) / 1) ^ 2 * 1)) (by simp)
    exact this
  · positivity
  · have e1 : mu / c * ((c * v1) / 1) ^ 2 * 1 = c * (mu * v1 ^ 2) := by field_simp
    have e2 : 0.0 + mu * (v1 / 1) ^ 2 * 1 = mu * v1 ^ 2 := by norm_num
    rw [e1, e2]
    have : 0 < mu * v1 ^ 2 := by positivity
    nlinarith

/-! ### C46 -/

/-- **C46**. Adding viscous heating to the flux list, at any place, adds `μ·(v/depth)²·width` to the heat
    *loss*; the loss strictly grows whenever the lava moves (positive viscosity and width). -/
theorem C46_viscous_heating_is_a_loss {m m' : Models ℝ} (hl : StrainIndependent m.lava)
    (f1 f2 : List (Flux ℝ)) (hm : m.fluxes = f1 ++ f2) (hm' : m' = { m with fluxes := f1 ++ .viscous :: f2 })
    (width depth Q Q' : ℝ) (w w1 w2 : World ℝ) (h : heatBudget m width depth w = (.ok Q, w1))
    (h' : heatBudget m' width depth w = (.ok Q', w2)) :
    ∃ mu v x, m.lava.bulkViscosity w.st = .ok mu ∧ m.lava.meanVelocity w.terrain w.st = .ok (v, x) ∧
      Q' = Q + mu * (v / depth) ^ 2 * width ∧
      (0 < mu → 0 < width → v ≠ 0 → Q < Q') := by
  obtain ⟨qs, hq, rfl⟩ := (C45_budget_is_sum hl width depth Q w).mp ⟨w1, h⟩
  have hl' : StrainIndependent m'.lava := by rw [hm']; exact hl
  obtain ⟨qs', hq', rfl⟩ := (C45_budget_is_sum hl' width depth Q' w).mp ⟨w2, h'⟩
  have hF : FluxIs m' width depth w.terrain w.st = FluxIs m width depth w.terrain w.st := by
    funext f q; rw [hm']; cases f <;> rfl
  rw [hF, hm'] at hq'
  rw [hm] at hq
  dsimp only at hq'
  -- split both lists
  have split : ∀ {R : Flux ℝ → ℝ → Prop} (a b : List (Flux ℝ)) (l : List ℝ), List.Forall₂ R (a ++ b) l →
      ∃ la lb, l = la ++ lb ∧ List.Forall₂ R a la ∧ List.Forall₂ R b lb := by
    intro R a b l hR
    refine ⟨l.take a.length, l.drop a.length, (List.take_append_drop _ _).symm, ?_, ?_⟩
    · have := List.forall₂_take a.length hR; rwa [List.take_left] at this
    · have := List.forall₂_drop a.length hR; rwa [List.drop_left] at this
  have uniq : ∀ (a : List (Flux ℝ)) (l l' : List ℝ),
      List.Forall₂ (FluxIs m width depth w.terrain w.st) a l →
      List.Forall₂ (FluxIs m width depth w.terrain w.st) a l' → l = l' := by
    intro a
    induction a with
    | nil => intro l l' h h'; cases h; cases h'; rfl
    | cons f a ih =>
      intro l l' h h'
      cases h; cases h'
      rename_i b1 l1 h1 h2 b2 l2 h3 h4
      rw [fluxIs_unique hl h1 h3, ih _ _ h2 h4]
  obtain ⟨la, lb, rfl, ha, hb⟩ := split f1 f2 qs hq
  obtain ⟨la', lb', rfl, ha', hb'⟩ := split f1 (.viscous :: f2) qs' hq'
  cases hb'
  rename_i q l hv hr
  obtain ⟨mu, v, x, e1, e2, hd, rfl⟩ := hv
  rw [uniq f1 la' la ha' ha, uniq f2 l lb hr hb]
  have e : (la ++ (mu * (v / depth) ^ 2 * width) :: lb).sum = (la ++ lb).sum + mu * (v / depth) ^ 2 * width := by
    simp only [List.sum_append, List.sum_cons]; ring
  refine ⟨mu, v, x, e1, e2, e, fun h1 h2 h3 => ?_⟩
  rw [e]
  have : 0 < mu * (v / depth) ^ 2 * width := by
    have : v / depth ≠ 0 := div_ne_zero h3 hd
    positivity
  linarith

/-- **C46**, effect on a run: of two runs that differ only by the activation of viscous heating, after the
    same world the one *with* viscous heating ends the step colder and more crystalline. -/
theorem C46_step_with_viscous_heating_is_colder {g g' : Integrator ℝ} (hl : StrainIndependent g.models.lava)
    (f1 f2 : List (Flux ℝ)) (hm : g.models.fluxes = f1 ++ f2)
    (hg : g' = { g with models := { g.models with fluxes := f1 ++ .viscous :: f2 } })
    (w w1 w2 : World ℝ) (h1 : AcceptedStep g w w1) (h2 : AcceptedStep g' w w2)
    (mu rate W : ℝ) (hmu : g.models.lava.bulkViscosity w.st = .ok mu) (hmu0 : 0 < mu)
    (hr : g.models.cryst.rate w.st = .ok rate) (hr0 : 0 < rate)
    (hW : loggedNum w1.log w.st.pos "channel_width" = some W) (hW0 : 0 < W)
    (he : 0 < w1.effusionRate) (hρ : 0 < g.models.lava.density w.st) (hL : 0 < g.models.lava.latentHeat)
    (hdx : 0 < g.dx) :
    w2.st.temp < w1.st.temp ∧ w1.st.crystal < w2.st.crystal := by
  obtain ⟨A⟩ := acceptedFacts h1
  obtain ⟨B⟩ := acceptedFacts h2
  have ml : g'.models.lava = g.models.lava := by rw [hg]
  have mc : g'.models.cryst = g.models.cryst := by rw [hg]
  have md : g'.dx = g.dx := by rw [hg]
  have mm : g'.massConservation = g.massConservation := by rw [hg]
  have hv := B.hv
  rw [ml, A.hv] at hv
  injection hv with hv
  obtain ⟨ev, ex⟩ := Prod.mk.injEq _ _ _ _ |>.mp hv
  have hw := B.facts.width
  rw [ml, mm, ← ev, A.facts.width] at hw
  injection hw with hw
  have hAr := A.facts.rate
  have hBr := B.facts.rate
  rw [mc] at hBr
  rw [hr] at hAr hBr
  injection hAr with hAr
  injection hBr with hBr
  have hA := A.facts.heat
  have hB := B.facts.heat
  rw [← hw, ← ex, ← ev] at hB
  have hWd : A.d.width = W := by
    have : loggedNum w1.log w.st.pos "channel_width" = some A.d.width :=
      loggedNum_of_cell (A.logged (by decide) (by rfl))
    rw [this] at hW; injection hW
  have hm' : g'.models = { g.models with fluxes := f1 ++ .viscous :: f2 } := by rw [hg]
  obtain ⟨mu', v', x', e1, e2, e3, e4⟩ := C46_viscous_heating_is_a_loss hl f1 f2 hm hm' _ _ _ _ _ _ _ hA hB
  dsimp only at e1 e2
  rw [hl, hmu] at e1
  injection e1 with e1
  rw [meanVelocity_strain _ hl, A.hv] at e2
  injection e2 with e2
  obtain ⟨e2, _⟩ := Prod.mk.injEq _ _ _ _ |>.mp e2
  have hQ : A.d.heat < B.d.heat := e4 (by rw [← e1]; exact hmu0) (by rw [hWd]; exact hW0)
    (by rw [← e2]; exact A.vpos.ne')
  have heff : w1.effusionRate = w.stepEffusion A.v := A.eff_eq
  rw [heff] at he
  obtain ⟨a1, a2⟩ := div_ok_iff.mp A.facts.dtemp
  obtain ⟨b1, b2⟩ := div_ok_iff.mp B.facts.dtemp
  rw [ml, ← hBr, ← ev] at b2
  rw [← hAr] at a2
  have hD : 0 < w.stepEffusion A.v * g.models.lava.density w.st * g.models.lava.latentHeat * rate := by positivity
  have hlt : B.d.dtempDx < A.d.dtempDx := by
    rw [a2, b2]
    exact div_lt_div_of_pos_right (by linarith) hD
  have t1 := A.temp_eq
  have t2 := B.temp_eq
  have c1 := A.crystal_eq
  have c2 := B.crystal_eq
  rw [t1, t2, c1, c2, A.facts.newTemp, B.facts.newTemp, A.facts.newPhi, B.facts.newPhi, md, A.facts.dphi,
    B.facts.dphi, ← hAr, ← hBr]
  constructor
  · nlinarith
  · have : 0 < (A.d.dtempDx - B.d.dtempDx) * rate * g.dx :=
      mul_pos (mul_pos (by linarith) hr0) hdx
    nlinarith

/-- The example flow with rain: adding viscous heating adds 1·(1/1)²·2 to the loss. -/
example : ∃ w1 w2, heatBudget exModels 2 1 exWorld = (.ok (1 / 100 * 1 * 1 * 2), w1) ∧
    heatBudget { exModels with fluxes := [.rain (1 / 100) 1 1] ++ .viscous :: [] } 2 1 exWorld =
      (.ok (1 / 100 * 1 * 1 * 2 + 1 * (1 / 1) ^ 2 * 2), w2) := by
  have hb : (exLava 1 .er .ryerson).bulkViscosity (exState 0 0) = .ok 1 := by
    have := exLava_bulk 1 0 0 1 .er .ryerson (er_zero 0)
    rwa [one_mul] at this
  obtain ⟨w1, h1⟩ := (C45_budget_is_sum exModels_strain 2 1 (1 / 100 * 1 * 1 * 2) exWorld).mpr
    ⟨[1 / 100 * 1 * 1 * 2], .cons rfl .nil, by simp⟩
  obtain ⟨w2, h2⟩ := (C45_budget_is_sum
    (m := { exModels with fluxes := [.rain (1 / 100) 1 1] ++ .viscous :: [] }) exModels_strain 2 1
    (1 / 100 * 1 * 1 * 2 + 1 * (1 / 1) ^ 2 * 2) exWorld).mpr
    ⟨[1 / 100 * 1 * 1 * 2, 1 * (1 / 1) ^ 2 * 2], .cons rfl (.cons ⟨1, 1, 3, hb, exVelocity 0, one_ne_zero, rfl⟩ .nil), by simp⟩
  exact ⟨w1, w2, h1, h2⟩

/-! ### C47 -/

/-- **C47**. The two-component effective emissivity lies between the two emissivities when the cover is a
    fraction. -/
theorem C47_mix_between (f a b : ℝ) (h0 : 0 ≤ f) (h1 : f ≤ 1) : min a b ≤ mix f a b ∧ mix f a b ≤ max a b := by
  unfold mix
  have l1 := min_le_left a b
  have l2 := min_le_right a b
  have u1 := le_max_left a b
  have u2 := le_max_right a b
  constructor
  · nlinarith [mul_nonneg h0 (sub_nonneg.mpr l1), mul_nonneg (sub_nonneg.mpr h1) (sub_nonneg.mpr l2)]
  · nlinarith [mul_nonneg h0 (sub_nonneg.mpr u1), mul_nonneg (sub_nonneg.mpr h1) (sub_nonneg.mpr u2)]

/-- **C47**. The continuous law is in (0,1) from 0 K to 1500 K. -/
theorem C47_quadratic_in_range (T : ℝ) (h0 : 0 ≤ T) (h1 : T ≤ 1500) :
    0 < quadraticEmissivity T ∧ quadraticEmissivity T < 1 := by
  unfold quadraticEmissivity
  constructor
  · nlinarith [mul_nonneg h0 (sub_nonneg.mpr h1)]
  · nlinarith [sq_nonneg (T - 1057)]

/-- **C47**. The linear law is an emissivity (in (0,1]) exactly for temperatures from about 312.5 K up to
    about 7062 K: below 312.5 K it exceeds 1. -/
theorem C47_linear_range (T : ℝ) :
    (linearEmissivity T ≤ 1 ↔ 0.0463014 / 0.000148144 ≤ T) ∧
    (0 < linearEmissivity T ↔ T < 1.0463014 / 0.000148144) ∧
    (T ≤ 312 → 1 < linearEmissivity T) ∧ (313 ≤ T → T ≤ 1500 → 0 < linearEmissivity T ∧ linearEmissivity T < 1) := by
  unfold linearEmissivity
  refine ⟨?_, ?_, fun h => by linarith, fun h h' => ⟨by linarith, by linarith⟩⟩
  · rw [div_le_iff₀ (by norm_num)]
    constructor <;> intro h <;> linarith
  · rw [lt_div_iff₀ (by norm_num)]
    constructor <;> intro h <;> linarith

/-- **C47** through the API: the emissivity that the two-component and continuous classes log
    (`epsilon_effective`) is between the endmembers / in (0,1). -/
theorem C47_logged_emissivity {m : Models ℝ} (hl : StrainIndependent m.lava) (fl : Flux ℝ) (width depth q : ℝ)
    (w w' : World ℝ) (h : fl.compute m width depth w = (.ok q, w')) (v x Tc : ℝ)
    (hv : m.lava.meanVelocity w.terrain w.st = .ok (v, x)) (hc : m.crust.temperature w.st = .ok Tc)
    (h0 : 0 ≤ coverLaw m.cover w.st.pos v) (h1 : coverLaw m.cover w.st.pos v ≤ 1) :
    (∀ σ e1 e2, fl = .radTwoEmi σ e1 e2 → ∃ e, min e1 e2 ≤ e ∧ e ≤ max e1 e2 ∧
      q = σ * e * radiantExchange (coverLaw m.cover w.st.pos v) Tc (coreTemperature m.lava w.st) m.air.temp * width) ∧
    (∀ σ, fl = .radCont σ → 0 ≤ Tc → Tc ≤ 1500 → 0 ≤ coreTemperature m.lava w.st →
      coreTemperature m.lava w.st ≤ 1500 → ∃ e, 0 < e ∧ e < 1 ∧
      q = σ * e * radiantExchange (coverLaw m.cover w.st.pos v) Tc (coreTemperature m.lava w.st) m.air.temp * width) := by
  constructor
  · rintro σ e1 e2 rfl
    obtain ⟨v', x', tc', σ', e', a, b, _, _, _, he, hq⟩ := (flux_value hl _ width depth q w).mp ⟨w', h⟩
    rw [hv, Except.ok.injEq, Prod.mk.injEq] at a
    rw [hc, Except.ok.injEq] at b
    obtain ⟨rfl, rfl⟩ := a
    subst b
    simp only [emissivityOf, Option.some.injEq, Prod.mk.injEq] at he
    obtain ⟨rfl, rfl⟩ := he
    have := C47_mix_between _ e1 e2 h0 h1
    exact ⟨_, this.1, this.2, hq⟩
  · rintro σ rfl t0 t1 t2 t3
    obtain ⟨v', x', tc', σ', e', a, b, _, _, _, he, hq⟩ := (flux_value hl _ width depth q w).mp ⟨w', h⟩
    rw [hv, Except.ok.injEq, Prod.mk.injEq] at a
    rw [hc, Except.ok.injEq] at b
    obtain ⟨rfl, rfl⟩ := a
    subst b
    simp only [emissivityOf, Option.some.injEq, Prod.mk.injEq] at he
    obtain ⟨rfl, rfl⟩ := he
    have hA := C47_quadratic_in_range _ t0 t1
    have hB := C47_quadratic_in_range _ t2 t3
    have := C47_mix_between (coverLaw m.cover w.st.pos v) (quadraticEmissivity Tc)
      (quadraticEmissivity (coreTemperature m.lava w.st)) h0 h1
    exact ⟨_, lt_of_lt_of_le (lt_min hA.1 hB.1) this.1, lt_of_le_of_lt this.2 (max_lt hA.2 hB.2), hq⟩

end PyFlowGo
