import Verif.Props.ResumeConfig
import Verif.Props.SupplyExample
/-
  C127 on a configuration file: a flow of ten rows, taken up again at its fourth.
-/
set_option linter.unusedSectionVars false
namespace PyFlowGo
open Spec

/-! Example configurations with other numbers. -/

theorem exSection_entry {α : Type} (num num' : String → String → α) (s k : String) (h : (s, k) ∈ allReq → num s k = num' s k) :
    lookup (exSection num s) k = lookup (exSection num' s) k := by
  unfold exSection
  revert h
  generalize allReq = l
  induction l with
  | nil => intro _; rfl
  | cons r l ih =>
    intro h
    have ih := ih fun hm => h (List.mem_cons_of_mem _ hm)
    by_cases hr : (r.1 == s) = true
    · rw [List.filter_cons_of_pos (p := fun r : Req => r.1 == s) hr, List.map_cons, List.map_cons, lookup_cons_eq, lookup_cons_eq, ih]
      have e1 : r.1 = s := by simpa using hr
      dsimp only
      split
      · rename_i e2
        rw [e1, e2, h (by rw [← e1, ← e2]; exact List.mem_cons_self)]
      · rfl
    · rw [List.filter_cons_of_neg (p := fun r : Req => r.1 == s) hr]
      exact ih

theorem number_entry {α : Type} (rate : Json α) (num num' : String → String → α) (c : Choice) (s k : String)
    (h : (s, k) ∈ allReq → num s k = num' s k) (v : Json α) : EntryAt (exConfigR rate num c) s k v → EntryAt (exConfigR rate num' c) s k v := by
  have key := exSection_entry num num' s k h
  have keep : ∀ (a b : Json α) (rest rest' : List (String × Json α)) (n : String),
      (n = s → ∀ i, a = .obj i → ∃ i', b = .obj i' ∧ (lookup i k = some v → lookup i' k = some v)) →
      ((∃ i, lookup rest s = some (.obj i) ∧ lookup i k = some v) → ∃ i, lookup rest' s = some (.obj i) ∧ lookup i k = some v) →
      (∃ i, lookup ((n, a) :: rest) s = some (.obj i) ∧ lookup i k = some v) → ∃ i, lookup ((n, b) :: rest') s = some (.obj i) ∧ lookup i k = some v := by
    intro a b rest rest' n h1 h2 h3
    rw [lookup_cons_eq] at h3
    rw [lookup_cons_eq]
    dsimp only at h3 ⊢
    by_cases e : n = s
    · rw [if_pos e] at h3 ⊢
      obtain ⟨i, e1, e2⟩ := h3
      obtain ⟨i', e3, e4⟩ := h1 e i (Option.some.inj e1)
      exact ⟨i', by rw [e3], e4 e2⟩
    · rw [if_neg e] at h3 ⊢
      exact h2 h3
  have same : ∀ (a : Json α) (i : List (String × Json α)), a = .obj i → ∃ i', a = .obj i' ∧ (lookup i k = some v → lookup i' k = some v) :=
    fun a i e => ⟨i, e, id⟩
  have sec : ∀ (n : String), n = s → ∀ i, (Json.obj (exSection num n)) = .obj i →
      ∃ i', Json.obj (exSection num' n) = .obj i' ∧ (lookup i k = some v → lookup i' k = some v) := by
    rintro n rfl i e
    cases e
    exact ⟨_, rfl, fun h => by rw [← key]; exact h⟩
  rintro ⟨top, inner, e, h1, h2⟩
  cases e
  suffices hs : ∃ top, exConfigR rate num' c = Json.obj top ∧ ∃ i, lookup top s = some (Json.obj i) ∧ lookup i k = some v by
    obtain ⟨top, e, i, a, b⟩ := hs
    exact ⟨top, i, e, a, b⟩
  refine ⟨_, rfl, ?_⟩
  refine keep _ _ _ _ _ (fun _ => same _) ?_ ⟨inner, h1, h2⟩
  refine keep _ _ _ _ _ (fun _ => same _) ?_
  refine keep _ _ _ _ _ (fun _ i e => by cases e) ?_
  refine keep _ _ _ _ _ (fun _ => same _) ?_
  refine keep _ _ _ _ _ (fun _ => same _) ?_
  refine keep _ _ _ _ _ (fun _ => same _) ?_
  refine keep _ _ _ _ _ (fun _ => same _) ?_
  refine keep _ _ _ _ _ (sec _) ?_
  refine keep _ _ _ _ _ (sec _) ?_
  refine keep _ _ _ _ _ (sec _) ?_
  refine keep _ _ _ _ _ (sec _) ?_
  refine keep _ _ _ _ _ (sec _) ?_
  refine keep _ _ _ _ _ (fun e i ei => ?_) ?_
  · cases ei
    refine ⟨_, rfl, fun h => ?_⟩
    rw [lookup_cons_eq] at h ⊢
    rw [e, ← key]
    rw [e] at h
    exact h
  refine keep _ _ _ _ _ (sec _) ?_
  refine keep _ _ _ _ _ (sec _) ?_
  refine keep _ _ _ _ _ (sec _) ?_
  refine keep _ _ _ _ _ (sec _) ?_
  refine keep _ _ _ _ _ (fun e i ei => ?_) (fun h => h)
  cases ei
  refine ⟨_, rfl, fun h => ?_⟩
  rw [List.append_nil] at h ⊢
  rw [lookup_cons_eq] at h ⊢
  rw [e, ← key]
  rw [e] at h
  exact h

theorem number_top {α : Type} (rate : Json α) (num num' : String → String → α) (c : Choice) (k : String) (h : num "" "step_size" = num' "" "step_size")
    (hk : k ∈ "melts_look-up_table" :: usedTop) (v : Json α) : TopEntry (exConfigR rate num c) k v → TopEntry (exConfigR rate num' c) k v := by
  rintro ⟨top, e, h1⟩
  cases e
  refine ⟨_, rfl, ?_⟩
  rw [← h1]
  simp only [usedTop, List.mem_cons, List.not_mem_nil, or_false] at hk
  rcases hk with rfl | rfl | rfl | rfl | rfl | rfl <;> simp [lookup_cons_eq, h]

/-- Numbers of a flow of thin lava under rain, which leaves the vent at `x` with the temperature `T` and the crystals `φ` in a channel of the given width
    and depth. -/
noncomputable def resumeNum (x T φ W D grown : ℝ) (_ : String) (key : String) : ℝ :=
  match key with
  | "gravity" => 3
  | "max_channel_length" => 10
  | "position" => x
  | "eruption_temperature" => T
  | "crystal_fraction" => φ
  | "width" => W
  | "depth" => D
  | "crystals_grown_during_cooling" => grown
  | "buffer" => 0
  | "vesicle_fraction" => 0
  | "solid_temperature" => 0
  | "rainfall_rate" => 1 / 3000
  | "alpha" => 0
  | "crust_temperature" => 500
  | "air_temperature" => 300
  | "wind_speed" => 0
  | "einstein_coef" => 0
  | "a_vft" => 0
  | "b_vft" => 0
  | _ => 1

/-- Its models: Vogel-Fulcher-Tammann, Krieger-Dougherty, Ryerson, rain. -/
def resumeChoice : Choice := { exChoice with melt := "vft", rel := "kd" }

noncomputable def resumeConfig (x T φ W D grown : ℝ) : Json ℝ := exConfigR (.int 0) (resumeNum x T φ W D grown) resumeChoice

theorem resume_number (x T φ W D grown : ℝ) (e : Req) (he : e ∈ allReq) :
    NumberAt exEnv (resumeConfig x T φ W D grown) e.1 e.2 (resumeNum x T φ W D grown e.1 e.2) := exConfig_number exEnv _ _ e he

noncomputable abbrev resumeG : Integrator ℝ := flowG [.rain (1 / 3000) 1 1] (.basic 0 1 0 1000) (.vft 0 0 1)

theorem resume_models : factory exEnv (resumeConfig 0 1000 0 1 1 1) = .ok resumeG.models := by
  have N := resume_number 0 1000 0 1 1 1
  refine (C55_models_come_from_the_configuration _ _ _).mpr ⟨resumeChoice, exConfig_selects _ _, ?_, ?_, ?_, ?_, ?_, ?_⟩
  · exact ⟨_, _, _, _, N ("lava_state", "crystal_fraction") (by decide),
      N ("crystals_parameters", "crystals_grown_during_cooling") (by decide),
      N ("crystals_parameters", "solid_temperature") (by decide),
      N ("eruption_condition", "eruption_temperature") (by decide), rfl⟩
  · exact ⟨N ("convection_parameters", "air_temperature") (by decide), N ("convection_parameters", "wind_speed") (by decide),
      N ("convection_parameters", "ch_air") (by decide), N ("convection_parameters", "air_density") (by decide),
      N ("convection_parameters", "air_specific_heat_capacity") (by decide)⟩
  · exact ⟨⟨_, _, _, N ("melt_viscosity_parameters", "a_vft") (by decide), N ("melt_viscosity_parameters", "b_vft") (by decide),
        N ("melt_viscosity_parameters", "c_vft") (by decide), rfl⟩,
      ⟨_, N ("lava_state", "vesicle_fraction") (by decide), rfl⟩,
      ⟨_, _, N ("relative_viscosity_parameters", "max_packing") (by decide),
        N ("relative_viscosity_parameters", "einstein_coef") (by decide), rfl⟩, rfl,
      ⟨_, N ("eruption_condition", "eruption_temperature") (by decide), rfl⟩,
      N ("eruption_condition", "eruption_temperature") (by decide), N ("thermal_parameters", "buffer") (by decide),
      N ("crystals_parameters", "latent_heat_of_crystallization") (by decide), N ("lava_state", "density_dre") (by decide),
      _, N ("relative_viscosity_parameters", "max_packing") (by decide)⟩
  · exact ⟨_, _, N ("thermal_parameters", "alpha") (by decide), N ("thermal_parameters", "crust_cover_fraction") (by decide), rfl⟩
  · exact ⟨_, N ("thermal_parameters", "crust_temperature") (by decide), rfl⟩
  · exact ⟨[], [], [], [.rain (1 / 3000) 1 1], [], [], rfl, rfl, Or.inr ⟨rfl, rfl⟩, Or.inr ⟨rfl, rfl⟩,
      Or.inl ⟨rfl, _, ⟨_, _, _, N ("rain_parameters", "rainfall_rate") (by decide),
        N ("rain_parameters", "density_water") (by decide), N ("rain_parameters", "latent_heat_vaporization") (by decide), rfl⟩, rfl⟩,
      Or.inr ⟨rfl, rfl⟩, Or.inr ⟨rfl, rfl⟩, fun h => absurd (show ("no" : String) = "yes" from h) (by decide)⟩

noncomputable def resumePrepared : Prepared ℝ :=
  { cfg := { rate := .int 0, lavaName := .str "example", slopeFile := .str "slope.txt", stepSize := 1, massConservation := false }
    integrator := resumeG
    world := newWorld (exTerrainOf 0 10) { crystal := 0, temp := 1000, pos := 0, time := 1, strain := 3 * 0 } [] }

theorem resume_prepare : prepare exEnv (resumeConfig 0 1000 0 1 1 1) [] = .ok resumePrepared := by
  have N := resume_number 0 1000 0 1 1 1
  rw [C55_run_starts_from_the_configuration]
  refine ⟨⟨⟨_, rfl, rfl⟩, ⟨_, rfl, rfl⟩, ⟨_, rfl, rfl⟩, ⟨_, ⟨_, rfl, rfl⟩, rfl⟩, _, ⟨_, rfl, rfl⟩, rfl⟩,
    ⟨{ exTerrainOf 0 10 with spline := none }, "slope.txt", [⟨0, 0, 0, 0, 90⟩, ⟨0, 0, 0, 2000, 90⟩],
      ⟨⟨_, ⟨_, rfl, rfl⟩, ?_⟩, N ("terrain_conditions", "depth") (by decide), N ("terrain_conditions", "width") (by decide),
        N ("terrain_conditions", "gravity") (by decide), N ("terrain_conditions", "max_channel_length") (by decide),
        ⟨_, ⟨_, _, rfl, rfl, rfl⟩, ?_⟩, fun h => ?_, fun _ => rfl, rfl⟩, rfl, Or.inl rfl, rfl, ?_⟩,
    resume_models, rfl, rfl, N ("lava_state", "position") (by decide),
    N ("lava_state", "time") (by decide), N ("lava_state", "crystal_fraction") (by decide),
    N ("eruption_condition", "eruption_temperature") (by decide), one_ne_zero, one_ne_zero, ?_, rfl, ?_, rfl, rfl, rfl⟩
  · show Except.ok (((0 : Int) : ℝ)) = Except.ok 0
    rw [Int.cast_zero]
  · simp [exTerrainOf]
  · simp [exTerrainOf] at h
  · have hk : keepSlopeLines [(⟨0, 0, 0, 0, 90⟩ : SlopeLine ℝ), ⟨0, 0, 0, 2000, 90⟩] =
        [⟨0, 0, 0, 0, 90⟩, ⟨0, 0, 0, 2000, 90⟩] := by
      unfold keepSlopeLines
      have : leB (90 : ℝ) 0.1 = false := by
        rw [Bool.eq_false_iff]; simp only [ne_eq, leB_real]; norm_num
      simp [this]
    have hmake : Spline.make [(0 : ℝ), 2000] [degToRad 90, degToRad 90] =
        .ok ⟨[(0, degToRad 90), (2000, degToRad 90)]⟩ := by
      rw [make_ok_iff]
      exact ⟨rfl, by simp, by simp [Ascending], rfl⟩
    unfold Terrain.readSlope
    rw [hk]
    dsimp only
    rw [mapM_eq_map _ (fun r : SlopeLine ℝ => degToRad r.slopeDeg) _ (fun r _ => radians_real r.slopeDeg)]
    simp only [exTerrainOf, ok_bind, Bool.false_eq_true, if_false, List.map_cons, List.map_nil, hmake]
    rfl
  · simp [resumePrepared, newWorld, exTerrainOf]
  · show (0.0 : ℝ) = 0; norm_num

theorem thin_vft : ThinMelt (.vft 0 0 1) := by
  refine ⟨fun s _ h1 ht => ⟨1, ?_, le_rfl, by norm_num, fun _ => rfl⟩⟩
  unfold MeltModel.viscosity
  dsimp only
  have : s.temp - 1 ≠ 0 := by have := ht.1; intro h; linarith
  rw [div_of_ne this, ok_bind, pow_of_nonneg (by norm_num) (by norm_num)]
  norm_num

/-- The run: ten rows. -/
theorem resume_run (folder : String) (p : Proc ℝ) (hp : lookup p.json "flow.json" = some (resumeConfig 0 1000 0 1 1 1)) :
    ∃ q T φ W D, runOn depthGrid 10 exEnv "flow.json" folder (newRunner p) = some (.ok (), q) ∧
      loggedNum q.log 3 "core_temperature" = some T ∧ loggedNum q.log 3 "crystal_fraction" = some φ ∧
      loggedNum q.log 3 "channel_width" = some W ∧ loggedNum q.log 3 "channel_depth" = some D ∧ 0 < T := by
  have hT := exTerrainOf_channel 0 10 (Or.inl rfl)
  have hinv : LongInv (exTerrainOf 0 10) (1 / 3000) 0 0 resumePrepared.world :=
    { terrain := rfl, iter := rfl, unfinished := rfl, rate := fun h => absurd rfl h, pos := by show (0 : ℝ) = _; simp,
      phi0 := le_refl (0 : ℝ), phi1 := by show (0 : ℝ) ≤ _; simp
      start := fun _ => rfl, temp := by show 1000 - 1000 * (0 : ℝ) ≤ 1000 ∧ (1000 : ℝ) ≤ 1000; norm_num }
  obtain ⟨ws, w', h0, hacc, hw', hfin, hloop, _⟩ := flow_run_melt hT [.rain (1 / 3000) 1 1] (1 / 3000) 0 (.basic 0 1 0 1000) slow_basic thin_vft
    (gentle_rain _ _ (by norm_num) _ _) (by norm_num) 10 (by norm_num) (by norm_num) (by norm_num) (by norm_num) resumePrepared.world hinv
  have hdx : 0 < resumeG.dx := by show (0 : ℝ) < 1; norm_num
  have hsim : simulateOn (depthGrid (α := ℝ)) 10 resumePrepared.integrator resumePrepared.world = some (.ok (), w') := by
    unfold simulateOn initEffusionRateOn
    have e0 : eqB resumePrepared.world.terrain.effusionRateInit (0.0 : ℝ) = true := by
      show eqB (0 : ℝ) 0.0 = true
      norm_num [eqB_real]
    rw [PyM.bind_of_ok (PyM.get_apply _), if_pos e0]
    exact hloop
  obtain ⟨q, hq, hlog, _⟩ := C04_run_writes (fun c => beq_self_eq_true c) (depthGrid (α := ℝ)) 10 exEnv "flow.json" folder p _ resumePrepared w' hp
    resume_prepare hsim
  obtain ⟨E, hE⟩ := ventRate_exists resumeG resumePrepared.world rfl
  obtain ⟨k, vs, d, R⟩ := run_table resumeG hdx 10 resumePrepared.world w' rfl hloop E hE
  have hpos0 : resumePrepared.world.st.pos = 0 := rfl
  have edx : resumeG.dx = 1 := rfl
  have hk : k = 10 := by
    have e1 := R.finalPos
    have e2 := acceptedRun_pos hacc 10 le_rfl
    rw [h0, hpos0, edx] at e2
    rw [hpos0, edx, hw', e2] at e1
    have : ((10 : ℕ) : ℝ) = k := by linarith
    exact_mod_cast this.symm
  have hrow := R.row 3 (by omega)
  have hp3 : (vs 3).st.pos = 3 := by rw [R.pos 3 (by omega), hpos0, edx]; norm_num
  have hhot : 0 < (vs 3).st.temp := ((C13_accepted_reason resumeG _ _ (R.accepted 2 (by omega))).2 (R.accepted 3 (by omega)).1).1
  have k1 := hrow.core_temperature
  have k2 := hrow.crystal_fraction
  have k3 := hrow.channel_width
  have k4 := hrow.channel_depth
  rw [hp3] at k1 k2 k3 k4
  rw [← hlog] at k1 k2 k3 k4
  exact ⟨q, _, _, _, _, hq, k1, k2, k3, k4, hhot⟩

theorem resume_same (x T φ W D grown x' T' φ' W' D' grown' : ℝ) :
    SameButVent (resumeConfig x T φ W D grown) (resumeConfig x' T' φ' W' D' grown') := by
  have hkey : ∀ e ∈ allReq, e ∉ ventEntries → e.2 ≠ "position" ∧ e.2 ≠ "eruption_temperature" ∧ e.2 ≠ "crystal_fraction" ∧ e.2 ≠ "width" ∧
      e.2 ≠ "depth" ∧ e.2 ≠ "crystals_grown_during_cooling" := by decide
  have hnum : ∀ a b c d e f a' b' c' d' e' f' sec key, (sec, key) ∉ ventEntries → (sec, key) ∈ allReq →
      resumeNum a b c d e f sec key = resumeNum a' b' c' d' e' f' sec key := by
    intro a b c d e f a' b' c' d' e' f' sec key hn hm
    obtain ⟨h1, h2, h3, h4, h5, h6⟩ := hkey _ hm hn
    dsimp only at h1 h2 h3 h4 h5 h6
    unfold resumeNum
    split <;> first | contradiction | rfl
  exact ⟨fun sec key v hn => ⟨number_entry _ _ _ _ _ _ (hnum _ _ _ _ _ _ _ _ _ _ _ _ _ _ hn) v, number_entry _ _ _ _ _ _ (hnum _ _ _ _ _ _ _ _ _ _ _ _ _ _ hn) v⟩,
    fun k hk _ v => ⟨number_top _ (resumeNum x T φ W D grown) (resumeNum x' T' φ' W' D' grown') _ _ rfl hk v,
      number_top _ (resumeNum x' T' φ' W' D' grown') (resumeNum x T φ W D grown) _ _ rfl hk v⟩⟩

/-- **C127** is not vacuous: a flow of ten rows, and an eruption whose vent is three metres further down and which begins as the fourth row shows. Its table
    is the rest of the first one. -/
example (folder folder' : String) (p p' : Proc ℝ) (hp : lookup p.json "flow.json" = some (resumeConfig 0 1000 0 1 1 1)) :
    ∃ q T φ W D, runOn depthGrid 10 exEnv "flow.json" folder (newRunner p) = some (.ok (), q) ∧
      loggedNum q.log 3 "core_temperature" = some T ∧ loggedNum q.log 3 "crystal_fraction" = some φ ∧
      loggedNum q.log 3 "channel_width" = some W ∧ loggedNum q.log 3 "channel_depth" = some D ∧
      (lookup p'.json "lower.json" = some (resumeConfig 3 T φ W D (T / 1000)) →
        ∃ q', runOn depthGrid 10 exEnv "lower.json" folder' (newRunner p') = some (.ok (), q') ∧
          ∃ upflow, q.log = upflow ++ q'.log ∧ ∀ r ∈ upflow, ∃ y < 3, r.get? "position" = some (.num y)) := by
  obtain ⟨q, T, φ, W, D, hq, h1, h2, h3, h4, hT⟩ := resume_run folder p hp
  refine ⟨q, T, φ, W, D, hq, h1, h2, h3, h4, fun hp' => ?_⟩
  have N := resume_number 3 T φ W D (T / 1000)
  have N0 := resume_number 0 1000 0 1 1 1
  refine C127_config depthGrid 10 exEnv "flow.json" "lower.json" folder folder' p q p' _ _ hp hp' resumeChoice (exConfig_selects _ _) (by decide)
    (by decide) (by decide) (by decide) (by decide) ?_ (.num 1) ⟨_, rfl, rfl⟩ 1 rfl one_pos hq 3 T φ W D h1 h2 h3 h4 (resume_same _ _ _ _ _ _ _ _ _ _ _ _) ?_
  · rintro v ⟨top, inner, e, e1, e2⟩
    cases e
    cases e1
    cases e2
  · refine ⟨N ("lava_state", "position") (by decide), N ("eruption_condition", "eruption_temperature") (by decide),
      N ("lava_state", "crystal_fraction") (by decide), N ("terrain_conditions", "width") (by decide), N ("terrain_conditions", "depth") (by decide),
      ⟨_, ⟨_, rfl, rfl⟩, ?_⟩, fun _ => ⟨1000, 0, 1, T / 1000, N0 ("eruption_condition", "eruption_temperature") (by decide),
        N0 ("crystals_parameters", "solid_temperature") (by decide), N0 ("crystals_parameters", "crystals_grown_during_cooling") (by decide),
        N ("crystals_parameters", "crystals_grown_during_cooling") (by decide), by norm_num, hT.ne', ?_⟩⟩
    · show Except.ok (((0 : Int) : ℝ)) = Except.ok 0
      rw [Int.cast_zero]
    · rw [sub_zero, sub_zero]
      field_simp

end PyFlowGo
