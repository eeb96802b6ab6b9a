import Verif.Spec.RunConfigSpec
import Verif.Props.RunLog
import Verif.Props.Wiring
import Verif.Props.Terrain
/-
  C54: `mass_conservation`.  C55 at the level of `run`: every value comes from the configuration; a missing
  entry ends the call before anything is logged or written.
-/
set_option linter.unusedSectionVars false
namespace PyFlowGo
open Spec
variable {α : Type}

/-! ### C54 -/

theorem mem_takeWhile {p : Char → Bool} {l : List Char} {c : Char} (h : c ∈ l.takeWhile p) : p c = true := by
  induction l with
  | nil => cases h
  | cons a t ih =>
    rw [List.takeWhile_cons] at h
    split at h
    · rename_i ha
      rcases List.mem_cons.mp h with rfl | h
      · exact ha
      · exact ih h
    · cases h

theorem strip_spec (s : List Char) : ∃ before after, s = before ++ pyStrip s ++ after ∧
    (∀ c ∈ before, pySpace c = true) ∧ (∀ c ∈ after, pySpace c = true) := by
  have h1 : s = s.takeWhile pySpace ++ s.dropWhile pySpace := List.takeWhile_append_dropWhile.symm
  have h2 : (s.dropWhile pySpace).reverse =
      (s.dropWhile pySpace).reverse.takeWhile pySpace ++ (s.dropWhile pySpace).reverse.dropWhile pySpace :=
    List.takeWhile_append_dropWhile.symm
  refine ⟨s.takeWhile pySpace, ((s.dropWhile pySpace).reverse.takeWhile pySpace).reverse, ?_, ?_, ?_⟩
  · unfold pyStrip
    rw [List.append_assoc, ← List.reverse_append, ← h2, List.reverse_reverse, ← h1]
  · intro c hc; exact mem_takeWhile hc
  · intro c hc; exact mem_takeWhile (List.mem_reverse.mp hc)

theorem strip_unique (before word after : List Char) (h1 : ∀ c ∈ before, pySpace c = true)
    (h2 : ∀ c ∈ after, pySpace c = true) (hw : word ≠ []) (hfirst : pySpace (word.head hw) = false)
    (hlast : pySpace (word.getLast hw) = false) : pyStrip (before ++ word ++ after) = word := by
  have drop_pre : ∀ (b r : List Char), (∀ c ∈ b, pySpace c = true) → (b ++ r).dropWhile pySpace = r.dropWhile pySpace := by
    intro b r hb
    induction b with
    | nil => rfl
    | cons a t ih =>
      rw [List.cons_append, List.dropWhile_cons, if_pos (hb a (by simp))]
      exact ih fun c hc => hb c (by simp [hc])
  have keep : ∀ (r : List Char) (hr : r ≠ []), pySpace (r.head hr) = false → r.dropWhile pySpace = r := by
    intro r hr h
    cases r with
    | nil => exact absurd rfl hr
    | cons a t => rw [List.dropWhile_cons, if_neg]; simpa using h
  unfold pyStrip
  rw [List.append_assoc, drop_pre before _ h1, keep (word ++ after) (by simp [hw]) (by rw [List.head_append_of_ne_nil hw]; exact hfirst),
    List.reverse_append, drop_pre _ _ (fun c hc => h2 c (List.mem_reverse.mp hc)),
    keep word.reverse (by simpa using hw) (by rw [List.head_reverse]; exact hlast), List.reverse_reverse]

/-- The blanks contain no letter, in particular none that lowers to t or e. -/
theorem space_not_letter (c : Char) (h : c.toLower = 't' ∨ c.toLower = 'e') : pySpace c = false := by
  have hc : c = 't' ∨ c = 'T' ∨ c = 'e' ∨ c = 'E' := by
    have : ∀ d : Char, c.toLower = d → c = d ∨ (c.val ≥ 65 ∧ c.val ≤ 90 ∧ c.val + 32 = d.val) := by
      intro d hd
      unfold Char.toLower at hd
      split at hd
      · rename_i hr
        right
        refine ⟨hr.1, hr.2, ?_⟩
        rw [← hd]; rfl
      · left; exact hd
    rcases h with h | h
    · rcases this _ h with h | ⟨_, _, h⟩
      · exact Or.inl h
      · right; left
        apply Char.ext
        have : c.val = 't'.val - 32 := by rw [← h]; simp
        rw [this]; rfl
    · rcases this _ h with h | ⟨_, _, h⟩
      · exact Or.inr (Or.inr (Or.inl h))
      · right; right; right
        apply Char.ext
        have : c.val = 'e'.val - 32 := by rw [← h]; simp
        rw [this]; rfl
  rcases hc with rfl | rfl | rfl | rfl <;> decide

/-- What the model strips are the blanks of the specification. -/
theorem pySpace_iff (c : Char) : pySpace c = true ↔ c.toNat ∈ blankCodes := by
  unfold pySpace blankCodes
  generalize c.toNat = n
  simp only [Bool.or_eq_true, Bool.and_eq_true, decide_eq_true_eq, beq_iff_eq, List.mem_cons, List.not_mem_nil, or_false]
  omega

theorem saysTrue_iff (s : String) : pyLower (pyStrip s.toList) = ['t', 'r', 'u', 'e'] ↔ SaysTrue s := by
  constructor
  · intro h
    obtain ⟨b, a, h1, h2, h3⟩ := strip_spec s.toList
    exact ⟨b, pyStrip s.toList, a, h1, fun c hc => (pySpace_iff c).mp (h2 c hc), fun c hc => (pySpace_iff c).mp (h3 c hc), h⟩
  · rintro ⟨b, word, a, h1, h2, h3, h4⟩
    obtain ⟨c1, c2, c3, c4, rfl⟩ : ∃ c1 c2 c3 c4, word = [c1, c2, c3, c4] := by
      have hlen : word.length = 4 := by simpa using congrArg List.length h4
      exact List.length_eq_four.mp hlen
    · simp only [List.map_cons, List.map_nil, List.cons.injEq, and_true] at h4
      rw [h1, strip_unique b [c1, c2, c3, c4] a (fun c hc => (pySpace_iff c).mpr (h2 c hc)) (fun c hc => (pySpace_iff c).mpr (h3 c hc)) (by simp) (space_not_letter c1 (Or.inl h4.1))
        (space_not_letter c4 (Or.inr h4.2.2.2))]
      simp [pyLower, h4]

/-- **C54**. `mass_conservation` is on exactly for: true, a number other than 0, a non-empty list or object, or a
    text that says "true" up to case and surrounding blanks. (In particular the text "1" or "yes" is off.) -/
theorem C54_mass_conservation (v : Json ℝ) : massConservationOf v = true ↔ SwitchesOn v := by
  cases v with
  | null => simp [massConservationOf, Json.truthy, SwitchesOn]
  | bool b => simp [massConservationOf, Json.truthy, SwitchesOn]
  | int n => simp [massConservationOf, Json.truthy, SwitchesOn]
  | num x =>
    simp only [massConservationOf, Json.truthy, SwitchesOn, Bool.not_eq_true', Bool.eq_false_iff, ne_eq, eqB_real]
  | str s =>
    simp only [massConservationOf, SwitchesOn, beq_iff_eq]
    exact saysTrue_iff s
  | arr l => simp [massConservationOf, Json.truthy, SwitchesOn]
  | obj l => simp [massConservationOf, Json.truthy, SwitchesOn]

theorem raw_iff (data : Json α) (raw : Json α) : rawMassConservation data = .ok raw ↔
      ∃ inner, TopEntry data "terrain_conditions" (.obj inner) ∧
        raw = (lookup inner "mass_conservation").getD (.bool false) := by
  unfold rawMassConservation
  simp only [bind_ok_iff, get_ok_iff]
  constructor
  · rintro ⟨tc, h1, h2⟩
    cases tc with
    | obj l => simp only [Except.ok.injEq] at h2; exact ⟨l, h1, h2.symm⟩
    | _ => simp at h2
  · rintro ⟨l, h1, h2⟩
    exact ⟨_, h1, by simp [h2]⟩

/-- **C54**. In a configuration: the entry decides, and without the entry mass conservation is off. The section
    `terrain_conditions` itself must be there. -/
theorem C54_in_configuration (data : Json ℝ) (raw : Json ℝ) :
    rawMassConservation data = .ok raw ↔
      ∃ inner, TopEntry data "terrain_conditions" (.obj inner) ∧
        raw = (lookup inner "mass_conservation").getD (.bool false) := raw_iff data raw

/-- **C54**. A missing entry means off. -/
theorem C54_missing_is_off (inner : List (String × Json ℝ)) (h : lookup inner "mass_conservation" = none) :
    massConservationOf ((lookup inner "mass_conservation").getD (.bool false)) = false := by
  rw [h]; rfl

/-- Non-vacuity of C54: both answers occur for texts. -/
example : SwitchesOn (.str " True\n" : Json ℝ) ∧ ¬ SwitchesOn (.str "yes" : Json ℝ) ∧ ¬ SwitchesOn (.str "1" : Json ℝ) := by
  refine ⟨⟨[' '], ['T', 'r', 'u', 'e'], ['\n'], by decide, by decide, by decide, by decide⟩, ?_, ?_⟩
  · intro h
    have := (C54_mass_conservation (.str "yes")).mpr h
    revert this
    simp only [massConservationOf]
    decide
  · intro h
    have := (C54_mass_conservation (.str "1")).mpr h
    revert this
    simp only [massConservationOf]
    decide

/-! ### C55 for `run` -/

variable [Add α] [Sub α] [Mul α] [Neg α] [OfScientific α] [PyNum α]

theorem readRunConfig_iff (env : Env α) (data : Json α) (c : RunConfig α) :
    readRunConfig env data = .ok c ↔ RunConfigFrom env data c := by
  have htop : ∀ k v, requireTop data k = .ok v ↔ TopEntry data k v := by
    intro k v
    unfold requireTop
    rw [bind_ok_iff]
    constructor
    · rintro ⟨b, h1, h2⟩
      cases b
      · cases h2
      · exact (get_ok_iff _ _ _).mp h2
    · intro h
      exact ⟨true, has_true_of h, (get_ok_iff _ _ _).mpr h⟩
  unfold readRunConfig RunConfigFrom
  simp only [bind_ok_iff, get_ok_iff, htop, raw_iff, pure_ok_iff]
  constructor
  · rintro ⟨rate, h1, name, h2, sl, h3, sz, h4, x, h5, raw, ⟨inner, h6, rfl⟩, rfl⟩
    exact ⟨h1, h2, h3, ⟨sz, h4, h5⟩, inner, h6, rfl⟩
  · rintro ⟨h1, h2, h3, ⟨sz, h4, h5⟩, inner, h6, h7⟩
    refine ⟨_, h1, _, h2, _, h3, _, h4, _, h5, _, ⟨inner, h6, rfl⟩, ?_⟩
    rw [← h7]

theorem isTrue_iff (v : Json α) : isTrue v = true ↔ v = .bool true := by
  unfold isTrue
  split <;> simp_all

theorem buildTerrain_iff (env : Env ℝ) (data : Json ℝ) (t : Terrain ℝ) :
    buildTerrain env data = .ok t ↔ TerrainFrom env data t ∧ t.defaultSlope = degToRad 2.657414 := by
  unfold buildTerrain TerrainFrom
  simp only [bind_ok_iff, get_ok_iff, getF_ok_iff, getJ_ok_iff, pure_ok_iff, radians_real, Except.ok.injEq]
  constructor
  · rintro ⟨e, h1, e', h2, d, h3, w, h4, g, h5, l, h6, act, h7, pts, h8, sl, h9, rfl⟩
    refine ⟨⟨⟨e, h1, h2⟩, h3, h4, h5, h6, ⟨act, h7, isTrue_iff act⟩, ?_, ?_, rfl⟩, h9.symm⟩
    · intro hs
      rw [show isTrue act = true from hs] at h8
      exact (getF_ok_iff _ _ _ _ _).mp h8
    · intro hs
      rw [show isTrue act = false from hs] at h8
      unfold readSmoothingPoints at h8
      simp only [Bool.false_eq_true, if_false, Except.ok.injEq] at h8
      exact h8.symm
  · rintro ⟨⟨⟨e, h1, h2⟩, h3, h4, h5, h6, ⟨act, h7, h7'⟩, h8, h9, h10⟩, h11⟩
    have hact : isTrue act = t.smoothing := by
      rw [Bool.eq_iff_iff, isTrue_iff, h7']
    refine ⟨e, h1, _, h2, _, h3, _, h4, _, h5, _, h6, act, h7, t.smoothingPoints, ?_, _, h11.symm, ?_⟩
    · rw [hact]
      unfold readSmoothingPoints
      split
      · rename_i hs; exact (getF_ok_iff _ _ _ _ _).mpr (h8 hs)
      · rename_i hs; rw [h9 (by simpa using hs)]
    · rw [hact, ← h10]


/-- The slope file that is read. -/
def SlopePath (v : Json ℝ) (path : String) : Prop :=
  v = .str path ∨ (v = .null ∧ path = "../MaunaUlu74/DEM_maunaulu74.txt")

theorem loadSlope_iff (env : Env ℝ) (t t' : Terrain ℝ) (v : Json ℝ) :
    loadSlope env t v = .ok t' ↔
      ∃ path rows, SlopePath v path ∧ env.slopeFile path = some rows ∧ t.readSlope rows = .ok t' := by
  unfold loadSlope SlopePath
  cases v with
  | null =>
    simp only [reduceCtorEq, true_and, false_or, exists_and_left, exists_eq_left]
    cases env.slopeFile "../MaunaUlu74/DEM_maunaulu74.txt" <;> simp
  | str x =>
    simp only [Json.str.injEq, reduceCtorEq, false_and, or_false, exists_and_left, exists_eq_left']
    cases env.slopeFile x <;> simp
  | _ => simp

theorem readSlope_keeps {t t' : Terrain ℝ} {rows : List (SlopeLine ℝ)} (h : t.readSlope rows = .ok t') :
    ∃ sp, t' = { t with spline := some sp } := by
  unfold Terrain.readSlope at h
  simp only [bind_ok_iff, pure_ok_iff] at h
  obtain ⟨_, _, h⟩ := h
  split at h
  · obtain ⟨_, _, h⟩ := bind_ok_iff.mp h
    obtain ⟨sp, _, h⟩ := bind_ok_iff.mp h
    exact ⟨sp, (pure_ok_iff.mp h).symm⟩
  · obtain ⟨_, _, h⟩ := bind_ok_iff.mp h
    obtain ⟨sp, _, h⟩ := bind_ok_iff.mp h
    exact ⟨sp, (pure_ok_iff.mp h).symm⟩

/-- The initial crystal fraction is the configured one, whatever the crystallisation model. -/
theorem initial_crystal {env : Env ℝ} {data : Json ℝ} {s : String} {m : CrystModel ℝ} (h : CrystFrom env data s m)
    (T : ℝ) : ∃ f, NumberAt env data "lava_state" "crystal_fraction" f ∧ m.crystalFraction T = .ok f := by
  unfold CrystFrom at h
  split at h
  · obtain ⟨f, _, _, _, hf, _, _, _, rfl⟩ := h; exact ⟨f, hf, rfl⟩
  · obtain ⟨f, _, _, _, _, _, hf, _, _, _, _, _, rfl⟩ := h; exact ⟨f, hf, rfl⟩
  · obtain ⟨f, _, _, _, _, _, hf, _, _, _, _, _, rfl⟩ := h; exact ⟨f, hf, rfl⟩
  · obtain ⟨f, _, _, hf, _, _, _, rfl⟩ := h; exact ⟨f, hf, rfl⟩
  · exact h.elim

/-- **C13**. The solidus that stops a run is the configured `solid_temperature`, whatever the crystallisation model. -/
theorem C13_solidus_is_configured (env : Env ℝ) (data : Json ℝ) (m : Models ℝ) (h : factory env data = .ok m) :
    NumberAt env data "crystals_parameters" "solid_temperature" m.cryst.solidTemperature := by
  obtain ⟨c, _, hcr, _⟩ := (C55_models_come_from_the_configuration env data m).mp h
  generalize m.cryst = cm at hcr
  unfold CrystFrom at hcr
  split at hcr
  · obtain ⟨_, _, ts, _, _, _, h, _, rfl⟩ := hcr; exact h
  · obtain ⟨_, _, _, _, ts, _, _, _, _, _, h, _, rfl⟩ := hcr; exact h
  · obtain ⟨_, _, _, _, ts, _, _, _, _, _, h, _, rfl⟩ := hcr; exact h
  · obtain ⟨_, ts, _, _, h, _, _, rfl⟩ := hcr; exact h
  · exact hcr.elim

/-- **C55**. What a run starts from. `run` gets as far as the depth search exactly when every entry it needs is
    there (the ones of the models: C55 above), the slope file can be read, and width and depth are not 0; then
    every number of the initial state, of the channel and of the integrator is the configured one. -/
theorem C55_run_starts_from_the_configuration (env : Env ℝ) (data : Json ℝ) (log : Log (Cell ℝ)) (pr : Prepared ℝ) :
    prepare env data log = .ok pr ↔
      RunConfigFrom env data pr.cfg ∧
      (∃ t0 path rows, TerrainFrom env data t0 ∧ t0.defaultSlope = degToRad 2.657414 ∧
        SlopePath pr.cfg.slopeFile path ∧ env.slopeFile path = some rows ∧ t0.readSlope rows = .ok pr.world.terrain) ∧
      factory env data = .ok pr.integrator.models ∧
      pr.integrator.dx = pr.cfg.stepSize ∧ pr.integrator.massConservation = pr.cfg.massConservation ∧
      NumberAt env data "lava_state" "position" pr.world.st.pos ∧
      NumberAt env data "lava_state" "time" pr.world.st.time ∧
      NumberAt env data "lava_state" "crystal_fraction" pr.world.st.crystal ∧
      NumberAt env data "eruption_condition" "eruption_temperature" pr.world.st.temp ∧
      pr.world.terrain.depth ≠ 0 ∧ pr.world.terrain.width ≠ 0 ∧
      pr.world.st.strain = 3 * pr.world.terrain.effusionRateInit / pr.world.terrain.depth ^ 2 / pr.world.terrain.width ∧
      pr.world.log = log ∧ pr.world.effusionRate = 0 ∧ pr.world.fluxRate = none ∧ pr.world.iteration = 0 ∧
      pr.world.finished = false := by
  unfold prepare initialState
  simp only [bind_ok_iff, pure_ok_iff, readRunConfig_iff, buildTerrain_iff, loadSlope_iff, getF_ok_iff, npow_real,
    div_ok_iff]
  constructor
  · rintro ⟨cfg, h1, t0, ⟨h2, h2'⟩, t, ⟨path, rows, h3, h4, h5⟩, m, h6, pos, h7, time, h8, st,
      ⟨phi, h9, a, ⟨h10, h11⟩, x, ⟨h12, h13⟩, rfl⟩, rfl⟩
    obtain ⟨c, hc, hcr, _, ⟨_, _, _, _, _, hT, _⟩, _⟩ := (C55_models_come_from_the_configuration env data m).mp h6
    obtain ⟨f, hf, hf'⟩ := initial_crystal hcr m.lava.eruptionT
    rw [hf'] at h9
    injection h9 with h9
    subst h9
    refine ⟨h1, ⟨t0, path, rows, h2, h2', h3, h4, h5⟩, h6, rfl, rfl, h7, h8, hf, hT, ?_, h12, ?_, rfl, ?_, rfl, rfl, rfl⟩
    · intro h; exact h10 (by change t.depth = 0 at h; rw [h]; norm_num)
    · show x = _
      rw [h13, h11]
      show 3.0 * t.effusionRateInit / t.depth ^ 2 / t.width = _
      norm_num; rfl
    · show (0.0 : ℝ) = 0; norm_num
  · obtain ⟨cfg, g, w⟩ := pr
    obtain ⟨dx, m, mass⟩ := g
    obtain ⟨st, t, lg, er, fr, it, fin⟩ := w
    rintro ⟨h1, ⟨t0, path, rows, h2, h2', h3, h4, h5⟩, h6, h7, h8, h9, h10, h11, h12, h13, h14, h15, h16, h17, h18, h19, h20⟩
    dsimp only at *
    subst h7 h8 h16 h17 h18 h19 h20
    obtain ⟨c, hc, hcr, _, ⟨_, _, _, _, _, hT, _⟩, _⟩ := (C55_models_come_from_the_configuration env data m).mp h6
    obtain ⟨f, hf, hf'⟩ := initial_crystal hcr m.lava.eruptionT
    obtain rfl := number_unique h11 hf
    have hTT := number_unique h12 hT
    refine ⟨cfg, h1, t0, ⟨h2, h2'⟩, t, ⟨path, rows, h3, h4, h5⟩, m, h6, _, h9, _, h10, st,
      ⟨_, hf', _, ⟨pow_ne_zero 2 h13, rfl⟩, _, ⟨h14, rfl⟩, ?_⟩, ?_⟩
    · obtain ⟨phi, T, pos, time, x⟩ := st
      dsimp only at *
      rw [h15, hTT]
      norm_num
    · unfold newWorld
      norm_num

/-- **C55**. `run` never goes on with a missing entry: if its preparation fails, the call raises and neither the
    log nor any file is changed. -/
theorem C55_run_refuses_without_effect (grid : List ℝ) (fuel : Nat) (env : Env ℝ) (jsonFile folder : String)
    (p : Proc ℝ) (data : Json ℝ) (hdata : lookup p.json (env.canon jsonFile) = some data)
    (hbad : ∀ pr, prepare env data p.log ≠ .ok pr) :
    ∃ e, runOn grid fuel env jsonFile folder p = some (.error e, p) := by
  unfold runOn
  rw [hdata]
  dsimp only
  cases h : prepare env data p.log with
  | error e => exact ⟨e, rfl⟩
  | ok pr => exact absurd h (hbad pr)

/-- The entries `run` needs besides those of the models. -/
def runEntries : List Req :=
  [("terrain_conditions", "depth"), ("terrain_conditions", "width"), ("terrain_conditions", "gravity"),
   ("terrain_conditions", "max_channel_length"), ("terrain_conditions", "slope_smoothing_active"),
   ("lava_state", "position"), ("lava_state", "time")]

/-- **C55**. In particular when an entry needed by the channel, by the initial state or by a selected model is
    missing, or a top-level entry. -/
theorem C55_run_missing_entry (grid : List ℝ) (fuel : Nat) (env : Env ℝ) (jsonFile folder : String)
    (p : Proc ℝ) (data : Json ℝ) (hdata : lookup p.json (env.canon jsonFile) = some data) (c : Choice)
    (hc : Selects data c)
    (hmiss : (∃ e ∈ runEntries ++ requiredNumbers c, ∀ v, ¬ EntryAt data e.1 e.2 v) ∨
      ∃ k ∈ ["effusion_rate_init", "lava_name", "slope_file", "step_size"], ∀ v, ¬ TopEntry data k v) :
    ∃ e, runOn grid fuel env jsonFile folder p = some (.error e, p) := by
  refine C55_run_refuses_without_effect grid fuel env jsonFile folder p data hdata fun pr hpr => ?_
  obtain ⟨h1, ⟨t0, path, rows, h2, _⟩, h6, _, _, h9, h10, _⟩ :=
    (C55_run_starts_from_the_configuration env data p.log pr).mp hpr
  obtain ⟨r1, r2, r3, ⟨_, r4, _⟩, _⟩ := h1
  obtain ⟨_, s1, s2, s3, s4, ⟨_, s5, _⟩, _⟩ := h2
  rcases hmiss with ⟨e, he, hm⟩ | ⟨k, hk, hm⟩
  · rcases List.mem_append.mp he with he | he
    · simp only [runEntries, List.mem_cons, List.not_mem_nil, or_false] at he
      rcases he with rfl | rfl | rfl | rfl | rfl | rfl | rfl
      · exact hm _ s1.choose_spec.1
      · exact hm _ s2.choose_spec.1
      · exact hm _ s3.choose_spec.1
      · exact hm _ s4.choose_spec.1
      · exact hm _ s5
      · exact hm _ h9.choose_spec.1
      · exact hm _ h10.choose_spec.1
    · obtain ⟨x, v, hv, _⟩ := C55_required_entries env data _ h6 c hc e he
      exact hm v hv
  · simp only [List.mem_cons, List.not_mem_nil, or_false] at hk
    rcases hk with rfl | rfl | rfl | rfl
    · exact hm _ r1
    · exact hm _ r2
    · exact hm _ r3
    · exact hm _ r4

end PyFlowGo
