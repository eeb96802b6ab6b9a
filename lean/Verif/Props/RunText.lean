import Verif.Model.RunText
import Verif.Spec.RunText
import Verif.Props.CsvText
import Verif.Props.JsonText
import Verif.Props.SlopeText
import Verif.Props.Profile
import Verif.Props.RunConfig
import Verif.Props.DepthSearch
import Verif.Props.SweepFullExample
/-
  C81: a run from the texts of its input files to the text of its result file.
-/
set_option linter.unusedSectionVars false
namespace PyFlowGo
open Spec

/-- Every row of the log of a completed run: its position, and its columns. -/
theorem run_positions (g : Integrator ℝ) (hdx : 0 < g.dx) (n : Nat) (w w' : World ℝ) (hw : w.log = [])
    (h : runLoop g n w = some (.ok (), w')) : ∀ (i : ℕ) (r : Row (Cell ℝ)), w'.log[i]? = some r →
      r.get? "position" = some (.num (w.st.pos + i * g.dx)) ∧ ∀ c ∈ r.keys, c ∈ runColumns g := by
  obtain ⟨k, ws, row, _, _, _, hrow, _, hlog⟩ := C63_rows g hdx n w w' hw h
  have hsub : ∀ c ∈ partColumns g, c ∈ runColumns g := by
    intro c hc
    unfold partColumns at hc
    unfold runColumns
    rcases List.mem_cons.mp hc with h | h
    · exact List.mem_cons.mpr (Or.inl h)
    · exact List.mem_cons_of_mem _ (List.mem_append_left _ h)
  have hk : ∀ (i : ℕ) (r : Row (Cell ℝ)), ((List.range k).map row)[i]? = some r → i < k ∧ row i = r := by
    intro i r hi
    rw [List.getElem?_map] at hi
    obtain ⟨j, hj, hr⟩ := Option.map_eq_some_iff.mp hi
    obtain ⟨hlt, hj⟩ := List.getElem?_eq_some_iff.mp hj
    rw [List.getElem_range] at hj
    rw [List.length_range] at hlt
    exact ⟨hlt, by rw [← hr, hj]⟩
  intro i r hi
  rcases hlog with hl | ⟨r', hl, hp, hc⟩
  · rw [hl] at hi
    obtain ⟨h1, h2⟩ := hk i r hi
    rw [← h2]
    exact ⟨(hrow i h1).1, fun c hc => ((hrow i h1).2 c).mp hc⟩
  · rw [hl] at hi
    by_cases hik : i < k
    · rw [List.getElem?_append_left (by simpa using hik)] at hi
      obtain ⟨h1, h2⟩ := hk i r hi
      rw [← h2]
      exact ⟨(hrow i h1).1, fun c hc => ((hrow i h1).2 c).mp hc⟩
    · have hik' : i = k := by
        have := (List.getElem?_eq_some_iff.mp hi).1
        simp at this
        omega
      subst hik'
      rw [List.getElem?_append_right (by simp)] at hi
      simp at hi
      subst hi
      exact ⟨hp, fun c h => hsub c ((hc c).mp h)⟩

/-- The cell at the position of row `i` is the cell of row `i`. -/
theorem cellAt_row (x0 dx : ℝ) (hdx : 0 < dx) (log : Log (Cell ℝ))
    (hpos : ∀ (i : ℕ) (r : Row (Cell ℝ)), log[i]? = some r → r.get? "position" = some (.num (x0 + i * dx))) (i : Nat) (r : Row (Cell ℝ))
    (hi : log[i]? = some r) (name : String) : cellAt log (.num (x0 + i * dx)) name = r.get? name := by
  unfold cellAt
  have hf : log.find? (fun r => r.atPosition (.num (x0 + i * dx))) = some r := by
    obtain ⟨hlt, he⟩ := List.getElem?_eq_some_iff.mp hi
    rw [List.find?_eq_some_iff_getElem]
    refine ⟨(atPosition_num r _ _ (hpos i r hi)).mpr rfl, i, hlt, he, fun j hj => ?_⟩
    have hjl : j < log.length := by omega
    rw [Bool.not_eq_true', Bool.eq_false_iff, ne_eq, atPosition_num _ _ _ (hpos j _ (List.getElem?_eq_getElem hjl))]
    have : (j : ℝ) * dx < i * dx := mul_lt_mul_of_pos_right (by exact_mod_cast hj) hdx
    intro e
    linarith
  rw [hf]
  rfl

theorem noCr_columns (g : Integrator ℝ) : ∀ n ∈ runColumns g, '\r' ∉ n.toList := by
  have hf : ∀ fs : List (Flux ℝ), ∀ n ∈ fluxColumns fs, '\r' ∉ n.toList := by
    intro fs
    induction fs with
    | nil => intro n hn; simp [fluxColumns] at hn
    | cons f fs ih =>
      intro n hn
      rw [fluxColumns] at hn
      have hc : ∀ n ∈ f.columns, '\r' ∉ n.toList := by
        cases f <;> simp only [Flux.columns, List.forall_mem_cons, List.not_mem_nil, false_implies, implies_true, and_true] <;> decide
      rcases List.mem_append.mp hn with h | h
      · exact hc n h
      · rcases List.mem_append.mp h with h | h
        · exact hc n h
        · rcases List.mem_cons.mp h with rfl | h
          · cases f <;> simp only [Flux.logName] <;> decide
          · exact ih n h
  intro n hn
  unfold runColumns at hn
  rcases List.mem_cons.mp hn with rfl | hn
  · decide
  · rcases List.mem_append.mp hn with hn | hn
    · rcases List.mem_append.mp hn with hn | hn
      · exact hf _ n hn
      · rw [List.mem_singleton.mp hn]; decide
    · have : ∀ n ∈ stepColumns, '\r' ∉ n.toList := by decide
      exact this n hn

/-- A field of a line of the result file. -/
theorem line_float {log : Log (Cell ℝ)} {t : CsvTable (Cell ℝ)} (h : writeValues log = .ok (some t)) (F : TextFormat ℝ)
    (rd : ℝ → ℝ) (hstr : ∀ c, F.float (F.str c) = some (rd c.value)) {r : Row (Cell ℝ)} (hr : r ∈ log) {name : String}
    {c : Cell ℝ} (hc : r.get? name = some c) :
    dictFloat F.float (t.header.map fun n => (n.toList, some ((r.get? n).elim [] F.str))) name = .ok (rd c.value) := by
  have hmem : name ∈ t.header := by
    unfold writeValues at h
    cases log with
    | nil => cases hr
    | cons r0 rest =>
      obtain ⟨rows, hm, h⟩ := bind_ok_iff.mp h
      rw [pure_ok_iff, Option.some.injEq] at h
      subst h
      obtain ⟨y, hy⟩ : ∃ y, csvRow r0.keys r = .ok y := by
        obtain ⟨hl, hg⟩ := List.forall₂_iff_get.mp ((mapM_ok_iff _ _ _).mp hm)
        obtain ⟨i, hi, rfl⟩ := List.getElem_of_mem hr
        exact ⟨_, hg i hi (by omega)⟩
      unfold csvRow at hy
      split at hy
      · rename_i hall
        have hk : name ∈ r.keys := by
          unfold Row.get? at hc
          obtain ⟨kv, hf, _⟩ := Option.map_eq_some_iff.mp hc
          have h1 := List.find?_some hf
          have h2 := List.mem_of_find?_eq_some hf
          rw [beq_iff_eq] at h1
          exact List.mem_map.mpr ⟨kv, h2, h1⟩
        have := List.all_eq_true.mp hall name hk
        simpa using this
      · cases hy
  unfold dictFloat
  rw [dictField_row, if_pos hmem, ok_bind]
  dsimp only
  rw [hc]
  dsimp only [Option.elim]
  rw [hstr]

theorem depthSearch_frame (l : Lava ℝ) : ∀ (ds : List ℝ) (w w' : World ℝ), depthSearch l ds w = (.ok (), w') →
    w'.st.pos = w.st.pos ∧ w'.st.crystal = w.st.crystal ∧ w'.st.temp = w.st.temp ∧ w'.log = w.log ∧ w'.iteration = w.iteration ∧
    w'.terrain.maxLength = w.terrain.maxLength ∧ w'.terrain.slope = w.terrain.slope := by
  intro ds w w' h
  cases ds with
  | nil =>
    unfold depthSearch at h
    cases h
    exact ⟨rfl, rfl, rfl, rfl, rfl, rfl, rfl⟩
  | cons d ds =>
    obtain ⟨k, xs, vs, _, _, _, _, _, rfl⟩ := depthSearch_ok l (d :: ds) w w' h (by simp)
    exact ⟨rfl, rfl, rfl, rfl, rfl, rfl, rfl⟩

/-- The depth search changes the depth, the rate and the strain rate only. -/
theorem search_frame (l : Lava ℝ) (grid : List ℝ) (w w' : World ℝ) (h : initEffusionRateOn grid l w = (.ok (), w')) :
    w'.st.pos = w.st.pos ∧ w'.st.crystal = w.st.crystal ∧ w'.st.temp = w.st.temp ∧ w'.log = w.log ∧ w'.iteration = w.iteration ∧
    w'.terrain.maxLength = w.terrain.maxLength ∧ w'.terrain.slope = w.terrain.slope := by
  unfold initEffusionRateOn at h
  rw [PyM.bind_of_ok (PyM.get_apply _)] at h
  split at h
  · cases h
    exact ⟨rfl, rfl, rfl, rfl, rfl, rfl, rfl⟩
  · exact depthSearch_frame l grid w w' h

/-- The lines of a slope profile that `slopeRows` returns are steep enough already. -/
theorem slopeRows_kept {pf : List Char → Option ℝ} {rows : List (List (List Char))} {ls : List (SlopeLine ℝ)}
    (h : slopeRows pf rows = .ok ls) : keepSlopeLines ls = ls := by
  obtain ⟨os, ho, rfl⟩ := (C73_profile_lines pf rows ls).mp h
  unfold keepSlopeLines
  rw [List.filter_eq_self]
  intro a ha
  obtain ⟨o, hmem, rfl⟩ := List.mem_filterMap.mp ha
  clear ha h
  induction ho with
  | nil => simp at hmem
  | @cons r o' rows os h1 _ ih =>
    rcases List.mem_cons.mp hmem with h | h
    · rw [← h] at h1
      rw [h1.2]; rfl
    · exact ih h

/-- What the text model of the slope file gives the terrain is what `read_slope_from_file` gives. -/
theorem textEnv_slope (F : TextFormat ℝ) (disk : List (String × List Char)) (path : String) (rows : List (SlopeLine ℝ))
    (h : (textEnv F disk).slopeFile path = some rows) (t T : Terrain ℝ) (hT : t.readSlope rows = .ok T) :
    ∃ text, lookup disk (F.canon path) = some text ∧ t.readSlopeText F.float text = .ok T := by
  obtain ⟨text, h1, h2⟩ := Option.bind_eq_some_iff.mp h
  have h3 : slopeRows F.float (dataLines text) = .ok rows := by
    cases hs : slopeRows F.float (dataLines text) with
    | error e => rw [hs] at h2; cases h2
    | ok x => rw [hs] at h2; cases h2; rfl
  refine ⟨text, h1, ?_⟩
  unfold Terrain.readSlopeText
  unfold Terrain.readSlope at hT
  rw [h3, ok_bind]
  rw [slopeRows_kept h3] at hT
  exact hT

/-- The text of the result of a completed loop. -/
theorem table_text (F : TextFormat ℝ) (rd : ℝ → ℝ) (hstr : ∀ c, F.float (F.str c) = some (rd c.value))
    (hcr : ∀ c, '\r' ∉ F.str c) (g : Integrator ℝ) (hdx : 0 < g.dx) (n : Nat) (w w' : World ℝ) (hw : w.log = [])
    (h : runLoop g n w = some (.ok (), w')) (t : CsvTable (Cell ℝ)) (ht : writeValues w'.log = .ok (some t)) :
    ∃ (lines : List (List (List Char × Option (List Char)))) (k : Nat) (r : Nat → ProfileRow),
      dictRead ',' (stored F.windows (t.text F.str)) = .ok lines ∧ (lines.length = k ∨ lines.length = k + 1 ∧
        ∃ last, lines[k]? = some last ∧ Blank last "slope" ∧ Blank last "viscosity") ∧
      (∀ (i : ℕ) line, lines[i]? = some line → dictFloat F.float line "position" = .ok (rd (w.st.pos + i * g.dx))) ∧
      (∀ (i : ℕ) line, i < k → lines[i]? = some line → LineShows F.float rd line (w.st.pos + i * g.dx) (r i)) ∧
      (∀ i, i < k → 0 < (r i).velocity ∧ (r i).depth = w.terrain.depth ∧
        w.terrain.slope (w.st.pos + i * g.dx) = .ok (r i).slope ∧
        (g.massConservation = false → (r i).width * (r i).velocity * (r i).depth = (r i).effusionRate) ∧
        (g.massConservation = true → ∃ flux, w.fluxRate = some flux ∧
          (r i).width * (r i).velocity * (r i).depth * (r i).density = flux)) ∧
      (0 < k → (r 0).crystal = w.st.crystal ∧ (r 0).temp = w.st.temp ∧
        (w.iteration = 0 → (r 0).effusionRate = (r 0).velocity * w.terrain.width * w.terrain.depth)) ∧
      ∀ i, i + 1 < k → RowLaws g.models.lava.latentHeat g.dx (r i) (r (i + 1)) ∧
        g.models.cryst.solidTemperature < (r (i + 1)).temp ∧ (r (i + 1)).yieldStrength < (r (i + 1)).basalStress ∧
        w.st.pos + ((i + 1 : ℕ) : ℝ) * g.dx < w.terrain.maxLength := by
  have hall := run_positions g hdx n w w' hw h
  obtain ⟨k, r, hlen, hrow, h0, hstep⟩ := C64_table g hdx n w w' hw h
  have hne : w'.log ≠ [] := by
    intro e; rw [e] at ht; cases ht
  obtain ⟨r0, rest, hcons⟩ := List.exists_cons_of_ne_nil hne
  have h0th : w'.log[0]? = some r0 := by rw [hcons]; rfl
  have hhead : t.header = r0.keys := by
    rw [hcons] at ht
    unfold writeValues at ht
    obtain ⟨rows, hm, h⟩ := bind_ok_iff.mp ht
    rw [pure_ok_iff, Option.some.injEq] at h
    subst h
    rfl
  have hh : t.header ≠ [] := by
    rw [hhead]
    intro e
    have := (hall 0 r0 h0th).1
    cases r0 with
    | nil => cases this
    | cons a b => cases e
  have hdict := C74_result_file w'.log t ht F.str hh
    (fun n hn => noCr_columns g n ((hall 0 r0 h0th).2 n (by rw [← hhead]; exact hn))) hcr F.windows
  have hend : ∀ c, c ∉ partColumns g → ∀ row : Row (Cell ℝ), (∀ c, c ∈ row.keys ↔ c ∈ partColumns g) →
      Blank (t.header.map fun n => (n.toList, some ((row.get? n).elim [] F.str))) c := by
    intro c hc row hrow
    unfold Blank
    rw [dictField_row]
    by_cases hm : c ∈ t.header
    · right
      have : row.get? c = none := by
        cases hg : row.get? c with
        | none => rfl
        | some x => exact absurd ((hrow c).mp (get?_some_mem hg)) hc
      rw [if_pos hm, this]
      rfl
    · left; rw [if_neg hm]
  have hslope : "slope" ∉ partColumns g := by
    unfold partColumns
    rw [List.mem_cons, List.mem_append]
    rintro (e | e | e)
    · revert e; decide
    · exact absurd e (slope_not_flux _)
    · revert e; decide
  have hvisc : "viscosity" ∉ partColumns g := by
    unfold partColumns
    rw [List.mem_cons, List.mem_append]
    rintro (e | e | e)
    · revert e; decide
    · exact absurd e (viscosity_not_flux _)
    · revert e; decide
  refine ⟨_, k, r, hdict, ?_, ?_, ?_, fun i hi => (hrow i hi).2, h0, hstep⟩
  · rw [List.length_map]
    rcases hlen with hlen | ⟨hlen, last, e1, e2⟩
    · exact Or.inl hlen
    · exact Or.inr ⟨hlen, _, by rw [List.getElem?_map, e1]; rfl, hend _ hslope _ e2, hend _ hvisc _ e2⟩
  · intro i line hl
    rw [List.getElem?_map] at hl
    obtain ⟨row, hr, rfl⟩ := Option.map_eq_some_iff.mp hl
    exact line_float ht F rd hstr (List.mem_of_getElem? hr) (hall i row hr).1
  · intro i line hi hl
    rw [List.getElem?_map] at hl
    obtain ⟨row, hr, rfl⟩ := Option.map_eq_some_iff.mp hl
    have hmem := List.mem_of_getElem? hr
    obtain ⟨hs, _⟩ := hrow i hi
    have hcell := cellAt_row w.st.pos g.dx hdx w'.log (fun j q hq => (hall j q hq).1) i row hr
    have key : ∀ name x, loggedNum w'.log (w.st.pos + i * g.dx) name = some x →
        dictFloat F.float (t.header.map fun n => (n.toList, some ((row.get? n).elim [] F.str))) name = .ok (rd x) := by
      intro name x hx
      unfold loggedNum at hx
      rw [hcell name] at hx
      have : row.get? name = some (.num x) := by
        split at hx
        · rename_i heq
          rw [heq]; cases hx; rfl
        · cases hx
      exact line_float ht F rd hstr hmem this
    refine ⟨line_float ht F rd hstr hmem (hall i row hr).1, key _ _ hs.crystal, key _ _ hs.temp, key _ _ hs.velocity,
      key _ _ hs.width, key _ _ hs.depth, key _ _ hs.density, key _ _ hs.heat, key _ _ hs.rate, key _ _ hs.crystalGradient,
      key _ _ hs.tempGradient, key _ _ hs.yieldStrength, key _ _ hs.basalStress, ?_, key _ _ hs.slope⟩
    have := hs.effusionRate
    rw [hcell] at this
    exact line_float ht F rd hstr hmem this

/-- **C81**. A successful run, from text to text. The configuration file is a JSON text; its numbers are the start, the step and
    the latent heat of the run; the slope file it names is a profile in text form. With a positive step, either nothing
    is written (no step was possible) or one file is added, under the name built from the lava name and the effusion rate, and
    a csv reader finds in it one line per position `x0, x0 + dx, …`, whose columns -- up to the rounding of printed numbers --
    obey the laws of the flow: volume conservation within a line, growth of crystals, cooling and heat balance from line
    to line, starting from the configured crystal content and eruption temperature. Other files are not touched. -/
theorem C81_run_on_texts (F : TextFormat ℝ) (rd : ℝ → ℝ) (hstr : ∀ c, F.float (F.str c) = some (rd c.value))
    (hcr : ∀ c, '\r' ∉ F.str c) (grid : List ℝ) (fuel : Nat) (jsonFile folder : String) (disk disk' : List (String × List Char))
    (h : runTextOn grid fuel F jsonFile folder disk = some (.ok (), disk')) :
    ∃ text data, lookup disk (F.canon jsonFile) = some text ∧ JsonText F.float (universal text) data ∧
    ∃ (x0 phi0 T0 dx L length : ℝ) (lavaName rate size : Json ℝ) (t1 : Terrain ℝ),
      NumberAt (textEnv F disk) data "lava_state" "position" x0 ∧
      NumberAt (textEnv F disk) data "lava_state" "crystal_fraction" phi0 ∧
      NumberAt (textEnv F disk) data "eruption_condition" "eruption_temperature" T0 ∧
      NumberAt (textEnv F disk) data "crystals_parameters" "latent_heat_of_crystallization" L ∧
      NumberAt (textEnv F disk) data "terrain_conditions" "max_channel_length" length ∧
      TopEntry data "step_size" size ∧ size.toFloat (textEnv F disk) = .ok dx ∧
      TopEntry data "lava_name" lavaName ∧ TopEntry data "effusion_rate_init" rate ∧
      (∃ (slope : Json ℝ) (path : String) (profile : List Char) (t0 : Terrain ℝ), TopEntry data "slope_file" slope ∧
        SlopePath slope path ∧ lookup disk (F.canon path) = some profile ∧ TerrainFrom (textEnv F disk) data t0 ∧
        t0.readSlopeText F.float profile = .ok t1) ∧
      (0 < dx → disk' = disk ∨ ∃ (out : List Char) (lines : List (List (List Char × Option (List Char)))) (k : Nat)
          (r : Nat → ProfileRow) (mass : Bool) (flux : ℝ),
        disk' = (F.canon (resultFileName folder (lavaName.show (textEnv F disk)) (rate.show (textEnv F disk))), out) :: disk ∧
        dictRead ',' out = .ok lines ∧ (lines.length = k ∨ lines.length = k + 1 ∧
          ∃ last, lines[k]? = some last ∧ Blank last "slope" ∧ Blank last "viscosity") ∧
        (∀ (i : ℕ) line, lines[i]? = some line → dictFloat F.float line "position" = .ok (rd (x0 + i * dx))) ∧
        (∀ (i : ℕ) line, i < k → lines[i]? = some line → LineShows F.float rd line (x0 + i * dx) (r i)) ∧
        (∀ i, i < k → 0 < (r i).velocity ∧ t1.slope (x0 + i * dx) = .ok (r i).slope ∧
          (r i).width * (r i).velocity * (r i).depth * (if mass then (r i).density else 1) =
            if mass then flux else (r i).effusionRate) ∧
        (∃ inner, TopEntry data "terrain_conditions" (.obj inner) ∧
          (mass = true ↔ ∃ v, lookup inner "mass_conservation" = some v ∧ SwitchesOn v)) ∧
        (0 < k → (r 0).crystal = phi0 ∧ (r 0).temp = T0) ∧
        (∀ i, i + 1 < k → RowLaws L dx (r i) (r (i + 1)) ∧ (r (i + 1)).yieldStrength < (r (i + 1)).basalStress ∧
          x0 + ((i + 1 : ℕ) : ℝ) * dx < length)) := by
  unfold runTextOn at h
  split at h
  · cases h
  rename_i text htext
  split at h
  · cases h
  rename_i data hload
  have hjson : JsonText F.float (universal text) data := (jsonLoads_iff F.float _ data).mp hload
  refine ⟨text, data, htext, hjson, ?_⟩
  cases hrun : runOn grid fuel (textEnv F disk) jsonFile folder (newRunner ⟨[(F.canon jsonFile, data)], [], []⟩) with
  | none => rw [hrun] at h; cases h
  | some q =>
  obtain ⟨res, p⟩ := q
  rw [hrun] at h
  dsimp only at h
  rw [Option.some.injEq, Prod.mk.injEq] at h
  obtain ⟨rfl, hdisk⟩ := h
  unfold runOn newRunner at hrun
  have hl : lookup [(F.canon jsonFile, data)] ((textEnv F disk).canon jsonFile) = some data := by
    rw [lookup_cons_eq]; exact if_pos rfl
  dsimp only at hrun
  rw [hl] at hrun
  dsimp only [Log.clear] at hrun
  cases hprep : prepare (textEnv F disk) data [] with
  | error e => rw [hprep] at hrun; cases hrun
  | ok pr =>
  rw [hprep] at hrun
  dsimp only at hrun
  obtain ⟨⟨r1, r2, r3, ⟨size, r4, r5⟩, inner, r6, r7⟩, ⟨t0, path, rows, c1, _, c3, c4, c5⟩, c6, c7, c8, c9, c10, c11, c12, _, _, _, c16, _, _, c19, _⟩ :=
    (C55_run_starts_from_the_configuration (textEnv F disk) data [] pr).mp hprep
  obtain ⟨c, hc, _, _, ⟨_, _, _, _, _, _, _, hL, _⟩, _⟩ := (C55_models_come_from_the_configuration _ data _).mp c6
  obtain ⟨profile, p1, p2⟩ := textEnv_slope F disk path rows c4 t0 _ c5
  have hterrain := c1
  obtain ⟨_, _, _, _, hlen, _⟩ := c1
  have hmax : pr.world.terrain.maxLength = t0.maxLength := by
    unfold Terrain.readSlopeText at p2
    obtain ⟨_, _, h⟩ := bind_ok_iff.mp p2
    obtain ⟨_, _, h⟩ := bind_ok_iff.mp h
    split at h
    · obtain ⟨_, _, h⟩ := bind_ok_iff.mp h
      obtain ⟨_, _, h⟩ := bind_ok_iff.mp h
      rw [pure_ok_iff] at h
      rw [← h]
    · obtain ⟨_, _, h⟩ := bind_ok_iff.mp h
      obtain ⟨_, _, h⟩ := bind_ok_iff.mp h
      rw [pure_ok_iff] at h
      rw [← h]
  refine ⟨pr.world.st.pos, pr.world.st.crystal, pr.world.st.temp, pr.integrator.dx, pr.integrator.models.lava.latentHeat,
    pr.world.terrain.maxLength, pr.cfg.lavaName, pr.cfg.rate, size, pr.world.terrain, c9, c11, c12, hL, by rw [hmax]; exact hlen, r4,
    by rw [c7]; exact r5, r2, r1, ⟨_, path, profile, t0, r3, c3, p1, hterrain, p2⟩, fun hdx => ?_⟩
  cases hsim : simulateOn grid fuel pr.integrator pr.world with
  | none => rw [hsim] at hrun; cases hrun
  | some q =>
  obtain ⟨res, w⟩ := q
  rw [hsim] at hrun
  cases res with
  | error e => dsimp only at hrun; simp at hrun
  | ok u =>
  cases u
  dsimp only at hrun
  cases hwr : writeValues w.log with
  | error e => rw [hwr] at hrun; dsimp only at hrun; simp at hrun
  | ok o =>
  rw [hwr] at hrun
  cases o with
  | none =>
    dsimp only at hrun
    rw [Option.some.injEq, Prod.mk.injEq] at hrun
    obtain ⟨_, rfl⟩ := hrun
    exact Or.inl hdisk.symm
  | some t =>
    dsimp only at hrun
    rw [Option.some.injEq, Prod.mk.injEq] at hrun
    obtain ⟨_, rfl⟩ := hrun
    right
    unfold simulateOn at hsim
    cases hinit : initEffusionRateOn grid pr.integrator.models.lava pr.world with
    | mk res w1 =>
    rw [hinit] at hsim
    cases res with
    | error e => dsimp only at hsim; simp at hsim
    | ok u =>
    cases u
    dsimp only at hsim
    obtain ⟨f1, f2, f3, f4, f5, f6, f7⟩ := search_frame _ _ _ _ hinit
    obtain ⟨lines, k, r, a1, a2, a3, a4, a5, a6, a7⟩ :=
      table_text F rd hstr hcr pr.integrator hdx fuel w1 w (by rw [f4]; exact c16) hsim t hwr
    refine ⟨_, lines, k, r, pr.integrator.massConservation, w1.fluxRate.getD 0, hdisk.symm, a1, a2, ?_, ?_, ?_, ⟨inner, r6, ?_⟩, ?_, ?_⟩
    · rw [← f1]; exact a3
    · rw [← f1]; exact a4
    · intro i hi
      obtain ⟨b1, _, b3, b4, b5⟩ := a5 i hi
      refine ⟨b1, by rw [← f1, ← f7]; exact b3, ?_⟩
      cases hm : pr.integrator.massConservation with
      | false => simpa using b4 hm
      | true =>
        obtain ⟨fl, e1, e2⟩ := b5 hm
        simpa [e1] using e2
    · rw [c8, r7, C54_mass_conservation]
      cases hlk : lookup inner "mass_conservation" with
      | none => simp [SwitchesOn]
      | some v => simp
    · intro hk
      obtain ⟨b1, b2, _⟩ := a6 hk
      exact ⟨b1.trans f2, b2.trans f3⟩
    · intro i hi
      obtain ⟨b1, _, b3, b4⟩ := a7 i hi
      exact ⟨b1, b3, by rw [← f1, ← f6]; exact b4⟩

/-! ### A run from text to text -/

/-- A number format: thousandths, `1500e-3`. -/
noncomputable def milliText (x : ℝ) : List Char := dumpInt ⌊1000 * x⌋ ++ ['e', '-', '3']

/-- … and how `float` reads it. -/
noncomputable def milliFloat (t : List Char) : Option ℝ := if t.isEmpty then none else some (intValue (t.take (t.length - 3)) / 1000)

/-- Rounding down to thousandths. -/
noncomputable def milliRound (x : ℝ) : ℝ := ⌊1000 * x⌋ / 1000

theorem milli_reads (x : ℝ) : milliFloat (milliText x) = some (milliRound x) := by
  have := (scanInt_complete (r := []) (dumpInt_text ⌊1000 * x⌋) (fun c hc => by simp at hc)).2
  simp [milliFloat, milliText, milliRound, this]

theorem milli_literal (x : ℝ) : RealText (milliText x) :=
  ⟨dumpInt ⌊1000 * x⌋, _, [], ['e', '-', '3'], by simp [milliText], dumpInt_text _, Or.inl rfl,
    Or.inr (by
      refine ⟨'e', ['-'], '3', [], ?_, ?_, ?_, ?_, ?_⟩ <;> simp [IsDigit]), Or.inr (by simp)⟩

theorem milli_readable (x : ℝ) (h : milliRound x = x) : Readable milliFloat milliText x :=
  ⟨Or.inl (milli_literal x), by rw [milli_reads, h]⟩

theorem milli_int (n : ℤ) : milliRound n = n := by
  unfold milliRound
  have : ⌊1000 * (n : ℝ)⌋ = 1000 * n := by
    rw [show (1000 : ℝ) * n = ((1000 * n : ℤ) : ℝ) by push_cast; ring]; exact Int.floor_intCast _
  rw [this]
  push_cast
  ring

theorem milli_chars (x : ℝ) : ∀ c ∈ milliText x, IsDigit c ∨ c = '-' ∨ c = 'e' := by
  have hint : ∀ n : ℤ, ∀ c ∈ dumpInt n, IsDigit c ∨ c = '-' := by
    intro n c hc
    cases n with
    | ofNat n => exact Or.inl ((natDigits_spec n).2.1 c hc)
    | negSucc n =>
      rcases List.mem_cons.mp hc with h | h
      · exact Or.inr h
      · exact Or.inl ((natDigits_spec (n + 1)).2.1 c h)
  intro c hc
  rcases List.mem_append.mp hc with h | h
  · rcases hint _ c h with h | h
    · exact Or.inl h
    · exact Or.inr (Or.inl h)
  · rcases List.mem_cons.mp h with rfl | h
    · exact Or.inr (Or.inr rfl)
    · rcases List.mem_cons.mp h with rfl | h
      · exact Or.inr (Or.inl rfl)
      · rw [List.mem_singleton.mp h]
        exact Or.inl (by simp [IsDigit])

theorem milli_clean (x : ℝ) (c : Char) (hc : c = '\r' ∨ c = '\n' ∨ c = '\t') : c ∉ milliText x := by
  intro h
  rcases hc with rfl | rfl | rfl <;> rcases milli_chars x _ h with h | h | h <;> simp [IsDigit] at h

/-- The platform of the example. -/
noncomputable def milliFormat (windows : Bool) : TextFormat ℝ :=
  { float := milliFloat, str := fun c => milliText c.value, showOther := fun _ => "", canon := id, windows := windows }

/-- The slope profile of the example as a text. -/
noncomputable def milliProfile : List Char :=
  tabFile .lf true ['h'] [[milliText 0, milliText 0, milliText 0, milliText 0, milliText 90],
    [milliText 0, milliText 0, milliText 0, milliText 2000, milliText 90]]

theorem milli_profile : slopeRows milliFloat (dataLines milliProfile) = .ok [⟨0, 0, 0, 0, 90⟩, ⟨0, 0, 0, 2000, 90⟩] := by
  have h0 : milliFloat (milliText 0) = some 0 := by rw [milli_reads]; simpa using milli_int 0
  have h1 : milliFloat (milliText 90) = some 90 := by rw [milli_reads]; simpa using milli_int 90
  have h2 : milliFloat (milliText 2000) = some 2000 := by rw [milli_reads]; simpa using milli_int 2000
  have hone : ∀ x, '\t' ∉ milliText x ∧ OneLine (milliText x) := fun x =>
    ⟨milli_clean x _ (by simp), milli_clean x _ (by simp), milli_clean x _ (by simp)⟩
  have hk : keepSlopeLines [(⟨0, 0, 0, 0, 90⟩ : SlopeLine ℝ), ⟨0, 0, 0, 2000, 90⟩] =
      [⟨0, 0, 0, 0, 90⟩, ⟨0, 0, 0, 2000, 90⟩] := by
    unfold keepSlopeLines
    have : leB (90 : ℝ) 0.1 = false := by
      rw [Bool.eq_false_iff]; simp only [ne_eq, leB_real]; norm_num
    simp [this]
  rw [← hk]
  refine (C73_same_samples milliFloat .lf ['h'] (by simp [OneLine]) _ _ ?_ ?_ 0).2.2
  · intro r hr
    simp only [List.mem_cons, List.not_mem_nil, or_false] at hr
    rcases hr with rfl | rfl
    · exact ⟨by simp, by simp [hone]⟩
    · exact ⟨by simp, by simp [hone]⟩
  · refine .cons ?_ (.cons ?_ .nil) <;> simp [RowIs, h0, h1, h2]

theorem section_distinct (num : String → String → ℝ) (sec : String) (pre : List (String × Json ℝ))
    (hpre : ∀ p ∈ pre, DistinctKeys p.2) (hk : (pre.map Prod.fst ++ ((allReq.filter (fun r => r.1 == sec)).map Prod.snd)).Nodup) :
    DistinctKeys (.obj (pre ++ exSection num sec)) := by
  rw [DistinctKeys, distinctMembers_iff]
  constructor
  · unfold exSection
    rw [List.map_append, List.map_map]
    exact hk
  · intro p hp
    rcases List.mem_append.mp hp with h | h
    · exact hpre p h
    · unfold exSection at h
      obtain ⟨_, _, rfl⟩ := List.mem_map.mp h
      simp [DistinctKeys]

theorem section_nums (P : ℝ → Prop) (num : String → String → ℝ) (h : ∀ a b, P (num a b)) (sec : String) (pre : List (String × Json ℝ))
    (hpre : ∀ p ∈ pre, NumsAll P p.2) : NumsAll P (.obj (pre ++ exSection num sec)) := by
  rw [NumsAll, numsMembers_iff]
  intro p hp
  rcases List.mem_append.mp hp with hp | hp
  · exact hpre p hp
  · unfold exSection at hp
    obtain ⟨_, _, rfl⟩ := List.mem_map.mp hp
    rw [NumsAll]
    exact h _ _

theorem still_distinct (num : String → String → ℝ) (c : Choice) (r : Int) : DistinctKeys (exConfigR (.int r) num c) := by
  unfold exConfigR exConfigM
  rw [DistinctKeys, distinctMembers_iff]
  refine ⟨by simp only [List.map_cons, List.map_nil]; decide, ?_⟩
  simp only [List.forall_mem_cons, List.not_mem_nil, false_implies, implies_true, and_true]
  have hs : ∀ sec, ((allReq.filter (fun r => r.1 == sec)).map Prod.snd).Nodup → DistinctKeys (.obj (exSection num sec)) :=
    fun sec h => by
      have := section_distinct num sec [] (by simp) (by simpa using h)
      simpa using this
  refine ⟨trivial, trivial, trivial, trivial, trivial, ?_, ?_, hs _ (by decide), hs _ (by decide), hs _ (by decide), hs _ (by decide),
    hs _ (by decide), section_distinct num _ [("crust_temperature_file", .str "crust.txt")] (by simp [DistinctKeys]) (by decide),
    hs _ (by decide), hs _ (by decide), hs _ (by decide), hs _ (by decide), ?_⟩
  · simp [DistinctKeys, DistinctMembers]
  · simp [DistinctKeys, DistinctMembers]
  · rw [List.append_nil]
    exact section_distinct num _ [("slope_smoothing_active", .bool false)] (by simp [DistinctKeys]) (by decide)

theorem still_nums (P : ℝ → Prop) (num : String → String → ℝ) (h : ∀ a b, P (num a b)) (c : Choice) (r : Int) :
    NumsAll P (exConfigR (.int r) num c) := by
  unfold exConfigR exConfigM
  rw [NumsAll, numsMembers_iff]
  simp only [List.forall_mem_cons, List.not_mem_nil, false_implies, implies_true, and_true]
  have hs : ∀ sec, NumsAll P (.obj (exSection num sec)) := fun sec => by
    have := section_nums P num h sec [] (by simp)
    simpa using this
  refine ⟨trivial, trivial, h _ _, trivial, trivial, ?_, ?_, hs _, hs _, hs _, hs _,
    hs _, section_nums P num h _ [("crust_temperature_file", .str "crust.txt")] (by simp [NumsAll]),
    hs _, hs _, hs _, hs _, ?_⟩
  · simp [NumsAll, NumsMembers]
  · simp [NumsAll, NumsMembers]
  · rw [List.append_nil]
    exact section_nums P num h _ [("slope_smoothing_active", .bool false)] (by simp [NumsAll])

theorem still_milli (n : ℕ) (a b : String) : milliRound (stillNum 3 n a b) = stillNum 3 n a b := by
  have hi : ∀ m : ℤ, ∀ x : ℝ, x = m → milliRound x = x := by rintro m x rfl; exact milli_int m
  unfold stillNum
  split
  · exact hi 3 _ (by norm_num)
  · exact hi n _ (by norm_num)
  · exact hi 0 _ (by norm_num)
  · exact hi 1000 _ (by norm_num)
  · exact hi 0 _ (by norm_num)
  · exact hi 0 _ (by norm_num)
  · exact hi 0 _ (by norm_num)
  · exact hi 0 _ (by norm_num)
  · unfold milliRound; norm_num
  · exact hi 0 _ (by norm_num)
  · exact hi 300 _ (by norm_num)
  · exact hi 10000000000 _ (by norm_num)
  · exact hi 0 _ (by norm_num)
  · exact hi 500 _ (by norm_num)
  · exact hi 300 _ (by norm_num)
  · exact hi 0 _ (by norm_num)
  · exact hi 0 _ (by norm_num)
  · exact hi 1 _ (by norm_num)

/-- The disk of the example: a configuration and a slope profile. -/
noncomputable def milliDisk (n : ℕ) : List (String × List Char) :=
  [("still.json", jsonDump milliText (stillConfig 3 n (.int 1))), ("slope.txt", milliProfile)]

/-- **C81**, non-vacuity: a complete run from text to text, with one, two or three lines in its result, on both kinds of
    platform. -/
theorem milli_run (windows : Bool) (n : Nat) (hn1 : 1 ≤ n) (hn3 : n ≤ 3) (folder : String) :
    ∃ out, runTextOn [1] n (milliFormat windows) "still.json" folder (milliDisk n) =
      some (.ok (), (resultFileName folder "example" "1", out) :: milliDisk n) := by
  have hslope : (textEnv (milliFormat windows) (milliDisk n)).slopeFile "slope.txt" = some [⟨0, 0, 0, 0, 90⟩, ⟨0, 0, 0, 2000, 90⟩] := by
    have : lookup (milliDisk n) "slope.txt" = some milliProfile := by
      unfold milliDisk; rw [lookup_cons_eq, if_neg (by simp), lookup_cons_eq, if_pos rfl]
    show (lookup (milliDisk n) "slope.txt").bind (fun t => (slopeRows milliFloat (dataLines t)).toOption) = _
    rw [this, Option.bind_some, milli_profile]
    rfl
  obtain ⟨log, t, _, _, _, _, hrun⟩ := still_run_in (textEnv (milliFormat windows) (milliDisk n)) hslope rfl n hn1 hn3 1 (Or.inr rfl) (fun _ x => x)
  have hload : jsonLoad (milliFormat windows).float (jsonDump milliText (stillConfig 3 n (.int 1))) = .ok (stillConfig 3 n (.int 1)) := by
    have := C79_round_trip milliFloat milliText (stillConfig 3 n (.int 1)) (still_distinct _ _ _)
      (still_nums _ _ (fun a b => milli_readable _ (still_milli n a b)) _ _) false
    simp only [stored, Bool.false_eq_true, if_false] at this
    exact this
  have hl : lookup (milliDisk n) ((milliFormat windows).canon "still.json") = some (jsonDump milliText (stillConfig 3 n (.int 1))) := by
    show lookup (milliDisk n) "still.json" = _
    unfold milliDisk; rw [lookup_cons_eq, if_pos rfl]
  have h1 := hrun "still.json" folder ⟨[("still.json", stillConfig 3 n (.int 1))], [], []⟩ (by rw [lookup_cons_eq, if_pos rfl])
  refine ⟨stored windows (t.text fun c => milliText c.value), ?_⟩
  unfold runTextOn
  rw [hl]
  dsimp only
  rw [hload]
  dsimp only
  rw [show (milliFormat windows).canon "still.json" = "still.json" from rfl, h1]
  rfl

/-- **C81**: its lines. -/
example (windows : Bool) (folder : String) : ∃ disk' text data, runTextOn [1] 3 (milliFormat windows) "still.json" folder (milliDisk 3) =
    some (.ok (), disk') ∧ disk' ≠ milliDisk 3 ∧ lookup (milliDisk 3) "still.json" = some text ∧ JsonText milliFloat (universal text) data := by
  obtain ⟨out, h⟩ := milli_run windows 3 (by norm_num) (by norm_num) folder
  obtain ⟨text, data, h1, h2, _⟩ := C81_run_on_texts (milliFormat windows) milliRound (fun c => milli_reads _)
    (fun c => milli_clean _ _ (by simp)) _ _ _ _ _ _ h
  exact ⟨_, text, data, h, by intro e; simpa using congrArg List.length e, h1, h2⟩

end PyFlowGo
