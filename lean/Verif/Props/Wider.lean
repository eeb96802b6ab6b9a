import Verif.Proofs.Wider
import Verif.Props.SupplyConfig
import Verif.Props.Radiance
/-
  C105: a wider channel fed proportionally faster carries the same flow.
-/
set_option linter.unusedSectionVars false
namespace PyFlowGo
open Spec

section prep
variable {k : ℝ} {env : Env ℝ} {c : Choice} {d d' : Json ℝ}

theorem sameModels_of_width (h : SameButWidth k env c d d') : SameModels env c d d' :=
  ⟨fun e he hn v => h.entry e he (fun hc => hn (by rw [hc]; decide)) v, h.idle, h.table, h.profile⟩

theorem sameButWidth_symm (hk : k ≠ 0) (h : SameButWidth k env c d d') : SameButWidth k⁻¹ env c d' d :=
  ⟨fun e he hn v => (h.entry e he hn v).symm, fun x => by rw [h.width, mul_inv_cancel_left₀ hk], fun r => by rw [h.rate, mul_inv_cancel_left₀ hk],
    fun t ht hn v => (h.top t ht hn v).symm, fun e he => (h.idle e he).symm, fun hc => (h.table hc).symm, fun hc => (h.profile hc).symm⟩

theorem width_terrain (h : SameButWidth k env c d d') (t : Terrain ℝ) (ht : buildTerrain env d = .ok t) :
    buildTerrain env d' = .ok (t.widened k) := by
  have e : ∀ key v, ("terrain_conditions", key) ∈ channelEntries → key ≠ "width" →
      EntryAt d "terrain_conditions" key v → EntryAt d' "terrain_conditions" key v := by
    intro key v hm hn
    exact (h.entry ("terrain_conditions", key) (by simp [usedEntries, hm]) (fun hc => hn (Prod.mk.inj hc).2) v).mp
  have n : ∀ key x, ("terrain_conditions", key) ∈ channelEntries → key ≠ "width" →
      NumberAt env d "terrain_conditions" key x → NumberAt env d' "terrain_conditions" key x := by
    rintro key x hm hn ⟨v, hv, hx⟩
    exact ⟨v, e key v hm hn hv, hx⟩
  unfold buildTerrain readSmoothingPoints at *
  simp only [bind_ok_iff, get_ok_iff, getF_ok_iff, getJ_ok_iff, pure_ok_iff] at *
  obtain ⟨a, h1, a', h2, dd, h3, w, h4, g, h5, l, h6, act, h7, pts, h8, sl, h9, rfl⟩ := ht
  obtain ⟨v, hv, hvr⟩ := (h.rate a').mp ⟨a, h1, h2⟩
  refine ⟨v, hv, _, hvr, dd, n _ _ (by simp [channelEntries]) (by decide) h3, _, (h.width w).mp h4, g,
    n _ _ (by simp [channelEntries]) (by decide) h5,
    l, n _ _ (by simp [channelEntries]) (by decide) h6, act, e _ _ (by simp [channelEntries]) (by decide) h7, pts, ?_, sl, h9, rfl⟩
  split
  · rename_i hs
    rw [if_pos hs, getF_ok_iff] at h8
    rw [getF_ok_iff]
    exact n _ _ (by simp [channelEntries]) (by decide) h8
  · rename_i hs
    rwa [if_neg hs] at h8

theorem loadSlope_width (t t' : Terrain ℝ) (s : Json ℝ) (h : loadSlope env t s = .ok t') :
    loadSlope env (t.widened k) s = .ok (t'.widened k) := by
  unfold loadSlope Terrain.widened at *
  dsimp only at *
  split
  · rename_i hp; rw [hp] at h; cases h
  · rename_i p hp
    rw [hp] at h
    dsimp only at h
    split
    · rename_i hs; rw [hs] at h; cases h
    · rename_i lines hs
      rw [hs] at h
      dsimp only at h
      unfold Terrain.readSlope at *
      simp only [bind_ok_iff] at *
      obtain ⟨a, h1, h⟩ := h
      refine ⟨a, h1, ?_⟩
      split
      · rename_i hb
        rw [if_pos hb] at h
        simp only [bind_ok_iff, pure_ok_iff] at h ⊢
        obtain ⟨b, h2, sp, h3, rfl⟩ := h
        exact ⟨b, h2, sp, h3, rfl⟩
      · rename_i hb
        rw [if_neg hb] at h
        simp only [bind_ok_iff, pure_ok_iff] at h ⊢
        obtain ⟨b, h2, sp, h3, rfl⟩ := h
        exact ⟨b, h2, sp, h3, rfl⟩

/-- What a run prepares from both configurations. -/
theorem width_prepare (hk : k ≠ 0) (h : SameButWidth k env c d d') (hs : SameSwitch d d') (hc : Selects d c)
    (log : Log (Cell ℝ)) (pr : Prepared ℝ) (hp : prepare env d log = .ok pr) :
    ∃ v', TopEntry d' "effusion_rate_init" v' ∧
      prepare env d' (log.widened k) = .ok { cfg := { pr.cfg with rate := v' }, integrator := pr.integrator, world := pr.world.widened k } := by
  have tp : ∀ k v, k ∈ usedTop → k ≠ "effusion_rate_init" → TopEntry d k v → TopEntry d' k v := fun k v hk hn => (h.top k hk hn v).mp
  have hp0 := hp
  unfold prepare readRunConfig at hp0
  simp only [bind_ok_iff, pure_ok_iff] at hp0
  obtain ⟨_, ⟨_, _, _, _, _, _, _, _, _, _, raw0, hraw, hcfg⟩, _⟩ := hp0
  unfold prepare at *
  simp only [bind_ok_iff, pure_ok_iff, getF_ok_iff] at hp
  obtain ⟨cfg, h1, t0, h2, tt, h3, m, h4, pos, h5, time, h6, st, h7, rfl⟩ := hp
  have hm : cfg.massConservation = massConservationOf raw0 := by
    unfold readRunConfig at h1
    simp only [bind_ok_iff, pure_ok_iff] at h1
    obtain ⟨_, _, _, _, _, _, _, _, _, _, raw1, hr1, rfl⟩ := h1
    rw [hraw] at hr1
    cases hr1
    rfl
  obtain ⟨a1, a2, a3, ⟨sz, a4, a4'⟩, inner, a5, a6⟩ := (readRunConfig_iff env d cfg).mp h1
  have h2' := width_terrain h t0 h2
  obtain ⟨v', hv'⟩ : ∃ v', TopEntry d' "effusion_rate_init" v' := by
    have := h2'
    unfold buildTerrain at this
    simp only [bind_ok_iff, get_ok_iff] at this
    obtain ⟨v', hv', _⟩ := this
    exact ⟨v', hv'⟩
  obtain ⟨inner', hi'⟩ : ∃ inner', TopEntry d' "terrain_conditions" (.obj inner') := by
    have : ∃ x, NumberAt env d' "terrain_conditions" "depth" x := by
      unfold buildTerrain at h2'
      simp only [bind_ok_iff, get_ok_iff, getF_ok_iff] at h2'
      obtain ⟨_, _, _, _, dd, h3, _⟩ := h2'
      exact ⟨dd, h3⟩
    obtain ⟨x, v, ⟨top, inner', g1, g2, _⟩, _⟩ := this
    exact ⟨inner', top, g1, g2⟩
  have hraw' : rawMassConservation d' = .ok ((lookup inner' "mass_conservation").getD (.bool false)) := by
    unfold rawMassConservation
    rw [(get_ok_iff d' _ _).mpr hi', ok_bind]
  have hsw := same_switch hs _ _ hraw hraw'
  simp only [bind_ok_iff, pure_ok_iff, getF_ok_iff]
  have hst : initialState m (tt.widened k) pos time = .ok st := by
    unfold initialState Terrain.widened at *
    simp only [bind_ok_iff, pure_ok_iff, div_ok_iff, npow_real] at *
    obtain ⟨phi, g1, a, ⟨g2, g2'⟩, x, ⟨g3, g3'⟩, rfl⟩ := h7
    refine ⟨phi, g1, _, ⟨g2, rfl⟩, _, ⟨mul_ne_zero hk g3, rfl⟩, ?_⟩
    congr 1
    rw [g3', g2']
    field_simp
  have num : ∀ e, e ∈ channelEntries → e ≠ ("terrain_conditions", "width") → ∀ x, NumberAt env d e.1 e.2 x → NumberAt env d' e.1 e.2 x := by
    rintro e he hn x ⟨v, hv, hx⟩
    exact ⟨v, (h.entry e (by simp [usedEntries, he]) hn v).mp hv, hx⟩
  refine ⟨v', hv', _, (readRunConfig_iff env d' { cfg with rate := v' }).mpr ⟨hv', tp _ _ (by simp [usedTop]) (by decide) a2,
    tp _ _ (by simp [usedTop]) (by decide) a3, ⟨sz, tp _ _ (by simp [usedTop]) (by decide) a4, a4'⟩, inner', hi', by
      show cfg.massConservation = _
      rw [hm, hsw]⟩, _, h2', _,
    loadSlope_width _ _ _ h3, m, same_factory (sameModels_of_width h) hc m h4, pos, num ("lava_state", "position") (by decide) (by decide) _ h5,
    time, num ("lava_state", "time") (by decide) (by decide) _ h6, _, hst, ?_⟩
  unfold newWorld World.widened
  dsimp only
  rw [show k * (0.0 : ℝ) = 0.0 by norm_num]
  rfl

end prep

theorem writeValues_widened (k : ℝ) (l : Log (Cell ℝ)) :
    writeValues (l.widened k) = (writeValues l).map fun t => t.map (CsvTable.widened k) := by
  have ek : ∀ r : Row (Cell ℝ), (Row.widened k r).keys = r.keys := by
    intro r
    unfold Row.widened Row.keys
    rw [List.map_map]
    apply List.map_congr_left
    intro kv _
    rfl
  have er : ∀ (hd : List String) (r : Row (Cell ℝ)), csvRow hd (Row.widened k r) =
      (csvRow hd r).map fun c => List.zipWith (fun name cell => cell.map (Cell.widened k name)) hd c := by
    intro hd r
    unfold csvRow
    rw [ek]
    split
    · show Except.ok _ = Except.ok _
      congr 1
      dsimp only
      rw [List.zipWith_map_right, List.zipWith_self]
      apply List.map_congr_left
      intro n _
      exact row_get_widened k r n
    · rfl
  cases l with
  | nil => rfl
  | cons r0 rest =>
    have em : ∀ (hd : List String) (l : List (Row (Cell ℝ))), (l.map (Row.widened k)).mapM (csvRow hd) = (l.mapM (csvRow hd)).map
        fun rows => rows.map fun c => List.zipWith (fun name cell => cell.map (Cell.widened k name)) hd c := by
      intro hd l
      induction l with
      | nil => rfl
      | cons r l ih =>
        rw [List.map_cons, List.mapM_cons, List.mapM_cons, er, ih]
        cases csvRow hd r with
        | error e => rfl
        | ok c => cases l.mapM (csvRow hd) <;> rfl
    unfold Log.widened
    rw [List.map_cons]
    unfold writeValues
    dsimp only
    rw [ek, ← List.map_cons, em]
    cases (r0 :: rest).mapM (csvRow r0.keys) <;> rfl

theorem widened_back (k : ℝ) (hk : k ≠ 0) (n : String) (x : ℝ) : widened k⁻¹ n (widened k n x) = x := by
  unfold widened
  by_cases h1 : n ∈ extensiveColumns
  · rw [if_pos h1, if_pos h1, inv_mul_cancel_left₀ hk]
  · rw [if_neg h1, if_neg h1]
    by_cases h2 : n = "spectral_radiance"
    · rw [if_pos h2, if_pos h2]
      field_simp
      ring
    · rw [if_neg h2, if_neg h2]

theorem log_widened_back (k : ℝ) (hk : k ≠ 0) (l : Log (Cell ℝ)) : (l.widened k).widened k⁻¹ = l := by
  unfold Log.widened
  rw [List.map_map]
  conv_rhs => rw [← List.map_id l]
  apply List.map_congr_left
  intro r _
  show Row.widened k⁻¹ (Row.widened k r) = r
  unfold Row.widened
  rw [List.map_map]
  conv_rhs => rw [← List.map_id r]
  apply List.map_congr_left
  rintro ⟨n, v⟩ _
  cases v <;> simp [Cell.widened, widened_back k hk]

/-- **C105**. Make the channel `k` times as wide and feed it `k` times as fast (`k` positive; a rate of zero stays zero). The run ends in the
    same way and shows the same rows, with the same positions, temperatures, crystal contents, velocities, depths and every other column but
    these: the width, the effusion rate and the heat exchanged per metre are `k` times as large, and so is the radiance above that of a pixel
    without lava. Or both runs raise before they change anything. -/
theorem C105_wider_channel (k : ℝ) (hk : 0 < k) (grid : List ℝ) (fuel : Nat) (env : Env ℝ) (jsonFile folder : String) (p p' : Proc ℝ)
    (d d' : Json ℝ) (hd : lookup p.json (env.canon jsonFile) = some d) (hd' : lookup p'.json (env.canon jsonFile) = some d')
    (hlog : p'.log = p.log.widened k) (c : Choice) (hc : Selects d c) (h : SameButWidth k env c d d') (hs : SameSwitch d d') :
    (∃ e e', runOn grid fuel env jsonFile folder p = some (.error e, p) ∧ runOn grid fuel env jsonFile folder p' = some (.error e', p')) ∨
    (runOn grid fuel env jsonFile folder p = none ∧ runOn grid fuel env jsonFile folder p' = none) ∨
    ∃ o log files files', runOn grid fuel env jsonFile folder p = some (o, { p with log := log, results := files }) ∧
      runOn grid fuel env jsonFile folder p' = some (o, { p' with log := log.widened k, results := files' }) ∧
      ((files = p.results ∧ files' = p'.results) ∨
        ∃ t lava v v', TopEntry d "lava_name" lava ∧ TopEntry d "effusion_rate_init" v ∧ TopEntry d' "effusion_rate_init" v' ∧
          writeValues log = .ok (some t) ∧
          files = writeFile p.results (env.canon (resultFileName folder (lava.show env) (v.show env))) t ∧
          files' = writeFile p'.results (env.canon (resultFileName folder (lava.show env) (v'.show env))) (t.widened k)) := by
  cases hp : prepare env d p.log with
  | error e =>
    cases hp' : prepare env d' (p.log.widened k) with
    | error e' =>
      refine .inl ⟨e, e', ?_, ?_⟩
      · unfold runOn; rw [hd]; dsimp only; rw [hp]
      · unfold runOn; rw [hd', hlog]; dsimp only; rw [hp']
    | ok pr =>
      obtain ⟨_, _, this⟩ := width_prepare (inv_ne_zero hk.ne') (sameButWidth_symm hk.ne' h) (fun v => (hs v).symm)
        (same_selects (sameModels_of_width h) hc) _ pr hp'
      rw [log_widened_back k hk.ne', hp] at this
      cases this
  | ok pr =>
    obtain ⟨v', hv', hp'⟩ := width_prepare hk.ne' h hs hc p.log pr hp
    rw [runOn_finish grid fuel env jsonFile folder p d hd pr hp,
      runOn_finish grid fuel env jsonFile folder p' d' hd' _ (by rw [hlog]; exact hp')]
    have hpc := hp
    rw [C55_run_starts_from_the_configuration] at hpc
    obtain ⟨⟨g1, g2, _⟩, _⟩ := hpc
    have key : outcome (simulateOn grid fuel pr.integrator (pr.world.widened k)) =
        (outcome (simulateOn grid fuel pr.integrator pr.world)).map fun o => (o.1, o.2.widened k) := by
      rw [simulate_widened k hk]
      cases simulateOn grid fuel pr.integrator pr.world <;> rfl
    dsimp only
    rw [key]
    refine .inr ?_
    generalize outcome (simulateOn grid fuel pr.integrator pr.world) = o
    cases o with
    | none => exact .inl ⟨rfl, rfl⟩
    | some o =>
      obtain ⟨o, l⟩ := o
      refine .inr ?_
      cases o with
      | error e => exact ⟨_, l, _, _, rfl, rfl, .inl ⟨rfl, rfl⟩⟩
      | ok _ =>
        unfold finishRun
        dsimp only [Option.map_some]
        rw [writeValues_widened]
        cases hw : writeValues l with
        | error e => exact ⟨_, l, _, _, rfl, rfl, .inl ⟨rfl, rfl⟩⟩
        | ok t =>
          cases t with
          | none => exact ⟨_, l, _, _, rfl, rfl, .inl ⟨rfl, rfl⟩⟩
          | some t => exact ⟨_, l, _, _, rfl, rfl, .inr ⟨t, _, _, _, g2, g1, hv', hw, rfl, rfl⟩⟩

/-- **C105**, what the rows show: in the wider channel the row of a position shows, in every column, the image of what it showed. -/
theorem C105_shown (k : ℝ) (log : Log (Cell ℝ)) (x : ℝ) (name : String) :
    loggedNum (log.widened k) x name = (loggedNum log x name).map (widened k name) := by
  have e : cellAt (log.widened k) (.num x) name = (cellAt log (.num x) name).map (Cell.widened k name) := by
    unfold cellAt Log.widened
    induction log with
    | nil => rfl
    | cons r l ih =>
      rw [List.map_cons]
      by_cases hb : r.atPosition (.num x) = true
      · rw [List.find?_cons_of_pos (by rw [row_at_widened]; exact hb), List.find?_cons_of_pos (by exact hb)]
        exact row_get_widened k r name
      · rw [List.find?_cons_of_neg (by rw [row_at_widened]; exact hb), List.find?_cons_of_neg (by exact hb)]
        exact ih
  unfold loggedNum
  rw [e]
  cases cellAt log (.num x) name with
  | none => rfl
  | some c => cases c <;> rfl

/-- **C105**, the columns one by one: the temperature of the core is among those that stay, the width among those that grow with `k`, and the
    radiance does neither: with `k = 2` it doubles only if a pixel without lava does not radiate, which it does. -/
theorem C105_radiance_is_not_proportional (x : ℝ) :
    widened 2 "core_temperature" x = x ∧ widened 2 "channel_width" x = 2 * x ∧ widened 2 "spectral_radiance" x ≠ 2 * x := by
  refine ⟨?_, ?_, ?_⟩
  · unfold widened; rw [if_neg (by decide), if_neg (by decide)]
  · unfold widened; rw [if_pos (by decide)]
  · unfold widened
    rw [if_neg (by decide), if_pos rfl]
    have h : 0 < snowRadiance := by
      unfold snowRadiance
      exact mul_pos (by norm_num) (C72_planck_pos 258 (by norm_num))
    intro e
    linarith

end PyFlowGo
