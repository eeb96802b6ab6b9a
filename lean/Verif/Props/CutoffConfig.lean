import Verif.Props.Relevant
import Verif.Props.Cutoff
import Verif.Props.Sweep
import Verif.Props.RelevantText
/-
  C96 on configuration files.
-/
set_option linter.unusedSectionVars false
namespace PyFlowGo
open Spec

section prep
variable {α : Type} [Add α] [Sub α] [Mul α] [Neg α] [OfScientific α] [PyNum α]
variable {c : Choice} {d d' : Json α} {env : Env α}

/-- The channel read from both configurations is the same but for its length. -/
theorem cut_terrain (h : SameButCut env c d d') (L : α) (hL : NumberAt env d' "terrain_conditions" "max_channel_length" L)
    (t : Terrain α) (ht : buildTerrain env d = .ok t) : buildTerrain env d' = .ok { t with maxLength := L } := by
  have e : ∀ key v, ("terrain_conditions", key) ∈ channelEntries → ("terrain_conditions", key) ∉ cutEntries →
      EntryAt d "terrain_conditions" key v → EntryAt d' "terrain_conditions" key v := by
    intro key v hm hn
    exact (h.entry ("terrain_conditions", key) (by simp [usedEntries, hm]) hn v).mp
  have n : ∀ key x, ("terrain_conditions", key) ∈ channelEntries → ("terrain_conditions", key) ∉ cutEntries →
      NumberAt env d "terrain_conditions" key x → NumberAt env d' "terrain_conditions" key x := by
    rintro key x hm hn ⟨v, hv, hx⟩
    exact ⟨v, e key v hm hn hv, hx⟩
  unfold buildTerrain readSmoothingPoints at *
  simp only [bind_ok_iff, get_ok_iff, getF_ok_iff, getJ_ok_iff, pure_ok_iff] at *
  obtain ⟨a, h1, a', h2, dd, h3, w, h4, g, h5, l, h6, act, h7, pts, h8, sl, h9, rfl⟩ := ht
  refine ⟨a, (h.top _ (by simp [usedTop]) _).mp h1, a', h2, dd, n _ _ (by simp [channelEntries]) (by simp [cutEntries]) h3,
    w, n _ _ (by simp [channelEntries]) (by simp [cutEntries]) h4, g, n _ _ (by simp [channelEntries]) (by simp [cutEntries]) h5,
    L, hL, act, e _ _ (by simp [channelEntries]) (by simp [cutEntries]) h7, pts, ?_, sl, h9, rfl⟩
  split
  · rename_i hs
    rw [if_pos hs, getF_ok_iff] at h8
    rw [getF_ok_iff]
    exact n _ _ (by simp [channelEntries]) (by simp [cutEntries]) h8
  · rename_i hs
    rwa [if_neg hs] at h8

/-- Reading the profile does not look at the length of the channel. -/
theorem loadSlope_length (L : α) (t t' : Terrain α) (s : Json α) (h : loadSlope env t s = .ok t') :
    loadSlope env { t with maxLength := L } s = .ok { t' with maxLength := L } := by
  unfold loadSlope at *
  dsimp only at *
  split
  · rename_i hp; rw [hp] at h; cases h
  · rename_i p hp
    rw [hp] at h
    dsimp only at h
    split
    · rename_i hs; rw [hs] at h; cases h
    · rename_i lines hs
      rw [hs] at h
      dsimp only at h
      unfold Terrain.readSlope at *
      simp only [bind_ok_iff] at *
      obtain ⟨a, h1, h⟩ := h
      refine ⟨a, h1, ?_⟩
      split
      · rename_i hb
        rw [if_pos hb] at h
        simp only [bind_ok_iff, pure_ok_iff] at h ⊢
        obtain ⟨b, h2, sp, h3, rfl⟩ := h
        exact ⟨b, h2, sp, h3, rfl⟩
      · rename_i hb
        rw [if_neg hb] at h
        simp only [bind_ok_iff, pure_ok_iff] at h ⊢
        obtain ⟨b, h2, sp, h3, rfl⟩ := h
        exact ⟨b, h2, sp, h3, rfl⟩

/-- The same preparation with another length of the channel and another time at the vent. -/
def Prepared.retimed (pr : Prepared α) (L t : α) : Prepared α := { pr with world := pr.world.retimed L t }

/-- What a run prepares from both configurations. -/
theorem cut_prepare (h : SameButCut env c d d') (hs : SameSwitch d d') (hc : Selects d c) (L t : α)
    (hL : NumberAt env d' "terrain_conditions" "max_channel_length" L) (ht : NumberAt env d' "lava_state" "time" t)
    (log : Log (Cell α)) (pr : Prepared α) (hp : prepare env d log = .ok pr) :
    prepare env d' log = .ok (pr.retimed L t) := by
  have tp : ∀ k v, k ∈ usedTop → TopEntry d k v → TopEntry d' k v := fun k v hk => (h.top k hk v).mp
  have hp0 := hp
  unfold prepare readRunConfig at hp0
  simp only [bind_ok_iff, pure_ok_iff] at hp0
  obtain ⟨_, ⟨_, _, _, _, _, _, _, _, _, _, raw0, hraw, hcfg⟩, _⟩ := hp0
  unfold prepare at *
  simp only [bind_ok_iff, pure_ok_iff, getF_ok_iff] at hp
  obtain ⟨cfg, h1, t0, h2, tt, h3, m, h4, pos, h5, time, h6, st, h7, rfl⟩ := hp
  have hm : cfg.massConservation = massConservationOf raw0 := by
    unfold readRunConfig at h1
    simp only [bind_ok_iff, pure_ok_iff] at h1
    obtain ⟨_, _, _, _, _, _, _, _, _, _, raw1, hr1, rfl⟩ := h1
    rw [hraw] at hr1
    cases hr1
    rfl
  obtain ⟨a1, a2, a3, ⟨v, a4, a4'⟩, inner, a5, a6⟩ := (readRunConfig_iff env d cfg).mp h1
  have h2' := cut_terrain h L hL t0 h2
  obtain ⟨inner', hi'⟩ : ∃ inner', TopEntry d' "terrain_conditions" (.obj inner') := by
    obtain ⟨v, ⟨top, inner', g1, g2, _⟩, _⟩ := hL
    exact ⟨inner', top, g1, g2⟩
  have hraw' : rawMassConservation d' = .ok ((lookup inner' "mass_conservation").getD (.bool false)) := by
    unfold rawMassConservation
    rw [(get_ok_iff d' _ _).mpr hi', ok_bind]
  have hsw := same_switch hs _ _ hraw hraw'
  simp only [bind_ok_iff, pure_ok_iff, getF_ok_iff]
  have hst : initialState m { tt with maxLength := L } pos t = .ok { st with time := t } := by
    unfold initialState at *
    simp only [bind_ok_iff, pure_ok_iff] at *
    obtain ⟨phi, g1, a, g2, x, g3, rfl⟩ := h7
    exact ⟨phi, g1, a, g2, x, g3, rfl⟩
  exact ⟨cfg, (readRunConfig_iff env d' _).mpr ⟨tp _ _ (by simp [usedTop]) a1, tp _ _ (by simp [usedTop]) a2,
    tp _ _ (by simp [usedTop]) a3, ⟨v, tp _ _ (by simp [usedTop]) a4, a4'⟩, inner', hi', by rw [hm, hsw]⟩, _, h2', _,
    loadSlope_length L _ _ _ h3, m, same_factory (sameModels_of_cut h) hc m h4, pos, (let ⟨v, hv, hx⟩ := h5; ⟨v, (h.entry ("lava_state", "position")
      (by simp [usedEntries, channelEntries]) (by simp [cutEntries]) v).mp hv, hx⟩), t, ht, _, hst, rfl⟩

end prep

/-- The models that read the clock are those of Hon. -/
theorem crust_clock {env : Env ℝ} {d : Json ℝ} {s : String} {m : CrustModel ℝ} (h : CrustFrom env d s m) (hm : m.readsClock) :
    s = "hon" ∨ s = "bimodal" := by
  unfold CrustFrom at h
  split at h
  · obtain ⟨_, _, rfl⟩ := h; exact hm.elim
  · exact .inl rfl
  · exact .inr rfl
  · obtain ⟨_, _, _, _, _, _, _, _, rfl⟩ := h; exact hm.elim
  · exact h.elim

theorem csvRows_take {ν : Type} (header : List String) (log : Log ν) (rows : List (List (Option ν))) (K : Nat)
    (h : log.mapM (csvRow header) = .ok rows) : (log.take K).mapM (csvRow header) = .ok (rows.take K) := by
  rw [mapM_ok_iff] at *
  exact List.forall₂_take K h

/-- A result file of the first `K` rows is the first `K` lines of the result file (and the header). -/
theorem writeValues_take {ν : Type} (log : Log ν) (K : Nat) (hK : 1 ≤ K) (t : CsvTable ν) (h : writeValues log = .ok (some t)) :
    writeValues (log.take K) = .ok (some { t with rows := t.rows.take K }) := by
  cases log with
  | nil => cases h
  | cons r0 rest =>
    obtain ⟨m, rfl⟩ : ∃ m, K = m + 1 := ⟨K - 1, by omega⟩
    unfold writeValues at *
    dsimp only [List.take_succ_cons] at *
    simp only [bind_ok_iff, pure_ok_iff] at h
    obtain ⟨rows, h1, h2⟩ := h
    cases h2
    have := csvRows_take _ _ _ (m + 1) h1
    rw [List.take_succ_cons] at this
    rw [this]
    rfl

/-- **C96** on configuration files. Two configurations that differ in `max_channel_length` (and in unused entries, and in the time at
    the vent if the crust model does not use it): if the run with the longer channel ends normally so does that with the shorter one,
    its log and its result file are the first `K` rows of the other, under the same name, `K` being the number of the first step
    that reaches the shorter end; and no file is written by the one exactly when none is written by the other. -/
theorem C96_max_channel_length (grid : List ℝ) (fuel : Nat) (env : Env ℝ) (jsonFile folder : String) (p p' : Proc ℝ)
    (d d' : Json ℝ) (hd : lookup p.json (env.canon jsonFile) = some d) (hd' : lookup p'.json (env.canon jsonFile) = some d')
    (hlog : p.log = []) (hlog' : p'.log = [])
    (c : Choice) (hc : Selects d c) (h : SameButCut env c d d') (hs : SameSwitch d d')
    (L L' : ℝ) (hL : NumberAt env d "terrain_conditions" "max_channel_length" L)
    (hL' : NumberAt env d' "terrain_conditions" "max_channel_length" L') (hle : L' ≤ L)
    (t' : ℝ) (ht' : NumberAt env d' "lava_state" "time" t')
    (hclock : c.crust = "hon" ∨ c.crust = "bimodal" → NumberAt env d "lava_state" "time" t')
    (x0 : ℝ) (hx0 : NumberAt env d "lava_state" "position" x0) (v : Json ℝ) (hv : TopEntry d "step_size" v) (dx : ℝ)
    (hdx : v.toFloat env = .ok dx) (hpos : 0 < dx)
    (K : ℕ) (hK : IsLeast {j : ℕ | 1 ≤ j ∧ L' ≤ x0 + j * dx} K)
    (q : Proc ℝ) (hrun : runOn grid fuel env jsonFile folder p = some (.ok (), q)) :
    ∃ results', runOn grid fuel env jsonFile folder p' = some (.ok (), { p' with log := q.log.take K, results := results' }) ∧
      ((q.log = [] ∧ q.results = p.results ∧ results' = p'.results) ∨
       ∃ name t, q.results = writeFile p.results name t ∧ results' = writeFile p'.results name { t with rows := t.rows.take K }) := by
  unfold runOn at *
  rw [hd] at hrun
  rw [hd']
  dsimp only at *
  cases hp : prepare env d p.log with
  | error e => rw [hp] at hrun; cases hrun
  | ok pr =>
    rw [hp] at hrun
    have hp' := cut_prepare h hs hc L' t' hL' ht' p.log pr hp
    rw [hlog] at hp'
    rw [hlog', hp']
    dsimp only at hrun ⊢
    have hpc := hp
    rw [C55_run_starts_from_the_configuration] at hpc
    obtain ⟨⟨_, _, _, ⟨v', hv', hsz⟩, _⟩, ⟨t0, path, rows, hT, _, _, _, hslope⟩, hmod, hgdx, _, gpos, gtime, _, _, _, _, _, glog, _, _, git, gfin⟩ := hpc
    have e1 : pr.integrator.dx = dx := by
      rw [topEntry_unique hv' hv, hdx] at hsz
      rw [hgdx]
      exact (Except.ok.inj hsz).symm
    have num : ∀ {s k : String} {x y : ℝ}, NumberAt env d s k x → NumberAt env d s k y → x = y := by
      rintro s k x y ⟨v, h1, h2⟩ ⟨v', h1', h2'⟩
      rw [entry_unique h1 h1'] at h2
      rw [h2] at h2'
      exact Except.ok.inj h2'
    have e2 : pr.world.st.pos = x0 := num gpos hx0
    have e3 : pr.world.terrain.maxLength = L := by
      obtain ⟨sp, e⟩ := readSlope_keeps hslope
      rw [e]
      obtain ⟨_, _, _, _, g5, _⟩ := hT
      exact num g5 hL
    have e4 : pr.integrator.models.crust.readsClock → t' = pr.world.st.time := by
      intro hr
      obtain ⟨c', hc', hm⟩ := (C55_models_come_from_the_configuration _ _ _).mp hmod
      rw [selects_unique hc' hc] at hm
      obtain ⟨_, _, _, _, hcr, _⟩ := hm
      exact num (hclock (crust_clock hcr hr)) gtime
    cases hsim : simulateOn grid fuel pr.integrator pr.world with
    | none => rw [hsim] at hrun; cases hrun
    | some o =>
      obtain ⟨r, w⟩ := o
      rw [hsim] at hrun
      cases r with
      | error e => cases hrun
      | ok _ =>
        dsimp only at hrun
        obtain ⟨w1, hsim1, hl1⟩ := C96_shorter_channel grid fuel pr.integrator (by rw [e1]; exact hpos) pr.world (glog.trans hlog) gfin L' t'
          (by rw [e3]; exact hle) e4 K (by rw [e1, e2]; exact hK) w hsim
        have hsim2 : simulateOn grid fuel (pr.retimed L' t').integrator (pr.retimed L' t').world = some (.ok (), w1) := hsim1
        rw [hsim2]
        dsimp only
        rw [hl1]
        have hK1 := hK.1.1
        cases hw : writeValues w.log with
        | error e => rw [hw] at hrun; cases hrun
        | ok o =>
          rw [hw] at hrun
          cases o with
          | none =>
            have hnil : w.log = [] := by
              cases hwl : w.log with
              | nil => rfl
              | cons a b =>
                rw [hwl] at hw
                unfold writeValues at hw
                simp only [bind_ok_iff, pure_ok_iff] at hw
                obtain ⟨_, _, hw⟩ := hw
                cases hw
            dsimp only at hrun
            obtain rfl := (Prod.mk.inj (Option.some.inj hrun)).2
            refine ⟨p'.results, ?_, .inl ⟨hnil, rfl, rfl⟩⟩
            rw [hnil, List.take_nil]
            rfl
          | some t =>
            dsimp only at hrun
            obtain rfl := (Prod.mk.inj (Option.some.inj hrun)).2
            rw [writeValues_take _ K hK1 t hw]
            exact ⟨_, rfl, .inr ⟨_, t, rfl, rfl⟩⟩

/-- The text of the first rows of a table is the beginning of the text of the table. -/
theorem text_take {ν : Type} (render : ν → List Char) (windows : Bool) (t : CsvTable ν) (K : Nat) :
    stored windows (({ t with rows := t.rows.take K } : CsvTable ν).text render) <+: stored windows (t.text render) := by
  have h : (({ t with rows := t.rows.take K } : CsvTable ν).text render) <+: t.text render := by
    unfold CsvTable.text csvWrite
    dsimp only
    rw [List.flatMap_cons, List.flatMap_cons]
    conv_rhs => rw [← List.take_append_drop K t.rows, List.map_append, List.flatMap_append]
    rw [← List.append_assoc]
    exact List.prefix_append _ _
  obtain ⟨r, hr⟩ := h
  rw [← hr]
  cases windows
  · exact List.prefix_append _ _
  · rw [stored_append]
    exact List.prefix_append _ _

/-- **C96** on the texts: the result file of the run with the shorter channel has the same name and is the beginning of the result
    file of the run with the longer one: its header and its first `K` rows, character by character. -/
theorem C96_result_file_is_a_beginning (F : TextFormat ℝ) (grid : List ℝ) (fuel : Nat) (jsonFile folder : String)
    (disk₁ disk₂ : List (String × List Char)) (text₁ text₂ : List Char) (d d' : Json ℝ)
    (h₁ : lookup disk₁ (F.canon jsonFile) = some text₁) (h₂ : lookup disk₂ (F.canon jsonFile) = some text₂)
    (hd₁ : JsonText F.float (universal text₁) d) (hd₂ : JsonText F.float (universal text₂) d')
    (hp : ∀ path, MayRead d path →
      (lookup disk₁ (F.canon path)).map dataLines = (lookup disk₂ (F.canon path)).map dataLines)
    (c : Choice) (hc : Selects d c) (h : SameButCut (textEnv F disk₁) c d d') (hs : SameSwitch d d')
    (L L' : ℝ) (hL : NumberAt (textEnv F disk₁) d "terrain_conditions" "max_channel_length" L)
    (hL' : NumberAt (textEnv F disk₁) d' "terrain_conditions" "max_channel_length" L') (hle : L' ≤ L)
    (t' : ℝ) (ht' : NumberAt (textEnv F disk₁) d' "lava_state" "time" t')
    (hclock : c.crust = "hon" ∨ c.crust = "bimodal" → NumberAt (textEnv F disk₁) d "lava_state" "time" t')
    (x0 : ℝ) (hx0 : NumberAt (textEnv F disk₁) d "lava_state" "position" x0) (v : Json ℝ) (hv : TopEntry d "step_size" v) (dx : ℝ)
    (hdx : v.toFloat (textEnv F disk₁) = .ok dx) (hpos : 0 < dx)
    (K : ℕ) (hK : IsLeast {j : ℕ | 1 ≤ j ∧ L' ≤ x0 + j * dx} K)
    (after₁ : List (String × List Char)) (hrun : runTextOn grid fuel F jsonFile folder disk₁ = some (.ok (), after₁)) :
    (after₁ = disk₁ ∧ runTextOn grid fuel F jsonFile folder disk₂ = some (.ok (), disk₂)) ∨
    ∃ (name : String) (t : CsvTable (Cell ℝ)) (file₁ file₂ : List Char), after₁ = writeFile disk₁ name file₁ ∧
      runTextOn grid fuel F jsonFile folder disk₂ = some (.ok (), writeFile disk₂ name file₂) ∧ file₂ <+: file₁ ∧
      file₁ = stored F.windows (t.text F.str) ∧ file₂ = stored F.windows (({ t with rows := t.rows.take K } : CsvTable (Cell ℝ)).text F.str) := by
  rw [runTextOn_value F grid fuel jsonFile folder disk₁ text₁ d h₁ hd₁] at hrun
  rw [runTextOn_value F grid fuel jsonFile folder disk₂ text₂ d' h₂ hd₂]
  have hp' : ∀ path, MayRead d' path →
      (lookup disk₁ (F.canon path)).map dataLines = (lookup disk₂ (F.canon path)).map dataLines := by
    intro path hm
    refine hp path ?_
    have ht := fun v => h.top "slope_file" (by simp [usedTop]) v
    rcases hm with hm | ⟨hm, e⟩ | hm
    · exact .inl ((ht _).mpr hm)
    · exact .inr (.inl ⟨(ht _).mpr hm, e⟩)
    · exact .inr (.inr hm)
  rw [runOn_disks F grid fuel jsonFile folder disk₁ disk₂ d' hp']
  have hl : ∀ d : Json ℝ, lookup (newRunner (⟨[(F.canon jsonFile, d)], [], []⟩ : Proc ℝ)).json ((textEnv F disk₁).canon jsonFile) = some d := by
    intro d
    show lookup [(F.canon jsonFile, d)] (F.canon jsonFile) = some d
    rw [lookup_cons_eq, if_pos rfl]
  rw [Option.map_eq_some_iff] at hrun
  obtain ⟨⟨r, q⟩, hq, hq2⟩ := hrun
  obtain ⟨e1, e2⟩ := Prod.mk.inj hq2
  dsimp only at e1 e2
  subst e1
  obtain ⟨res, r2, hcase⟩ := C96_max_channel_length grid fuel (textEnv F disk₁) jsonFile folder
    (newRunner ⟨[(F.canon jsonFile, d)], [], []⟩) (newRunner ⟨[(F.canon jsonFile, d')], [], []⟩) d d' (hl d) (hl d') rfl rfl c hc h hs
    L L' hL hL' hle t' ht' hclock x0 hx0 v hv dx hdx hpos K hK q hq
  rw [r2]
  rcases hcase with ⟨_, g1, g2⟩ | ⟨name, t, g1, g2⟩
  · left
    rw [← e2, g1, g2]
    exact ⟨rfl, rfl⟩
  · right
    refine ⟨name, t, _, _, ?_, ?_, text_take F.str F.windows t K, rfl, rfl⟩
    · rw [← e2, g1]; rfl
    · rw [g2]; rfl

/-- The numbers of the still example with a shorter channel and another time at the vent. -/
noncomputable def cutNum (len t : ℝ) (s k : String) : ℝ :=
  if k = "max_channel_length" then len else if k = "time" then t else stillNum 3 3 s k

theorem cut_same_in (env : Env ℝ) (len t : ℝ) :
    SameButCut env stillChoice (stillConfig 3 3 (.int 1)) (exConfigR (.int 1) (cutNum len t) stillChoice) ∧
    SameSwitch (stillConfig 3 3 (.int 1)) (exConfigR (.int 1) (cutNum len t) stillChoice) := by
  suffices hh : ∀ e ∈ allReq, e ∈ usedEntries stillChoice → e ∉ cutEntries → stillNum 3 3 e.1 e.2 = cutNum len t e.1 e.2 by
    have := exConfig_cut env (.int 1) (stillNum 3 3) (cutNum len t) stillChoice [] [] (fun _ _ => rfl) (fun _ _ => rfl)
      (by unfold cutNum; rw [if_neg (by decide), if_neg (by decide)]) hh
    exact ⟨this.1, this.2 rfl⟩
  intro e ha _ hn
  have h1 : e.2 ≠ "max_channel_length" ∧ e.2 ≠ "time" := by
    revert ha hn
    revert e
    decide
  unfold cutNum
  rw [if_neg h1.1, if_neg h1.2]

theorem cut_same (len t : ℝ) :
    SameButCut exEnv stillChoice (stillConfig 3 3 (.int 1)) (exConfigR (.int 1) (cutNum len t) stillChoice) ∧
    SameSwitch (stillConfig 3 3 (.int 1)) (exConfigR (.int 1) (cutNum len t) stillChoice) := cut_same_in exEnv len t

/-- **C96**: a run of three rows and the run in a channel two thirds as long, which starts at another time: its two rows are the first
    two of the other, and so is its result file. -/
theorem cut_example : ∃ log t, log.length = 3 ∧ writeValues log = .ok (some t) ∧
    runOn [1] 3 exEnv "still.json" "out" ⟨[("still.json", stillConfig 3 3 (.int 1))], [], []⟩ =
      some (.ok (), ⟨[("still.json", stillConfig 3 3 (.int 1))], [(resultFileName "out" "example" (toString (1 : Int)), t)], log⟩) ∧
    runOn [1] 3 exEnv "still.json" "out" ⟨[("still.json", exConfigR (.int 1) (cutNum 2 17) stillChoice)], [], []⟩ =
      some (.ok (), ⟨[("still.json", exConfigR (.int 1) (cutNum 2 17) stillChoice)],
        [(resultFileName "out" "example" (toString (1 : Int)), { t with rows := t.rows.take 2 })], log.take 2⟩) := by
  obtain ⟨log, t, ⟨hlen, _⟩, hne, hw, _, _, hrun⟩ := still_run_all exEnv rfl rfl 3 (by omega) (by omega) 1 (.inr rfl) (fun _ x => x)
  have r0 := hrun "still.json" "out" ⟨[("still.json", stillConfig 3 (3 : ℕ) (.int 1))], [], []⟩ (by rw [lookup_cons_eq, if_pos rfl])
  have r1 : runOn [1] 3 exEnv "still.json" "out" ⟨[("still.json", stillConfig 3 3 (.int 1))], [], []⟩ =
      some (.ok (), ⟨[("still.json", stillConfig 3 3 (.int 1))], [(resultFileName "out" "example" (toString (1 : Int)), t)], log⟩) := by
    have e3 : ((3 : ℕ) : ℝ) = 3 := by norm_num
    rw [e3] at r0
    exact r0
  refine ⟨log, t, hlen, hw, r1, ?_⟩
  have N := still_number exEnv 3 3 (.int 1)
  have N' : ∀ e ∈ allReq, NumberAt exEnv (exConfigR (.int 1) (cutNum 2 17) stillChoice) e.1 e.2 (cutNum 2 17 e.1 e.2) :=
    fun e he => exConfig_number exEnv _ _ e he
  obtain ⟨res, h1, h3⟩ := C96_max_channel_length [1] 3 exEnv "still.json" "out" ⟨[("still.json", stillConfig 3 3 (.int 1))], [], []⟩
    ⟨[("still.json", exConfigR (.int 1) (cutNum 2 17) stillChoice)], [], []⟩ (stillConfig 3 3 (.int 1))
    (exConfigR (.int 1) (cutNum 2 17) stillChoice) (by show lookup [_] "still.json" = _; rw [lookup_cons_eq, if_pos rfl])
    (by show lookup [_] "still.json" = _; rw [lookup_cons_eq, if_pos rfl]) rfl rfl stillChoice (exConfig_selects _ _) (cut_same 2 17).1 (cut_same 2 17).2
    3 2 (N ("terrain_conditions", "max_channel_length") (by decide)) (N' ("terrain_conditions", "max_channel_length") (by decide)) (by norm_num)
    17 (N' ("lava_state", "time") (by decide)) (by rintro (h | h) <;> exact absurd h (by decide))
    0 (N ("lava_state", "position") (by decide)) (.num 1) ⟨_, rfl, rfl⟩ 1 rfl (by norm_num)
    2 ⟨⟨by norm_num, by norm_num⟩, by
      rintro j ⟨_, hj⟩
      have : (2 : ℝ) ≤ j := by linarith
      exact_mod_cast this⟩ _ r1
  rw [h1]
  rcases h3 with ⟨h3, _⟩ | ⟨name, t2, h3, h4⟩
  · exact absurd h3 hne
  · have h5 : (resultFileName "out" "example" (toString (1 : Int)), t) = (name, t2) := (List.cons.inj h3).1
    obtain ⟨rfl, rfl⟩ := Prod.mk.inj h5
    rw [h4]
    rfl

end PyFlowGo
