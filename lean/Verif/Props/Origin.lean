import Verif.Proofs.Shift
import Verif.Props.SupplyConfig
/-
  C98: a run does not depend on the origin of the position coordinate.
-/
set_option linter.unusedSectionVars false
namespace PyFlowGo
open Spec

theorem moved_moved_env (δ : ℝ) (env : Env ℝ) : (env.moved δ).moved (-δ) = env := by
  unfold Env.moved
  cases env with
  | mk a b c s f k =>
    congr 1
    · funext p
      dsimp only
      cases s p with
      | none => rfl
      | some rows =>
        simp only [Option.map_some, List.map_map]
        congr 1
        conv_rhs => rw [← List.map_id rows]
        apply List.map_congr_left
        intro r _
        simp [SlopeLine.moved]
    · funext p
      dsimp only
      cases f p with
      | none => rfl
      | some rows =>
        simp only [Option.map_some, List.map_map]
        congr 1
        conv_rhs => rw [← List.map_id rows]
        apply List.map_congr_left
        intro r _
        simp

theorem moved_moved_log (δ : ℝ) (l : Log (Cell ℝ)) : (l.moved δ).moved (-δ) = l := by
  unfold Log.moved
  rw [List.map_map]
  conv_rhs => rw [← List.map_id l]
  apply List.map_congr_left
  intro r _
  show Row.moved (-δ) (Row.moved δ r) = r
  unfold Row.moved
  rw [List.map_map]
  conv_rhs => rw [← List.map_id r]
  apply List.map_congr_left
  rintro ⟨k, v⟩ _
  by_cases hk : k = "position"
  · cases v <;> simp [hk, Cell.plus]
  · simp [hk]

theorem number_moved (δ : ℝ) (env : Env ℝ) : NumberAt (env.moved δ) = NumberAt env := rfl

section
variable {δ : ℝ} {env : Env ℝ} {c : Choice} {d d' : Json ℝ}

theorem sameButOrigin_symm (h : SameButOrigin δ env c d d') : SameButOrigin (-δ) (env.moved δ) c d' d :=
  ⟨fun e he hn v => (h.entry e he hn v).symm, fun e he ho x => by
      rw [number_moved, h.moved e he ho (x + -δ), neg_add_cancel_right], fun k hk v => (h.top k hk v).symm,
    fun e he => by rw [number_moved]; exact (h.idle e he).symm, fun hc => (h.table hc).symm, fun hc => (h.profile hc).symm⟩

theorem not_origin_name : ∀ e ∈ nameEntries, e ∉ originEntries := by simp [nameEntries, originEntries]

/-- A needed number that is not a position. -/
theorem origin_number (h : SameButOrigin δ env c d d') (sec key : String)
    (he : (sec, key) ∈ requiredNumbers c ∧ (sec, key) ∉ idleNumbers c) (hk : (sec, key) ∉ originEntries) (x : ℝ) :
    NumberAt env d sec key x → NumberAt env d' sec key x := by
  rintro ⟨v, hv, hx⟩
  exact ⟨v, (h.entry (sec, key) (by simp [usedEntries, he.1, he.2]) hk v).mp hv, hx⟩

theorem origin_numbers (h : SameButOrigin δ env c d d') : SameNumbers env c d d' := by
  intro sec key he x hx hk
  refine origin_number h sec key he ?_ x hx
  have := required_not_channel he.1
  intro ho
  simp only [originEntries, List.mem_cons, Prod.mk.injEq, List.not_mem_nil, or_false] at ho
  rcases ho with ⟨rfl, rfl⟩ | ⟨rfl, rfl⟩ | ⟨rfl, rfl⟩
  · exact this (by decide)
  · exact this (by decide)
  · exact hk rfl

/-- The critical distance. -/
theorem origin_distance (h : SameButOrigin δ env c d d') (he : ("lava_state", "critical_distance") ∈ requiredNumbers c) (x : ℝ) :
    NumberAt env d "lava_state" "critical_distance" x → NumberAt env d' "lava_state" "critical_distance" (x + δ) := by
  refine (h.moved ("lava_state", "critical_distance") ?_ (by simp [originEntries]) x).mp
  have : ("lava_state", "critical_distance") ∉ idleNumbers c := fun hi => by
    rcases idle_keys hi with ⟨h, _⟩ | ⟨h, _⟩ | ⟨h, _⟩ <;> exact absurd h (by decide)
  simp [usedEntries, he, this]

theorem origin_cryst (h : SameButOrigin δ env c d d') (m : CrystModel ℝ) (hm : CrystFrom env d c.cryst m) :
    CrystFrom env d' c.cryst (m.moved δ) := by
  have n := fun sec key he hk x => origin_number h sec key he hk x
  have q : ∀ e, e ∈ crystReq c.cryst → e.2 ∉ ["max_packing", "crust_temperature", "crust_temperature_1"] →
      e ∈ requiredNumbers c ∧ e ∉ idleNumbers c := by
    intro e he hk
    refine ⟨by simp [requiredNumbers, he], fun hi => hk ?_⟩
    rcases idle_keys hi with ⟨h, _⟩ | ⟨h, _⟩ | ⟨h, _⟩ <;> simp [h]
  have nd := fun he => origin_distance h he
  have t := h.table
  unfold CrystFrom at *
  generalize c.cryst = s at *
  split at hm
  all_goals simp only [crystReq] at q
  · obtain ⟨f, g, ts, te, h1, h2, h3, h4, rfl⟩ := hm
    exact ⟨f, g, ts, te, n _ _ (q _ (by simp) (by decide)) (by decide) _ h1, n _ _ (q _ (by simp) (by decide)) (by decide) _ h2,
      n _ _ (q _ (by simp) (by decide)) (by decide) _ h3, n _ _ (q _ (by simp) (by decide)) (by decide) _ h4, rfl⟩
  · obtain ⟨f, g, r1, r2, ts, te, h1, h2, h3, h4, h5, h6, rfl⟩ := hm
    exact ⟨f, g + δ, r1, r2, ts, te, n _ _ (q _ (by simp) (by decide)) (by decide) _ h1, nd (q _ (by simp) (by decide)).1 _ h2,
      n _ _ (q _ (by simp) (by decide)) (by decide) _ h3,
      n _ _ (q _ (by simp) (by decide)) (by decide) _ h4, n _ _ (q _ (by simp) (by decide)) (by decide) _ h5,
      n _ _ (q _ (by simp) (by decide)) (by decide) _ h6, rfl⟩
  · obtain ⟨f, g, r1, r2, ts, te, h1, h2, h3, h4, h5, h6, rfl⟩ := hm
    exact ⟨f, g, r1, r2, ts, te, n _ _ (q _ (by simp) (by decide)) (by decide) _ h1, n _ _ (q _ (by simp) (by decide)) (by decide) _ h2,
      n _ _ (q _ (by simp) (by decide)) (by decide) _ h3,
      n _ _ (q _ (by simp) (by decide)) (by decide) _ h4, n _ _ (q _ (by simp) (by decide)) (by decide) _ h5,
      n _ _ (q _ (by simp) (by decide)) (by decide) _ h6, rfl⟩
  · obtain ⟨f, ts, te, h1, h2, h3, ⟨v, hv⟩, rfl⟩ := hm
    exact ⟨f, ts, te, n _ _ (q _ (by simp) (by decide)) (by decide) _ h1, n _ _ (q _ (by simp) (by decide)) (by decide) _ h2,
      n _ _ (q _ (by simp) (by decide)) (by decide) _ h3, (t rfl).mp ⟨v, hv⟩, rfl⟩
  · exact hm.elim

theorem origin_ves (h : SameButOrigin δ env c d d') (hves : c.ves = "constant" ∨ c.ves = "bimodal") (m : VesicleModel ℝ)
    (hm : VesFrom env d c.ves m) : VesFrom env d' c.ves (m.moved δ) := by
  have n := fun sec key he hk x => origin_number h sec key he hk x
  have q : ∀ e, e ∈ vesReq c.ves → e.2 ∉ ["max_packing", "crust_temperature", "crust_temperature_1"] →
      e ∈ requiredNumbers c ∧ e ∉ idleNumbers c := by
    intro e he hk
    refine ⟨by simp [requiredNumbers, he], fun hi => hk ?_⟩
    rcases idle_keys hi with ⟨h, _⟩ | ⟨h, _⟩ | ⟨h, _⟩ <;> simp [h]
  have nd := fun he => origin_distance h he
  unfold VesFrom at *
  generalize c.ves = s at *
  rcases hves with rfl | rfl
  · simp only [vesReq] at q
    obtain ⟨a, h1, rfl⟩ := hm
    exact ⟨a, n _ _ (q _ (by simp) (by decide)) (by decide) _ h1, rfl⟩
  · simp only [vesReq] at q
    obtain ⟨a, b, c', h1, h2, h3, rfl⟩ := hm
    exact ⟨a + δ, b, c', nd (q _ (by simp) (by decide)).1 _ h1, n _ _ (q _ (by simp) (by decide)) (by decide) _ h2,
      n _ _ (q _ (by simp) (by decide)) (by decide) _ h3, rfl⟩

theorem origin_cover (h : SameButOrigin δ env c d d') (m : CoverModel ℝ) (hm : CoverFrom env d c.cover m) :
    CoverFrom env d' c.cover (m.moved δ) := by
  have n := fun sec key he hk x => origin_number h sec key he hk x
  have q : ∀ e, e ∈ coverReq c.cover → e.2 ∉ ["max_packing", "crust_temperature", "crust_temperature_1"] →
      e ∈ requiredNumbers c ∧ e ∉ idleNumbers c := by
    intro e he hk
    refine ⟨by simp [requiredNumbers, he], fun hi => hk ?_⟩
    rcases idle_keys hi with ⟨h, _⟩ | ⟨h, _⟩ | ⟨h, _⟩ <;> simp [h]
  have nd := fun he => origin_distance h he
  unfold CoverFrom at *
  generalize c.cover = s at *
  split at hm
  all_goals simp only [coverReq] at q
  · obtain ⟨a, b, h1, h2, rfl⟩ := hm
    exact ⟨a, b, n _ _ (q _ (by simp) (by decide)) (by decide) _ h1, n _ _ (q _ (by simp) (by decide)) (by decide) _ h2, rfl⟩
  · obtain ⟨a, b, c', d1, e, h1, h2, h3, h4, h5, rfl⟩ := hm
    exact ⟨a + δ, b, c', d1, e, nd (q _ (by simp) (by decide)).1 _ h1, n _ _ (q _ (by simp) (by decide)) (by decide) _ h2,
      n _ _ (q _ (by simp) (by decide)) (by decide) _ h3, n _ _ (q _ (by simp) (by decide)) (by decide) _ h4,
      n _ _ (q _ (by simp) (by decide)) (by decide) _ h5, rfl⟩
  · exact hm.elim

theorem crustField_moved (δ : ℝ) (rows : List (ℝ × ℝ)) :
    readCrustField (rows.map fun r => (r.1 + δ, r.2)) = (readCrustField rows).map (Spline.moved δ) := by
  unfold readCrustField
  rw [← make_moved, List.map_map, List.map_map, List.map_map]
  rfl

theorem origin_crust (h : SameButOrigin δ env c d d') (m : CrustModel ℝ) (hm : CrustFrom env d c.crust m) :
    CrustFrom (env.moved δ) d' c.crust (m.moved δ) := by
  have n := fun sec key he hk x => origin_number h sec key he hk x
  have q : ∀ e, e ∈ crustReq c.crust → e.2 ≠ "max_packing" → (e.2 = "crust_temperature" → c.crust ≠ "hon") →
      (e.2 = "crust_temperature_1" → c.crust ≠ "bimodal") → e ∈ requiredNumbers c ∧ e ∉ idleNumbers c := by
    intro e he hm h1 h2
    refine ⟨by simp [requiredNumbers, he], fun hi => ?_⟩
    rcases idle_keys hi with ⟨h, _⟩ | ⟨h, h'⟩ | ⟨h, h'⟩
    · exact hm h
    · exact h1 h h'
    · exact h2 h h'
  have i1 : c.crust = "hon" → (∃ x, NumberAt env d "thermal_parameters" "crust_temperature" x) →
      ∃ x, NumberAt env d' "thermal_parameters" "crust_temperature" x := by
    intro hc; exact (h.idle ("thermal_parameters", "crust_temperature") (by simp [idleNumbers, hc])).mp
  have i2 : c.crust = "bimodal" → (∃ x, NumberAt env d "thermal_parameters" "crust_temperature_1" x) →
      ∃ x, NumberAt env d' "thermal_parameters" "crust_temperature_1" x := by
    intro hc; exact (h.idle ("thermal_parameters", "crust_temperature_1") (by simp [idleNumbers, hc])).mp
  have nd := fun he => origin_distance h he
  have f := h.profile
  unfold CrustFrom at *
  rw [number_moved]
  generalize c.crust = s at *
  split at hm
  all_goals simp only [crustReq] at q
  · obtain ⟨a, h1, rfl⟩ := hm
    exact ⟨a, n _ _ (q _ (by simp) (by decide) (by decide) (by decide)) (by decide) _ h1, rfl⟩
  · obtain ⟨a, h1, rfl⟩ := hm
    obtain ⟨b, h1'⟩ := i1 rfl ⟨a, h1⟩
    exact ⟨b, h1', rfl⟩
  · obtain ⟨a, b, c', h1, h2, h3, rfl⟩ := hm
    obtain ⟨b', h2'⟩ := i2 rfl ⟨b, h2⟩
    exact ⟨a + δ, b', c', nd (q _ (by simp) (by decide) (by decide) (by decide)).1 _ h1, h2',
      n _ _ (q _ (by simp) (by decide) (by decide) (by decide)) (by decide) _ h3, rfl⟩
  · obtain ⟨rows, sp, v, t, h1, h2, h3, h4, rfl⟩ := hm
    obtain ⟨v', h3'⟩ := (f rfl).mp ⟨v, h3⟩
    refine ⟨rows.map fun r => (r.1 + δ, r.2), sp.moved δ, v', t, ?_, ?_, h3',
      n _ _ (q _ (by simp) (by decide) (by decide) (by decide)) (by decide) _ h4, rfl⟩
    · unfold Env.moved
      dsimp only
      rw [h1]
      rfl
    · rw [crustField_moved, h2]
      rfl
  · exact hm.elim

theorem origin_rel (ves : VesicleModel ℝ) (melt : MeltModel ℝ) (s : String) (m : RelModel ℝ) (hm : RelFrom env d ves melt s m) :
    RelFrom env d (ves.moved δ) melt s (m.moved δ) := by
  unfold RelFrom at *
  split at hm
  · subst hm; rfl
  · obtain ⟨a, b, h1, h2, rfl⟩ := hm; exact ⟨a, b, h1, h2, rfl⟩
  · obtain ⟨a, h1, rfl⟩ := hm; exact ⟨a, h1, rfl⟩
  · obtain ⟨a, h1, rfl⟩ := hm; exact ⟨a, h1, rfl⟩
  · obtain ⟨a, h1, rfl⟩ := hm; exact ⟨a, h1, rfl⟩
  · obtain ⟨a, b, c', d1, e, f, h1, h2, h3, h4, h5, h6, rfl⟩ := hm
    exact ⟨a, b, c', d1, e, f, h1, h2, h3, h4, h5, h6, rfl⟩
  · subst hm; rfl
  · subst hm; rfl
  · subst hm; rfl
  · obtain ⟨a, h1, rfl⟩ := hm; exact ⟨a, h1, rfl⟩
  · obtain ⟨a, h1, rfl⟩ := hm; exact ⟨a, h1, rfl⟩
  · exact hm.elim

theorem origin_bub (ves : VesicleModel ℝ) (melt : MeltModel ℝ) (rel : RelModel ℝ) (s : String) (m : BubModel ℝ)
    (hm : BubFrom env d ves melt rel s m) : BubFrom env d (ves.moved δ) melt (rel.moved δ) s (m.moved δ) := by
  unfold BubFrom at *
  split at hm
  · subst hm; rfl
  · subst hm; rfl
  · subst hm; rfl
  · obtain ⟨a, b, h1, h2, rfl⟩ := hm; exact ⟨a, b, h1, h2, rfl⟩
  · exact hm.elim

theorem origin_yield (s : String) (m : YieldModel ℝ) (hm : YieldFrom env d s m) : YieldFrom env d s (m.moved δ) := by
  unfold YieldFrom at *
  split at hm
  · obtain ⟨a, h1, rfl⟩ := hm; exact ⟨a, h1, rfl⟩
  · obtain ⟨a, b, h1, h2, rfl⟩ := hm; exact ⟨a, b, h1, h2, rfl⟩
  · obtain ⟨a, b, h1, h2, rfl⟩ := hm; exact ⟨a, b, h1, h2, rfl⟩
  · obtain ⟨a, h1, rfl⟩ := hm; exact ⟨a, h1, rfl⟩
  · obtain ⟨a, h1, rfl⟩ := hm; exact ⟨a, h1, rfl⟩
  · exact hm.elim

theorem origin_models (h : SameButOrigin δ env c d d') (hves : c.ves = "constant" ∨ c.ves = "bimodal") (m : Models ℝ)
    (hm : ModelsFrom env d c m) : ModelsFrom (env.moved δ) d' c (m.moved δ) := by
  have hp := origin_numbers h
  have n := fun sec key he hk x => origin_number h sec key he hk x
  have q : ∀ e, e ∈ airReq ++ lavaReq → e.2 ∉ ["max_packing", "crust_temperature", "crust_temperature_1"] →
      e ∈ requiredNumbers c ∧ e ∉ idleNumbers c := by
    intro e he hk
    constructor
    · rcases List.mem_append.mp he with he | he <;> simp [requiredNumbers, he]
    · intro hi
      exact hk (by rcases idle_keys hi with ⟨h, _⟩ | ⟨h, _⟩ | ⟨h, _⟩ <;> simp [h])
  have pk : (∃ x, NumberAt env d "relative_viscosity_parameters" "max_packing" x) →
      ∃ x, NumberAt env d' "relative_viscosity_parameters" "max_packing" x := by
    by_cases hi : ("relative_viscosity_parameters", "max_packing") ∈ idleNumbers c
    · exact (h.idle _ hi).mp
    · rintro ⟨x, hx⟩
      exact ⟨x, n _ _ ⟨by simp [requiredNumbers, lavaReq], hi⟩ (by decide) _ hx⟩
  obtain ⟨h1, ⟨a1, a2, a3, a4, a5⟩, ⟨l1, l2, l3, l4, l5, l6, l7, l8, l9, x, l10⟩, h4, h5, h6⟩ := hm
  refine ⟨origin_cryst h _ h1, ⟨n _ _ (q _ ?_ ?_) ?_ _ a1, n _ _ (q _ ?_ ?_) ?_ _ a2, n _ _ (q _ ?_ ?_) ?_ _ a3, n _ _ (q _ ?_ ?_) ?_ _ a4, n _ _ (q _ ?_ ?_) ?_ _ a5⟩,
    ⟨same_melt hp _ l1, origin_ves h hves _ l2, origin_rel _ _ _ _ (same_rel hp _ _ _ l3), origin_bub _ _ _ _ _ (same_bub hp _ _ _ _ l4),
      origin_yield _ _ (same_yield hp _ l5), n _ _ (q _ ?_ ?_) ?_ _ l6,
      n _ _ (q _ ?_ ?_) ?_ _ l7, n _ _ (q _ ?_ ?_) ?_ _ l8, n _ _ (q _ ?_ ?_) ?_ _ l9, pk ⟨x, l10⟩⟩,
    origin_cover h _ h4, origin_crust h _ h5, same_fluxes hp _ h6⟩ <;> first | decide | simp [airReq, lavaReq]

theorem origin_selects (h : SameButOrigin δ env c d d') {c' : Choice} (hs : Selects d c') : Selects d' c' := by
  have e : ∀ sec key v, (sec, key) ∈ nameEntries → EntryAt d sec key v → EntryAt d' sec key v := by
    intro sec key v hm
    exact (h.entry (sec, key) (by simp [usedEntries, hm]) (not_origin_name _ hm) v).mp
  obtain ⟨h1, h2, h3, h4, h5, h6, h7, h8, h9, h10, h11, h12, h13, h14⟩ := hs
  refine ⟨e _ _ _ ?_ h1, e _ _ _ ?_ h2, e _ _ _ ?_ h3, e _ _ _ ?_ h4, e _ _ _ ?_ h5, e _ _ _ ?_ h6, e _ _ _ ?_ h7,
    e _ _ _ ?_ h8, e _ _ _ ?_ h9, e _ _ _ ?_ h10, e _ _ _ ?_ h11, e _ _ _ ?_ h12, e _ _ _ ?_ h13, e _ _ _ ?_ h14⟩ <;>
  simp [nameEntries]

theorem origin_factory (h : SameButOrigin δ env c d d') (hves : c.ves = "constant" ∨ c.ves = "bimodal") (hc : Selects d c) (m : Models ℝ)
    (hm : factory env d = .ok m) : factory (env.moved δ) d' = .ok (m.moved δ) := by
  obtain ⟨c', hc', hm⟩ := (C55_models_come_from_the_configuration env d m).mp hm
  rw [selects_unique hc' hc] at hm
  exact (C55_models_come_from_the_configuration _ d' _).mpr ⟨c, origin_selects h hc, origin_models h hves m hm⟩

theorem origin_terrain (h : SameButOrigin δ env c d d') (t : Terrain ℝ) (ht : buildTerrain env d = .ok t) :
    buildTerrain (env.moved δ) d' = .ok (t.moved δ) := by
  have e : ∀ key v, ("terrain_conditions", key) ∈ channelEntries → ("terrain_conditions", key) ∉ originEntries →
      EntryAt d "terrain_conditions" key v → EntryAt d' "terrain_conditions" key v := by
    intro key v hm hn
    exact (h.entry ("terrain_conditions", key) (by simp [usedEntries, hm]) hn v).mp
  have n : ∀ key x, ("terrain_conditions", key) ∈ channelEntries → ("terrain_conditions", key) ∉ originEntries →
      NumberAt env d "terrain_conditions" key x → NumberAt env d' "terrain_conditions" key x := by
    rintro key x hm hn ⟨v, hv, hx⟩
    exact ⟨v, e key v hm hn hv, hx⟩
  unfold buildTerrain readSmoothingPoints at *
  simp only [bind_ok_iff, get_ok_iff, getF_ok_iff, getJ_ok_iff, pure_ok_iff] at *
  obtain ⟨a, h1, a', h2, dd, h3, w, h4, g, h5, l, h6, act, h7, pts, h8, sl, h9, rfl⟩ := ht
  refine ⟨a, (h.top _ (by simp [usedTop]) _).mp h1, a', h2, dd, n _ _ (by decide) (by decide) h3,
    w, n _ _ (by decide) (by decide) h4, g, n _ _ (by decide) (by decide) h5,
    l + δ, (h.moved ("terrain_conditions", "max_channel_length") (by simp [usedEntries, channelEntries]) (by decide) l).mp h6, act,
    e _ _ (by decide) (by decide) h7, pts, ?_, sl, h9, rfl⟩
  split
  · rename_i hs
    rw [if_pos hs, getF_ok_iff] at h8
    rw [getF_ok_iff]
    exact n _ _ (by decide) (by decide) h8
  · rename_i hs
    rwa [if_neg hs] at h8

end

theorem readSlope_moved (δ : ℝ) (t : Terrain ℝ) (lines : List (SlopeLine ℝ)) :
    (t.moved δ).readSlope (lines.map (SlopeLine.moved δ)) = (t.readSlope lines).map (Terrain.moved δ) := by
  unfold Terrain.readSlope
  have ek : keepSlopeLines (lines.map (SlopeLine.moved δ)) = (keepSlopeLines lines).map (SlopeLine.moved δ) := by
    unfold keepSlopeLines
    rw [List.filter_map]
    rfl
  rw [ek]
  have e1 : ((keepSlopeLines lines).map (SlopeLine.moved δ)).mapM (fun r => radians r.slopeDeg) =
      (keepSlopeLines lines).mapM fun r => radians r.slopeDeg := by
    rw [List.mapM_map]
    rfl
  have e2 : ((keepSlopeLines lines).map (SlopeLine.moved δ)).map (·.dist) = ((keepSlopeLines lines).map (·.dist)).map (· + δ) := by
    rw [List.map_map, List.map_map]
    rfl
  dsimp only
  rw [e1, e2]
  cases (keepSlopeLines lines).mapM fun r => radians r.slopeDeg with
  | error e => rfl
  | ok sl =>
    simp only [ok_bind]
    show (if t.smoothing = true then _ else _) = Except.map _ (if t.smoothing = true then _ else _)
    by_cases hs : t.smoothing = true
    · rw [if_pos hs, if_pos hs]
      show runningMean sl t.smoothingPoints >>= _ = _
      cases runningMean sl t.smoothingPoints with
      | error e => rfl
      | ok sl' =>
        simp only [ok_bind]
        rw [make_moved]
        cases Spline.make ((keepSlopeLines lines).map (·.dist)) sl' <;> rfl
    · rw [if_neg hs, if_neg hs]
      rw [make_moved]
      cases Spline.make ((keepSlopeLines lines).map (·.dist)) sl <;> rfl

theorem loadSlope_moved (δ : ℝ) (env : Env ℝ) (t t' : Terrain ℝ) (s : Json ℝ) (h : loadSlope env t s = .ok t') :
    loadSlope (env.moved δ) (t.moved δ) s = .ok (t'.moved δ) := by
  unfold loadSlope at *
  dsimp only at *
  split
  · rename_i hp; rw [hp] at h; cases h
  · rename_i p hp
    rw [hp] at h
    dsimp only at h
    cases hs : env.slopeFile p with
    | none => rw [hs] at h; cases h
    | some lines =>
      rw [hs] at h
      dsimp only at h
      unfold Env.moved
      dsimp only
      rw [hs]
      dsimp only [Option.map_some]
      rw [readSlope_moved, h]
      rfl

/-- What a run prepared, in the moved coordinate. -/
def Prepared.moved (δ : ℝ) (pr : Prepared ℝ) : Prepared ℝ :=
  { cfg := pr.cfg, integrator := pr.integrator.moved δ, world := pr.world.moved δ }

theorem origin_prepare {δ : ℝ} {env : Env ℝ} {c : Choice} {d d' : Json ℝ} (h : SameButOrigin δ env c d d') (hs : SameSwitch d d')
    (hves : c.ves = "constant" ∨ c.ves = "bimodal") (hc : Selects d c) (log : Log (Cell ℝ)) (pr : Prepared ℝ)
    (hp : prepare env d log = .ok pr) : prepare (env.moved δ) d' (log.moved δ) = .ok (pr.moved δ) := by
  have tp : ∀ k v, k ∈ usedTop → TopEntry d k v → TopEntry d' k v := fun k v hk => (h.top k hk v).mp
  have hp0 := hp
  unfold prepare readRunConfig at hp0
  simp only [bind_ok_iff, pure_ok_iff] at hp0
  obtain ⟨_, ⟨_, _, _, _, _, _, _, _, _, _, raw0, hraw, hcfg⟩, _⟩ := hp0
  unfold prepare at *
  simp only [bind_ok_iff, pure_ok_iff, getF_ok_iff] at hp
  obtain ⟨cfg, h1, t0, h2, tt, h3, m, h4, pos, h5, time, h6, st, h7, rfl⟩ := hp
  have hm : cfg.massConservation = massConservationOf raw0 := by
    unfold readRunConfig at h1
    simp only [bind_ok_iff, pure_ok_iff] at h1
    obtain ⟨_, _, _, _, _, _, _, _, _, _, raw1, hr1, rfl⟩ := h1
    rw [hraw] at hr1
    cases hr1
    rfl
  obtain ⟨a1, a2, a3, ⟨sz, a4, a4'⟩, inner, a5, a6⟩ := (readRunConfig_iff env d cfg).mp h1
  have h2' := origin_terrain h t0 h2
  obtain ⟨inner', hi'⟩ : ∃ inner', TopEntry d' "terrain_conditions" (.obj inner') := by
    have : ∃ x, NumberAt (env.moved δ) d' "terrain_conditions" "depth" x := by
      unfold buildTerrain at h2'
      simp only [bind_ok_iff, get_ok_iff, getF_ok_iff] at h2'
      obtain ⟨_, _, _, _, dd, h3, _⟩ := h2'
      exact ⟨dd, h3⟩
    obtain ⟨x, v, ⟨top, inner', g1, g2, _⟩, _⟩ := this
    exact ⟨inner', top, g1, g2⟩
  have hraw' : rawMassConservation d' = .ok ((lookup inner' "mass_conservation").getD (.bool false)) := by
    unfold rawMassConservation
    rw [(get_ok_iff d' _ _).mpr hi', ok_bind]
  have hsw := same_switch hs _ _ hraw hraw'
  simp only [bind_ok_iff, pure_ok_iff, getF_ok_iff]
  have hst : initialState (m.moved δ) (tt.moved δ) (pos + δ) time = .ok (st.moved δ) := by
    unfold initialState at *
    have ec : (m.moved δ).cryst.crystalFraction (m.moved δ).lava.eruptionT = m.cryst.crystalFraction m.lava.eruptionT := by
      show (m.cryst.moved δ).crystalFraction m.lava.eruptionT = _
      cases m.cryst <;> rfl
    dsimp only
    rw [ec]
    simp only [bind_ok_iff, pure_ok_iff] at *
    obtain ⟨phi, g1, a, g2, x, g3, rfl⟩ := h7
    exact ⟨phi, g1, a, g2, x, g3, rfl⟩
  exact ⟨_, (readRunConfig_iff _ d' cfg).mpr ⟨tp _ _ (by simp [usedTop]) a1, tp _ _ (by simp [usedTop]) a2,
    tp _ _ (by simp [usedTop]) a3, ⟨sz, tp _ _ (by simp [usedTop]) a4, a4'⟩, inner', hi', by rw [hm, hsw]⟩, _, h2', _,
    loadSlope_moved δ env _ _ _ h3, _, origin_factory h hves hc m h4, pos + δ,
    (h.moved ("lava_state", "position") (by simp [usedEntries, channelEntries]) (by decide) pos).mp h5,
    time, (let ⟨v, hv, hx⟩ := h6; ⟨v, (h.entry ("lava_state", "time") (by simp [usedEntries, channelEntries]) (by decide) v).mp hv, hx⟩),
    _, hst, rfl⟩

theorem writeValues_moved (δ : ℝ) (l : Log (Cell ℝ)) :
    writeValues (l.moved δ) = (writeValues l).map fun t => t.map (CsvTable.moved δ) := by
  have ek : ∀ r : Row (Cell ℝ), (Row.moved δ r).keys = r.keys := by
    intro r
    unfold Row.moved Row.keys
    rw [List.map_map]
    apply List.map_congr_left
    intro kv _
    show (if kv.1 = "position" then (kv.1, kv.2.plus δ) else kv).1 = kv.1
    split <;> rfl
  have er : ∀ (hd : List String) (r : Row (Cell ℝ)), csvRow hd (Row.moved δ r) =
      (csvRow hd r).map fun c => List.zipWith (fun name cell => if name = "position" then cell.map (Cell.plus δ) else cell) hd c := by
    intro hd r
    unfold csvRow
    rw [ek]
    split
    · show Except.ok _ = Except.ok _
      congr 1
      dsimp only
      rw [List.zipWith_map_right, List.zipWith_self]
      apply List.map_congr_left
      intro k _
      exact row_get_moved δ r k
    · rfl
  cases l with
  | nil => rfl
  | cons r0 rest =>
    have em : ∀ (hd : List String) (l : List (Row (Cell ℝ))), (l.map (Row.moved δ)).mapM (csvRow hd) = (l.mapM (csvRow hd)).map
        fun rows => rows.map fun c => List.zipWith (fun name cell => if name = "position" then cell.map (Cell.plus δ) else cell) hd c := by
      intro hd l
      induction l with
      | nil => rfl
      | cons r l ih =>
        rw [List.map_cons, List.mapM_cons, List.mapM_cons, er, ih]
        cases csvRow hd r with
        | error e => rfl
        | ok c => cases l.mapM (csvRow hd) <;> rfl
    unfold Log.moved
    rw [List.map_cons]
    unfold writeValues
    dsimp only
    rw [ek, ← List.map_cons, em]
    cases (r0 :: rest).mapM (csvRow r0.keys) <;> rfl

/-- **C98**. Measure positions from another origin: add `δ` to the position of the vent, to the length of the channel, to the critical distance
    and to the distances in the slope file and in the crust profile. With a vesicle fraction that is constant or bimodal (the other laws are
    formulas in the coordinate itself) the run ends in the same way, and its log and its result file are the same but for the positions, all
    of which are `δ` further; or both runs raise before they change anything. -/
theorem C98_origin_has_no_effect (δ : ℝ) (grid : List ℝ) (fuel : Nat) (env : Env ℝ) (jsonFile folder : String) (p p' : Proc ℝ)
    (d d' : Json ℝ) (hd : lookup p.json (env.canon jsonFile) = some d) (hd' : lookup p'.json (env.canon jsonFile) = some d')
    (hlog : p'.log = p.log.moved δ) (c : Choice) (hc : Selects d c) (h : SameButOrigin δ env c d d') (hs : SameSwitch d d')
    (hves : c.ves = "constant" ∨ c.ves = "bimodal") :
    (∃ e e', runOn grid fuel env jsonFile folder p = some (.error e, p) ∧
      runOn grid fuel (env.moved δ) jsonFile folder p' = some (.error e', p')) ∨
    (runOn grid fuel env jsonFile folder p = none ∧ runOn grid fuel (env.moved δ) jsonFile folder p' = none) ∨
    ∃ o log written, runOn grid fuel env jsonFile folder p = some (o, { p with log := log, results := written ++ p.results }) ∧
      runOn grid fuel (env.moved δ) jsonFile folder p' =
        some (o, { p' with log := log.moved δ, results := (written.map fun f => (f.1, CsvTable.moved δ f.2)) ++ p'.results }) := by
  cases hp : prepare env d p.log with
  | error e =>
    cases hp' : prepare (env.moved δ) d' (p.log.moved δ) with
    | error e' =>
      refine .inl ⟨e, e', ?_, ?_⟩
      · unfold runOn; rw [hd]; dsimp only; rw [hp]
      · unfold runOn
        rw [show lookup p'.json ((env.moved δ).canon jsonFile) = some d' from hd', hlog]; dsimp only; rw [hp']
    | ok pr =>
      have := origin_prepare (sameButOrigin_symm h) (fun v => (hs v).symm) hves (origin_selects h hc) _ pr hp'
      rw [moved_moved_env, moved_moved_log, hp] at this
      cases this
  | ok pr =>
    have hp' := origin_prepare h hs hves hc p.log pr hp
    rw [runOn_finish grid fuel env jsonFile folder p d hd pr hp,
      runOn_finish grid fuel (env.moved δ) jsonFile folder p' d' hd' _ (by rw [hlog]; exact hp')]
    have key : outcome (simulateOn grid fuel (pr.moved δ).integrator (pr.moved δ).world) =
        (outcome (simulateOn grid fuel pr.integrator pr.world)).map fun o => (o.1, o.2.moved δ) := by
      show outcome (simulateOn grid fuel (pr.integrator.moved δ) (pr.world.moved δ)) = _
      rw [simulate_moved]
      cases simulateOn grid fuel pr.integrator pr.world <;> rfl
    rw [key]
    refine .inr ?_
    generalize outcome (simulateOn grid fuel pr.integrator pr.world) = o
    cases o with
    | none => exact .inl ⟨rfl, rfl⟩
    | some o =>
      obtain ⟨o, l⟩ := o
      refine .inr ?_
      cases o with
      | error e => exact ⟨_, l, [], rfl, rfl⟩
      | ok _ =>
        unfold finishRun
        dsimp only [Option.map_some]
        rw [writeValues_moved]
        cases writeValues l with
        | error e => exact ⟨_, l, [], rfl, rfl⟩
        | ok t =>
          cases t with
          | none => exact ⟨_, l, [], rfl, rfl⟩
          | some t => exact ⟨_, l, [_], rfl, rfl⟩

/-- **C98**, the other vesicle laws. The law `variable` is a formula in the coordinate: measured from another origin, a vesicle fraction
    that is positive before and after is another one. -/
theorem C98_variable_vesicles_see_the_origin (v k δ : ℝ) (s : FlowState ℝ) (hk : k * δ ≠ 0) (h1 : 0 < v - k * s.pos)
    (h2 : 0 < v - k * (s.pos + δ)) :
    (VesicleModel.variable v k).fraction { s with pos := s.pos + δ } ≠ (VesicleModel.variable v k).fraction s := by
  have z : (0.0 : ℝ) = 0 := by norm_num
  have e1 : (VesicleModel.variable v k).fraction s = v - k * s.pos := by
    unfold VesicleModel.fraction
    dsimp only
    rw [if_neg]
    rw [leB_real, z]
    linarith
  have e2 : (VesicleModel.variable v k).fraction { s with pos := s.pos + δ } = v - k * (s.pos + δ) := by
    unfold VesicleModel.fraction
    dsimp only
    rw [if_neg]
    rw [leB_real, z]
    linarith
  rw [e1, e2]
  intro h
  apply hk
  linarith

example : (0.0001 : ℝ) * 100 ≠ 0 ∧ (0 : ℝ) < 0.5 - 0.0001 * 0 ∧ (0 : ℝ) < 0.5 - 0.0001 * (0 + 100) := by norm_num

end PyFlowGo
