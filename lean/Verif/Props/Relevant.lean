import Verif.Spec.Relevant
import Verif.Props.RunConfig
/-
  C94: entries of the configuration that the selected models do not use have no effect on a run.
-/
set_option linter.unusedSectionVars false
namespace PyFlowGo
open Spec
variable {α : Type} [Add α] [Sub α] [Mul α] [Neg α] [OfScientific α] [PyNum α]

theorem sameEntries_symm {env : Env α} {c : Choice} {d d' : Json α} (h : SameEntries env c d d') : SameEntries env c d' d :=
  ⟨fun e he v => (h.entry e he v).symm, fun k hk v => (h.top k hk v).symm, fun e he => (h.idle e he).symm,
    fun hc => (h.table hc).symm, fun hc => (h.profile hc).symm⟩

theorem sameButCut_symm {env : Env α} {c : Choice} {d d' : Json α} (h : SameButCut env c d d') : SameButCut env c d' d :=
  ⟨fun e he hn v => (h.entry e he hn v).symm, fun k hk v => (h.top k hk v).symm, fun e he => (h.idle e he).symm,
    fun hc => (h.table hc).symm, fun hc => (h.profile hc).symm⟩

theorem sameButCut_of {env : Env α} {c : Choice} {d d' : Json α} (h : SameEntries env c d d') : SameButCut env c d d' :=
  ⟨fun e he _ v => h.entry e he v, h.top, h.idle, h.table, h.profile⟩

theorem cut_channel : ∀ e ∈ cutEntries, e ∈ channelEntries := by decide

theorem sameModels_of_cut {env : Env α} {c : Choice} {d d' : Json α} (h : SameButCut env c d d') : SameModels env c d d' :=
  ⟨fun e he hn v => h.entry e he (fun hc => hn (cut_channel e hc)) v, h.idle, h.table, h.profile⟩

theorem sameModels_of {env : Env α} {c : Choice} {d d' : Json α} (h : SameEntries env c d d') : SameModels env c d d' :=
  sameModels_of_cut (sameButCut_of h)

/-- The models need none of the entries on the channel and the place and time of the vent. -/
theorem required_not_channel {c : Choice} {e : Req} (he : e ∈ requiredNumbers c) : e ∉ channelEntries := by
  have h1 : ∀ s, ∀ e ∈ crystReq s, e ∉ channelEntries := by
    intro s; unfold crystReq; split <;> simp [channelEntries]
  have h2 : ∀ s, ∀ e ∈ vesReq s, e ∉ channelEntries := by
    intro s; unfold vesReq; split <;> simp [channelEntries]
  have h3 : ∀ s, ∀ e ∈ meltReq s, e ∉ channelEntries := by
    intro s; unfold meltReq; split <;> simp [channelEntries]
  have h4 : ∀ s, ∀ e ∈ relReq s, e ∉ channelEntries := by
    intro s; unfold relReq; split <;> simp [channelEntries]
  have h5 : ∀ s, ∀ e ∈ bubReq s, e ∉ channelEntries := by
    intro s; unfold bubReq; split <;> simp [channelEntries]
  have h6 : ∀ s, ∀ e ∈ yldReq s, e ∉ channelEntries := by
    intro s; unfold yldReq; split <;> simp [channelEntries]
  have h7 : ∀ s, ∀ e ∈ coverReq s, e ∉ channelEntries := by
    intro s; unfold coverReq; split <;> simp [channelEntries]
  have h8 : ∀ s, ∀ e ∈ crustReq s, e ∉ channelEntries := by
    intro s; unfold crustReq; split <;> simp [channelEntries]
  have h9 : ∀ s, ∀ e ∈ radReq s, e ∉ channelEntries := by
    intro s; unfold radReq; split <;> simp [channelEntries]
  have ha : ∀ e ∈ airReq, e ∉ channelEntries := by simp [airReq, channelEntries]
  have hb : ∀ e ∈ lavaReq, e ∉ channelEntries := by simp [lavaReq, channelEntries]
  have hy : ∀ s l, (∀ e ∈ l, e ∉ channelEntries) → ∀ e ∈ ifYes s l, e ∉ channelEntries := by
    intro s l hl; unfold ifYes; split
    · exact hl
    · simp
  unfold requiredNumbers at he
  simp only [List.mem_append] at he
  rcases he with ((((((((((((he | he) | he) | he) | he) | he) | he) | he) | he) | he) | he) | he) | he) | he
  · exact h1 _ e he
  · exact ha e he
  · exact h2 _ e he
  · exact h3 _ e he
  · exact h4 _ e he
  · exact h5 _ e he
  · exact h6 _ e he
  · exact hb e he
  · exact h7 _ e he
  · exact h8 _ e he
  · exact h9 _ e he
  · exact hy _ _ (by simp [channelEntries]) e he
  · exact hy _ _ (by simp [channelEntries]) e he
  · exact hy _ _ (by simp [channelEntries]) e he

theorem names_not_channel {e : Req} (he : e ∈ nameEntries) : e ∉ channelEntries := by
  revert e
  simp [nameEntries, channelEntries]

theorem same_number {env : Env α} {c : Choice} {d d' : Json α} (h : SameModels env c d d') (e : Req)
    (he : e ∈ usedEntries c) (hn : e ∉ channelEntries) (x : α) : NumberAt env d e.1 e.2 x → NumberAt env d' e.1 e.2 x := by
  rintro ⟨v, hv, hx⟩
  exact ⟨v, (h.entry e he hn v).mp hv, hx⟩

theorem same_required {env : Env α} {c : Choice} {d d' : Json α} (h : SameModels env c d d') (sec key : String)
    (he : (sec, key) ∈ requiredNumbers c ∧ (sec, key) ∉ idleNumbers c) (x : α) : NumberAt env d sec key x → NumberAt env d' sec key x :=
  same_number h (sec, key) (by simp [usedEntries, he.1, he.2]) (required_not_channel he.1) x

/-- The numbers the models need are the same, the critical distance left aside. -/
def SameNumbers (env : Env α) (c : Choice) (d d' : Json α) : Prop :=
  ∀ sec key, (sec, key) ∈ requiredNumbers c ∧ (sec, key) ∉ idleNumbers c → ∀ x, NumberAt env d sec key x → key ≠ "critical_distance" →
    NumberAt env d' sec key x

theorem sameNumbers_of {env : Env α} {c : Choice} {d d' : Json α} (h : SameModels env c d d') : SameNumbers env c d d' :=
  fun sec key he x hx _ => same_required h sec key he x hx

/-- Only these keys can be idle. -/
theorem idle_keys {c : Choice} {e : Req} (he : e ∈ idleNumbers c) :
    e.2 = "max_packing" ∧ c.rel ≠ "kd" ∧ c.rel ≠ "mp" ∧ c.rel ≠ "bll" ∨ e.2 = "crust_temperature" ∧ c.crust = "hon" ∨
    e.2 = "crust_temperature_1" ∧ c.crust = "bimodal" := by
  unfold idleNumbers at he
  simp only [List.mem_append] at he
  rcases he with (he | he) | he <;> split at he <;> simp_all

theorem same_selects {env : Env α} {c c' : Choice} {d d' : Json α} (h : SameModels env c d d') (hs : Selects d c') : Selects d' c' := by
  have e : ∀ sec key v, (sec, key) ∈ nameEntries → EntryAt d sec key v → EntryAt d' sec key v := by
    intro sec key v hm
    exact (h.entry (sec, key) (by simp [usedEntries, hm]) (names_not_channel hm) v).mp
  obtain ⟨h1, h2, h3, h4, h5, h6, h7, h8, h9, h10, h11, h12, h13, h14⟩ := hs
  refine ⟨e _ _ _ ?_ h1, e _ _ _ ?_ h2, e _ _ _ ?_ h3, e _ _ _ ?_ h4, e _ _ _ ?_ h5, e _ _ _ ?_ h6, e _ _ _ ?_ h7,
    e _ _ _ ?_ h8, e _ _ _ ?_ h9, e _ _ _ ?_ h10, e _ _ _ ?_ h11, e _ _ _ ?_ h12, e _ _ _ ?_ h13, e _ _ _ ?_ h14⟩ <;>
  simp [nameEntries]

section parts
variable {c : Choice} {d d' : Json α} {env : Env α}

theorem same_cryst (h : SameModels env c d d') (m : CrystModel α) (hm : CrystFrom env d c.cryst m) : CrystFrom env d' c.cryst m := by
  have n := fun sec key he x => same_required h sec key he x
  have q : ∀ e, e ∈ crystReq c.cryst → e.2 ∉ ["max_packing", "crust_temperature", "crust_temperature_1"] →
      e ∈ requiredNumbers c ∧ e ∉ idleNumbers c := by
    intro e he hk
    refine ⟨by simp [requiredNumbers, he], fun hi => hk ?_⟩
    rcases idle_keys hi with ⟨h, _⟩ | ⟨h, _⟩ | ⟨h, _⟩ <;> simp [h]
  have t := h.table
  unfold CrystFrom at *
  generalize c.cryst = s at *
  split at hm
  all_goals simp only [crystReq] at q
  · obtain ⟨f, g, ts, te, h1, h2, h3, h4, rfl⟩ := hm
    exact ⟨f, g, ts, te, n _ _ (q _ (by simp) (by decide)) _ h1, n _ _ (q _ (by simp) (by decide)) _ h2, n _ _ (q _ (by simp) (by decide)) _ h3, n _ _ (q _ (by simp) (by decide)) _ h4, rfl⟩
  · obtain ⟨f, g, r1, r2, ts, te, h1, h2, h3, h4, h5, h6, rfl⟩ := hm
    exact ⟨f, g, r1, r2, ts, te, n _ _ (q _ (by simp) (by decide)) _ h1, n _ _ (q _ (by simp) (by decide)) _ h2, n _ _ (q _ (by simp) (by decide)) _ h3,
      n _ _ (q _ (by simp) (by decide)) _ h4, n _ _ (q _ (by simp) (by decide)) _ h5, n _ _ (q _ (by simp) (by decide)) _ h6, rfl⟩
  · obtain ⟨f, g, r1, r2, ts, te, h1, h2, h3, h4, h5, h6, rfl⟩ := hm
    exact ⟨f, g, r1, r2, ts, te, n _ _ (q _ (by simp) (by decide)) _ h1, n _ _ (q _ (by simp) (by decide)) _ h2, n _ _ (q _ (by simp) (by decide)) _ h3,
      n _ _ (q _ (by simp) (by decide)) _ h4, n _ _ (q _ (by simp) (by decide)) _ h5, n _ _ (q _ (by simp) (by decide)) _ h6, rfl⟩
  · obtain ⟨f, ts, te, h1, h2, h3, ⟨v, hv⟩, rfl⟩ := hm
    exact ⟨f, ts, te, n _ _ (q _ (by simp) (by decide)) _ h1, n _ _ (q _ (by simp) (by decide)) _ h2, n _ _ (q _ (by simp) (by decide)) _ h3,
      (t rfl).mp ⟨v, hv⟩, rfl⟩
  · exact hm


theorem same_ves (h : SameModels env c d d') (m : VesicleModel α) (hm : VesFrom env d c.ves m) : VesFrom env d' c.ves m := by
  have n := fun sec key he x => same_required h sec key he x
  have q : ∀ e, e ∈ vesReq c.ves → e.2 ∉ ["max_packing", "crust_temperature", "crust_temperature_1"] →
      e ∈ requiredNumbers c ∧ e ∉ idleNumbers c := by
    intro e he hk
    refine ⟨by simp [requiredNumbers, he], fun hi => hk ?_⟩
    rcases idle_keys hi with ⟨h, _⟩ | ⟨h, _⟩ | ⟨h, _⟩ <;> simp [h]
  unfold VesFrom at *
  generalize c.ves = s at *
  split at hm
  all_goals simp only [vesReq] at q
  · obtain ⟨a, h1, rfl⟩ := hm
    exact ⟨a, n _ _ (q _ (by simp) (by decide)) _ h1, rfl⟩
  · obtain ⟨a, b, c', h1, h2, h3, rfl⟩ := hm
    exact ⟨a, b, c', n _ _ (q _ (by simp) (by decide)) _ h1, n _ _ (q _ (by simp) (by decide)) _ h2, n _ _ (q _ (by simp) (by decide)) _ h3, rfl⟩
  · obtain ⟨a, b, h1, h2, rfl⟩ := hm
    exact ⟨a, b, n _ _ (q _ (by simp) (by decide)) _ h1, n _ _ (q _ (by simp) (by decide)) _ h2, rfl⟩
  · obtain ⟨a, b, c', h1, h2, h3, rfl⟩ := hm
    exact ⟨a, b, c', n _ _ (q _ (by simp) (by decide)) _ h1, n _ _ (q _ (by simp) (by decide)) _ h2, n _ _ (q _ (by simp) (by decide)) _ h3, rfl⟩
  · obtain ⟨a, b, c', h1, h2, h3, rfl⟩ := hm
    exact ⟨a, b, c', n _ _ (q _ (by simp) (by decide)) _ h1, n _ _ (q _ (by simp) (by decide)) _ h2, n _ _ (q _ (by simp) (by decide)) _ h3, rfl⟩
  · exact hm

theorem same_melt (h : SameNumbers env c d d') (m : MeltModel α) (hm : MeltFrom env d c.melt m) : MeltFrom env d' c.melt m := by
  have n : ∀ sec key, (sec, key) ∈ requiredNumbers c ∧ (sec, key) ∉ idleNumbers c → ∀ x, NumberAt env d sec key x →
      (hk : key ≠ "critical_distance" := by decide) → NumberAt env d' sec key x := h
  have q : ∀ e, e ∈ meltReq c.melt → e.2 ∉ ["max_packing", "crust_temperature", "crust_temperature_1"] →
      e ∈ requiredNumbers c ∧ e ∉ idleNumbers c := by
    intro e he hk
    refine ⟨by simp [requiredNumbers, he], fun hi => hk ?_⟩
    rcases idle_keys hi with ⟨h, _⟩ | ⟨h, _⟩ | ⟨h, _⟩ <;> simp [h]
  unfold MeltFrom at *
  generalize c.melt = s at *
  split at hm
  all_goals simp only [meltReq] at q
  · obtain ⟨a, b, h1, h2, rfl⟩ := hm
    exact ⟨a, b, n _ _ (q _ (by simp) (by decide)) _ h1, n _ _ (q _ (by simp) (by decide)) _ h2, rfl⟩
  · obtain ⟨a, h1, rfl⟩ := hm
    exact ⟨a, n _ _ (q _ (by simp) (by decide)) _ h1, rfl⟩
  · obtain ⟨a, b, c', h1, h2, h3, rfl⟩ := hm
    exact ⟨a, b, c', n _ _ (q _ (by simp) (by decide)) _ h1, n _ _ (q _ (by simp) (by decide)) _ h2, n _ _ (q _ (by simp) (by decide)) _ h3, rfl⟩
  · exact hm

theorem same_rel (h : SameNumbers env c d d') (ves : VesicleModel α) (melt : MeltModel α) (m : RelModel α) (hm : RelFrom env d ves melt c.rel m) : RelFrom env d' ves melt c.rel m := by
  have n : ∀ sec key, (sec, key) ∈ requiredNumbers c ∧ (sec, key) ∉ idleNumbers c → ∀ x, NumberAt env d sec key x →
      (hk : key ≠ "critical_distance" := by decide) → NumberAt env d' sec key x := h
  have q : ∀ e, e ∈ relReq c.rel → (e.2 = "max_packing" → c.rel = "kd" ∨ c.rel = "mp" ∨ c.rel = "bll") →
      e.2 ∉ ["crust_temperature", "crust_temperature_1"] → e ∈ requiredNumbers c ∧ e ∉ idleNumbers c := by
    intro e he hm hk
    refine ⟨by simp [requiredNumbers, he], fun hi => ?_⟩
    rcases idle_keys hi with ⟨h, h1, h2, h3⟩ | ⟨h, _⟩ | ⟨h, _⟩
    · rcases hm h with h | h | h <;> contradiction
    · exact hk (by simp [h])
    · exact hk (by simp [h])
  unfold RelFrom at *
  generalize c.rel = s at *
  split at hm
  all_goals simp only [relReq] at q
  · exact hm
  · obtain ⟨a, b, h1, h2, rfl⟩ := hm
    exact ⟨a, b, n _ _ (q _ (by simp) (by decide) (by decide)) _ h1, n _ _ (q _ (by simp) (by decide) (by decide)) _ h2, rfl⟩
  · obtain ⟨a, h1, rfl⟩ := hm
    exact ⟨a, n _ _ (q _ (by simp) (by decide) (by decide)) _ h1, rfl⟩
  · obtain ⟨a, h1, rfl⟩ := hm
    exact ⟨a, n _ _ (q _ (by simp) (by decide) (by decide)) _ h1, rfl⟩
  · obtain ⟨a, h1, rfl⟩ := hm
    exact ⟨a, n _ _ (q _ (by simp) (by decide) (by decide)) _ h1, rfl⟩
  · obtain ⟨a, b, c', d1, e, f, h1, h2, h3, h4, h5, h6, rfl⟩ := hm
    exact ⟨a, b, c', d1, e, f, n _ _ (q _ (by simp) (by decide) (by decide)) _ h1, n _ _ (q _ (by simp) (by decide) (by decide)) _ h2, n _ _ (q _ (by simp) (by decide) (by decide)) _ h3, n _ _ (q _ (by simp) (by decide) (by decide)) _ h4, n _ _ (q _ (by simp) (by decide) (by decide)) _ h5, n _ _ (q _ (by simp) (by decide) (by decide)) _ h6, rfl⟩
  · exact hm
  · exact hm
  · exact hm
  · obtain ⟨a, h1, rfl⟩ := hm
    exact ⟨a, n _ _ (q _ (by simp) (by decide) (by decide)) _ h1, rfl⟩
  · obtain ⟨a, h1, rfl⟩ := hm
    exact ⟨a, n _ _ (q _ (by simp) (by decide) (by decide)) _ h1, rfl⟩
  · exact hm

theorem same_bub (h : SameNumbers env c d d') (ves : VesicleModel α) (melt : MeltModel α) (rel : RelModel α) (m : BubModel α) (hm : BubFrom env d ves melt rel c.bub m) : BubFrom env d' ves melt rel c.bub m := by
  have n : ∀ sec key, (sec, key) ∈ requiredNumbers c ∧ (sec, key) ∉ idleNumbers c → ∀ x, NumberAt env d sec key x →
      (hk : key ≠ "critical_distance" := by decide) → NumberAt env d' sec key x := h
  have q : ∀ e, e ∈ bubReq c.bub → e.2 ∉ ["max_packing", "crust_temperature", "crust_temperature_1"] →
      e ∈ requiredNumbers c ∧ e ∉ idleNumbers c := by
    intro e he hk
    refine ⟨by simp [requiredNumbers, he], fun hi => hk ?_⟩
    rcases idle_keys hi with ⟨h, _⟩ | ⟨h, _⟩ | ⟨h, _⟩ <;> simp [h]
  unfold BubFrom at *
  generalize c.bub = s at *
  split at hm
  all_goals simp only [bubReq] at q
  · exact hm
  · exact hm
  · exact hm
  · obtain ⟨a, b, h1, h2, rfl⟩ := hm
    exact ⟨a, b, n _ _ (q _ (by simp) (by decide)) _ h1, n _ _ (q _ (by simp) (by decide)) _ h2, rfl⟩
  · exact hm

theorem same_yield (h : SameNumbers env c d d') (m : YieldModel α) (hm : YieldFrom env d c.yld m) : YieldFrom env d' c.yld m := by
  have n : ∀ sec key, (sec, key) ∈ requiredNumbers c ∧ (sec, key) ∉ idleNumbers c → ∀ x, NumberAt env d sec key x →
      (hk : key ≠ "critical_distance" := by decide) → NumberAt env d' sec key x := h
  have q : ∀ e, e ∈ yldReq c.yld → e.2 ∉ ["max_packing", "crust_temperature", "crust_temperature_1"] →
      e ∈ requiredNumbers c ∧ e ∉ idleNumbers c := by
    intro e he hk
    refine ⟨by simp [requiredNumbers, he], fun hi => hk ?_⟩
    rcases idle_keys hi with ⟨h, _⟩ | ⟨h, _⟩ | ⟨h, _⟩ <;> simp [h]
  unfold YieldFrom at *
  generalize c.yld = s at *
  split at hm
  all_goals simp only [yldReq] at q
  · obtain ⟨a, h1, rfl⟩ := hm
    exact ⟨a, n _ _ (q _ (by simp) (by decide)) _ h1, rfl⟩
  · obtain ⟨a, b, h1, h2, rfl⟩ := hm
    exact ⟨a, b, n _ _ (q _ (by simp) (by decide)) _ h1, n _ _ (q _ (by simp) (by decide)) _ h2, rfl⟩
  · obtain ⟨a, b, h1, h2, rfl⟩ := hm
    exact ⟨a, b, n _ _ (q _ (by simp) (by decide)) _ h1, n _ _ (q _ (by simp) (by decide)) _ h2, rfl⟩
  · obtain ⟨a, h1, rfl⟩ := hm
    exact ⟨a, n _ _ (q _ (by simp) (by decide)) _ h1, rfl⟩
  · obtain ⟨a, h1, rfl⟩ := hm
    exact ⟨a, n _ _ (q _ (by simp) (by decide)) _ h1, rfl⟩
  · exact hm

theorem same_cover (h : SameModels env c d d') (m : CoverModel α) (hm : CoverFrom env d c.cover m) : CoverFrom env d' c.cover m := by
  have n := fun sec key he x => same_required h sec key he x
  have q : ∀ e, e ∈ coverReq c.cover → e.2 ∉ ["max_packing", "crust_temperature", "crust_temperature_1"] →
      e ∈ requiredNumbers c ∧ e ∉ idleNumbers c := by
    intro e he hk
    refine ⟨by simp [requiredNumbers, he], fun hi => hk ?_⟩
    rcases idle_keys hi with ⟨h, _⟩ | ⟨h, _⟩ | ⟨h, _⟩ <;> simp [h]
  unfold CoverFrom at *
  generalize c.cover = s at *
  split at hm
  all_goals simp only [coverReq] at q
  · obtain ⟨a, b, h1, h2, rfl⟩ := hm
    exact ⟨a, b, n _ _ (q _ (by simp) (by decide)) _ h1, n _ _ (q _ (by simp) (by decide)) _ h2, rfl⟩
  · obtain ⟨a, b, c', d1, e, h1, h2, h3, h4, h5, rfl⟩ := hm
    exact ⟨a, b, c', d1, e, n _ _ (q _ (by simp) (by decide)) _ h1, n _ _ (q _ (by simp) (by decide)) _ h2, n _ _ (q _ (by simp) (by decide)) _ h3, n _ _ (q _ (by simp) (by decide)) _ h4, n _ _ (q _ (by simp) (by decide)) _ h5, rfl⟩
  · exact hm

theorem same_crust (h : SameModels env c d d') (m : CrustModel α) (hm : CrustFrom env d c.crust m) : CrustFrom env d' c.crust m := by
  have n := fun sec key he x => same_required h sec key he x
  have q : ∀ e, e ∈ crustReq c.crust → e.2 ≠ "max_packing" → (e.2 = "crust_temperature" → c.crust ≠ "hon") →
      (e.2 = "crust_temperature_1" → c.crust ≠ "bimodal") → e ∈ requiredNumbers c ∧ e ∉ idleNumbers c := by
    intro e he hm h1 h2
    refine ⟨by simp [requiredNumbers, he], fun hi => ?_⟩
    rcases idle_keys hi with ⟨h, _⟩ | ⟨h, h'⟩ | ⟨h, h'⟩
    · exact hm h
    · exact h1 h h'
    · exact h2 h h'
  have i1 : c.crust = "hon" → (∃ x, NumberAt env d "thermal_parameters" "crust_temperature" x) →
      ∃ x, NumberAt env d' "thermal_parameters" "crust_temperature" x := by
    intro hc; exact (h.idle ("thermal_parameters", "crust_temperature") (by simp [idleNumbers, hc])).mp
  have i2 : c.crust = "bimodal" → (∃ x, NumberAt env d "thermal_parameters" "crust_temperature_1" x) →
      ∃ x, NumberAt env d' "thermal_parameters" "crust_temperature_1" x := by
    intro hc; exact (h.idle ("thermal_parameters", "crust_temperature_1") (by simp [idleNumbers, hc])).mp
  have f := h.profile
  unfold CrustFrom at *
  generalize c.crust = s at *
  split at hm
  all_goals simp only [crustReq] at q
  · obtain ⟨a, h1, rfl⟩ := hm
    exact ⟨a, n _ _ (q _ (by simp) (by decide) (by decide) (by decide)) _ h1, rfl⟩
  · obtain ⟨a, h1, rfl⟩ := hm
    obtain ⟨b, h1'⟩ := i1 rfl ⟨a, h1⟩
    exact ⟨b, h1', rfl⟩
  · obtain ⟨a, b, c', h1, h2, h3, rfl⟩ := hm
    obtain ⟨b', h2'⟩ := i2 rfl ⟨b, h2⟩
    exact ⟨a, b', c', n _ _ (q _ (by simp) (by decide) (by decide) (by decide)) _ h1, h2',
      n _ _ (q _ (by simp) (by decide) (by decide) (by decide)) _ h3, rfl⟩
  · obtain ⟨rows, sp, v, t, h1, h2, h3, h4, rfl⟩ := hm
    obtain ⟨v', h3'⟩ := (f rfl).mp ⟨v, h3⟩
    exact ⟨rows, sp, v', t, h1, h2, h3', n _ _ (q _ (by simp) (by decide) (by decide) (by decide)) _ h4, rfl⟩
  · exact hm

theorem same_radiation (h : SameNumbers env c d d') (m : List (Flux α)) (hm : RadiationFrom env d c.radiation m) : RadiationFrom env d' c.radiation m := by
  have n : ∀ sec key, (sec, key) ∈ requiredNumbers c ∧ (sec, key) ∉ idleNumbers c → ∀ x, NumberAt env d sec key x →
      (hk : key ≠ "critical_distance" := by decide) → NumberAt env d' sec key x := h
  have q : ∀ e, e ∈ radReq c.radiation → e.2 ∉ ["max_packing", "crust_temperature", "crust_temperature_1"] →
      e ∈ requiredNumbers c ∧ e ∉ idleNumbers c := by
    intro e he hk
    refine ⟨by simp [requiredNumbers, he], fun hi => hk ?_⟩
    rcases idle_keys hi with ⟨h, _⟩ | ⟨h, _⟩ | ⟨h, _⟩ <;> simp [h]
  unfold RadiationFrom at *
  generalize c.radiation = s at *
  split at hm
  all_goals simp only [radReq] at q
  · obtain ⟨a, b, h1, h2, rfl⟩ := hm
    exact ⟨a, b, n _ _ (q _ (by simp) (by decide)) _ h1, n _ _ (q _ (by simp) (by decide)) _ h2, rfl⟩
  · obtain ⟨a, b, c', h1, h2, h3, rfl⟩ := hm
    exact ⟨a, b, c', n _ _ (q _ (by simp) (by decide)) _ h1, n _ _ (q _ (by simp) (by decide)) _ h2, n _ _ (q _ (by simp) (by decide)) _ h3, rfl⟩
  · obtain ⟨a, h1, rfl⟩ := hm
    exact ⟨a, n _ _ (q _ (by simp) (by decide)) _ h1, rfl⟩
  · obtain ⟨a, h1, rfl⟩ := hm
    exact ⟨a, n _ _ (q _ (by simp) (by decide)) _ h1, rfl⟩
  · exact hm
  · exact hm

theorem same_fluxes (h : SameNumbers env c d d') (l : List (Flux α)) (hm : FluxesFrom env d c l) : FluxesFrom env d' c l := by
  have n : ∀ sec key, (sec, key) ∈ requiredNumbers c ∧ (sec, key) ∉ idleNumbers c → ∀ x, NumberAt env d sec key x →
      (hk : key ≠ "critical_distance" := by decide) → NumberAt env d' sec key x := h
  obtain ⟨rad, cond, conv, rain, visc, sny, hl, h1, h2, h3, h4, h5, h6, h7⟩ := hm
  have sw : ∀ (s : String) (l : List (Flux α)) (P Q : Flux α → Prop), (s = "yes" → ∀ f, P f → Q f) → SwitchFrom s l P → SwitchFrom s l Q := by
    rintro s l P Q hPQ (⟨hs, f, hf, rfl⟩ | h)
    · exact .inl ⟨hs, f, hPQ hs f hf, rfl⟩
    · exact .inr h
  refine ⟨rad, cond, conv, rain, visc, sny, hl, same_radiation h rad h1, sw _ _ _ _ ?_ h2, h3, sw _ _ _ _ ?_ h4, h5,
    sw _ _ _ _ ?_ h6, h7⟩
  · rintro hs f ⟨b, d, g1, g2, rfl⟩
    exact ⟨b, d, n _ _ ⟨by simp [requiredNumbers, ifYes, hs], fun hi => absurd (idle_keys hi) (by simp)⟩ _ g1, n _ _ ⟨by simp [requiredNumbers, ifYes, hs], fun hi => absurd (idle_keys hi) (by simp)⟩ _ g2, rfl⟩
  · rintro hs f ⟨r, d, l, g1, g2, g3, rfl⟩
    exact ⟨r, d, l, n _ _ ⟨by simp [requiredNumbers, ifYes, hs], fun hi => absurd (idle_keys hi) (by simp)⟩ _ g1, n _ _ ⟨by simp [requiredNumbers, ifYes, hs], fun hi => absurd (idle_keys hi) (by simp)⟩ _ g2,
      n _ _ ⟨by simp [requiredNumbers, ifYes, hs], fun hi => absurd (idle_keys hi) (by simp)⟩ _ g3, rfl⟩
  · rintro hs f ⟨⟨x, g1⟩, rfl⟩
    exact ⟨⟨x, n _ _ ⟨by simp [requiredNumbers, ifYes, hs], fun hi => absurd (idle_keys hi) (by simp)⟩ _ g1⟩, rfl⟩

theorem same_models (h : SameModels env c d d') (m : Models α) (hm : ModelsFrom env d c m) : ModelsFrom env d' c m := by
  have hn := sameNumbers_of h
  have n := fun sec key he x => same_required h sec key he x
  have q : ∀ e, e ∈ airReq ++ lavaReq → e.2 ∉ ["max_packing", "crust_temperature", "crust_temperature_1"] →
      e ∈ requiredNumbers c ∧ e ∉ idleNumbers c := by
    intro e he hk
    constructor
    · rcases List.mem_append.mp he with he | he <;> simp [requiredNumbers, he]
    · intro hi
      exact hk (by rcases idle_keys hi with ⟨h, _⟩ | ⟨h, _⟩ | ⟨h, _⟩ <;> simp [h])
  have pk : (∃ x, NumberAt env d "relative_viscosity_parameters" "max_packing" x) →
      ∃ x, NumberAt env d' "relative_viscosity_parameters" "max_packing" x := by
    by_cases hi : ("relative_viscosity_parameters", "max_packing") ∈ idleNumbers c
    · exact (h.idle _ hi).mp
    · rintro ⟨x, hx⟩
      exact ⟨x, n _ _ ⟨by simp [requiredNumbers, lavaReq], hi⟩ _ hx⟩
  obtain ⟨h1, ⟨a1, a2, a3, a4, a5⟩, ⟨l1, l2, l3, l4, l5, l6, l7, l8, l9, x, l10⟩, h4, h5, h6⟩ := hm
  refine ⟨same_cryst h _ h1, ⟨n _ _ (q _ ?_ ?_) _ a1, n _ _ (q _ ?_ ?_) _ a2, n _ _ (q _ ?_ ?_) _ a3, n _ _ (q _ ?_ ?_) _ a4, n _ _ (q _ ?_ ?_) _ a5⟩,
    ⟨same_melt hn _ l1, same_ves h _ l2, same_rel hn _ _ _ l3, same_bub hn _ _ _ _ l4, same_yield hn _ l5, n _ _ (q _ ?_ ?_) _ l6,
      n _ _ (q _ ?_ ?_) _ l7, n _ _ (q _ ?_ ?_) _ l8, n _ _ (q _ ?_ ?_) _ l9, pk ⟨x, l10⟩⟩,
    same_cover h _ h4, same_crust h _ h5, same_fluxes hn _ h6⟩ <;> first | decide | simp [airReq, lavaReq]

/-- The factory builds the same models from both configurations. -/
theorem same_factory (h : SameModels env c d d') (hc : Selects d c) (m : Models α) (hm : factory env d = .ok m) :
    factory env d' = .ok m := by
  obtain ⟨c', hc', hm⟩ := (C55_models_come_from_the_configuration env d m).mp hm
  rw [selects_unique hc' hc] at hm
  exact (C55_models_come_from_the_configuration env d' m).mpr ⟨c, same_selects h hc, same_models h m hm⟩

/-- The channel read from both configurations is the same. -/
theorem same_terrain (h : SameEntries env c d d') (t : Terrain α) (ht : buildTerrain env d = .ok t) : buildTerrain env d' = .ok t := by
  have e : ∀ key v, ("terrain_conditions", key) ∈ channelEntries → EntryAt d "terrain_conditions" key v →
      EntryAt d' "terrain_conditions" key v := by
    intro key v hm
    exact (h.entry ("terrain_conditions", key) (by simp [usedEntries, hm]) v).mp
  have n : ∀ key x, ("terrain_conditions", key) ∈ channelEntries → NumberAt env d "terrain_conditions" key x →
      NumberAt env d' "terrain_conditions" key x := by
    rintro key x hm ⟨v, hv, hx⟩
    exact ⟨v, e key v hm hv, hx⟩
  unfold buildTerrain readSmoothingPoints at *
  simp only [bind_ok_iff, get_ok_iff, getF_ok_iff, getJ_ok_iff, pure_ok_iff] at *
  obtain ⟨a, h1, a', h2, dd, h3, w, h4, g, h5, l, h6, act, h7, pts, h8, sl, h9, rfl⟩ := ht
  refine ⟨a, (h.top _ (by simp [usedTop]) _).mp h1, a', h2, dd, n _ _ (by simp [channelEntries]) h3,
    w, n _ _ (by simp [channelEntries]) h4, g, n _ _ (by simp [channelEntries]) h5,
    l, n _ _ (by simp [channelEntries]) h6, act, e _ _ (by simp [channelEntries]) h7, pts, ?_, sl, h9, rfl⟩
  split
  · rename_i hs
    rw [if_pos hs, getF_ok_iff] at h8
    rw [getF_ok_iff]
    exact n _ _ (by simp [channelEntries]) h8
  · rename_i hs
    rwa [if_neg hs] at h8

/-- The same preparation with another value of the switch. -/
def Prepared.withMass (pr : Prepared α) (b : Bool) : Prepared α :=
  { pr with cfg := { pr.cfg with massConservation := b }, integrator := { pr.integrator with massConservation := b } }

/-- What a run prepares is the same from both configurations, but for the switch `mass_conservation`. -/
theorem same_prepare (h : SameEntries env c d d') (hc : Selects d c) (log : Log (Cell α)) (pr : Prepared α)
    (hp : prepare env d log = .ok pr) :
    ∃ raw, rawMassConservation d' = .ok raw ∧ prepare env d' log = .ok (pr.withMass (massConservationOf raw)) := by
  have t : ∀ k v, k ∈ usedTop → TopEntry d k v → TopEntry d' k v := fun k v hk => (h.top k hk v).mp
  unfold prepare at *
  simp only [bind_ok_iff, pure_ok_iff, getF_ok_iff] at hp
  obtain ⟨cfg, h1, t0, h2, tt, h3, m, h4, pos, h5, time, h6, st, h7, rfl⟩ := hp
  obtain ⟨a1, a2, a3, ⟨v, a4, a4'⟩, inner, a5, a6⟩ := (readRunConfig_iff env d cfg).mp h1
  have h2' := same_terrain h t0 h2
  obtain ⟨inner', hi'⟩ : ∃ inner', TopEntry d' "terrain_conditions" (.obj inner') := by
    have : ∃ x, NumberAt env d' "terrain_conditions" "depth" x := by
      unfold buildTerrain at h2'
      simp only [bind_ok_iff, get_ok_iff, getF_ok_iff] at h2'
      obtain ⟨_, _, _, _, dd, h3, _⟩ := h2'
      exact ⟨dd, h3⟩
    obtain ⟨x, v, ⟨top, inner', g1, g2, _⟩, _⟩ := this
    exact ⟨inner', top, g1, g2⟩
  refine ⟨(lookup inner' "mass_conservation").getD (.bool false), ?_, ?_⟩
  · unfold rawMassConservation
    rw [(get_ok_iff d' _ _).mpr hi', ok_bind]
  · simp only [bind_ok_iff, pure_ok_iff, getF_ok_iff]
    refine ⟨{ cfg with massConservation := massConservationOf ((lookup inner' "mass_conservation").getD (.bool false)) }, (readRunConfig_iff env d' _).mpr ⟨t _ _ (by simp [usedTop]) a1, t _ _ (by simp [usedTop]) a2,
      t _ _ (by simp [usedTop]) a3, ⟨v, t _ _ (by simp [usedTop]) a4, a4'⟩, inner', hi', rfl⟩, t0, h2', tt, h3, m,
      same_factory (sameModels_of h) hc m h4, pos, (let ⟨v, hv, hx⟩ := h5; ⟨v, (h.entry ("lava_state", "position") (by simp [usedEntries, channelEntries]) v).mp hv, hx⟩),
      time, (let ⟨v, hv, hx⟩ := h6; ⟨v, (h.entry ("lava_state", "time") (by simp [usedEntries, channelEntries]) v).mp hv, hx⟩), st, h7, rfl⟩

/-- Equal switches are read alike. -/
theorem same_switch (hs : SameSwitch d d') (raw raw' : Json α) (h : rawMassConservation d = .ok raw) (h' : rawMassConservation d' = .ok raw') :
    raw = raw' := by
  have key : ∀ (d : Json α) raw, rawMassConservation d = .ok raw → ∃ top inner, d = .obj top ∧ lookup top "terrain_conditions" = some (.obj inner) ∧
      raw = (lookup inner "mass_conservation").getD (.bool false) := by
    intro d raw h
    unfold rawMassConservation at h
    rw [bind_ok_iff] at h
    obtain ⟨tc, h1, h2⟩ := h
    obtain ⟨top, rfl, h3⟩ := (get_ok_iff d _ _).mp h1
    cases tc with
    | obj l => exact ⟨top, l, rfl, h3, (Except.ok.inj h2).symm⟩
    | _ => cases h2
  obtain ⟨top, inner, rfl, g1, rfl⟩ := key d raw h
  obtain ⟨top', inner', rfl, g1', rfl⟩ := key d' raw' h'
  have e1 : ∀ v, lookup inner "mass_conservation" = some v ↔ lookup inner' "mass_conservation" = some v := by
    intro v
    have := hs v
    constructor
    · intro hv
      obtain ⟨t, i, x1, x2, x3⟩ := this.mp ⟨top, inner, rfl, g1, hv⟩
      cases x1; rw [g1'] at x2; cases x2; exact x3
    · intro hv
      obtain ⟨t, i, x1, x2, x3⟩ := this.mpr ⟨top', inner', rfl, g1', hv⟩
      cases x1; rw [g1] at x2; cases x2; exact x3
  congr 1
  cases g : lookup inner "mass_conservation" with
  | some v => exact ((e1 v).mp g).symm
  | none =>
    cases g' : lookup inner' "mass_conservation" with
    | none => rfl
    | some v => rw [(e1 v).mpr g'] at g; cases g

end parts

/-- **C94**. Two configurations with the same relevant entries prepare the same run, or neither prepares one. -/
theorem C94_same_preparation (env : Env α) (c : Choice) (d d' : Json α) (hc : Selects d c) (h : SameEntries env c d d') (hs : SameSwitch d d')
    (log : Log (Cell α)) (pr : Prepared α) : prepare env d log = .ok pr ↔ prepare env d' log = .ok pr := by
  have one : ∀ d d' : Json α, Selects d c → SameEntries env c d d' → SameSwitch d d' → prepare env d log = .ok pr →
      prepare env d' log = .ok pr := by
    intro d d' hc h hs hp
    obtain ⟨raw, h1, h2⟩ := same_prepare h hc log pr hp
    have hp' := hp
    unfold prepare readRunConfig at hp'
    simp only [bind_ok_iff, pure_ok_iff] at hp'
    obtain ⟨cfg, ⟨_, _, _, _, _, _, _, _, _, _, raw0, h3, rfl⟩, _, _, _, _, _, _, _, _, _, _, _, _, rfl⟩ := hp'
    rw [h2]
    rw [← same_switch hs _ _ h3 h1]
    rfl
  exact ⟨one d d' hc h hs, one d' d (same_selects (sameModels_of h) hc) (sameEntries_symm h) (fun v => (hs v).symm)⟩

/-- **C94**. A run depends on the relevant entries only: with the same entries it ends in the same way and leaves the same log and
    the same result file; or both runs raise before they change anything. -/
theorem C94_unused_entries_are_irrelevant (grid : List α) (fuel : Nat) (env : Env α) (jsonFile folder : String) (p p' : Proc α)
    (d d' : Json α) (hd : lookup p.json (env.canon jsonFile) = some d) (hd' : lookup p'.json (env.canon jsonFile) = some d')
    (hlog : p'.log = p.log) (hres : p'.results = p.results)
    (c : Choice) (hc : Selects d c) (h : SameEntries env c d d') (hs : SameSwitch d d') :
    (∃ e e', runOn grid fuel env jsonFile folder p = some (.error e, p) ∧ runOn grid fuel env jsonFile folder p' = some (.error e', p')) ∨
    (runOn grid fuel env jsonFile folder p = none ∧ runOn grid fuel env jsonFile folder p' = none) ∨
    ∃ r log results, runOn grid fuel env jsonFile folder p = some (r, { p with log := log, results := results }) ∧
      runOn grid fuel env jsonFile folder p' = some (r, { p' with log := log, results := results }) := by
  unfold runOn
  rw [hd, hd', hlog, hres]
  dsimp only
  cases hp : prepare env d p.log with
  | error e =>
    cases hp' : prepare env d' p.log with
    | error e' => exact .inl ⟨e, e', rfl, rfl⟩
    | ok pr =>
      rw [(C94_same_preparation env c d d' hc h hs p.log pr).mpr hp'] at hp
      cases hp
  | ok pr =>
    rw [(C94_same_preparation env c d d' hc h hs p.log pr).mp hp]
    dsimp only
    refine .inr ?_
    cases simulateOn grid fuel pr.integrator pr.world with
    | none => exact .inl ⟨rfl, rfl⟩
    | some o =>
      obtain ⟨r, w⟩ := o
      refine .inr ?_
      cases r with
      | error e => exact ⟨_, w.log, p.results, rfl, by rw [← hres]⟩
      | ok _ =>
        dsimp only
        cases writeValues w.log with
        | error e => exact ⟨_, w.log, p.results, rfl, by rw [← hres]⟩
        | ok t =>
          cases t with
          | none => exact ⟨_, w.log, p.results, rfl, by rw [← hres]⟩
          | some t => exact ⟨_, w.log, _, rfl, rfl⟩

end PyFlowGo
