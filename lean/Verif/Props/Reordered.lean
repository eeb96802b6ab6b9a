import Verif.Spec.Reordered
import Verif.Props.Diagnosis
import Verif.Props.RelevantText
/-
  C137: the order of the sections and entries of a configuration file does not matter.
-/
set_option linter.unusedSectionVars false
namespace PyFlowGo
open Spec

section order
variable {α : Type}

theorem lookup_cons_key {ν : Type} (a : String × ν) (l : List (String × ν)) (k : String) : lookup (a :: l) k = if a.1 = k then some a.2 else lookup l k := by
  unfold lookup
  rw [List.find?_cons]
  by_cases h : a.1 = k
  · simp [h]
  · have hb : (a.1 == k) = false := by simpa using h
    rw [hb, if_neg h]

theorem lookup_perm {ν : Type} {l l' : List (String × ν)} (h : l'.Perm l) (hn : (l.map Prod.fst).Nodup) (k : String) : lookup l' k = lookup l k := by
  induction h with
  | nil => rfl
  | cons a h ih =>
    rw [lookup_cons_key, lookup_cons_key, ih (List.nodup_cons.mp hn).2]
  | swap a b l =>
    have hne : a.1 ≠ b.1 := by
      intro h
      have := (List.nodup_cons.mp hn).1
      simp [h] at this
    simp only [lookup_cons_key]
    by_cases h1 : a.1 = k
    · have : b.1 ≠ k := fun h2 => hne (h1.trans h2.symm)
      simp [h1, this]
    · simp [h1]
  | trans h1 h2 ih1 ih2 =>
    have hm := (h2.map Prod.fst).nodup_iff.mpr hn
    rw [ih1 hm, ih2 hn]

/-- What two values look like to a reader that asks for keys only. -/
def SameInside (v v' : Json α) : Prop := v = v' ∨ ∃ m m', v = .obj m ∧ v' = .obj m' ∧ ∀ k, lookup m k = lookup m' k

def SameView (d d' : Json α) : Prop :=
  ∃ l l', d = .obj l ∧ d' = .obj l' ∧ ∀ k, (lookup l k = none ∧ lookup l' k = none) ∨
    ∃ v v', lookup l k = some v ∧ lookup l' k = some v' ∧ (k ∈ usedTop → v = v') ∧ SameInside v v'

theorem sameInside_symm {v v' : Json α} (h : SameInside v v') : SameInside v' v := by
  rcases h with rfl | ⟨m, m', rfl, rfl, h⟩
  · exact .inl rfl
  · exact .inr ⟨m', m, rfl, rfl, fun k => (h k).symm⟩

theorem sameView_symm {d d' : Json α} (h : SameView d d') : SameView d' d := by
  obtain ⟨l, l', rfl, rfl, h⟩ := h
  refine ⟨l', l, rfl, rfl, fun k => ?_⟩
  rcases h k with ⟨h1, h2⟩ | ⟨v, v', h1, h2, h3, h4⟩
  · exact .inl ⟨h2, h1⟩
  · exact .inr ⟨v', v, h2, h1, fun hk => (h3 hk).symm, sameInside_symm h4⟩

theorem sameView_of {d d' : Json α} (h : Reordered d d') : SameView d d' := by
  obtain ⟨top, mid, top', rfl, rfl, ⟨hn, hp⟩, hf⟩ := h
  refine ⟨top, top', rfl, rfl, fun k => ?_⟩
  rw [lookup_perm hp hn]
  clear hn hp top'
  induction hf with
  | nil => exact .inl ⟨rfl, rfl⟩
  | @cons a b top mid hab _ ih =>
    rw [lookup_cons_key, lookup_cons_key, ← hab.1]
    by_cases hk : a.1 = k
    · rw [if_pos hk, if_pos hk]
      refine .inr ⟨a.2, b.2, rfl, rfl, fun h => hab.2.1 (by rw [hk]; exact h), ?_⟩
      rcases hab.2.2 with h | ⟨m, m', h1, h2, hn, hp⟩
      · exact .inl h
      · exact .inr ⟨m, m', h1, h2, fun j => (lookup_perm hp hn j).symm⟩
    · rw [if_neg hk, if_neg hk]
      exact ih

theorem view_has {d d' : Json α} (h : SameView d d') (k : String) : d.has k = d'.has k := by
  obtain ⟨l, l', rfl, rfl, h⟩ := h
  unfold Json.has
  rcases h k with ⟨h1, h2⟩ | ⟨v, v', h1, h2, _, _⟩ <;> simp [h1, h2]

theorem view_get {d d' : Json α} (h : SameView d d') {k : String} (hk : k ∈ usedTop) : d.get k = d'.get k := by
  obtain ⟨l, l', rfl, rfl, h⟩ := h
  unfold Json.get
  rcases h k with ⟨h1, h2⟩ | ⟨v, v', h1, h2, h3, _⟩
  · simp [h1, h2]
  · simp [h1, h2, h3 hk]

theorem inside_get {v v' : Json α} (h : SameInside v v') (k : String) : v.get k = v'.get k := by
  rcases h with rfl | ⟨m, m', rfl, rfl, h⟩
  · rfl
  · unfold Json.get; simp only [h k]

/-- A section is missing in both, or it is there in both. -/
theorem view_section {d d' : Json α} (h : SameView d d') (sec : String) : (∃ e, d.get sec = .error e ∧ d'.get sec = .error e) ∨ ∃ s s', d.get sec = .ok s ∧ d'.get sec = .ok s' ∧ SameInside s s' := by
  obtain ⟨l, l', rfl, rfl, h⟩ := h
  unfold Json.get
  dsimp only
  rcases h sec with ⟨h1, h2⟩ | ⟨v, v', h1, h2, h3, h4⟩
  · exact .inl ⟨_, by rw [h1], by rw [h2]⟩
  · exact .inr ⟨v, v', by rw [h1], by rw [h2], h4⟩

theorem view_getJ {d d' : Json α} (h : SameView d d') (sec key : String) : getJ d sec key = getJ d' sec key := by
  unfold getJ
  rcases view_section h sec with ⟨e, h1, h2⟩ | ⟨s, s', h1, h2, h3⟩
  · rw [h1, h2]
  · rw [h1, h2, ok_bind, ok_bind, inside_get h3]

theorem view_entryValue {d d' : Json α} (h : SameView d d') (sec key : String) : entryValue d sec key = entryValue d' sec key := by
  obtain ⟨l, l', rfl, rfl, h⟩ := h
  unfold entryValue
  rcases h sec with ⟨h1, h2⟩ | ⟨v, v', h1, h2, h3, h4⟩
  · simp [h1, h2]
  · rcases h4 with rfl | ⟨m, m', rfl, rfl, h4⟩
    · simp [h1, h2]
    · simp [h1, h2, h4 key]

theorem view_entry {d d' : Json α} (h : SameView d d') (sec key : String) (v : Json α) : EntryAt d sec key v ↔ EntryAt d' sec key v := by
  have e : ∀ d : Json α, EntryAt d sec key v ↔ entryValue d sec key = some v := by
    intro d
    unfold EntryAt entryValue
    constructor
    · rintro ⟨top, inner, rfl, h1, h2⟩
      simp [h1, h2]
    · intro hv
      cases d with
      | obj top =>
        dsimp only at hv
        cases hl : lookup top sec with
        | none => rw [hl] at hv; cases hv
        | some s =>
          rw [hl] at hv
          cases s with
          | obj inner => exact ⟨top, inner, rfl, hl, hv⟩
          | _ => cases hv
      | _ => cases hv
  rw [e, e, view_entryValue h]

theorem view_top {d d' : Json α} (h : SameView d d') {k : String} (hk : k ∈ usedTop) (v : Json α) : TopEntry d k v ↔ TopEntry d' k v := by
  obtain ⟨l, l', rfl, rfl, h⟩ := h
  have e : ∀ l : List (String × Json α), TopEntry (.obj l) k v ↔ lookup l k = some v := by
    intro l
    constructor
    · rintro ⟨top, h1, h2⟩
      injection h1 with h1
      rw [h1]; exact h2
    · intro h; exact ⟨l, rfl, h⟩
  rw [e, e]
  rcases h k with ⟨h1, h2⟩ | ⟨v, v', h1, h2, h3, _⟩
  · rw [h1, h2]
  · rw [h1, h2, h3 hk]

theorem view_there {d d' : Json α} (h : SameView d d') (k : String) : (∃ v, TopEntry d k v) ↔ ∃ v, TopEntry d' k v := by
  have e : ∀ d d' : Json α, SameView d d' → (∃ v, TopEntry d k v) → ∃ v, TopEntry d' k v := by
    rintro _ _ ⟨l, l', rfl, rfl, h⟩ ⟨v, top, h1, h2⟩
    injection h1 with h1
    subst h1
    rcases h k with ⟨h1, _⟩ | ⟨_, v', _, h4, _⟩
    · rw [h1] at h2; cases h2
    · exact ⟨v', l', rfl, h4⟩
  exact ⟨e _ _ h, e _ _ (sameView_symm h)⟩

end order

variable {α : Type} [Add α] [Sub α] [Mul α] [Neg α] [OfScientific α] [PyNum α]

theorem view_getF {d d' : Json α} (h : SameView d d') (env : Env α) (sec key : String) : getF env d sec key = getF env d' sec key := by
  have e : ∀ d : Json α, getF env d sec key = getJ d sec key >>= fun v => v.toFloat env := by
    intro d
    unfold getF getJ
    cases d.get sec <;> rfl
  rw [e, e, view_getJ h]

theorem view_entries {d d' : Json α} (h : SameView d d') (env : Env α) (c : Choice) : SameEntries env c d d' where
  entry e _ v := view_entry h e.1 e.2 v
  top k hk v := view_top h hk v
  idle e _ := by unfold NumberAt; simp only [view_entry h]
  table _ := view_there h _
  profile _ := by simp only [view_entry h]

theorem view_check {d d' : Json α} (h : SameView d d') (env : Env α) (c : Check) : c.error env d = c.error env d' := by
  have h0 := h
  obtain ⟨l, l', rfl, rfl, h⟩ := h
  have inner : ∀ sec, (lookup l sec = none ∧ lookup l' sec = none) ∨ (∃ v, lookup l sec = some v ∧ lookup l' sec = some v) ∨
      ∃ m m', lookup l sec = some (.obj m) ∧ lookup l' sec = some (.obj m') ∧ ∀ k, lookup m k = lookup m' k := by
    intro sec
    rcases h sec with ⟨h1, h2⟩ | ⟨v, v', h1, h2, _, h4⟩
    · exact .inl ⟨h1, h2⟩
    · rcases h4 with rfl | ⟨m, m', rfl, rfl, h4⟩
      · exact .inr (.inl ⟨v, h1, h2⟩)
      · exact .inr (.inr ⟨m, m', h1, h2, h4⟩)
  have number : ∀ sec key, numberError env (.obj l) sec key = numberError env (.obj l') sec key := by
    intro sec key
    unfold numberError
    rcases inner sec with ⟨h1, h2⟩ | ⟨v, h1, h2⟩ | ⟨m, m', h1, h2, h3⟩
    · simp [h1, h2]
    · simp only [h1, h2]
    · simp only [h1, h2, h3 key]
  cases c with
  | number sec key => exact number sec key
  | entry sec key =>
    unfold Check.error entryError
    rcases inner sec with ⟨h1, h2⟩ | ⟨v, h1, h2⟩ | ⟨m, m', h1, h2, h3⟩
    · simp [h1, h2]
    · simp only [h1, h2]
    · simp only [h1, h2, h3 key]
  | present sec key =>
    unfold Check.error presentError
    rcases inner sec with ⟨h1, h2⟩ | ⟨v, h1, h2⟩ | ⟨m, m', h1, h2, h3⟩
    · simp [h1, h2]
    · simp only [h1, h2]
    · simp only [h1, h2, containsError, h3 key]
  | presentTop key =>
    unfold Check.error containsError
    rcases h key with ⟨h1, h2⟩ | ⟨v, v', h1, h2, _⟩ <;> simp [h1, h2]
  | top key =>
    unfold Check.error
    rcases h key with ⟨h1, h2⟩ | ⟨v, v', h1, h2, _⟩ <;> simp [h1, h2]
  | numberTop key =>
    unfold Check.error
    rcases inner key with ⟨h1, h2⟩ | ⟨v, h1, h2⟩ | ⟨m, m', h1, h2, h3⟩
    · simp [h1, h2]
    · simp only [h1, h2]
    · simp only [h1, h2, floatError]
  | «section» sec =>
    unfold Check.error
    rcases inner sec with ⟨h1, h2⟩ | ⟨v, h1, h2⟩ | ⟨m, m', h1, h2, h3⟩
    · simp [h1, h2]
    · simp only [h1, h2]
    · simp only [h1, h2]
  | numberIf sec flag key =>
    unfold Check.error
    simp only [view_entryValue h0 sec flag, number]
  | crustProfile => rfl

theorem view_diagnosis {d d' : Json α} (h : SameView d d') (env : Env α) (items : List Item) : diagnosis env d items = diagnosis env d' items := by
  unfold diagnosis
  congr 1
  funext i
  have hc : Check.error env d = Check.error env d' := funext fun c => view_check h env c
  have ht : ∀ sec key, textAt d sec key = textAt d' sec key := fun sec key => by unfold textAt; rw [view_entryValue h]
  cases i with
  | check c => exact view_check h env c
  | choice sec key options => unfold Item.error; simp only [ht, hc]
  | snyder => unfold Item.error; simp only [ht]

theorem view_factory {d d' : Json α} (h : SameView d d') (env : Env α) : factory env d = factory env d' := by
  have one : ∀ d d' : Json α, SameView d d' → ∀ m, factory env d = .ok m → factory env d' = .ok m := by
    intro d d' h m hm
    obtain ⟨c, hc, _⟩ := (C55_models_come_from_the_configuration env d m).mp hm
    exact same_factory (sameModels_of (view_entries h env c)) hc m hm
  cases hm : factory env d with
  | ok m => exact (one d d' h m hm).symm
  | error e =>
    have := ((C115_factory env d).1 e).mp hm
    rw [view_diagnosis h] at this
    exact (((C115_factory env d').1 e).mpr this).symm

theorem view_preparation (env : Env α) (d d' : Json α) (hv : SameView d d') (log : Log (Cell α)) : prepare env d log = prepare env d' log := by
  have h1 : readRunConfig env d = readRunConfig env d' := by
    unfold readRunConfig requireTop
    rw [view_get hv (k := "effusion_rate_init") (by simp [usedTop]), view_get hv (k := "lava_name") (by simp [usedTop]), view_get hv (k := "slope_file") (by simp [usedTop]),
      view_get hv (k := "step_size") (by simp [usedTop]), view_has hv, view_has hv, view_has hv]
    have : rawMassConservation d = rawMassConservation d' := by
      unfold rawMassConservation
      rcases view_section hv "terrain_conditions" with ⟨e, h1, h2⟩ | ⟨s, s', h1, h2, h3⟩
      · rw [h1, h2]
      · rw [h1, h2]
        rcases h3 with rfl | ⟨m, m', rfl, rfl, h3⟩
        · rfl
        · simp only [ok_bind, h3]
    rw [this]
  have h2 : buildTerrain env d = buildTerrain env d' := by
    unfold buildTerrain readSmoothingPoints
    simp only [view_get hv (k := "effusion_rate_init") (by simp [usedTop]), view_getF hv, view_getJ hv]
  unfold prepare
  rw [h1, h2, view_factory hv, view_getF hv, view_getF hv]

theorem view_run (grid : List α) (fuel : Nat) (env : Env α) (jsonFile folder : String) (p p' : Proc α)
    (d d' : Json α) (hd : lookup p.json (env.canon jsonFile) = some d) (hd' : lookup p'.json (env.canon jsonFile) = some d')
    (hlog : p'.log = p.log) (hres : p'.results = p.results) (h : SameView d d') :
    ∃ outcome : Option (Except Err Unit × Log (Cell α) × List (String × CsvTable (Cell α))),
      runOn grid fuel env jsonFile folder p = outcome.map (fun o => (o.1, { p with log := o.2.1, results := o.2.2 })) ∧
      runOn grid fuel env jsonFile folder p' = outcome.map (fun o => (o.1, { p' with log := o.2.1, results := o.2.2 })) := by
  obtain ⟨json, results, log⟩ := p
  obtain ⟨json', results', log'⟩ := p'
  dsimp only at hlog hres hd hd'
  subst hlog hres
  unfold runOn
  dsimp only
  rw [hd, hd']
  dsimp only
  simp only [view_preparation env d d' h]
  cases prepare env d' log' with
  | error e => exact ⟨some (.error e, log', results'), rfl, rfl⟩
  | ok pr =>
    dsimp only
    cases simulateOn grid fuel pr.integrator pr.world with
    | none => exact ⟨none, rfl, rfl⟩
    | some o =>
      obtain ⟨r, w⟩ := o
      cases r with
      | error e => exact ⟨some (.error e, w.log, results'), rfl, rfl⟩
      | ok _ =>
        dsimp only
        cases writeValues w.log with
        | error e => exact ⟨some (.error e, w.log, results'), rfl, rfl⟩
        | ok t =>
          cases t with
          | none => exact ⟨some (.ok (), w.log, results'), rfl, rfl⟩
          | some t => exact ⟨some (.ok (), w.log, _), rfl, rfl⟩

theorem view_text (F : TextFormat α) (grid : List α) (fuel : Nat) (jsonFile folder : String)
    (disk₁ disk₂ : List (String × List Char)) (text₁ text₂ : List Char) (d d' : Json α)
    (h₁ : lookup disk₁ (F.canon jsonFile) = some text₁) (h₂ : lookup disk₂ (F.canon jsonFile) = some text₂)
    (hd₁ : JsonText F.float (universal text₁) d) (hd₂ : JsonText F.float (universal text₂) d')
    (hp : ∀ path, MayRead d path → (lookup disk₁ (F.canon path)).map dataLines = (lookup disk₂ (F.canon path)).map dataLines)
    (h : SameView d d') :
    ∃ outcome : Option (Except Err Unit × List (String × List Char)),
      runTextOn grid fuel F jsonFile folder disk₁ = outcome.map (fun q => (q.1, q.2 ++ disk₁)) ∧
      runTextOn grid fuel F jsonFile folder disk₂ = outcome.map (fun q => (q.1, q.2 ++ disk₂)) := by
  rw [runTextOn_value F grid fuel jsonFile folder disk₁ text₁ d h₁ hd₁, runTextOn_value F grid fuel jsonFile folder disk₂ text₂ d' h₂ hd₂]
  have hp' : ∀ path, MayRead d' path →
      (lookup disk₁ (F.canon path)).map dataLines = (lookup disk₂ (F.canon path)).map dataLines := by
    intro path hm
    refine hp path ?_
    have ht := fun v => view_top h (k := "slope_file") (by simp [usedTop]) v
    rcases hm with hm | ⟨hm, e⟩ | hm
    · exact .inl ((ht _).mpr hm)
    · exact .inr (.inl ⟨(ht _).mpr hm, e⟩)
    · exact .inr (.inr hm)
  rw [runOn_disks F grid fuel jsonFile folder disk₁ disk₂ d' hp']
  have hl : ∀ d : Json α, lookup (newRunner (⟨[(F.canon jsonFile, d)], [], []⟩ : Proc α)).json ((textEnv F disk₁).canon jsonFile) = some d := by
    intro d
    show lookup [(F.canon jsonFile, d)] (F.canon jsonFile) = some d
    rw [lookup_cons_eq, if_pos rfl]
  obtain ⟨o, r1, r2⟩ := view_run grid fuel (textEnv F disk₁) jsonFile folder
    (newRunner ⟨[(F.canon jsonFile, d)], [], []⟩) (newRunner ⟨[(F.canon jsonFile, d')], [], []⟩) d d' (hl d) (hl d') rfl rfl h
  refine ⟨o.map fun o => (o.1, addedFiles F o.2.2), ?_, ?_⟩
  · rw [r1, Option.map_map, Option.map_map]; rfl
  · rw [r2, Option.map_map, Option.map_map]; rfl

/-- **C137**: a configuration and the same configuration in another order prepare the same run, or are refused with the same exception. -/
theorem C137_preparation (env : Env α) (d d' : Json α) (h : Reordered d d') (log : Log (Cell α)) : prepare env d log = prepare env d' log :=
  view_preparation env d d' (sameView_of h) log

/-- **C137 for runs**: in another order the configuration gives the same outcome, the same exception if there is one, the same log and the same result file. -/
theorem C137_run (grid : List α) (fuel : Nat) (env : Env α) (jsonFile folder : String) (p p' : Proc α)
    (d d' : Json α) (hd : lookup p.json (env.canon jsonFile) = some d) (hd' : lookup p'.json (env.canon jsonFile) = some d')
    (hlog : p'.log = p.log) (hres : p'.results = p.results) (h : Reordered d d') :
    ∃ outcome : Option (Except Err Unit × Log (Cell α) × List (String × CsvTable (Cell α))),
      runOn grid fuel env jsonFile folder p = outcome.map (fun o => (o.1, { p with log := o.2.1, results := o.2.2 })) ∧
      runOn grid fuel env jsonFile folder p' = outcome.map (fun o => (o.1, { p' with log := o.2.1, results := o.2.2 })) :=
  view_run grid fuel env jsonFile folder p p' d d' hd hd' hlog hres (sameView_of h)

/-- **C137 on texts**: two files whose texts are, as JSON, the same configuration in different orders, with any spacing and line ends, beside the same profiles, give runs with the same
    outcome and the same new file. -/
theorem C137_text (F : TextFormat α) (grid : List α) (fuel : Nat) (jsonFile folder : String)
    (disk₁ disk₂ : List (String × List Char)) (text₁ text₂ : List Char) (d d' : Json α)
    (h₁ : lookup disk₁ (F.canon jsonFile) = some text₁) (h₂ : lookup disk₂ (F.canon jsonFile) = some text₂)
    (hd₁ : JsonText F.float (universal text₁) d) (hd₂ : JsonText F.float (universal text₂) d')
    (hp : ∀ path, MayRead d path → (lookup disk₁ (F.canon path)).map dataLines = (lookup disk₂ (F.canon path)).map dataLines)
    (h : Reordered d d') :
    ∃ outcome : Option (Except Err Unit × List (String × List Char)),
      runTextOn grid fuel F jsonFile folder disk₁ = outcome.map (fun q => (q.1, q.2 ++ disk₁)) ∧
      runTextOn grid fuel F jsonFile folder disk₂ = outcome.map (fun q => (q.1, q.2 ++ disk₂)) :=
  view_text F grid fuel jsonFile folder disk₁ disk₂ text₁ text₂ d d' h₁ h₂ hd₁ hd₂ hp (sameView_of h)

end PyFlowGo
