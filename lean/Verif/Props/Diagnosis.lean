import Verif.Proofs.Diagnosis
import Verif.Props.RunConfig
/-
  C115: which exception a bad configuration raises.
-/
set_option linter.unusedSectionVars false
namespace PyFlowGo
open Spec
variable {α : Type} [Add α] [Sub α] [Mul α] [Neg α] [OfScientific α] [PyNum α]

/-- **C115**. The factory raises exactly the first exception of the list of requirements, and builds the models if there is none. -/
theorem C115_factory (env : Env α) (data : Json α) :
    (∀ e, factory env data = .error e ↔ diagnosis env data factoryItems = some e) ∧
    ((∃ models, factory env data = .ok models) ↔ diagnosis env data factoryItems = none) := by
  rw [← factory_err]
  exact ⟨fun e => (errOf_iff _ e).symm, (errOf_none _).symm⟩

theorem checks_append (env : Env α) (data : Json α) (a b : List Check) :
    (a ++ b).findSome? (Check.error env data) = (a.findSome? (Check.error env data)).or (b.findSome? (Check.error env data)) :=
  List.findSome?_append

theorem requireTop_err (env : Env α) (data : Json α) (key : String) (hobj : ∃ l, data = .obj l) :
    errOf (requireTop data key) = Check.error env data (.presentTop key) := by
  obtain ⟨l, rfl⟩ := hobj
  show _ = containsError (.obj l) key
  unfold requireTop Json.has containsError Json.get
  dsimp only
  rw [ok_bind]
  cases lookup l key <;> rfl

theorem check_step {β γ : Type} (env : Env α) (data : Json α) {c : Check} {cs : List Check} {m : Except Err β} {f : β → Except Err γ}
    (hm : errOf m = c.error env data) (h : ∀ x, m = .ok x → errOf (f x) = cs.findSome? (Check.error env data)) :
    errOf (m >>= f) = (c :: cs).findSome? (Check.error env data) := by
  rw [errOf_bind hm h, checks_cons]

theorem top_err (env : Env α) (data : Json α) (key : String) : errOf (data.get key) = Check.error env data (.top key) := get_err data key

/-- The configuration and the terrain, before the slope profile. -/
theorem run_err (env : Env α) (data : Json α) (hrad : ∃ s : α, radians 2.657414 = .ok s) :
    errOf (readRunConfig env data >>= fun cfg => buildTerrain env data >>= fun t => (.ok (cfg, t) : Except Err (RunConfig α × Terrain α))) =
      diagnosis env data runItems := by
  unfold runItems
  rw [diagnosis_checks]
  unfold readRunConfig
  simp only [bind_assoc, pure_bind, List.cons_append, List.nil_append]
  refine check_step env data (top_err env data _) fun rate hrate => ?_
  obtain ⟨l, rfl, hl⟩ := (get_ok_iff _ _ _).mp hrate
  have hobj : ∃ l', Json.obj l = .obj l' := ⟨l, rfl⟩
  refine check_step env _ (requireTop_err env _ _ hobj) fun lava _ => ?_
  refine check_step env _ (requireTop_err env _ _ hobj) fun slope _ => ?_
  refine check_step env _ (requireTop_err env _ _ hobj) fun sz hsz => ?_
  have hszl : lookup l "step_size" = some sz := by
    unfold requireTop Json.has Json.get at hsz
    dsimp only at hsz
    rw [ok_bind] at hsz
    cases hlk : lookup l "step_size" with
    | none => rw [hlk] at hsz; cases hsz
    | some v => rw [hlk] at hsz; cases hsz; rfl
  refine check_step env _ ?_ fun x _ => ?_
  · rw [toFloat_err]
    show _ = (match lookup l "step_size" with | none => some Err.keyError | some v => floatError env v)
    rw [hszl]
  refine check_step env _ ?_ fun raw _ => ?_
  · show errOf ((Json.obj l).get "terrain_conditions" >>= _) = (match lookup l "terrain_conditions" with
      | none => some Err.keyError
      | some (.obj _) => none
      | some _ => some Err.attributeError)
    unfold Json.get
    dsimp only
    cases lookup l "terrain_conditions" with
    | none => rfl
    | some v => cases v <;> rfl
  unfold buildTerrain
  simp only [bind_assoc, pure_bind]
  have htop : errOf ((Json.obj l).get "effusion_rate_init" >>= fun e => e.toFloat env) = Check.error env (.obj l) (.numberTop "effusion_rate_init") := by
    show _ = (match lookup l "effusion_rate_init" with | none => some Err.keyError | some v => floatError env v)
    rw [hl, hrate, ok_bind, toFloat_err]
  rw [← bind_assoc]
  refine check_step env _ htop fun e _ => ?_
  refine number_step env _ fun dep _ => ?_
  refine number_step env _ fun wid _ => ?_
  refine number_step env _ fun gr _ => ?_
  refine number_step env _ fun ml _ => ?_
  refine check_step env _ (entry_err _ _ _) fun act hact => ?_
  refine check_step env _ ?_ fun sp _ => ?_
  · show _ = (match entryValue (Json.obj l) "terrain_conditions" "slope_smoothing_active" with
      | some (.bool true) => numberError env (Json.obj l) "terrain_conditions" "slope_smoothing_number_of_points"
      | _ => none)
    rw [value_of _ hact]
    unfold readSmoothingPoints isTrue
    cases act with
    | bool b => cases b <;> first | rfl | exact number_err _ _ _ _
    | _ => rfl
  · obtain ⟨s, hs⟩ := hrad
    rw [hs, ok_bind]
    rfl

/-- **C115**. A run on a configuration with a problem the run itself, the terrain, the models or the starting point notice ends with
    the first exception in the order of the lists, and changes nothing: what the run and the terrain require comes before the slope
    profile is opened, what the models and the starting point require comes after it. -/
theorem C115_run (grid : List α) (fuel : Nat) (env : Env α) (jsonFile folder : String) (p : Proc α) (data : Json α)
    (hdata : lookup p.json (env.canon jsonFile) = some data) (hrad : ∃ s : α, radians 2.657414 = .ok s) (e : Err) :
    (diagnosis env data runItems = some e → runOn grid fuel env jsonFile folder p = some (.error e, p)) ∧
    (∀ cfg t0 t, readRunConfig env data = .ok cfg → buildTerrain env data = .ok t0 → loadSlope env t0 cfg.slopeFile = .ok t →
      diagnosis env data (factoryItems ++ stateItems) = some e → runOn grid fuel env jsonFile folder p = some (.error e, p)) := by
  have hrun : ∀ e, prepare env data p.log = .error e → runOn grid fuel env jsonFile folder p = some (.error e, p) := by
    intro e h
    unfold runOn
    rw [hdata]
    dsimp only
    rw [h]
  constructor
  · intro h
    rw [← run_err env data hrad] at h
    refine hrun e ?_
    unfold prepare
    rw [errOf_iff] at h
    rcases bind_error_iff.mp h with h | ⟨cfg, h1, h⟩
    · rw [h]; rfl
    · rw [h1, ok_bind]
      rcases bind_error_iff.mp h with h | ⟨t, h2, h⟩
      · rw [h]; rfl
      · cases h
  · intro cfg t0 t h1 h2 h3 h
    refine hrun e ?_
    unfold prepare
    rw [h1, ok_bind, h2, ok_bind, h3, ok_bind, ← errOf_iff]
    rw [diagnosis_append] at h
    cases hf : factory env data with
    | error x =>
      have := factory_err env data
      rw [hf] at this
      rw [← this] at h
      exact h
    | ok models =>
      have := factory_err env data
      rw [hf] at this
      rw [← this] at h
      have h : diagnosis env data stateItems = some e := h
      rw [ok_bind]
      unfold stateItems at h
      rw [diagnosis_cons, diagnosis_cons] at h
      have e1 : Item.error env data (.check (.number "lava_state" "position")) = numberError env data "lava_state" "position" := rfl
      have e2 : Item.error env data (.check (.number "lava_state" "time")) = numberError env data "lava_state" "time" := rfl
      rw [e1, e2, ← number_err, ← number_err] at h
      cases hp : getF env data "lava_state" "position" with
      | error x =>
        rw [hp] at h
        exact h
      | ok pos =>
        rw [hp] at h
        rw [ok_bind]
        cases ht : getF env data "lava_state" "time" with
        | error x =>
          rw [ht] at h
          exact h
        | ok time =>
          rw [ht] at h
          cases h

/-- **C115**. Conversely a run that is refused before the flow starts was refused for the first exception of the lists, or for the
    slope profile, or because the crust temperature or the initial crystal and vesicle fractions cannot be computed at the vent. -/
theorem C115_refused (env : Env α) (data : Json α) (log : Log (Cell α)) (hrad : ∃ s : α, radians 2.657414 = .ok s) (e : Err)
    (h : prepare env data log = .error e) :
    diagnosis env data runItems = some e ∨
    ∃ cfg t0, readRunConfig env data = .ok cfg ∧ buildTerrain env data = .ok t0 ∧ diagnosis env data runItems = none ∧
      (loadSlope env t0 cfg.slopeFile = .error e ∨
        ∃ t, loadSlope env t0 cfg.slopeFile = .ok t ∧ (diagnosis env data (factoryItems ++ stateItems) = some e ∨
          ∃ models pos time, factory env data = .ok models ∧ getF env data "lava_state" "position" = .ok pos ∧
            getF env data "lava_state" "time" = .ok time ∧ initialState models t pos time = .error e)) := by
  unfold prepare at h
  have hr := run_err env data hrad
  rcases bind_error_iff.mp h with h | ⟨cfg, h1, h⟩
  · rw [h] at hr
    exact .inl hr.symm
  rcases bind_error_iff.mp h with h | ⟨t0, h2, h⟩
  · rw [h1, h] at hr
    exact .inl hr.symm
  rw [h1, h2] at hr
  refine .inr ⟨cfg, t0, h1, h2, hr.symm, ?_⟩
  rcases bind_error_iff.mp h with h | ⟨t, h3, h⟩
  · exact .inl h
  refine .inr ⟨t, h3, ?_⟩
  have hf := factory_err env data
  rcases bind_error_iff.mp h with h | ⟨models, h4, h⟩
  · rw [h] at hf
    rw [diagnosis_append, ← hf]
    exact .inl rfl
  rw [h4] at hf
  have e1 : Item.error env data (.check (.number "lava_state" "position")) = errOf (getF env data "lava_state" "position") := (number_err _ _ _ _).symm
  have e2 : Item.error env data (.check (.number "lava_state" "time")) = errOf (getF env data "lava_state" "time") := (number_err _ _ _ _).symm
  rcases bind_error_iff.mp h with h | ⟨pos, h5, h⟩
  · left
    rw [diagnosis_append, ← hf]
    unfold stateItems
    rw [diagnosis_cons, e1, h]
    rfl
  rcases bind_error_iff.mp h with h | ⟨time, h6, h⟩
  · left
    rw [diagnosis_append, ← hf]
    unfold stateItems
    rw [diagnosis_cons, diagnosis_cons, e1, e2, h5, h]
    rfl
  rcases bind_error_iff.mp h with h | ⟨st, h7, h⟩
  · exact .inr ⟨models, pos, time, h4, h5, h6, h⟩
  · cases h

end PyFlowGo
