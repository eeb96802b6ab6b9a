import Verif.Proofs.Base
import Verif.Model.Integrator
/-
  What the sub-models may do to the world: overwrite the strain rate, and write log cells at the current
  position.  Valid for every number type.
-/
namespace PyFlowGo
variable {α : Type}

/-- Write a list of cells at one position, in order. -/
def Log.addAll {ν : Type} [BEq ν] (log : Log ν) (p : ν) (es : List (String × ν)) : Log ν :=
  es.foldl (fun L e => L.addVariable e.1 p e.2) log

theorem Log.addAll_append {ν : Type} [BEq ν] (log : Log ν) (p : ν) (a b : List (String × ν)) :
    log.addAll p (a ++ b) = (log.addAll p a).addAll p b := by
  simp [Log.addAll, List.foldl_append]

/-- The world after overwriting the strain rate and writing cells at the current position. -/
def World.touched [PyNum α] (w : World α) (x : α) (es : List (String × Cell α)) : World α :=
  { w with st := { w.st with strain := x }, log := w.log.addAll (.num w.st.pos) es }

theorem World.touched_touched [PyNum α] (w : World α) (x y : α) (a b : List (String × Cell α)) :
    (w.touched x a).touched y b = w.touched y (a ++ b) := by
  simp [World.touched, Log.addAll_append]

theorem World.touched_nil [PyNum α] (w : World α) : w.touched w.st.strain [] = w := rfl

/-- `m` only touches the strain rate and the log; the columns it writes are a prefix of `names`, and all
    of `names` when it succeeds. -/
def Emits [PyNum α] {β : Type} (m : PyM (World α) β) (names : List String) : Prop :=
  ∀ w r w', m w = (r, w') → ∃ x es, w' = w.touched x es ∧ es.map Prod.fst <+: names ∧
    ((∃ b, r = .ok b) → es.map Prod.fst = names)

namespace Emits
variable [PyNum α] {β γ : Type}

theorem of_unchanged {m : PyM (World α) β} (h : ∀ w, (m w).2 = w) : Emits m [] := by
  intro w r w' e
  have : w' = w := by have := h w; rw [e] at this; exact this
  exact ⟨w.st.strain, [], by rw [World.touched_nil]; exact this, by simp, fun _ => rfl⟩

theorem pure (b : β) : Emits (Pure.pure b : PyM (World α) β) [] := of_unchanged fun _ => rfl
theorem get : Emits (PyM.get : PyM (World α) (World α)) [] := of_unchanged fun _ => rfl
theorem lift (x : Except Err β) : Emits (PyM.lift x : PyM (World α) β) [] := of_unchanged fun _ => rfl

theorem bind {m : PyM (World α) β} {f : β → PyM (World α) γ} {A B : List String}
    (hm : Emits m A) (hf : ∀ b, Emits (f b) B) : Emits (m >>= f) (A ++ B) := by
  intro w r w' e
  rw [PyM.bind_apply] at e
  cases h : m w with
  | mk r1 w1 =>
    rw [h] at e
    obtain ⟨x, es, h1, h2, h3⟩ := hm w r1 w1 h
    cases r1 with
    | error err =>
      simp only [Prod.mk.injEq] at e
      obtain ⟨rfl, rfl⟩ := e
      exact ⟨x, es, h1, h2.trans (List.prefix_append _ _), fun ⟨b, hb⟩ => by cases hb⟩
    | ok b =>
      simp only at e
      obtain ⟨y, es', h1', h2', h3'⟩ := hf b w1 r w' e
      have hA := h3 ⟨b, rfl⟩
      refine ⟨y, es ++ es', by rw [h1', h1, World.touched_touched], ?_, fun hr => ?_⟩
      · rw [List.map_append, hA]
        exact (List.prefix_append_right_inj _).mpr h2'
      · rw [List.map_append, hA, h3' hr]

theorem logCell (n : String) (v : Cell α) : Emits (PyFlowGo.logCell n v) [n] := by
  intro w r w' e
  unfold PyFlowGo.logCell at e
  simp only [PyM.modify_apply, Prod.mk.injEq] at e
  obtain ⟨rfl, rfl⟩ := e
  exact ⟨w.st.strain, [(n, v)], rfl, by simp, fun _ => rfl⟩

theorem logNum (n : String) (v : α) : Emits (PyFlowGo.logNum n v) [n] := logCell n _

end Emits

variable [Add α] [Sub α] [Mul α] [Neg α] [OfScientific α] [PyNum α]

theorem Emits.meanVelocityM (l : Lava α) : Emits (PyFlowGo.meanVelocityM l) [] := by
  intro w r w' e
  unfold PyFlowGo.meanVelocityM at e
  split at e
  · simp only [Prod.mk.injEq] at e
    obtain ⟨rfl, rfl⟩ := e
    exact ⟨_, [], rfl, by simp, fun _ => rfl⟩
  · simp only [Prod.mk.injEq] at e
    obtain ⟨rfl, rfl⟩ := e
    exact ⟨w.st.strain, [], rfl, by simp, fun _ => rfl⟩

theorem Emits.crust (m : Models α) : Emits (crustTemperature m) [] := Emits.of_unchanged fun _ => rfl
theorem Emits.molten (m : Models α) : Emits (moltenTemperature m) [] := Emits.of_unchanged fun _ => rfl

theorem Emits.cover (m : Models α) : Emits (effectiveCover m) [] := by
  unfold effectiveCover
  exact Emits.bind Emits.get fun _ => Emits.bind (Emits.meanVelocityM _) fun _ => Emits.pure _

theorem Emits.effRad (m : Models α) :
    Emits (effectiveRadiationTemperature m) ["effective_radiation_temperature"] := by
  unfold effectiveRadiationTemperature
  exact Emits.bind (A := []) (Emits.cover m) fun _ => Emits.bind (A := []) (Emits.crust m) fun _ =>
    Emits.bind (A := []) (Emits.molten m) fun _ => Emits.bind (A := []) (Emits.lift _) fun _ =>
    Emits.bind (B := []) (Emits.logNum _ _) fun _ => Emits.pure _

theorem Emits.spectral (m : Models α) (lp : α) (eps : α → α → α × α) (width : α) :
    Emits (spectralRadiance m lp eps width) ["spectral_radiance"] := by
  unfold spectralRadiance
  exact Emits.bind (A := []) (Emits.cover m) fun _ => Emits.bind (A := []) (Emits.crust m) fun _ =>
    Emits.bind (A := []) (Emits.molten m) fun _ => Emits.bind (A := []) (Emits.lift _) fun _ =>
    Emits.logNum _ _

theorem Emits.radiation (m : Models α) (sigma : α) (e : PyM (World α) α) (N : List String)
    (he : Emits e N) (lp : α) (eps : α → α → α × α) (width : α) :
    Emits (radiationFlux m sigma e lp eps width)
      (["effective_radiation_temperature"] ++ (N ++ ["epsilon_effective", "spectral_radiance"])) := by
  unfold radiationFlux
  exact Emits.bind (Emits.effRad m) fun _ => Emits.bind he fun _ =>
    Emits.bind (A := ["epsilon_effective"]) (Emits.logNum _ _) fun _ =>
    Emits.bind (B := []) (Emits.spectral _ _ _ _) fun _ => Emits.pure _

/-- The columns written by one evaluation of a flux. -/
def Flux.columns : Flux α → List String
  | .radBasic _ _ | .radTwoEmi _ _ _ | .radCont _ =>
    ["effective_radiation_temperature", "epsilon_effective", "spectral_radiance"]
  | .radLin _ => ["effective_radiation_temperature", "effective_radiation_temperature",
      "epsilon_effective", "spectral_radiance"]
  | .conduction _ _ => []
  | .convection => ["characteristic_surface_temperature", "effective_temperature_snyder",
      "flowgofluxsnyderheat"]
  | .rain _ _ _ => []
  | .viscous => []
  | .snyder => ["effective_temperature_snyder", "characteristic_surface_temperature",
      "effective_radiation_temperature", "flowgofluxforcedconvectionheat", "flowgofluxradiationheat"]

theorem Emits.flux (m : Models α) (width depth : α) (f : Flux α) :
    Emits (f.compute m width depth) f.columns := by
  cases f with
  | radBasic s e => exact Emits.radiation m s _ [] (Emits.pure _) _ _ _
  | radTwoEmi s e1 e2 =>
    exact Emits.radiation m s _ [] (Emits.bind (A := []) (Emits.cover m) fun _ => Emits.pure _) _ _ _
  | radCont s =>
    exact Emits.radiation m s _ [] (Emits.bind (A := []) (Emits.cover m) fun _ =>
      Emits.bind (A := []) (Emits.crust m) fun _ => Emits.bind (A := []) (Emits.molten m) fun _ =>
      Emits.pure _) _ _ _
  | radLin s =>
    exact Emits.radiation m s _ ["effective_radiation_temperature"]
      (Emits.bind (B := []) (Emits.effRad m) fun _ => Emits.pure _) _ _ _
  | conduction b p => exact Emits.of_unchanged fun _ => rfl
  | convection =>
    unfold Flux.compute
    exact Emits.bind (A := []) (Emits.crust m) fun _ => Emits.bind (A := []) (Emits.cover m) fun _ =>
      Emits.bind (A := []) (Emits.molten m) fun _ => Emits.bind (A := []) (Emits.lift _) fun _ =>
      Emits.bind (A := ["characteristic_surface_temperature"]) (Emits.logNum _ _) fun _ =>
      Emits.bind (A := ["effective_temperature_snyder"]) (Emits.logNum _ _) fun _ =>
      Emits.bind (B := []) (Emits.logNum _ _) fun _ => Emits.pure _
  | rain a b c => exact Emits.pure _
  | viscous =>
    unfold Flux.compute
    exact Emits.bind (A := []) Emits.get fun _ => Emits.bind (A := []) (Emits.lift _) fun _ =>
      Emits.bind (A := []) (Emits.meanVelocityM _) fun _ => Emits.bind (A := []) (Emits.lift _) fun _ =>
      Emits.pure _
  | snyder =>
    unfold Flux.compute
    exact Emits.bind (A := []) (Emits.crust m) fun _ => Emits.bind (A := []) (Emits.cover m) fun _ =>
      Emits.bind (A := []) (Emits.molten m) fun _ =>
      Emits.bind (A := ["effective_temperature_snyder"]) (Emits.logNum _ _) fun _ =>
      Emits.bind (A := []) (Emits.lift _) fun _ =>
      Emits.bind (A := ["characteristic_surface_temperature"]) (Emits.logNum _ _) fun _ =>
      Emits.bind (A := ["effective_radiation_temperature"]) (Emits.logNum _ _) fun _ =>
      Emits.bind (A := ["flowgofluxforcedconvectionheat"]) (Emits.logNum _ _) fun _ =>
      Emits.bind (B := []) (Emits.logNum _ _) fun _ => Emits.pure _

/-- The columns written by the heat-budget loop. -/
def fluxColumns : List (Flux α) → List String
  | [] => []
  | f :: rest => f.columns ++ (f.columns ++ (f.logName :: fluxColumns rest))

theorem Emits.heatBudgetLoop (m : Models α) (width depth : α) (fs : List (Flux α)) (acc : α) :
    Emits (PyFlowGo.heatBudgetLoop m width depth fs acc) (fluxColumns fs) := by
  induction fs generalizing acc with
  | nil => exact Emits.pure _
  | cons f rest ih =>
    unfold PyFlowGo.heatBudgetLoop
    exact Emits.bind (Emits.flux m width depth f) fun _ => Emits.bind (Emits.flux m width depth f) fun _ =>
      Emits.bind (A := [f.logName]) (Emits.logNum _ _) fun _ => ih _

theorem Emits.heatBudget (m : Models α) (width depth : α) :
    Emits (PyFlowGo.heatBudget m width depth) (fluxColumns m.fluxes ++ ["heat_budget"]) := by
  unfold PyFlowGo.heatBudget
  exact Emits.bind (Emits.heatBudgetLoop m width depth _ _) fun _ =>
    Emits.bind (B := []) (Emits.logNum _ _) fun _ => Emits.pure _

/-- The columns of flowgo_integrator.py:149-181. -/
def stepColumns : List String :=
  ["channel_width", "crystal_fraction", "core_temperature", "strain_rate", "vesicle_fraction",
   "viscosity", "density", "mean_velocity", "crust_temperature", "effective_cover_fraction", "dphi_dx",
   "dtemp_dx", "dphi_dtemp", "dtemp_dt", "slope", "effusion_rate", "channel_depth", "tho_0", "tho_b"]

theorem Emits.stepLog (g : Integrator α) (d : StepData α) : Emits (PyFlowGo.stepLog g d) stepColumns := by
  unfold PyFlowGo.stepLog
  dsimp only
  have key : ∀ {β : Type} {n : String} {v : α} {f : Unit → PyM (World α) β} {B : List String},
      Emits (f ()) B → Emits (PyFlowGo.logNum n v >>= f) (n :: B) :=
    fun h => Emits.bind (Emits.logNum _ _) fun _ => h
  have key2 : ∀ {β γ : Type} {m : PyM (World α) β} {f : β → PyM (World α) γ} {B : List String},
      Emits m [] → (∀ b, Emits (f b) B) → Emits (m >>= f) B := fun h h' => Emits.bind h h'
  refine key2 Emits.get fun w => ?_
  iterate 5 apply key
  refine key2 (Emits.lift _) fun _ => ?_
  iterate 3 apply key
  refine key2 (Emits.crust _) fun _ => ?_
  apply key
  refine key2 (Emits.cover _) fun _ => ?_
  iterate 6 apply key
  refine key2 Emits.get fun w => ?_
  refine Emits.bind (A := ["effusion_rate"]) (Emits.logCell _ _) fun _ => ?_
  apply key
  refine key2 (Emits.lift _) fun _ => ?_
  apply key
  refine key2 (Emits.lift _) fun _ => ?_
  exact Emits.logNum _ _

end PyFlowGo
