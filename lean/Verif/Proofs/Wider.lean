import Verif.Proofs.Mirror
import Verif.Proofs.FluxColumns
import Verif.Props.Cutoff
import Verif.Spec.Wider
/-
  A channel `k` times as wide, fed `k` times as fast.
-/
set_option linter.unusedSectionVars false
namespace PyFlowGo
open Spec

/-- The second program does in the image of a world what the first does in the world itself, and gives the image of its value. -/
def Follows {α β γ : Type} (φ : World α → World α) (h : β → γ) (m : PyM (World α) β) (m' : PyM (World α) γ) : Prop :=
  ∀ w, m' (φ w) = ((m w).1.map h, φ (m w).2)

namespace Follows
variable {α β β' γ γ' : Type} {φ : World α → World α}

theorem bind {h : β → β'} {k : γ → γ'} {m : PyM (World α) β} {m' : PyM (World α) β'} {f : β → PyM (World α) γ}
    {f' : β' → PyM (World α) γ'} (hm : Follows φ h m m') (hf : ∀ b, Follows φ k (f b) (f' (h b))) :
    Follows φ k (m >>= f) (m' >>= f') := by
  intro w
  have e := hm w
  rw [PyM.bind_apply, PyM.bind_apply, e]
  cases m w with
  | mk r v =>
    cases r with
    | error x => rfl
    | ok b => exact hf b v

theorem pure {h : β → β'} (b : β) (b' : β') (e : b' = h b) : Follows φ h (Pure.pure b : PyM (World α) β) (Pure.pure b') := by
  subst e; exact fun _ => rfl

theorem lift {h : β → β'} {x : Except Err β} {x' : Except Err β'} (e : x' = x.map h) :
    Follows φ h (PyM.lift x : PyM (World α) β) (PyM.lift x') := by
  subst e; exact fun _ => rfl

theorem bindGet {k : γ → γ'} {f : World α → PyM (World α) γ} {f' : World α → PyM (World α) γ'} (hf : ∀ w, Follows φ k (f w) (f' (φ w))) :
    Follows φ k (PyM.get >>= f) (PyM.get >>= f') := fun w => hf w w

theorem modify {h : Unit → Unit} {f f' : World α → World α} (hf : ∀ w, f' (φ w) = φ (f w)) :
    Follows φ h (PyM.modify f) (PyM.modify f') := by
  intro w
  show (_, _) = (_, _)
  rw [hf w]
  rfl

theorem ite {h : β → β'} {m1 m2 : PyM (World α) β} {m1' m2' : PyM (World α) β'} {b b' : Bool} (e : b' = b) (h1 : Follows φ h m1 m1')
    (h2 : Follows φ h m2 m2') : Follows φ h (if b then m1 else m2) (if b' then m1' else m2') := by
  subst e
  cases b'
  · exact h2
  · exact h1

theorem map_id (x : Except Err β) : x.map id = x := by cases x <;> rfl

/-- A program that reflects with the same value. -/
theorem same {m m' : PyM (World α) β} (h : Commutes φ m m') : Follows φ id m m' := by
  intro w
  rw [h w, map_id]

end Follows

/-- The channel `k` times as wide, to be fed `k` times as fast. -/
def Terrain.widened (k : ℝ) (t : Terrain ℝ) : Terrain ℝ := { t with width := k * t.width, effusionRateInit := k * t.effusionRateInit }

noncomputable def World.widened (k : ℝ) (w : World ℝ) : World ℝ :=
  { w with terrain := w.terrain.widened k, log := w.log.widened k, effusionRate := k * w.effusionRate, fluxRate := w.fluxRate.map (k * ·) }

/-- The data of a step in the wider channel. -/
def StepData.widened (k : ℝ) (d : StepData ℝ) : StepData ℝ := { d with width := k * d.width, heat := k * d.heat }

section
variable (k : ℝ)

theorem row_get_widened (r : Row (Cell ℝ)) (n : String) : (Row.widened k r).get? n = (r.get? n).map (Cell.widened k n) := by
  induction r with
  | nil => rfl
  | cons a r ih =>
    unfold Row.widened Row.get? at *
    rw [List.map_cons]
    obtain ⟨m, v⟩ := a
    by_cases hk : m = n
    · subst hk
      rw [List.find?_cons_of_pos (by simp), List.find?_cons_of_pos (by simp)]
      rfl
    · rw [List.find?_cons_of_neg (by simpa using hk), List.find?_cons_of_neg (by simpa using hk)]
      exact ih

theorem widened_position (x : ℝ) : widened k "position" x = x := by
  unfold widened extensiveColumns
  rw [if_neg (by decide), if_neg (by decide)]

theorem row_at_widened (r : Row (Cell ℝ)) (x : ℝ) : (Row.widened k r).atPosition (.num x) = r.atPosition (.num x) := by
  unfold Row.atPosition
  rw [row_get_widened]
  cases r.get? "position" with
  | none => rfl
  | some c =>
    cases c with
    | num y =>
      show (Cell.num x == Cell.num (widened k "position" y)) = _
      rw [widened_position]
    | text y => rfl

theorem row_set_widened (r : Row (Cell ℝ)) (n : String) (v : Cell ℝ) :
    (Row.widened k r).set n (v.widened k n) = Row.widened k (r.set n v) := by
  induction r with
  | nil => rfl
  | cons a r ih =>
    obtain ⟨m, u⟩ := a
    unfold Row.widened at *
    rw [List.map_cons]
    by_cases hk : m = n
    · subst hk
      simp only [Row.set, beq_self_eq_true, if_true, List.map_cons]
    · have hb : ¬ (m == n) = true := by simpa using hk
      dsimp only
      rw [Row.set, if_neg hb, Row.set, if_neg hb, List.map_cons, ih]

theorem log_add_widened (l : Log (Cell ℝ)) (n : String) (x : ℝ) (v : Cell ℝ) :
    Log.addVariable (l.widened k) n (.num x) (v.widened k n) = (Log.addVariable l n (.num x) v).widened k := by
  induction l with
  | nil =>
    unfold Log.widened Log.addVariable newRow
    rw [List.map_nil, List.map_cons, ← row_set_widened]
    have : Row.widened k [("position", Cell.num x)] = [("position", Cell.num x)] := by
      show [("position", Cell.num (widened k "position" x))] = _
      rw [widened_position]
    rw [this]
    rfl
  | cons r l ih =>
    unfold Log.widened at *
    rw [List.map_cons]
    unfold Log.addVariable
    rw [row_at_widened]
    by_cases hb : r.atPosition (.num x) = true
    · rw [if_pos hb, if_pos hb, List.map_cons, row_set_widened]
    · rw [if_neg hb, if_neg hb, List.map_cons, ih]

theorem cell_widened (n : String) (v : Cell ℝ) :
    Commutes (World.widened k) (logCell n v) (logCell n (v.widened k n)) := by
  intro w
  unfold logCell
  rw [PyM.modify_apply, PyM.modify_apply]
  show (_, _) = (_, _)
  congr 1
  unfold World.widened
  dsimp only
  rw [← log_add_widened]

/-- A column that is not changed. -/
theorem num_widened (n : String) (v : ℝ) (hn : n ∉ extensiveColumns := by decide) (hr : n ≠ "spectral_radiance" := by decide) :
    Follows (World.widened k) id (logNum n v) (logNum n v) := by
  have := cell_widened k n (.num v)
  rw [show Cell.widened k n (.num v) = .num v by
    unfold Cell.widened widened
    dsimp only
    rw [if_neg hn, if_neg hr]] at this
  exact Follows.same this

/-- A column that is multiplied. -/
theorem ext_widened (n : String) (v v' : ℝ) (hv : v' = k * v) (hn : n ∈ extensiveColumns := by decide) :
    Follows (World.widened k) id (logNum n v) (logNum n v') := by
  have := cell_widened k n (.num v)
  rw [show Cell.widened k n (.num v) = .num v' by
    unfold Cell.widened widened
    dsimp only
    rw [if_pos hn, hv]] at this
  exact Follows.same this

theorem velM_widened (l : Lava ℝ) : Follows (World.widened k) id (meanVelocityM l) (meanVelocityM l) := by
  apply Follows.same
  intro w
  unfold meanVelocityM
  have h : l.meanVelocity (w.widened k).terrain (w.widened k).st = l.meanVelocity w.terrain w.st := rfl
  rw [h]
  cases l.meanVelocity w.terrain w.st <;> rfl

open Follows

theorem crust_widened (m : Models ℝ) : Follows (World.widened k) id (crustTemperature m) (crustTemperature m) := same fun _ => rfl

theorem molten_widened (m : Models ℝ) : Follows (World.widened k) id (moltenTemperature m) (moltenTemperature m) := same fun _ => rfl

theorem cover_widened (m : Models ℝ) : Follows (World.widened k) id (effectiveCover m) (effectiveCover m) := by
  unfold effectiveCover
  exact bindGet fun w => bind (velM_widened k _) fun v => pure _ _ rfl

theorem effRad_widened (m : Models ℝ) :
    Follows (World.widened k) id (effectiveRadiationTemperature m) (effectiveRadiationTemperature m) := by
  unfold effectiveRadiationTemperature
  exact bind (cover_widened k m) fun _ => bind (crust_widened k m) fun _ => bind (molten_widened k m) fun _ =>
    bind (h := id) (lift (map_id _).symm) fun _ => bind (num_widened k _ _) fun _ => pure _ _ rfl

theorem radiance_widened (lp f tc tm em ec width : ℝ) (hlp : lp ≠ 0) :
    spectralRadianceFormula lp f tc tm em ec (k * width) =
      (spectralRadianceFormula lp f tc tm em ec width).map fun x => snowRadiance + k * (x - snowRadiance) := by
  cases h : spectralRadianceFormula lp f tc tm em ec width with
  | error e =>
    cases h' : spectralRadianceFormula lp f tc tm em ec (k * width) with
    | ok r =>
      obtain ⟨r', hr'⟩ := (spectralFormula_ok_iff (width := width) hlp).mpr ((spectralFormula_ok_iff hlp).mp ⟨r, h'⟩)
      rw [h] at hr'
      cases hr'
    | error e' =>
      have : e' = e := by
        unfold spectralRadianceFormula at h h'
        have hl : lp * lp ≠ 0 := mul_ne_zero hlp hlp
        dsimp only at h h'
        rw [div_of_ne hl, div_of_ne hl, ok_bind, ok_bind] at h h'
        cases a : planck tc with
        | error x =>
          rw [a, error_bind] at h h'
          rw [← Except.error.inj h, ← Except.error.inj h']
        | ok y =>
          rw [a, ok_bind] at h h'
          cases b : planck tm with
          | error x =>
            rw [b, error_bind] at h h'
            rw [← Except.error.inj h, ← Except.error.inj h']
          | ok z =>
            rw [b, ok_bind, planck_value (show (258.0 : ℝ) ≠ 0 by norm_num), ok_bind] at h
            cases h
      rw [this]
      rfl
  | ok r =>
    obtain ⟨r', hr'⟩ := (spectralFormula_ok_iff (width := k * width) hlp).mpr ((spectralFormula_ok_iff hlp).mp ⟨r, h⟩)
    rw [hr']
    show Except.ok _ = Except.ok _
    rw [spectralFormula_value hlp h, spectralFormula_value hlp hr']
    unfold pixelRadiance snowRadiance
    congr 1
    ring

theorem spectral_widened (m : Models ℝ) (lp : ℝ) (hlp : lp ≠ 0) (eps : ℝ → ℝ → ℝ × ℝ) (width : ℝ) :
    Follows (World.widened k) id (spectralRadiance m lp eps width) (spectralRadiance m lp eps (k * width)) := by
  unfold spectralRadiance
  refine bind (cover_widened k m) fun f => bind (crust_widened k m) fun tc => bind (molten_widened k m) fun tm =>
    bind (lift (radiance_widened k _ _ _ _ _ _ _ hlp)) fun r => ?_
  have := cell_widened k "spectral_radiance" (.num r)
  exact same this

theorem radiation_widened (m : Models ℝ) (sigma : ℝ) {e : PyM (World ℝ) ℝ} (he : Follows (World.widened k) id e e) (lp : ℝ) (hlp : lp ≠ 0)
    (eps : ℝ → ℝ → ℝ × ℝ) (width : ℝ) :
    Follows (World.widened k) (k * ·) (radiationFlux m sigma e lp eps width) (radiationFlux m sigma e lp eps (k * width)) := by
  unfold radiationFlux
  exact bind (effRad_widened k m) fun _ => bind he fun _ => bind (num_widened k _ _) fun _ => bind (spectral_widened k m lp hlp eps width) fun _ =>
    pure _ _ (by simp only [id]; ring)

theorem ext_name (f : Flux ℝ) : f.logName ∈ extensiveColumns := by cases f <;> simp [Flux.logName, extensiveColumns]

theorem flux_widened (m : Models ℝ) (width depth : ℝ) (f : Flux ℝ) :
    Follows (World.widened k) (k * ·) (f.compute m width depth) (f.compute m (k * width) depth) := by
  have c := cover_widened k m
  have t := crust_widened k m
  have l := molten_widened k m
  have lin : ∀ a b c p w : ℝ, a * b * p * (k * w) * c = k * (a * b * p * w * c) := fun _ _ _ _ _ => by ring
  have zero : (0.0 : ℝ) = k * 0.0 := by norm_num
  have thirty : (30.0 : ℝ) ≠ 0 := by norm_num
  have tenth : (0.1 : ℝ) ≠ 0 := by norm_num
  cases f with
  | radBasic s e => refine radiation_widened k m _ ?_ _ ?_ _ _ <;> [exact pure _ _ rfl; exact thirty]
  | radTwoEmi s e1 e2 => refine radiation_widened k m _ ?_ _ ?_ _ _ <;> [exact bind c fun _ => pure _ _ rfl; exact thirty]
  | radCont s =>
    refine radiation_widened k m _ ?_ _ ?_ _ _ <;> [exact bind c fun _ => bind t fun _ => bind l fun _ => pure _ _ rfl; exact tenth]
  | radLin s => refine radiation_widened k m _ ?_ _ ?_ _ _ <;> [exact bind (effRad_widened k m) fun _ => pure _ _ rfl; exact tenth]
  | conduction b p =>
    intro w
    unfold Flux.compute
    show (_, _) = (_, _)
    congr 1
    simp only [World.widened]
    cases PyNum.div p 100.0 with
    | error e => rfl
    | ok p' =>
      simp only [ok_bind]
      cases PyNum.div (w.st.temp - b) (p' * depth) with
      | error e => rfl
      | ok q =>
        simp only [ok_bind]
        show Except.ok _ = Except.ok _
        congr 1
        ring
  | convection =>
    exact bind t fun _ => bind c fun _ => bind l fun _ => bind (h := id) (lift (map_id _).symm) fun _ =>
      bind (num_widened k _ _) fun _ => bind (num_widened k _ _) fun _ => bind (ext_widened k _ _ _ zero) fun _ =>
      pure _ _ (by simp only [id]; ring)
  | rain a b c => exact pure _ _ (by ring)
  | viscous =>
    refine bindGet fun w => ?_
    exact bind (h := id) (lift (map_id _).symm) fun _ => bind (velM_widened k _) fun _ => bind (h := id) (lift (map_id _).symm) fun _ =>
      pure _ _ (by simp only [id]; ring)
  | snyder =>
    exact bind t fun _ => bind c fun _ => bind l fun _ => bind (num_widened k _ _) fun _ =>
      bind (h := id) (lift (map_id _).symm) fun _ => bind (num_widened k _ _) fun _ => bind (num_widened k _ _) fun _ =>
      bind (ext_widened k _ _ _ zero) fun _ => bind (ext_widened k _ _ _ zero) fun _ => pure _ _ (lin _ _ _ _ _)

theorem heatLoop_widened (m : Models ℝ) (width depth : ℝ) (fs : List (Flux ℝ)) (acc acc' : ℝ) (ha : acc' = k * acc) :
    Follows (World.widened k) (k * ·) (heatBudgetLoop m width depth fs acc) (heatBudgetLoop m (k * width) depth fs acc') := by
  induction fs generalizing acc acc' with
  | nil => exact pure _ _ ha
  | cons f rest ih =>
    exact bind (flux_widened k m _ _ f) fun _ => bind (flux_widened k m _ _ f) fun _ => bind (ext_widened k _ _ _ rfl (ext_name f)) fun _ =>
      ih _ _ (by rw [ha]; ring)

theorem heat_widened (m : Models ℝ) (width depth : ℝ) :
    Follows (World.widened k) (k * ·) (heatBudget m width depth) (heatBudget m (k * width) depth) := by
  unfold heatBudget
  exact bind (heatLoop_widened k m _ _ _ _ _ (by norm_num)) fun _ => bind (ext_widened k _ _ _ rfl) fun _ => pure _ _ rfl

theorem width_widened (mass : Bool) (e : ℝ) (fr : Option ℝ) (v depth density : ℝ) :
    channelWidth mass (k * e) (fr.map (k * ·)) v depth density = (channelWidth mass e fr v depth density).map (k * ·) := by
  unfold channelWidth
  by_cases hm : mass = true
  · rw [if_pos hm, if_pos hm]
    cases fr with
    | none => rfl
    | some x =>
      dsimp only [Option.map_some]
      rw [div_real, div_real]
      by_cases h0 : v * depth = 0
      · rw [if_pos h0, if_pos h0]; rfl
      · rw [if_neg h0, if_neg h0, ok_bind, ok_bind, div_real, div_real]
        by_cases h1 : density = 0
        · rw [if_pos h1, if_pos h1]; rfl
        · rw [if_neg h1, if_neg h1]
          show Except.ok _ = Except.ok _
          congr 1
          ring
  · rw [if_neg hm, if_neg hm, div_real, div_real]
    by_cases h0 : v * depth = 0
    · rw [if_pos h0, if_pos h0]; rfl
    · rw [if_neg h0, if_neg h0]
      show Except.ok _ = Except.ok _
      congr 1
      ring

theorem compute_widened (hk : k ≠ 0) (g : Integrator ℝ) (v : ℝ) :
    Follows (World.widened k) (StepData.widened k) (stepCompute g v) (stepCompute g v) := by
  unfold stepCompute
  refine bind (h := id) (modify fun w => ?_) fun _ => bindGet fun w => ?_
  · by_cases c : (w.iteration == 0) = true
    · have c' : ((w.widened k).iteration == 0) = true := c
      rw [if_pos c, if_pos c']
      unfold World.widened Terrain.widened
      dsimp only
      congr 1
      ring
    · have c' : ¬ ((w.widened k).iteration == 0) = true := c
      rw [if_neg c, if_neg c']
  · refine bind (lift (width_widened k _ _ _ _ _ _)) fun wd => bind (h := id) (lift (map_id _).symm) fun sl => ?_
    refine bind (heat_widened k _ _ _) fun heat => bindGet fun w' => ?_
    refine bind (h := id) (lift (map_id _).symm) fun r => ?_
    refine bind (h := id) (lift ?_) fun q => pure _ _ rfl
    rw [map_id]
    show PyNum.div (-(k * heat)) (k * w'.effusionRate * g.models.lava.density w.st * _ * r) = PyNum.div (-heat) (w'.effusionRate * _ * _ * r)
    rw [div_real, div_real]
    generalize g.models.lava.density w.st = a
    by_cases h0 : w'.effusionRate * a * g.models.lava.latentHeat * r = 0
    · rw [if_pos h0, if_pos (by linear_combination k * h0)]
    · rw [if_neg h0, if_neg (by
        intro hz
        apply h0
        have : k * (w'.effusionRate * a * g.models.lava.latentHeat * r) = 0 := by linear_combination hz
        exact (mul_eq_zero.mp this).resolve_left hk)]
      congr 1
      rw [show k * w'.effusionRate * a * g.models.lava.latentHeat * r = k * (w'.effusionRate * a * g.models.lava.latentHeat * r) by ring,
        show -(k * heat) = k * -heat by ring]
      exact mul_div_mul_left _ _ hk

theorem log_widened (g : Integrator ℝ) (d : StepData ℝ) :
    Follows (World.widened k) id (stepLog g d) (stepLog g (d.widened k)) := by
  unfold stepLog
  refine bindGet fun w => ?_
  refine bind (ext_widened k _ _ _ rfl) fun _ => ?_
  iterate 4 refine bind (num_widened k _ _) fun _ => ?_
  refine bind (h := id) (lift (map_id _).symm) fun _ => ?_
  iterate 3 refine bind (num_widened k _ _) fun _ => ?_
  refine bind (crust_widened k _) fun _ => ?_
  refine bind (num_widened k _ _) fun _ => ?_
  refine bind (cover_widened k _) fun _ => ?_
  iterate 6 refine bind (num_widened k _ _) fun _ => ?_
  refine bindGet fun w' => ?_
  refine bind (same (cell_widened k "effusion_rate" (.text w'.effusionRate))) fun _ => ?_
  exact bind (num_widened k _ _) fun _ => bind (h := id) (lift (map_id _).symm) fun _ => bind (num_widened k _ _) fun _ =>
    bind (h := id) (lift (map_id _).symm) fun _ => num_widened k _ _

theorem update_widened (g : Integrator ℝ) (d : StepData ℝ) :
    Follows (World.widened k) id (stepUpdate g d) (stepUpdate g (d.widened k)) := by
  unfold stepUpdate
  exact bind (h := id) (modify fun w => rfl) fun _ => bind (h := id) (lift (map_id _).symm) fun dt =>
    bind (h := id) (modify fun w => rfl) fun _ => bind (h := id) (lift (map_id _).symm) fun x => modify fun w => rfl

theorem setFin_widened : Follows (World.widened k) id (setFinished : PyM (World ℝ) Unit) setFinished := modify fun _ => rfl

theorem stop_widened (g : Integrator ℝ) (d : StepData ℝ) :
    Follows (World.widened k) id (stepStop g d) (stepStop g (d.widened k)) := by
  unfold stepStop
  have s := setFin_widened k
  exact bindGet fun w => ite rfl s (bind (h := id) (lift (map_id _).symm) fun _ => ite rfl s (bind (h := id) (lift (map_id _).symm) fun _ =>
    ite rfl s (ite rfl s (pure _ _ rfl))))

theorem step_widened (hk : k ≠ 0) (g : Integrator ℝ) : Follows (World.widened k) id (singleStep g) (singleStep g) := by
  unfold singleStep
  have s := setFin_widened k
  exact bind (velM_widened k _) fun v => ite rfl s (bind (compute_widened k hk g v) fun d => bindGet fun w =>
    ite rfl s (bind (log_widened k g d) fun _ => bind (update_widened k g d) fun _ => stop_widened k g d))

theorem loop_widened (hk : k ≠ 0) (g : Integrator ℝ) (n : Nat) (w : World ℝ) :
    runLoop g n (w.widened k) = (runLoop g n w).map fun o => (o.1, o.2.widened k) := by
  induction n generalizing w with
  | zero =>
    unfold runLoop
    rw [show (w.widened k).finished = w.finished from rfl]
    cases w.finished <;> rfl
  | succ n ih =>
    unfold runLoop
    rw [show (w.widened k).finished = w.finished from rfl]
    cases w.finished with
    | true => rfl
    | false =>
      rw [step_widened k hk g w]
      cases singleStep g w with
      | mk r v =>
        cases r with
        | error e => rfl
        | ok _ => exact ih v

theorem search_widened (hk : 0 < k) (l : Lava ℝ) (ds : List ℝ) : Follows (World.widened k) id (depthSearch l ds) (depthSearch l ds) := by
  induction ds with
  | nil => exact fun _ => rfl
  | cons d ds ih =>
    unfold depthSearch
    refine bind (h := id) (modify fun w => rfl) fun _ => ?_
    refine bind (velM_widened k l) fun v => ?_
    refine bind (h := id) (modify fun w => ?_) fun _ => ?_
    · unfold World.widened Terrain.widened
      dsimp only [id]
      congr 1
      ring
    · refine bind (h := id) (modify fun w => ?_) fun _ => ?_
      · unfold World.widened Terrain.widened
        dsimp only [Option.map_some]
        congr 2
        ring
      · refine bindGet fun w => ite ?_ (pure _ _ rfl) ih
        rw [Bool.eq_iff_iff, leB_real, leB_real]
        exact mul_le_mul_iff_right₀ hk

/-- The whole simulation after preparation. -/
theorem simulate_widened (hk : 0 < k) (grid : List ℝ) (n : Nat) (g : Integrator ℝ) (w : World ℝ) :
    simulateOn grid n g (w.widened k) = (simulateOn grid n g w).map fun o => (o.1, o.2.widened k) := by
  have h : Follows (World.widened k) id (initEffusionRateOn grid g.models.lava) (initEffusionRateOn grid g.models.lava) := by
    unfold initEffusionRateOn
    refine bindGet fun w => ite ?_ (pure _ _ rfl) (search_widened k hk _ _)
    rw [Bool.eq_iff_iff, eqB_real, eqB_real, show (0.0 : ℝ) = 0 by norm_num]
    show k * w.terrain.effusionRateInit = 0 ↔ _
    rw [mul_eq_zero]
    exact ⟨fun h => h.resolve_left hk.ne', .inr⟩
  unfold simulateOn
  rw [h w]
  cases initEffusionRateOn grid g.models.lava w with
  | mk r v =>
    cases r with
    | error x => rfl
    | ok _ => exact loop_widened k hk.ne' g n v

end
end PyFlowGo
