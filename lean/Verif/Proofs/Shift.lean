import Verif.Proofs.Mirror
import Verif.Proofs.StrainFree
import Verif.Props.Cutoff
import Verif.Spec.Origin
/-
  Moving the origin of the position coordinate by `δ`: positions, knots of profiles and critical distances all grow by `δ`.
-/
set_option linter.unusedSectionVars false
namespace PyFlowGo
open Spec

/-- A linear profile along the channel, moved by `δ`. -/
def Spline.moved (δ : ℝ) (s : Spline ℝ) : Spline ℝ := ⟨s.knots.map fun p => (p.1 + δ, p.2)⟩

/-- The same vesicle-fraction law in the coordinate moved by `δ`. -/
def VesicleModel.moved (δ : ℝ) : VesicleModel ℝ → VesicleModel ℝ
  | .constant v => .constant v
  | .bimodal d v1 v2 => .bimodal (d + δ) v1 v2
  | .variable v c => .variable (v + c * δ) c
  | .variableBimodal d v c => .variableBimodal (d + δ) (v + c * δ) c
  | .poly v a b => .poly (v - b * δ + a * δ ^ 2 + 2 * a * δ) a (b - 2 * a * δ)

def CrystModel.moved (δ : ℝ) : CrystModel ℝ → CrystModel ℝ
  | .bimodal f d r1 r2 t => .bimodal f (d + δ) r1 r2 t
  | m => m

def CrustModel.moved (δ : ℝ) : CrustModel ℝ → CrustModel ℝ
  | .honBimodal d t => .honBimodal (d + δ) t
  | .field t (some s) => .field t (some (s.moved δ))
  | m => m

def CoverModel.moved (δ : ℝ) : CoverModel ℝ → CoverModel ℝ
  | .bimodal d a1 a2 f1 f2 => .bimodal (d + δ) a1 a2 f1 f2
  | m => m

def RelModel.moved (δ : ℝ) : RelModel ℝ → RelModel ℝ
  | .bll pm bs bg r t pc ves melt => .bll pm bs bg r t pc (ves.moved δ) melt
  | .ptp1 ves => .ptp1 (ves.moved δ)
  | .ptp2 ves => .ptp2 (ves.moved δ)
  | .ptp3 ves => .ptp3 (ves.moved δ)
  | m => m

def BubModel.moved (δ : ℝ) : BubModel ℝ → BubModel ℝ
  | .rigid ves => .rigid (ves.moved δ)
  | .defo ves => .defo (ves.moved δ)
  | .mader r t ves melt rel => .mader r t (ves.moved δ) melt (rel.moved δ)
  | m => m

def YieldModel.moved (δ : ℝ) : YieldModel ℝ → YieldModel ℝ
  | .bll ves => .bll (ves.moved δ)
  | m => m

def Lava.moved (δ : ℝ) (l : Lava ℝ) : Lava ℝ :=
  { l with rel := l.rel.moved δ, bub := l.bub.moved δ, yld := l.yld.moved δ, ves := l.ves.moved δ }

def Models.moved (δ : ℝ) (m : Models ℝ) : Models ℝ :=
  { m with lava := m.lava.moved δ, crust := m.crust.moved δ, cover := m.cover.moved δ, cryst := m.cryst.moved δ }

def Integrator.moved (δ : ℝ) (g : Integrator ℝ) : Integrator ℝ := { g with models := g.models.moved δ }

def Terrain.moved (δ : ℝ) (t : Terrain ℝ) : Terrain ℝ := { t with maxLength := t.maxLength + δ, spline := t.spline.map (Spline.moved δ) }

def FlowState.moved (δ : ℝ) (s : FlowState ℝ) : FlowState ℝ := { s with pos := s.pos + δ }

def World.moved (δ : ℝ) (w : World ℝ) : World ℝ :=
  { w with st := w.st.moved δ, terrain := w.terrain.moved δ, log := w.log.moved δ }

section
variable (δ : ℝ)

theorem le_moved (a b : ℝ) : leB (a + δ) (b + δ) = leB a b := by
  rw [Bool.eq_iff_iff, leB_real, leB_real]
  exact add_le_add_iff_right δ

theorem lt_moved (a b : ℝ) : ltB (a + δ) (b + δ) = ltB a b := by
  rw [Bool.eq_iff_iff, ltB_real, ltB_real]
  exact add_lt_add_iff_right δ

theorem eq_moved (a b : ℝ) : eqB (a + δ) (b + δ) = eqB a b := by
  rw [Bool.eq_iff_iff, eqB_real, eqB_real]
  exact add_left_inj δ

theorem segment_moved (p q : ℝ × ℝ) (x : ℝ) : segment (p.1 + δ, p.2) (q.1 + δ, q.2) (x + δ) = segment p q x := by
  unfold segment
  dsimp only
  rw [show x + δ - (p.1 + δ) = x - p.1 by ring, show q.1 + δ - (p.1 + δ) = q.1 - p.1 by ring]

theorem evalKnots_moved (x : ℝ) (l : List (ℝ × ℝ)) : evalKnots (x + δ) (l.map fun p => (p.1 + δ, p.2)) = evalKnots x l := by
  induction l with
  | nil => rfl
  | cons p l ih =>
    cases l with
    | nil => rfl
    | cons q l =>
      cases l with
      | nil => exact segment_moved δ p q x
      | cons r l =>
        simp only [List.map_cons] at ih ⊢
        rw [evalKnots, evalKnots, le_moved, segment_moved, ih]

theorem eval_moved (s : Spline ℝ) (x : ℝ) : (s.moved δ).eval (x + δ) = s.eval x := evalKnots_moved δ x s.knots

theorem increasing_moved (l : List (ℝ × ℝ)) : strictlyIncreasing (l.map fun p => (p.1 + δ, p.2)) = strictlyIncreasing l := by
  induction l with
  | nil => rfl
  | cons p l ih =>
    cases l with
    | nil => rfl
    | cons q l =>
      simp only [List.map_cons] at ih ⊢
      rw [strictlyIncreasing, strictlyIncreasing, lt_moved, ih]

theorem make_moved (xs ys : List ℝ) : Spline.make (xs.map (· + δ)) ys = (Spline.make xs ys).map (Spline.moved δ) := by
  unfold Spline.make
  dsimp only
  have e : (xs.map (· + δ)).zip ys = (xs.zip ys).map fun p => (p.1 + δ, p.2) := by
    rw [List.zip_map_left]; rfl
  rw [e, increasing_moved, List.length_map, List.length_map]
  split <;> rfl

theorem ves_moved (m : VesicleModel ℝ) (s : FlowState ℝ) : (m.moved δ).fraction (s.moved δ) = m.fraction s := by
  cases m with
  | constant v => rfl
  | bimodal d v1 v2 =>
    simp only [VesicleModel.moved, VesicleModel.fraction, FlowState.moved, le_moved]
  | «variable» v c =>
    have e : v + c * δ - c * (s.moved δ).pos = v - c * s.pos := by
      show v + c * δ - c * (s.pos + δ) = _
      ring
    simp only [VesicleModel.moved, VesicleModel.fraction, e]
  | variableBimodal d v c =>
    simp only [VesicleModel.moved, VesicleModel.fraction, FlowState.moved, le_moved]
    rw [show v + c * δ - c * (s.pos + δ) = v - c * s.pos by ring, show v + c * δ - c * (d + δ) = v - c * d by ring]
  | poly v a b =>
    have e : v - b * δ + a * δ ^ 2 + 2 * a * δ + (b - 2 * a * δ) * ((s.moved δ).pos + 1.0) + a * PyNum.npow (s.moved δ).pos 2 =
        v + b * (s.pos + 1.0) + a * PyNum.npow s.pos 2 := by
      rw [npow_real, npow_real, show (1.0 : ℝ) = 1 by norm_num]
      show _ + _ * (s.pos + δ + 1) + a * (s.pos + δ) ^ 2 = _
      ring
    simp only [VesicleModel.moved, VesicleModel.fraction, e]

theorem melt_moved (m : MeltModel ℝ) (s : FlowState ℝ) : m.viscosity (s.moved δ) = m.viscosity s := by
  cases m <;> rfl

theorem rel_moved (m : RelModel ℝ) (s : FlowState ℝ) : (m.moved δ).relative (s.moved δ) = m.relative s := by
  cases m with
  | bll pm bs bg r t pc ves melt =>
    simp only [RelModel.moved, RelModel.relative, bllRelative, ves_moved, melt_moved]
    rfl
  | mader rp => rfl
  | _ => simp only [RelModel.moved, RelModel.relative, ves_moved] <;> rfl

theorem compat_moved (m : RelModel ℝ) (s : FlowState ℝ) : (m.moved δ).notCompatible (s.moved δ) = m.notCompatible s := by
  cases m <;> simp only [RelModel.moved, RelModel.notCompatible, ves_moved] <;> rfl

theorem bub_moved (m : BubModel ℝ) (s : FlowState ℝ) : (m.moved δ).relative (s.moved δ) = m.relative s := by
  cases m <;> simp only [BubModel.moved, BubModel.relative, ves_moved, melt_moved, rel_moved] <;> rfl

theorem yield_moved (m : YieldModel ℝ) (s : FlowState ℝ) : (m.moved δ).strength (s.moved δ) = m.strength s := by
  cases m <;> simp only [YieldModel.moved, YieldModel.strength, ves_moved] <;> rfl

theorem slope_moved (t : Terrain ℝ) (x : ℝ) : (t.moved δ).slope (x + δ) = t.slope x := by
  unfold Terrain.slope Terrain.moved
  cases h : t.spline with
  | none => rfl
  | some s => exact eval_moved δ s x

theorem bulk_moved (l : Lava ℝ) (s : FlowState ℝ) : (l.moved δ).bulkViscosity (s.moved δ) = l.bulkViscosity s := by
  simp only [Lava.bulkViscosity, Lava.moved, melt_moved, rel_moved, bub_moved]

theorem density_moved (l : Lava ℝ) (s : FlowState ℝ) : (l.moved δ).density (s.moved δ) = l.density s := by
  simp only [Lava.density, Lava.vesicleFraction, Lava.moved, ves_moved]

theorem basal_moved (l : Lava ℝ) (t : Terrain ℝ) (s : FlowState ℝ) :
    (l.moved δ).basalStress (t.moved δ) (s.moved δ) = l.basalStress t s := by
  unfold Lava.basalStress
  rw [density_moved, show (s.moved δ).pos = s.pos + δ from rfl, slope_moved]
  rfl

theorem vloop_moved (l : Lava ℝ) (s : FlowState ℝ) (depth tho0 thob : ℝ) (n : Nat) (x : ℝ) :
    velocityLoop (l.moved δ) (s.moved δ) depth tho0 thob n x = velocityLoop l s depth tho0 thob n x := by
  induction n generalizing x with
  | zero => rfl
  | succ n ih =>
    unfold velocityLoop
    rw [bulk_moved]
    simp only [ih]

theorem vel_moved (l : Lava ℝ) (t : Terrain ℝ) (s : FlowState ℝ) :
    (l.moved δ).meanVelocity (t.moved δ) (s.moved δ) = l.meanVelocity t s := by
  unfold Lava.meanVelocity Lava.yieldStrength
  rw [basal_moved]
  simp only [vloop_moved]
  rw [show (l.moved δ).yld = l.yld.moved δ from rfl, yield_moved]
  rfl

theorem velM_moved (l : Lava ℝ) : Commutes (World.moved δ) (meanVelocityM l) (meanVelocityM (l.moved δ)) := by
  intro w
  unfold meanVelocityM
  have h : (l.moved δ).meanVelocity (w.moved δ).terrain (w.moved δ).st = _ := vel_moved δ l w.terrain w.st
  rw [h]
  cases l.meanVelocity w.terrain w.st <;> rfl

theorem row_get_moved (r : Row (Cell ℝ)) (k : String) :
    (Row.moved δ r).get? k = if k = "position" then (r.get? k).map (Cell.plus δ) else r.get? k := by
  induction r with
  | nil => split <;> rfl
  | cons a r ih =>
    unfold Row.moved Row.get? at *
    rw [List.map_cons]
    obtain ⟨n, v⟩ := a
    have e : ((if (n, v).1 = "position" then ((n, v).1, (n, v).2.plus δ) else (n, v)) : String × Cell ℝ).1 = n := by split <;> rfl
    by_cases hk : n = k
    · rw [List.find?_cons_of_pos (by rw [e]; simpa using hk), List.find?_cons_of_pos (by simpa using hk)]
      subst hk
      by_cases hp : n = "position"
      · rw [if_pos hp, if_pos hp]; rfl
      · rw [if_neg hp, if_neg hp]
    · rw [List.find?_cons_of_neg (by rw [e]; simpa using hk), List.find?_cons_of_neg (by simpa using hk)]
      exact ih

theorem row_at_moved (r : Row (Cell ℝ)) (x : ℝ) : (Row.moved δ r).atPosition (.num (x + δ)) = r.atPosition (.num x) := by
  unfold Row.atPosition
  rw [row_get_moved, if_pos rfl]
  cases r.get? "position" with
  | none => rfl
  | some c =>
    cases c with
    | num y => exact eq_moved δ x y
    | text y => rfl

theorem row_set_moved (r : Row (Cell ℝ)) (n : String) (v : Cell ℝ) (hn : n ≠ "position") :
    (Row.moved δ r).set n v = Row.moved δ (r.set n v) := by
  induction r with
  | nil =>
    unfold Row.moved Row.set
    rw [List.map_cons, if_neg hn]
    rfl
  | cons a r ih =>
    obtain ⟨k, u⟩ := a
    unfold Row.moved at *
    rw [List.map_cons]
    by_cases hk : k = n
    · subst hk
      rw [if_neg hn]
      simp only [Row.set, beq_self_eq_true, if_true, List.map_cons]
      rw [if_neg hn]
    · have hb : ¬ (k == n) = true := by simpa using hk
      by_cases hp : k = "position"
      · rw [if_pos hp]
        dsimp only
        rw [Row.set, if_neg hb, Row.set, if_neg hb, List.map_cons, ih, if_pos hp]
      · rw [if_neg hp]
        rw [Row.set, if_neg hb, Row.set, if_neg hb, List.map_cons, ih, if_neg hp]

theorem log_add_moved (l : Log (Cell ℝ)) (n : String) (x : ℝ) (v : Cell ℝ) (hn : n ≠ "position") :
    Log.addVariable (l.moved δ) n (.num (x + δ)) v = (Log.addVariable l n (.num x) v).moved δ := by
  induction l with
  | nil =>
    unfold Log.moved Log.addVariable newRow
    rw [List.map_nil, List.map_cons, ← row_set_moved δ _ _ _ hn]
    rfl
  | cons r l ih =>
    unfold Log.moved at *
    rw [List.map_cons]
    unfold Log.addVariable
    rw [row_at_moved]
    by_cases hb : r.atPosition (.num x) = true
    · rw [if_pos hb, if_pos hb, List.map_cons, row_set_moved δ _ _ _ hn]
    · rw [if_neg hb, if_neg hb, List.map_cons, ih]

theorem mirror_moved (g : Integrator ℝ) : Mirror g (g.moved δ) (World.moved δ) where
  dx := rfl
  mass := rfl
  air := rfl
  fluxes := rfl
  latent := rfl
  solid := by
    show (g.models.cryst.moved δ).solidTemperature = _
    cases g.models.cryst <;> rfl
  vel := velM_moved δ g.models.lava
  crust w := by
    show (g.models.crust.moved δ).temperature (w.st.moved δ) = _
    cases g.models.crust with
    | honBimodal d t =>
      simp only [CrustModel.moved, CrustModel.temperature, FlowState.moved, le_moved]
    | field t s =>
      cases s with
      | none => rfl
      | some s => exact eval_moved δ s w.st.pos
    | _ => rfl
  cover w v := by
    show (g.models.cover.moved δ).value (w.st.pos + δ) v = _
    cases g.models.cover with
    | basic a f => rfl
    | bimodal d a1 a2 f1 f2 => simp only [CoverModel.moved, CoverModel.value, le_moved]
  molten _ := rfl
  vesicle w := ves_moved δ g.models.lava.ves w.st
  density w := density_moved δ g.models.lava w.st
  bulk w := bulk_moved δ g.models.lava w.st
  yield_ w := yield_moved δ g.models.lava.yld w.st
  basal w := basal_moved δ g.models.lava w.terrain w.st
  compat w := compat_moved δ g.models.lava.rel w.st
  rate w := by
    show (g.models.cryst.moved δ).rate (w.st.moved δ) = _
    cases g.models.cryst with
    | bimodal f d r1 r2 t => simp only [CrystModel.moved, CrystModel.rate, FlowState.moved, le_moved]
    | _ => rfl
  slope w := slope_moved δ w.terrain w.st.pos
  depth _ := rfl
  width _ := rfl
  rates _ := rfl
  flux _ _ := rfl
  iter _ := rfl
  temp _ := rfl
  crystal _ := rfl
  strain _ := rfl
  fin _ := rfl
  length w := le_moved δ w.terrain.maxLength w.st.pos
  logs n v hn w := by
    unfold logCell
    rw [PyM.modify_apply, PyM.modify_apply]
    show (_, _) = (_, _)
    congr 1
    unfold World.moved
    dsimp only
    rw [← log_add_moved δ _ _ _ _ hn]
    rfl
  setRate _ _ := rfl
  setState w a b := by
    unfold World.moved FlowState.moved
    dsimp only
    rw [add_right_comm]
  setTime _ _ := rfl
  setStrain _ _ := rfl
  finish _ := rfl

theorem search_moved (l : Lava ℝ) (ds : List ℝ) : Commutes (World.moved δ) (depthSearch l ds) (depthSearch (l.moved δ) ds) := by
  induction ds with
  | nil => exact fun _ => rfl
  | cons d ds ih =>
    unfold depthSearch
    refine Commutes.bind (Commutes.modify fun w => rfl) fun _ => ?_
    refine Commutes.bind (velM_moved δ l) fun v => ?_
    refine Commutes.bind (Commutes.modify fun w => rfl) fun _ => ?_
    refine Commutes.bind (Commutes.modify fun w => ?_) fun _ => ?_
    · have := density_moved δ l w.st
      show { w.moved δ with fluxRate := some (w.effusionRate * (l.moved δ).density (w.st.moved δ)) } = _
      rw [this]
      rfl
    · refine Commutes.bindGet fun w => ?_
      exact Commutes.ite rfl (Commutes.pure _) ih

/-- The whole simulation after preparation. -/
theorem simulate_moved (grid : List ℝ) (n : Nat) (g : Integrator ℝ) (w : World ℝ) :
    simulateOn grid n (g.moved δ) (w.moved δ) = (simulateOn grid n g w).map fun o => (o.1, o.2.moved δ) := by
  have h : Commutes (World.moved δ) (initEffusionRateOn grid g.models.lava) (initEffusionRateOn grid (g.models.lava.moved δ)) := by
    unfold initEffusionRateOn
    refine Commutes.bindGet fun w => ?_
    exact Commutes.ite rfl (Commutes.pure _) (search_moved δ _ _)
  unfold simulateOn
  have e : initEffusionRateOn grid (g.moved δ).models.lava (w.moved δ) = _ := h w
  rw [e]
  cases initEffusionRateOn grid g.models.lava w with
  | mk r v =>
    cases r with
    | error x => rfl
    | ok _ => exact (mirror_moved δ g).loop n v

end
end PyFlowGo
