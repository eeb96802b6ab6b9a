import Verif.Spec.RoundSpec
import Verif.Proofs.StepReal
import Mathlib.Order.Monotone.Basic
/-
  Rounded arithmetic: elementary facts, and what an accepted step computes.
-/
set_option linter.unusedSectionVars false
namespace PyFlowGo
open Spec Rounded

namespace Rounded
variable {rd : ℝ → ℝ}

@[ext] theorem ext {x y : Rounded rd} (h : val x = val y) : x = y := h
@[simp] theorem val_near (x : ℝ) : val (near x : Rounded rd) = rd x := rfl
theorem val_add (x y : Rounded rd) : val (x + y) = rd (val x + val y) := rfl
theorem val_sub (x y : Rounded rd) : val (x - y) = rd (val x - val y) := rfl
theorem val_mul (x y : Rounded rd) : val (x * y) = rd (val x * val y) := rfl
theorem val_neg (x : Rounded rd) : val (-x) = -val x := rfl
theorem leB_iff (x y : Rounded rd) : leB x y = true ↔ val x ≤ val y := by
  show decide (val x ≤ val y) = true ↔ _
  exact decide_eq_true_iff
theorem leB_false (x y : Rounded rd) : leB x y = false ↔ val y < val x := by
  show decide (val x ≤ val y) = false ↔ _
  rw [decide_eq_false_iff_not, not_le]
theorem eqB_iff (x y : Rounded rd) : eqB x y = true ↔ val x = val y := by
  show decide (val x = val y) = true ↔ _
  exact decide_eq_true_iff
theorem div_ok {x y z : Rounded rd} : PyNum.div x y = .ok z ↔ val y ≠ 0 ∧ val z = rd (val x / val y) := by
  show (if val y = 0 then (.error .zeroDiv : Except Err (Rounded rd)) else .ok (near (val x / val y))) = .ok z ↔ _
  by_cases h : val y = 0
  · simp [h]
  · rw [if_neg h]
    constructor
    · intro e; injection e with e; exact ⟨h, by rw [← e]; rfl⟩
    · rintro ⟨_, e⟩; congr 1; exact e.symm
theorem val_lit (m : Nat) (s : Bool) (e : Nat) :
    val (OfScientific.ofScientific m s e : Rounded rd) = rd (OfScientific.ofScientific m s e : ℝ) := rfl

end Rounded

namespace Spec.Rounding
variable {rd : ℝ → ℝ} (R : Rounding rd)
include R

theorem zero : rd 0 = 0 := by
  have := R.neg 0
  rw [neg_zero] at this
  linarith

theorem nonneg {x : ℝ} (h : 0 ≤ x) : 0 ≤ rd x := R.zero ▸ R.mono h
theorem nonpos {x : ℝ} (h : x ≤ 0) : rd x ≤ 0 := R.zero ▸ R.mono h
theorem pos_of {x : ℝ} (h : 0 < rd x) : 0 < x := by
  by_contra h1
  exact absurd (R.nonpos (not_lt.mp h1)) (not_le.mpr h)
theorem neg_of {x : ℝ} (h : rd x < 0) : x < 0 := by
  by_contra h1
  exact absurd (R.nonneg (not_lt.mp h1)) (not_le.mpr h)
/-- Adding a non-negative number to a representable one and rounding does not decrease it. -/
theorem le_add {x y : ℝ} (hx : Representable rd x) (hy : 0 ≤ y) : x ≤ rd (x + y) := by
  have h := R.mono (show x ≤ x + y by linarith)
  rwa [hx] at h
theorem add_le {x y : ℝ} (hx : Representable rd x) (hy : y ≤ 0) : rd (x + y) ≤ x := by
  have h := R.mono (show x + y ≤ x by linarith)
  rwa [hx] at h
theorem pos_of_grow {x y : ℝ} (hx : Representable rd x) (h : x < rd (x + y)) : 0 < y := by
  by_contra h1
  exact absurd (R.add_le hx (not_lt.mp h1)) (not_le.mpr h)

end Spec.Rounding

noncomputable instance {rd : ℝ → ℝ} : LawfulBEq (Cell (Rounded rd)) where
  eq_of_beq {a b} h := by
    cases a with
    | num a =>
      cases b with
      | num b => exact congrArg Cell.num ((eqB_iff a b).mp h)
      | text b => cases h
    | text a =>
      cases b with
      | num b => cases h
      | text b => exact congrArg Cell.text ((eqB_iff a b).mp h)
  rfl {a} := by
    cases a with
    | num a => exact (eqB_iff a a).mpr rfl
    | text a => exact (eqB_iff a a).mpr rfl

/-- What an accepted step computes, in rounded arithmetic. -/
structure RoundStep {rd : ℝ → ℝ} (g : Integrator (Rounded rd)) (w w' : World (Rounded rd)) where
  v : Rounded rd
  x : Rounded rd
  d : StepData (Rounded rd)
  w1 : World (Rounded rd)
  es : List (String × Cell (Rounded rd))
  y : Rounded rd
  hv : g.models.lava.meanVelocity w.terrain w.st = .ok (v, x)
  vpos : rd 0 < val v
  facts : StepFacts g w v x d w1 es y
  grow : val w.st.crystal < val d.newPhi
  crystal : w'.st.crystal = d.newPhi
  temp : w'.st.temp = d.newTemp
  pos : val w'.st.pos = rd (val w.st.pos + val g.dx)
  time : val w'.st.time = rd (val w.st.time + rd (val g.dx / val v))
  terrain : w'.terrain = w.terrain
  eff : w'.effusionRate = w.stepEffusion v
  flux : w'.fluxRate = w.fluxRate
  iter : w'.iteration = w.iteration + 1
  visc : Rounded rd
  tc : Rounded rd
  f : Rounded rd
  tho0 : Rounded rd
  thob : Rounded rd
  log : w'.log = w.log.addAll (.num w.st.pos) (es ++ stepEntries g d w1.st (w.stepEffusion v) visc tc f tho0 thob)
  stop : w'.finished = false → stopTest g w.terrain w'.st = .ok false

theorem roundStep {rd : ℝ → ℝ} {g : Integrator (Rounded rd)} {w w' : World (Rounded rd)} (h : AcceptedStep g w w') :
    Nonempty (RoundStep g w w') := by
  cases singleStep_ok h.2.1 with
  | still v x hv hle hw => exfalso; have := h.2.2; rw [hw] at this; simp at this
  | noGrowth v x hv hle d w1 es y facts hphi hw =>
    exfalso; have := h.2.2; rw [hw, facts.touched] at this; simp [World.touched] at this
  | accepted v x hv hle d w1 es y facts hphi visc tc f v2 y2 tho0 thob hvisc htc hv2 hf ht0 htb dt strain
      hdt hst s' hs stop hstop hw =>
    rw [leB_false] at hle hphi
    obtain ⟨_, hdt⟩ := Rounded.div_ok.mp hdt
    have e : w'.st = s' := congrArg World.st hw
    refine ⟨⟨v, x, d, w1, es, y, hv, ?_, facts, hphi, ?_, ?_, ?_, ?_, by rw [hw], by rw [hw], by rw [hw], by rw [hw],
      visc, tc, f, tho0, thob, by rw [hw], ?_⟩⟩
    · have h0 : val (0.0 : Rounded rd) = rd 0 := by rw [val_lit]; norm_num
      rwa [h0] at hle
    · rw [e, hs]
    · rw [e, hs]
    · rw [e, hs]; rfl
    · rw [e, hs]
      show val (w.st.time + dt) = _
      rw [val_add, hdt]
    · intro hf
      rw [hw] at hf
      have : stop = false := by
        cases stop
        · rfl
        · simp at hf
      rw [e, hstop, this]

/-- A number written by the log section of an accepted step. -/
theorem RoundStep.logged {rd : ℝ → ℝ} {g : Integrator (Rounded rd)} {w w' : World (Rounded rd)} (A : RoundStep g w w')
    {name : String} (hn : name ≠ "position") {x : Rounded rd}
    (h : ((stepEntries g A.d A.w1.st (w.stepEffusion A.v) A.visc A.tc A.f A.tho0 A.thob).reverse.find?
      (fun e => e.1 == name)).map Prod.snd = some (.num x)) :
    loggedNum w'.log w.st.pos name = some x := by
  unfold loggedNum
  rw [A.log, cellAt_addAll_append _ _ A.facts.names_ne (stepEntries_ne _ _ _ _ _ _ _ _ _) _ hn _ _ h]

/-- The heat budget an accepted step leaves in the log. -/
theorem RoundStep.logged_heat {rd : ℝ → ℝ} {g : Integrator (Rounded rd)} {w w' : World (Rounded rd)}
    (A : RoundStep g w w') : loggedNum w'.log w.st.pos "heat_budget" = some A.d.heat := by
  have : cellAt w'.log (.num w.st.pos) "heat_budget" = some (.num A.d.heat) := by
    rw [A.log]
    obtain ⟨es0, he, hn⟩ := A.facts.names
    have hne := A.facts.names_ne
    rw [cellAt_addAll_last_of_not_mem _ _ hne (stepEntries_ne _ _ _ _ _ _ _ _ _) _ (by decide)]
    · rw [he, cellAt_addAll_append _ _ (fun e h => hne e (by rw [he]; simp [h])) (fun e h => ?_) _ (by decide)]
      · simp
      · simp at h; rw [h]; show "heat_budget" ≠ "position"; decide
    · intro e he' hc
      have : e.1 ∈ stepColumns := by
        rw [← stepEntries_names g A.d A.w1.st (w.stepEffusion A.v) A.visc A.tc A.f A.tho0 A.thob]
        exact List.mem_map.mpr ⟨e, he', rfl⟩
      rw [hc] at this
      revert this; decide
  unfold loggedNum
  rw [this]

end PyFlowGo
