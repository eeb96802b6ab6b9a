import Verif.Proofs.NumpyMap
import Verif.Proofs.RoundFlow
import Verif.Props.SweepFullExample
import Verif.Proofs.JsonParse
/-
  C112: which of the numbers are numpy scalars and which are Python floats does not matter as long as the computation on
  Python floats raises nothing.
-/
namespace PyFlowGo
open Spec Classical Rounded

section
variable {rd : ℝ → ℝ}

/-- C112, a whole run: if the run on Python floats ends without an exception, so does the run of the program, whose depths
    come from `np.arange` (or from any list of numpy scalars and Python floats with the same values), and after it the
    result files and the log hold the same numbers under the same names. -/
theorem C112_run (env : Env (Rounded rd)) (ds : List (Rounded rd)) (ds' : List (Scalar rd))
    (hg : List.Forall₂ SameValue ds ds') (n : Nat) (file folder : String) (p q : Proc (Rounded rd))
    (h : runOn ds n env file folder p = some (.ok (), q)) :
    ∃ q', runOn ds' n (mapEnv pyFloat valueOf env) file folder (mapProc pyFloat p) = some (.ok (), q') ∧
      SameProc SameValue (fun x a => a = pyFloat x) q q' ∧ mapProc valueOf q' = q := by
  obtain ⟨q', h1, h2⟩ := (run_same_numbers (R := SameValue (rd := rd)) (J := fun x a => a = pyFloat x)
    (fun x y e => e ▸ pyFloat_same x) (mapEnv_same (g := valueOf) valueOf_pyFloat env) hg n file folder
    (mapProc_same pyFloat_same p)).1 q h
  exact ⟨q', h1, h2, sameProc_back (g := valueOf) (f := pyFloat) (R := SameValue) (fun _ _ h => valueOf_same h) valueOf_pyFloat h2⟩

/-- C112, the program's own run: the configuration and the files are read as Python floats, the depths are the elements of
    `np.arange(0.01, 50.0, 0.001)`, which are numpy scalars. -/
theorem C112_program (env : Env (Rounded rd)) (n : Nat) (file folder : String) (p q : Proc (Rounded rd))
    (h : run n env file folder p = some (.ok (), q)) :
    ∃ q', runOn (depthGrid.map npFloat) n (mapEnv pyFloat valueOf env) file folder (mapProc pyFloat p) = some (.ok (), q') ∧
      SameProc SameValue (fun x a => a = pyFloat x) q q' ∧ mapProc valueOf q' = q :=
  C112_run env depthGrid _ (forall₂_map npFloat_same _) n file folder p q h

/-- C112, the converse for what ends: whatever the run of the program does, an exception or a result that is not the one
    computed on Python floats can only occur where the run on Python floats raises an exception; and a run that never ends on
    Python floats never ends in the program. -/
theorem C112_only_where_floats_fault (env : Env (Rounded rd)) (ds : List (Rounded rd)) (ds' : List (Scalar rd))
    (hg : List.Forall₂ SameValue ds ds') (n : Nat) (file folder : String) (p : Proc (Rounded rd)) (r : Except Err Unit)
    (q' : Proc (Scalar rd))
    (h : runOn ds' n (mapEnv pyFloat valueOf env) file folder (mapProc pyFloat p) = some (r, q')) :
    (r = .ok () ∧ ∃ q, runOn ds n env file folder p = some (.ok (), q) ∧ mapProc valueOf q' = q) ∨
      ∃ e q, runOn ds n env file folder p = some (.error e, q) := by
  have hs := run_same_numbers (R := SameValue (rd := rd)) (J := fun x a => a = pyFloat x)
    (fun x y e => e ▸ pyFloat_same x) (mapEnv_same (g := valueOf) valueOf_pyFloat env) hg n file folder
    (mapProc_same pyFloat_same p)
  rcases hr : runOn ds n env file folder p with _ | ⟨_ | _, q⟩
  · rw [hs.2 hr] at h; cases h
  · exact .inr ⟨_, q, rfl⟩
  · left
    obtain ⟨q1, h1, _, h3⟩ := C112_run env ds ds' hg n file folder p q hr
    rw [h1] at h
    cases h
    exact ⟨rfl, q, rfl, h3⟩

/-- C112, from any moment of a simulation, whatever numbers of it are numpy scalars and whatever the signs of its zeros. -/
theorem C112_simulation {g : Integrator (Rounded rd)} {g' : Integrator (Scalar rd)} (hg : SameIntegrator SameValue g g')
    {ds : List (Rounded rd)} {ds' : List (Scalar rd)} (hd : List.Forall₂ SameValue ds ds') (n : Nat)
    {w v : World (Rounded rd)} {w' : World (Scalar rd)} (hw : SameWorld SameValue w w')
    (h : simulateOn ds n g w = some (.ok (), v)) :
    ∃ v', simulateOn ds' n g' w' = some (.ok (), v') ∧ SameWorld SameValue v v' :=
  (simulate_same hg hd n hw).1 v h

/-- C112, one step. -/
theorem C112_step {g : Integrator (Rounded rd)} {g' : Integrator (Scalar rd)} (hg : SameIntegrator SameValue g g')
    {w v : World (Rounded rd)} {w' : World (Scalar rd)} (hw : SameWorld SameValue w w')
    (h : singleStep g w = (.ok (), v)) :
    ∃ v', singleStep g' w' = (.ok (), v') ∧ SameWorld SameValue v v' := by
  obtain ⟨_, v', h1, _, h2⟩ := step_same hg w w' hw () v h
  exact ⟨v', h1, h2⟩

end

/-- C112 in exact arithmetic. -/
theorem C112_run_exact (env : Env ℝ) (ds : List ℝ) (ds' : List (Scalar id))
    (hg : List.Forall₂ SameReal ds ds') (n : Nat) (file folder : String) (p q : Proc ℝ)
    (h : runOn ds n env file folder p = some (.ok (), q)) :
    ∃ q', runOn ds' n (mapEnv pyReal realOf env) file folder (mapProc pyReal p) = some (.ok (), q') ∧
      SameProc SameReal (fun x a => a = pyReal x) q q' ∧ mapProc realOf q' = q := by
  obtain ⟨q', h1, h2⟩ := (run_same_numbers (R := SameReal) (J := fun x a => a = pyReal x)
    (fun x y e => e ▸ ⟨_, rfl⟩) (mapEnv_same (g := realOf) (fun _ => rfl) env) hg n file folder
    (mapProc_same (fun _ => ⟨_, rfl⟩) p)).1 q h
  refine ⟨q', h1, h2, sameProc_back (f := pyReal) (fun x a h => ?_) (fun _ => rfl) h2⟩
  obtain ⟨s, h⟩ := h
  unfold realOf
  rw [h]

/-! ### Examples -/

/-- A run of three steps in which the depth, and everything computed from it, is a numpy scalar. -/
example : ∃ q t, runOn [npReal 1] 3 (mapEnv pyReal realOf exEnv) "still.json" "out"
      (mapProc pyReal ⟨[("still.json", stillConfig 3 ((3 : ℕ) : ℝ) (.int 1))], [], []⟩) = some (.ok (), q) ∧
    (mapProc realOf q).results = [(resultFileName "out" "example" (toString (1 : Int)), t)] := by
  obtain ⟨log, t, _, _, _, _, hrun⟩ := still_run 3 (by omega) (by omega) 1 (.inr rfl) (fun _ x => x)
  obtain ⟨q', h1, _, h3⟩ := C112_run_exact exEnv [1] [npReal 1] (.cons ⟨_, rfl⟩ .nil) 3 "still.json" "out" _ _
    (hrun "still.json" "out" ⟨[("still.json", stillConfig 3 ((3 : ℕ) : ℝ) (.int 1))], [], []⟩ (by rw [lookup_cons_eq, if_pos rfl]))
  exact ⟨q', t, h1, by rw [h3]⟩

/-- The numbers of the example of 1000 steps in double arithmetic, with the depth a numpy scalar. -/
noncomputable def npTerrain (rd : ℝ → ℝ) : Terrain (Scalar rd) :=
  { effusionRateInit := pyFloat (exactly 0), depth := npFloat (exactly 1), width := pyFloat (exactly 1),
    gravity := pyFloat (exactly 1), defaultSlope := pyFloat (exactly (1 / 4)), spline := none,
    maxLength := pyFloat (exactly (2 ^ 80)), smoothing := false, smoothingPoints := pyFloat (exactly (-1)) }

theorem np_terrain {rd : ℝ → ℝ} : SameTerrain SameValue (rfTerrain rd) (npTerrain rd) where
  rate := ⟨_, rfl⟩
  depth := ⟨_, rfl⟩
  width := ⟨_, rfl⟩
  gravity := ⟨_, rfl⟩
  slope := ⟨_, rfl⟩
  spline := .none
  length := ⟨_, rfl⟩
  smoothing := rfl
  points := ⟨_, rfl⟩

noncomputable def npLava (rd : ℝ → ℝ) : Lava (Scalar rd) :=
  { eruptionT := pyFloat (exactly 1000), buffer := pyFloat (exactly 0), latentHeat := pyFloat (exactly (2 ^ 20)),
    densityDre := pyFloat (exactly 1), melt := .vft (pyFloat (exactly 0)) (pyFloat (exactly 0)) (pyFloat (exactly 0)),
    rel := .kd (pyFloat (exactly 1)) (pyFloat (exactly 0)), bub := .no, yld := .dragoniAlone (pyFloat (exactly (-2 ^ 20))),
    ves := .constant (pyFloat (exactly 0)) }

theorem np_lava {rd : ℝ → ℝ} : SameLava SameValue (rfLava rd (rfYield rd)) (npLava rd) where
  eruption := ⟨_, rfl⟩
  buffer := ⟨_, rfl⟩
  latent := ⟨_, rfl⟩
  dre := ⟨_, rfl⟩
  melt := .vft ⟨_, rfl⟩ ⟨_, rfl⟩ ⟨_, rfl⟩
  rel := .kd ⟨_, rfl⟩ ⟨_, rfl⟩
  bub := .no
  yld := .dragoniAlone ⟨_, rfl⟩
  ves := .constant ⟨_, rfl⟩

noncomputable def npG (rd : ℝ → ℝ) : Integrator (Scalar rd) :=
  { dx := pyFloat (exactly 1), massConservation := false, models :=
    { lava := npLava rd
      air := { temp := pyFloat (exactly 300), windSpeed := pyFloat (exactly 1), ch := pyFloat (exactly 1),
               rho := pyFloat (exactly 1), cp := pyFloat (exactly 1) }
      crust := .constant (pyFloat (exactly 500))
      cover := .basic (pyFloat (exactly 0)) (pyFloat (exactly 1))
      cryst := .bimodal (pyFloat (exactly 0)) (pyFloat (exactly 0)) (pyFloat (exactly 1)) (pyFloat (exactly 1)) (pyFloat (exactly 0))
      fluxes := [.rain (pyFloat (exactly 1)) (pyFloat (exactly 1)) (pyFloat (exactly 1))] } }

theorem np_g {rd : ℝ → ℝ} : SameIntegrator SameValue (rfG rd (rfYield rd) false) (npG rd) where
  dx := ⟨_, rfl⟩
  mass := rfl
  models :=
    { lava := np_lava
      air := ⟨⟨_, rfl⟩, ⟨_, rfl⟩, ⟨_, rfl⟩, ⟨_, rfl⟩, ⟨_, rfl⟩⟩
      crust := .constant ⟨_, rfl⟩
      cover := .basic ⟨_, rfl⟩ ⟨_, rfl⟩
      cryst := .bimodal ⟨_, rfl⟩ ⟨_, rfl⟩ ⟨_, rfl⟩ ⟨_, rfl⟩ ⟨_, rfl⟩
      fluxes := .cons (.rain ⟨_, rfl⟩ ⟨_, rfl⟩ ⟨_, rfl⟩) .nil }

noncomputable def npWorld (rd : ℝ → ℝ) : World (Scalar rd) :=
  { newWorld (npTerrain rd) { crystal := pyFloat (exactly 0), temp := pyFloat (exactly 1000), pos := pyFloat (exactly 0), time := pyFloat (exactly 0), strain := pyFloat (exactly 0) } [] with
    fluxRate := some (npFloat (exactly (rfV rd))) }

theorem np_world {rd : ℝ → ℝ} : SameWorld SameValue (rfWorld rd 0) (npWorld rd) where
  st := ⟨⟨_, rfl⟩, ⟨_, rfl⟩, ⟨_, rfl⟩, ⟨_, rfl⟩, ⟨_, rfl⟩⟩
  terrain := np_terrain
  log := .nil
  rate := NumRel.lit _ _ _
  flux := .some ⟨_, rfl⟩
  iteration := rfl
  finished := rfl

/-- In double arithmetic with a numpy depth the example makes its 1000 steps, with the same numbers. -/
theorem np_run : ∃ ws : Nat → World (Rounded (binary 53 (-1074))), ∃ ws' : Nat → World (Scalar (binary 53 (-1074))),
    ws' 0 = npWorld _ ∧ AcceptedRun (rfG _ (rfYield _) false) 1000 ws ∧
      ∀ i, i < 1000 → singleStep (npG _) (ws' i) = (.ok (), ws' (i + 1)) ∧ SameWorld SameValue (ws (i + 1)) (ws' (i + 1)) := by
  obtain ⟨ws, h0, h1, _, _⟩ := rf_run doubles_decent false 0 (by norm_num) 1000 le_rfl
  have key : ∀ k, k ≤ 1000 → ∃ ws' : Nat → World (Scalar (binary 53 (-1074))), ws' 0 = npWorld _ ∧
      SameWorld SameValue (ws k) (ws' k) ∧
      ∀ i, i < k → singleStep (npG _) (ws' i) = (.ok (), ws' (i + 1)) ∧ SameWorld SameValue (ws (i + 1)) (ws' (i + 1)) := by
    intro k
    induction k with
    | zero => exact fun _ => ⟨fun _ => npWorld _, rfl, h0 ▸ np_world, fun i hi => absurd hi (by omega)⟩
    | succ k ih =>
      intro hk
      obtain ⟨ws', a, b, c⟩ := ih (by omega)
      obtain ⟨v', d, e⟩ := C112_step np_g b (h1 k (by omega)).2.1
      refine ⟨fun i => if i ≤ k then ws' i else v', by simpa using a, ?_, fun i hi => ?_⟩
      · simpa using e
      · by_cases hik : i = k
        · subst hik
          simpa using ⟨d, e⟩
        · have := c i (by omega)
          simpa [show i ≤ k by omega, show i + 1 ≤ k by omega] using this
  obtain ⟨ws', a, _, c⟩ := key 1000 le_rfl
  exact ⟨ws, ws', a, h1, c⟩

end PyFlowGo
