import Verif.Model.MainText
import Verif.Spec.MainText
import Verif.Props.MainScript
import Verif.Props.RunText
import Verif.Props.RunTextMore
/-
  C129: the command-line script on the texts of the files.
-/
set_option linter.unusedSectionVars false
namespace PyFlowGo
open Spec

/-- **C129**. On every disk: a configuration file that is missing or is not a JSON text makes the script and `RunFlowgo().run`
    raise the same exception and change nothing; and for a JSON text whose `mass_conservation` means the same to both
    they go on or end together, with the same exception or none, and the texts they leave are the same up to the name of the
    one new file. -/
theorem C129_same_text (F : TextFormat ℝ) (grid : List ℝ) (fuel : Nat) (file folder : String) (disk : List (String × List Char))
    (hmass : ∀ text data, lookup disk (F.canon file) = some text → JsonText F.float (universal text) data → MassAgrees data) :
    (runTextOn grid fuel F file folder disk = none ↔ mainTextOn grid fuel F file disk = none) ∧
    ∀ r a b, runTextOn grid fuel F file folder disk = some (r, a) → mainTextOn grid fuel F file disk = some b →
      b.1 = r ∧ ((r ≠ .ok () ∧ a = disk ∧ b.2 = disk) ∨ ∃ text data, lookup disk (F.canon file) = some text ∧
        JsonText F.float (universal text) data ∧ SameResultText (textEnv F disk) data folder disk a b.2) := by
  unfold runTextOn mainTextOn
  cases htext : lookup disk (F.canon file) with
  | none =>
    refine ⟨by simp, ?_⟩
    rintro r a b ha hb
    cases ha; cases hb
    exact ⟨rfl, Or.inl ⟨by simp, rfl, rfl⟩⟩
  | some text =>
  dsimp only
  cases hload : jsonLoad F.float text with
  | error e =>
    refine ⟨by simp, ?_⟩
    rintro r a b ha hb
    cases ha; cases hb
    exact ⟨rfl, Or.inl ⟨by simp, rfl, rfl⟩⟩
  | ok data =>
  have hjson : JsonText F.float (universal text) data := (jsonLoads_iff F.float _ data).mp hload
  have hl : lookup [(F.canon file, data)] ((textEnv F disk).canon file) = some data := by
    rw [lookup_cons_eq]; exact if_pos rfl
  obtain ⟨h1, h2⟩ := C66_same_as_runner grid fuel (textEnv F disk) file folder ⟨[(F.canon file, data)], [], []⟩ data hl
    (hmass text data htext hjson)
  dsimp only
  cases hr : runOn grid fuel (textEnv F disk) file folder (newRunner ⟨[(F.canon file, data)], [], []⟩) with
  | none =>
    rw [h1.mp hr]
    exact ⟨by simp, by rintro r a b ha; cases ha⟩
  | some x =>
  obtain ⟨r0, p⟩ := x
  cases hm : mainScriptOn grid fuel (textEnv F disk) file ⟨[(F.canon file, data)], [], []⟩ with
  | none => rw [h1.mpr hm] at hr; cases hr
  | some y =>
  obtain ⟨r1, q⟩ := y
  refine ⟨by simp, ?_⟩
  rintro r a b ha hb
  obtain ⟨e, _, _, _, hres⟩ := h2 r0 p (r1, q) hr hm
  dsimp only at e hres ha hb
  simp only [Option.some.injEq, Prod.mk.injEq] at ha hb
  obtain ⟨rfl, rfl⟩ := ha
  subst hb
  refine ⟨e, Or.inr ⟨text, data, rfl, hjson, ?_⟩⟩
  rcases hres with ⟨e1, e2⟩ | ⟨t, lava, rate, t1, t2, e1, e2⟩
  · exact Or.inl ⟨by rw [e1], by dsimp only; rw [e2]⟩
  · exact Or.inr ⟨stored F.windows (t.text F.str), lava, rate, t1, t2, by rw [e1]; rfl, by dsimp only; rw [e2]; rfl⟩

/-- **C129**. In one and the same folder the two names are never the same, whatever the lavas and rates are called. -/
theorem C129_names_differ (lava rate lava' rate' : String) :
    inFolder "./results_flowgo" ("results_flowgo_" ++ lava ++ "_" ++ rate ++ "m3s.csv") ≠
      "./results_flowgo/results_main_flowgo_" ++ lava' ++ "_" ++ rate' ++ "m3s.csv" := by
  intro h
  have h1 := congrArg (fun s => s.toList[25]?) h
  unfold inFolder at h1
  rw [if_neg (by decide)] at h1
  simp only [String.toList_append] at h1
  revert h1
  simp

/-- **C129**. The script and then the runner, on the disk the script left. The script wrote a file that is none of the files a
    run reads: then the runner ends without an exception as well, and adds a file with the same text. -/
theorem C129_one_after_the_other (F : TextFormat ℝ) (grid : List ℝ) (fuel : Nat) (file folder : String)
    (disk : List (String × List Char)) (text : List Char) (data : Json ℝ) (hl : lookup disk (F.canon file) = some text)
    (hd : JsonText F.float (universal text) data) (hmass : MassAgrees data) (name : String) (out : List Char)
    (h : mainTextOn grid fuel F file disk = some (.ok (), (name, out) :: disk))
    (hn : F.canon file ≠ name) (hm : ∀ path, MayRead data path → F.canon path ≠ name) :
    ∃ lava rate, TopEntry data "lava_name" lava ∧ TopEntry data "effusion_rate_init" rate ∧
      name = F.canon ("./results_flowgo/results_main_flowgo_" ++ lava.show (textEnv F disk) ++ "_" ++
        rate.show (textEnv F disk) ++ "m3s.csv") ∧
      runTextOn grid fuel F file folder ((name, out) :: disk) = some (.ok (),
        (F.canon (inFolder folder ("results_flowgo_" ++ lava.show (textEnv F disk) ++ "_" ++
          rate.show (textEnv F disk) ++ "m3s.csv")), out) :: (name, out) :: disk) := by
  obtain ⟨h1, h2⟩ := C129_same_text F grid fuel file folder disk (fun t d e1 e2 => by
    rw [hl] at e1
    obtain rfl := Option.some.inj e1
    have e := (jsonLoads_iff F.float _ _).mpr e2
    rw [(jsonLoads_iff F.float _ _).mpr hd] at e
    obtain rfl := Except.ok.inj e
    exact hmass)
  cases hr : runTextOn grid fuel F file folder disk with
  | none => rw [h1.mp hr] at h; cases h
  | some x =>
  obtain ⟨r, a⟩ := x
  obtain ⟨e, hs⟩ := h2 r a _ hr h
  dsimp only at e hs
  subst e
  rcases hs with ⟨bad, _⟩ | ⟨text', data', e1, e2, hs⟩
  · exact absurd rfl bad
  rw [hl] at e1
  obtain rfl := Option.some.inj e1
  have e := (jsonLoads_iff F.float _ _).mpr e2
  rw [(jsonLoads_iff F.float _ _).mpr hd] at e
  obtain rfl := Except.ok.inj e
  rcases hs with ⟨_, bad⟩ | ⟨out', lava, rate, t1, t2, ea, eb⟩
  · exact absurd (congrArg List.length bad) (by simp)
  rw [List.cons.injEq, Prod.mk.injEq] at eb
  obtain ⟨⟨rfl, rfl⟩, _⟩ := eb
  refine ⟨lava, rate, t1, t2, rfl, ?_⟩
  obtain ⟨o, g1, g2, _⟩ := C82_inputs_determine_result F grid fuel file folder disk (((textEnv F disk).canon ("./results_flowgo/results_main_flowgo_" ++
      lava.show (textEnv F disk) ++ "_" ++ rate.show (textEnv F disk) ++ "m3s.csv"), out) :: disk) text text data hl
    (by rw [lookup_cons_eq, if_neg (fun e => hn e.symm)]; exact hl) hd hd
    (fun path hp => by rw [lookup_cons_eq, if_neg (fun e => hm path hp e.symm)])
  rw [g1] at hr
  obtain ⟨⟨r', new⟩, ho, he⟩ := Option.map_eq_some_iff.mp hr
  rw [Prod.mk.injEq] at he
  obtain ⟨rfl, he⟩ := he
  rw [g2, ho]
  dsimp only [Option.map] at he ⊢
  rw [ea, show (∀ (x : String × List Char), x :: disk = [x] ++ disk) from fun _ => rfl] at he
  rw [List.append_cancel_right he]
  rfl

/-! ### Witness -/

theorem still_mass (n : ℕ) (r : Int) : MassAgrees (stillConfig 3 n (.int r)) :=
  ⟨_, ⟨_, rfl, rfl⟩, fun v hv => by cases hv⟩

/-- **C129**, non-vacuity: the script and then the runner on the example of C81, on both kinds of platform, in the folder the
    script writes to. -/
example (windows : Bool) : ∃ out, mainTextOn [1] 3 (milliFormat windows) "still.json" (milliDisk 3) =
      some (.ok (), ("./results_flowgo/results_main_flowgo_example_1m3s.csv", out) :: milliDisk 3) ∧
    runTextOn [1] 3 (milliFormat windows) "still.json" "./results_flowgo" (milliDisk 3) =
      some (.ok (), (inFolder "./results_flowgo" "results_flowgo_example_1m3s.csv", out) :: milliDisk 3) := by
  obtain ⟨out, h⟩ := milli_run windows 3 (by norm_num) (by norm_num) "./results_flowgo"
  have hload : jsonLoad milliFloat (jsonDump milliText (stillConfig 3 ((3 : ℕ) : ℝ) (.int 1))) = .ok (stillConfig 3 ((3 : ℕ) : ℝ) (.int 1)) := by
    have := C79_round_trip milliFloat milliText (stillConfig 3 ((3 : ℕ) : ℝ) (.int 1)) (still_distinct _ _ _)
      (still_nums _ _ (fun a b => milli_readable _ (still_milli 3 a b)) _ _) false
    simp only [stored, Bool.false_eq_true, if_false] at this
    exact this
  have hl : lookup (milliDisk 3) "still.json" = some (jsonDump milliText (stillConfig 3 ((3 : ℕ) : ℝ) (.int 1))) := by
    unfold milliDisk; rw [lookup_cons_eq, if_pos rfl]
  obtain ⟨h1, h2⟩ := C129_same_text (milliFormat windows) [1] 3 "still.json" "./results_flowgo" (milliDisk 3) (fun t d e1 e2 => by
    have e1' : lookup (milliDisk 3) "still.json" = some t := e1
    rw [hl] at e1'
    obtain rfl := Option.some.inj e1'
    have e := (jsonLoads_iff milliFloat _ _).mpr e2
    have hload' : jsonLoads milliFloat (universal (jsonDump milliText (stillConfig 3 ((3 : ℕ) : ℝ) (.int 1)))) = .ok (stillConfig 3 ((3 : ℕ) : ℝ) (.int 1)) := hload
    rw [hload'] at e
    obtain rfl := Except.ok.inj e
    exact still_mass 3 1)
  cases hm : mainTextOn [1] 3 (milliFormat windows) "still.json" (milliDisk 3) with
  | none => rw [h1.mpr hm] at h; cases h
  | some b =>
  obtain ⟨r, d⟩ := b
  obtain ⟨e, hs⟩ := h2 _ _ _ h hm
  dsimp only at e hs
  subst e
  refine ⟨out, ?_, by rw [h, resultFileName_is]; rfl⟩
  rcases hs with ⟨bad, _⟩ | ⟨text', data', e1, e2, hs⟩
  · exact absurd rfl bad
  have e1' : lookup (milliDisk 3) "still.json" = some text' := e1
  rw [hl] at e1'
  obtain rfl := Option.some.inj e1'
  have e := (jsonLoads_iff milliFloat _ _).mpr e2
  have hload' : jsonLoads milliFloat (universal (jsonDump milliText (stillConfig 3 ((3 : ℕ) : ℝ) (.int 1)))) = .ok (stillConfig 3 ((3 : ℕ) : ℝ) (.int 1)) := hload
  rw [hload'] at e
  obtain rfl := Except.ok.inj e
  rcases hs with ⟨bad, _⟩ | ⟨out', lava, rate, t1, t2, ea, eb⟩
  · exact absurd (congrArg List.length bad) (by simp)
  have q1 : lava = .str "example" := topEntry_unique t1 ⟨_, rfl, by rw [lookup_cons_eq]; exact if_pos rfl⟩
  have q2 : rate = .int 1 := topEntry_unique t2 ⟨_, rfl, rfl⟩
  subst q1; subst q2
  rw [List.cons.injEq, Prod.mk.injEq] at ea
  rw [eb, ← ea.1.2]
  rfl

end PyFlowGo
