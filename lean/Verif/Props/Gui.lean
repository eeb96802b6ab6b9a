import Verif.Model.Gui
import Verif.Model.RealNum
import Verif.Props.RunLog
/-
  C77: the buttons of the graphical interface.
-/
set_option linter.unusedSectionVars false
namespace PyFlowGo
open Spec
variable {α : Type} [Add α] [Sub α] [Mul α] [Neg α] [OfScientific α] [PyNum α]

theorem requireTop_get {data v : Json α} {k : String} (h : requireTop data k = .ok v) : data.get k = .ok v := by
  unfold requireTop at h
  obtain ⟨b, _, h⟩ := bind_ok_iff.mp h
  cases b
  · simp at h
  · simpa using h

/-- **C77**. After a run that ended normally, `get_file_name_results` gives the name of the file the run wrote: either the
    run logged nothing and no file was written, or exactly that file was written, with the log of the run. -/
theorem C77_file_name (grid : List α) (fuel : Nat) (env : Env α) (jsonFile folder : String) (p p' : Proc α)
    (h : runOn grid fuel env jsonFile folder p = some (.ok (), p')) :
    ∃ name, getFileNameResults env folder jsonFile p' = .ok name ∧
      ((p'.log = [] ∧ p'.results = p.results) ∨
       ∃ t, writeValues p'.log = .ok (some t) ∧ p'.results = (env.canon name, t) :: p.results) := by
  unfold runOn at h
  cases hd : lookup p.json (env.canon jsonFile) with
  | none => rw [hd] at h; simp at h
  | some data =>
    rw [hd] at h
    dsimp only at h
    cases hp : prepare env data p.log with
    | error e => rw [hp] at h; simp at h
    | ok pr =>
      rw [hp] at h
      dsimp only at h
      have hcfg : readRunConfig env data = .ok pr.cfg := by
        unfold prepare at hp
        obtain ⟨cfg, hc, hp⟩ := bind_ok_iff.mp hp
        obtain ⟨_, _, hp⟩ := bind_ok_iff.mp hp
        obtain ⟨_, _, hp⟩ := bind_ok_iff.mp hp
        obtain ⟨_, _, hp⟩ := bind_ok_iff.mp hp
        obtain ⟨_, _, hp⟩ := bind_ok_iff.mp hp
        obtain ⟨_, _, hp⟩ := bind_ok_iff.mp hp
        obtain ⟨_, _, hp⟩ := bind_ok_iff.mp hp
        rw [pure_ok_iff] at hp
        rw [hc, ← hp]
      have hname : ∀ q : Proc α, q.json = p.json → getFileNameResults env folder jsonFile q =
          .ok (resultFileName folder (pr.cfg.lavaName.show env) (pr.cfg.rate.show env)) := by
        intro q hq
        unfold readRunConfig at hcfg
        obtain ⟨r, h1, hcfg⟩ := bind_ok_iff.mp hcfg
        obtain ⟨n, h2, hcfg⟩ := bind_ok_iff.mp hcfg
        obtain ⟨_, _, hcfg⟩ := bind_ok_iff.mp hcfg
        obtain ⟨_, _, hcfg⟩ := bind_ok_iff.mp hcfg
        obtain ⟨_, _, hcfg⟩ := bind_ok_iff.mp hcfg
        obtain ⟨_, _, hcfg⟩ := bind_ok_iff.mp hcfg
        rw [pure_ok_iff] at hcfg
        unfold getFileNameResults
        rw [hq, hd]
        dsimp only
        rw [h1, ok_bind, h2, ← hcfg]
        rfl
      cases hs : simulateOn grid fuel pr.integrator pr.world with
      | none => rw [hs] at h; simp at h
      | some o =>
        obtain ⟨e, w⟩ := o
        rw [hs] at h
        cases e with
        | error e => simp at h
        | ok u =>
          dsimp only at h
          cases hw : writeValues w.log with
          | error e => rw [hw] at h; simp at h
          | ok t =>
            rw [hw] at h
            cases t with
            | none =>
              simp only [Option.some.injEq, Prod.mk.injEq, true_and] at h
              subst h
              refine ⟨_, hname _ rfl, Or.inl ⟨?_, rfl⟩⟩
              dsimp only
              cases hl : w.log with
              | nil => rfl
              | cons r rest =>
                rw [hl] at hw
                unfold writeValues at hw
                dsimp only at hw
                obtain ⟨_, _, hw⟩ := bind_ok_iff.mp hw
                rw [pure_ok_iff] at hw
                cases hw
            | some t =>
              simp only [Option.some.injEq, Prod.mk.injEq, true_and] at h
              subst h
              exact ⟨_, hname _ rfl, Or.inr ⟨t, hw, rfl⟩⟩

/-- **C77**. With a path missing, both buttons only ask for it: no run, no file, the log untouched. -/
theorem C77_missing_path (grid : List α) (fuel : Nat) (round : Nat → α → α) (env : Env α) (jsonFile folder a b c : String)
    (p : Proc α) (h : jsonFile = "" ∨ folder = "") :
    guiSingle grid fuel env jsonFile folder p = some (.ok .selectFiles, p) ∧
    guiSweep grid fuel round env jsonFile folder a b c p = some (.ok .selectFiles, p) := by
  have : (jsonFile.isEmpty || folder.isEmpty) = true := by
    rcases h with rfl | rfl <;> simp
  unfold guiSingle guiSweep
  simp [this]

/-- **C77**. The figures of a single run come from the file of that run: when the button reports success, the run ended
    normally, and the curves are those of the file with the run's name -- the log of this run unless the run logged
    nothing, in which case a file left by an earlier run of the same name is shown. -/
theorem C77_single_shows_the_run (grid : List α) (fuel : Nat) (env : Env α) (jsonFile folder : String) (p p' : Proc α)
    (profile : List (SlopeLine α)) (curves : List (PlotCurves α))
    (h : guiSingle grid fuel env jsonFile folder p = some (.ok (.single profile curves), p')) :
    runOn grid fuel env jsonFile folder (newRunner p) = some (.ok (), p') ∧
    ∃ name t c q, getFileNameResults env folder jsonFile p' = .ok name ∧
      lookup p'.results (env.canon name) = some t ∧ plotFile false t = .ok (c, q) ∧ curves = [c] ∧
      (p'.log ≠ [] → writeValues p'.log = .ok (some t)) ∧
      (p'.log = [] → lookup p.results (env.canon name) = some t) := by
  unfold guiSingle at h
  split at h
  · simp at h
  · cases hr : runOn grid fuel env jsonFile folder (newRunner p) with
    | none => rw [hr] at h; simp at h
    | some o =>
      obtain ⟨e, p1⟩ := o
      rw [hr] at h
      cases e with
      | error e => simp at h
      | ok u =>
        dsimp only at h
        obtain ⟨name, hn, hres⟩ := C77_file_name grid fuel env jsonFile folder _ _ hr
        rw [hn] at h
        dsimp only at h
        cases hpl : plotAll env p1 [name] jsonFile with
        | error e => rw [hpl] at h; simp at h
        | ok o =>
          obtain ⟨pf, cs⟩ := o
          rw [hpl] at h
          simp only [Option.some.injEq, Prod.mk.injEq, Except.ok.injEq, GuiShown.single.injEq] at h
          obtain ⟨⟨rfl, rfl⟩, rfl⟩ := h
          refine ⟨rfl, name, ?_⟩
          have hloop : plotLoop (fun name => lookup p1.results (env.canon name)) false [name] = .ok cs := by
            unfold plotAll at hpl
            split at hpl
            · cases hpl
            · split at hpl
              · split at hpl
                · cases hpl
                · obtain ⟨cs', h1, h2⟩ := bind_ok_iff.mp hpl
                  rw [pure_ok_iff] at h2
                  rw [h1]
                  exact congrArg Except.ok (Prod.mk.inj h2).2
              · cases hpl
            · cases hpl
          rw [plotLoop] at hloop
          cases ht : lookup p1.results (env.canon name) with
          | none => rw [ht] at hloop; simp at hloop
          | some t =>
            rw [ht] at hloop
            dsimp only at hloop
            obtain ⟨⟨c, q⟩, h1, h2⟩ := bind_ok_iff.mp hloop
            dsimp only [plotLoop] at h2
            rw [ok_bind, pure_ok_iff] at h2
            refine ⟨t, c, q, hn, rfl, h1, h2.symm, fun hne => ?_, fun hnil => ?_⟩
            · rcases hres with ⟨h0, _⟩ | ⟨t', hw, hres⟩
              · exact absurd h0 hne
              · rw [hres] at ht
                rw [hw]
                unfold lookup at ht
                simp at ht
                rw [ht]
            · rcases hres with ⟨_, h0⟩ | ⟨t', hw, _⟩
              · rw [h0] at ht; exact ht
              · rw [hnil] at hw; cases hw

/-- **C77**. If the figures cannot be drawn, the result of the run is nevertheless complete: the files are those of the
    run alone. -/
theorem C77_failed_figures_keep_the_result (grid : List α) (fuel : Nat) (env : Env α) (jsonFile folder : String)
    (p p1 : Proc α) (hj : jsonFile ≠ "") (hf : folder ≠ "")
    (hr : runOn grid fuel env jsonFile folder (newRunner p) = some (.ok (), p1)) :
    ∃ r, guiSingle grid fuel env jsonFile folder p = some (r, p1) := by
  obtain ⟨name, hn, _⟩ := C77_file_name grid fuel env jsonFile folder _ _ hr
  have : (jsonFile.isEmpty || folder.isEmpty) = false := by
    rw [Bool.or_eq_false_iff]; simp [String.isEmpty_iff, hj, hf]
  unfold guiSingle
  rw [this, hr]
  simp only [Bool.false_eq_true, if_false]
  rw [hn]
  dsimp only
  cases plotAll env p1 [name] jsonFile with
  | error e => exact ⟨_, rfl⟩
  | ok o => obtain ⟨a, b⟩ := o; exact ⟨_, rfl⟩

/-- **C77**. A run that fails is never reported as completed: the button fails with the exception of the run, and a run that
    does not end keeps the window waiting. -/
theorem C77_failed_run (grid : List α) (fuel : Nat) (env : Env α) (jsonFile folder : String) (p : Proc α) (hj : jsonFile ≠ "")
    (hf : folder ≠ "") :
    (∀ e p1, runOn grid fuel env jsonFile folder (newRunner p) = some (.error e, p1) →
      guiSingle grid fuel env jsonFile folder p = some (.error e, p1)) ∧
    (runOn grid fuel env jsonFile folder (newRunner p) = none → guiSingle grid fuel env jsonFile folder p = none) := by
  have : (jsonFile.isEmpty || folder.isEmpty) = false := by
    rw [Bool.or_eq_false_iff]; simp [String.isEmpty_iff, hj, hf]
  refine ⟨fun e p1 h => ?_, fun h => ?_⟩ <;> unfold guiSingle <;> rw [this, h] <;> rfl

/-- **C77**. A rate that is not a number is reported; nothing is run or written. -/
theorem C77_not_numeric (grid : List α) (fuel : Nat) (round : Nat → α → α) (env : Env α) (jsonFile folder a b c : String)
    (p : Proc α) (hj : jsonFile ≠ "") (hf : folder ≠ "")
    (h : env.parseFloat a = none ∨ env.parseFloat b = none ∨ env.parseFloat c = none) :
    guiSweep grid fuel round env jsonFile folder a b c p = some (.ok .notNumeric, p) := by
  have : (jsonFile.isEmpty || folder.isEmpty) = false := by
    rw [Bool.or_eq_false_iff]; simp [String.isEmpty_iff, hj, hf]
  unfold guiSweep
  rw [this]
  simp only [Bool.false_eq_true, if_false]
  have he : ∃ e, (do let x ← intOfText env a
                     let y ← intOfText env b
                     let z ← intOfText env c
                     return (x, y, z) : Except Err (Int × Int × Int)) = .error e := by
    unfold intOfText
    cases ha : env.parseFloat a with
    | none => exact ⟨_, rfl⟩
    | some x =>
      cases hb : env.parseFloat b with
      | none => exact ⟨_, rfl⟩
      | some y =>
        cases hc : env.parseFloat c with
        | none => exact ⟨_, rfl⟩
        | some z => simp [ha, hb, hc] at h
  obtain ⟨e, he⟩ := he
  rw [he]

/-- **C77**. Numeric rates are cut off towards zero, and the sweep of these whole numbers is made with the slope file of
    the configuration. -/
theorem C77_sweep_of_whole_numbers (grid : List ℝ) (fuel : Nat) (round : Nat → ℝ → ℝ) (env : Env ℝ)
    (jsonFile folder a b c s : String) (x y z : ℝ) (l : List (String × Json ℝ)) (p : Proc ℝ) (hj : jsonFile ≠ "") (hf : folder ≠ "")
    (ha : env.parseFloat a = some x) (hb : env.parseFloat b = some y) (hc : env.parseFloat c = some z)
    (hl : lookup p.json (env.canon jsonFile) = some (.obj l)) (hs : lookup l "slope_file" = some (.str s))
    (i j k : ℤ) (hi : |(i : ℝ)| ≤ |x| ∧ |x| < |(i : ℝ)| + 1 ∧ 0 ≤ (i : ℝ) * x)
    (hj' : |(j : ℝ)| ≤ |y| ∧ |y| < |(j : ℝ)| + 1 ∧ 0 ≤ (j : ℝ) * y)
    (hk : |(k : ℝ)| ≤ |z| ∧ |z| < |(k : ℝ)| + 1 ∧ 0 ≤ (k : ℝ) * z) :
    guiSweep grid fuel round env jsonFile folder a b c p =
      (sweepFull grid fuel round env jsonFile folder s i j k p).map fun o =>
        (match o.1 with | .error e => .error e | .ok _ => .ok (.sweep o.2.2), o.2.1) := by
  have htr : ∀ (x : ℝ) (i : ℤ), |(i : ℝ)| ≤ |x| ∧ |x| < |(i : ℝ)| + 1 ∧ 0 ≤ (i : ℝ) * x → PyNum.truncInt x = i := by
    intro x i ⟨h1, h2, h3⟩
    show (if 0 ≤ x then ⌊x⌋ else ⌈x⌉) = i
    by_cases hx : 0 ≤ x
    · rw [if_pos hx, Int.floor_eq_iff]
      rw [abs_of_nonneg hx] at h1 h2
      rcases hx.eq_or_lt with rfl | hx
      · have : |(i : ℝ)| = 0 := le_antisymm h1 (abs_nonneg _)
        rw [abs_eq_zero] at this; rw [this]; norm_num
      · have hi0 : 0 ≤ (i : ℝ) := nonneg_of_mul_nonneg_left h3 hx
        rw [abs_of_nonneg hi0] at h1 h2
        exact ⟨h1, h2⟩
    · rw [if_neg hx, Int.ceil_eq_iff]
      rw [not_le] at hx
      have hi0 : (i : ℝ) ≤ 0 := by
        by_contra hc
        rw [not_le] at hc
        have := mul_neg_of_pos_of_neg hc hx
        linarith
      rw [abs_of_neg hx, abs_of_nonpos hi0] at h1 h2
      constructor <;> linarith
  have : (jsonFile.isEmpty || folder.isEmpty) = false := by
    rw [Bool.or_eq_false_iff]; simp [String.isEmpty_iff, hj, hf]
  unfold guiSweep
  rw [this]
  simp only [Bool.false_eq_true, if_false]
  have he : (do let x ← intOfText env a
                let y ← intOfText env b
                let z ← intOfText env c
                return (x, y, z) : Except Err (Int × Int × Int)) = .ok (i, j, k) := by
    unfold intOfText
    rw [ha, hb, hc, ← htr x i hi, ← htr y j hj', ← htr z k hk]
    rfl
  rw [he]
  dsimp only
  rw [hl]
  dsimp only
  rw [hs]
  dsimp only
  cases sweepFull grid fuel round env jsonFile folder s i j k p with
  | none => rfl
  | some o =>
    obtain ⟨e, p1, out⟩ := o
    cases e <;> rfl

/-- **C77**. A step smaller than one is cut off to zero and the sweep ends at once with a ValueError, before any run. -/
theorem C77_fractional_step (grid : List ℝ) (fuel : Nat) (round : Nat → ℝ → ℝ) (env : Env ℝ)
    (jsonFile folder a b c : String) (x y z : ℝ) (l : List (String × Json ℝ)) (p : Proc ℝ) (hj : jsonFile ≠ "") (hf : folder ≠ "")
    (ha : env.parseFloat a = some x) (hb : env.parseFloat b = some y) (hc : env.parseFloat c = some z)
    (hl : lookup p.json (env.canon jsonFile) = some (.obj l)) (hz : |z| < 1) :
    guiSweep grid fuel round env jsonFile folder a b c p = some (.error .valueError, p) := by
  have h0 : PyNum.truncInt z = 0 := by
    show (if 0 ≤ z then ⌊z⌋ else ⌈z⌉) = 0
    rw [abs_lt] at hz
    split
    · rw [Int.floor_eq_iff]; norm_num; exact ⟨by assumption, hz.2⟩
    · rw [Int.ceil_eq_iff]; norm_num; constructor <;> linarith
  have : (jsonFile.isEmpty || folder.isEmpty) = false := by
    rw [Bool.or_eq_false_iff]; simp [String.isEmpty_iff, hj, hf]
  unfold guiSweep
  rw [this]
  simp only [Bool.false_eq_true, if_false]
  have he : (do let x ← intOfText env a
                let y ← intOfText env b
                let z ← intOfText env c
                return (x, y, z) : Except Err (Int × Int × Int)) = .ok (PyNum.truncInt x, PyNum.truncInt y, 0) := by
    unfold intOfText
    rw [ha, hb, hc, ← h0]
    rfl
  rw [he]
  dsimp only
  rw [hl]
  dsimp only
  unfold sweepFull sweep
  rw [hl]
  rfl

end PyFlowGo
