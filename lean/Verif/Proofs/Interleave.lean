import Verif.Proofs.Restart
/-
  Particular schedules of two processes, and a configuration that changes while a run reads it.
-/
set_option linter.unusedSectionVars false
namespace PyFlowGo
open Spec

section
variable {ρ : Type}

theorem alone_add (p : Prog ρ) (d : Files) (n m : Nat) : alone p d (n + m) = alone (alone p d n).1 (alone p d n).2 m := by
  induction m with
  | zero => rfl
  | succ m ih =>
    show (alone p d (n + m)).1.step (alone p d (n + m)).2 = _
    rw [ih]
    rfl

theorem exec_first (a b : Prog ρ) (d : Files) (n : Nat) :
    (⟨[a, b], d⟩ : Sys ρ).exec (List.replicate n 0) = ⟨[(alone a d n).1, b], (alone a d n).2⟩ := by
  induction n with
  | zero => rfl
  | succ n ih =>
    rw [List.replicate_succ', exec_snoc, ih]
    rfl

theorem exec_second (a b : Prog ρ) (d : Files) (n : Nat) :
    (⟨[a, b], d⟩ : Sys ρ).exec (List.replicate n 1) = ⟨[a, (alone b d n).1], (alone b d n).2⟩ := by
  induction n with
  | zero => rfl
  | succ n ih =>
    rw [List.replicate_succ', exec_snoc, ih]
    rfl

/-- A process that reaches a state on its own can do so inside a schedule. -/
def Reaches (p : Prog ρ) (d : Files) (p' : Prog ρ) (d' : Files) : Prop := ∃ n, alone p d n = (p', d')

theorem Reaches.refl (p : Prog ρ) (d : Files) : Reaches p d p d := ⟨0, rfl⟩

theorem Reaches.trans {p p' p'' : Prog ρ} {d d' d'' : Files} (h : Reaches p d p' d') (h' : Reaches p' d' p'' d'') : Reaches p d p'' d'' := by
  obtain ⟨n, hn⟩ := h
  obtain ⟨m, hm⟩ := h'
  exact ⟨n + m, by rw [alone_add, hn]; exact hm⟩

theorem Reaches.step (p : Prog ρ) (d : Files) : Reaches p d (p.step d).1 (p.step d).2 := ⟨1, rfl⟩

theorem Reaches.ends (p : Prog ρ) (d : Files) : Reaches p d (.ret (p.run d).1) (p.run d).2 := by
  obtain ⟨N, hN⟩ := alone_ends p d
  exact ⟨N, hN N le_rfl⟩

/-- First the one, then the other, then the one, then the other. -/
theorem four_turns {a a' a'' b b' b'' : Prog ρ} {d d1 d2 d3 d4 : Files} (h1 : Reaches a d a' d1) (h2 : Reaches b d1 b' d2)
    (h3 : Reaches a' d2 a'' d3) (h4 : Reaches b' d3 b'' d4) : ∃ σ, (⟨[a, b], d⟩ : Sys ρ).exec σ = ⟨[a'', b''], d4⟩ := by
  obtain ⟨n1, e1⟩ := h1
  obtain ⟨n2, e2⟩ := h2
  obtain ⟨n3, e3⟩ := h3
  obtain ⟨n4, e4⟩ := h4
  refine ⟨List.replicate n1 0 ++ (List.replicate n2 1 ++ (List.replicate n3 0 ++ List.replicate n4 1)), ?_⟩
  rw [exec_append, exec_first, e1, exec_append, exec_second, e2, exec_append, exec_first, e3, exec_second, e4]

theorem save_reaches (flush : List Char → List Nat) (p : String) (t : List Char) (k : Prog ρ) (d : Files) :
    ∃ e, SameDisk e (writeFile d p t) ∧ Reaches (Prog.save flush p t k) d k e := by
  unfold Prog.save
  have key : ∀ (ns : List Nat) (d' : Files), SameDisk (writeFile d' p t) (writeFile d p t) →
      ∃ e, SameDisk e (writeFile d p t) ∧ Reaches (ns.foldr (fun n k => Prog.write p (t.take n) k) (.write p t k)) d' k e := by
    intro ns
    induction ns with
    | nil => intro d' h; exact ⟨_, h, Reaches.step _ _⟩
    | cons n ns ih =>
      intro d' h
      obtain ⟨e, he, hr⟩ := ih (writeFile d' p (t.take n)) ((SameDisk.overwrite _ _ _ _).trans h)
      exact ⟨e, he, (Reaches.step _ _).trans hr⟩
  obtain ⟨e, he, hr⟩ := key (flush t) (writeFile d p []) (SameDisk.overwrite _ _ _ _)
  exact ⟨e, he, (Reaches.step _ _).trans hr⟩

theorem Prog.bind_assoc {σ τ : Type} (p : Prog ρ) (f : ρ → Prog σ) (g : σ → Prog τ) : (p.bind f).bind g = p.bind fun r => (f r).bind g := by
  induction p with
  | ret r => rfl
  | read q k ih => simp only [Prog.bind]; congr 1; funext t; exact ih t
  | write q t k ih => simp only [Prog.bind]; congr 1

end

variable {α : Type} [Add α] [Sub α] [Mul α] [Neg α] [OfScientific α] [PyNum α]

/-- What a run that wrote a file did. -/
theorem run_wrote_inv (grid : List α) (fuel : Nat) (F : TextFormat α) (jsonFile folder : String) (d : Disk) (q : String) (out : List Char)
    {text : List Char} {data : Json α} (hl : lookup d (F.canon jsonFile) = some text) (hj : jsonLoad F.float text = .ok data)
    (h : runTextOn grid fuel F jsonFile folder d = some (.ok (), (q, out) :: d)) :
    ∃ (pr : Prepared α) (w : World α) (t : CsvTable (Cell α)), prepare (textEnv F d) data [] = .ok pr ∧
      simulateOn grid fuel pr.integrator pr.world = some (.ok (), w) ∧ writeValues w.log = .ok (some t) ∧
      q = F.canon (resultFileName folder (pr.cfg.lavaName.show (textEnv F [])) (pr.cfg.rate.show (textEnv F []))) ∧
      out = stored F.windows (t.text F.str) := by
  have hne : ∀ x : Except Err Unit, (some (x, d) : Option (Except Err Unit × Disk)) ≠ some (.ok (), (q, out) :: d) := by
    intro x hx
    have := congrArg List.length (Prod.mk.inj (Option.some.inj hx)).2
    simp at this
  unfold runTextOn at h
  rw [hl] at h
  dsimp only at h
  rw [hj] at h
  dsimp only at h
  unfold runOn newRunner at h
  have hlk : lookup [(F.canon jsonFile, data)] ((textEnv F d).canon jsonFile) = some data := by
    rw [lookup_cons_eq]
    exact if_pos rfl
  dsimp only at h
  rw [hlk] at h
  dsimp only at h
  have hclear : Log.clear ([] : Log (Cell α)) = [] := rfl
  rw [hclear] at h
  cases hp : prepare (textEnv F d) data [] with
  | error e => rw [hp] at h; exact absurd h (hne _)
  | ok pr =>
    rw [hp] at h
    dsimp only at h
    cases hs : simulateOn grid fuel pr.integrator pr.world with
    | none => rw [hs] at h; cases h
    | some o =>
      obtain ⟨o, w⟩ := o
      rw [hs] at h
      cases o with
      | error e => exact absurd h (hne _)
      | ok u =>
        dsimp only at h
        cases hw : writeValues w.log with
        | error e => rw [hw] at h; exact absurd h (hne _)
        | ok t =>
          rw [hw] at h
          cases t with
          | none => exact absurd h (hne _)
          | some t =>
            dsimp only at h
            have e : ∀ j : Json α, j.show (textEnv F d) = j.show (textEnv F []) := fun j => by cases j <;> rfl
            rw [e, e] at h
            have h2 := (Prod.mk.inj (Option.some.inj h)).2
            have h3 := (List.cons.inj h2).1
            obtain ⟨h4, h5⟩ := Prod.mk.inj h3
            exact ⟨pr, w, t, rfl, hs, hw, h4.symm, h5.symm⟩

/-- The run after its first look at the configuration (run_flowgo.py:64-101). -/
def tailProg (F : TextFormat α) (jsonFile : String) (cfg : RunConfig α) : Prog (Except Err (Prepared α)) :=
  (readerProg F jsonFile (buildTerrain (textEnv F []))).andThen fun t0 =>
  (slopeProg F t0 cfg.slopeFile).andThen fun t =>
  (factoryProg F jsonFile).andThen fun models =>
  (readerProg F jsonFile (integratorEntries (textEnv F []))).andThen fun x =>
  (readerProg F jsonFile (stateEntries (textEnv F []))).andThen fun y =>
  (Prog.ret (initialState models { t with effusionRateInit := x.1, width := x.2.1, depth := x.2.2 } y.1 y.2)).andThen fun st =>
  .ret (.ok { cfg, integrator := { dx := cfg.stepSize, models, massConservation := cfg.massConservation }, world := newWorld t st [] })

theorem prepare_tail (F : TextFormat α) (jsonFile : String) :
    prepareProg F jsonFile = (readerProg F jsonFile (readRunConfig (textEnv F []))).andThen (tailProg F jsonFile) := rfl

theorem andThen_map {ρ σ τ : Type} (p : Prog (Except Err ρ)) (f : ρ → Prog (Except Err σ)) (g : σ → τ) :
    (p.andThen f).bind (fun x => Prog.ret (x.map g)) = p.andThen fun r => (f r).bind fun x => Prog.ret (x.map g) := by
  unfold Prog.andThen
  rw [Prog.bind_assoc]
  congr 1
  funext r
  cases r <;> rfl

/-- The rate the run has seen first is only used for the name of the result. -/
theorem tail_rate (F : TextFormat α) (jsonFile : String) (cfg : RunConfig α) (rate : Json α) :
    tailProg F jsonFile { cfg with rate } = (tailProg F jsonFile cfg).bind fun x => .ret (x.map fun pr => { pr with cfg := { cfg with rate } }) := by
  unfold tailProg
  rw [andThen_map]
  congr 1
  funext t0
  rw [andThen_map]
  congr 1
  funext t
  rw [andThen_map]
  congr 1
  funext models
  rw [andThen_map]
  congr 1
  funext x
  rw [andThen_map]
  congr 1
  funext y
  rw [andThen_map]
  congr 1

/-- The configurations of two rates of one template, as `run` reads them first. -/
theorem readRunConfig_rates {F : TextFormat α} {template data1 data2 : Json α} {r1 r2 : Int} (h1 : template.set "effusion_rate_init" (.int r1) = .ok data1)
    (h2 : template.set "effusion_rate_init" (.int r2) = .ok data2) {cfg : RunConfig α} (hc : readRunConfig (textEnv F []) data2 = .ok cfg) :
    cfg.rate = .int r2 ∧ readRunConfig (textEnv F []) data1 = .ok { cfg with rate := .int r1 } := by
  obtain ⟨a1, a2⟩ := set_spec _ _ _ _ h1
  obtain ⟨b1, b2⟩ := set_spec _ _ _ _ h2
  have hget : ∀ k, k ≠ "effusion_rate_init" → data1.get k = data2.get k ∧ data1.has k = data2.has k := by
    intro k hk
    obtain ⟨l, rfl⟩ : ∃ l, template = .obj l := by
      cases template with
      | obj l => exact ⟨l, rfl⟩
      | _ => cases h1
    obtain ⟨l1, rfl, _⟩ := a1
    obtain ⟨l2, rfl, _⟩ := b1
    have hlk : lookup l1 k = lookup l2 k := by
      have key : ∀ v, lookup l1 k = some v ↔ lookup l2 k = some v := by
        intro v
        have x := a2 k hk v
        have y := b2 k hk v
        unfold TopEntry at x y
        simp only [Json.obj.injEq, exists_eq_left'] at x y
        rw [x, y]
      cases h : lookup l1 k with
      | some v => exact ((key v).mp h).symm
      | none =>
        cases h' : lookup l2 k with
        | none => rfl
        | some v => rw [(key v).mpr h'] at h; cases h
    unfold Json.get Json.has
    dsimp only
    rw [hlk]
    exact ⟨rfl, rfl⟩
  have hreq : ∀ k, k ≠ "effusion_rate_init" → requireTop data1 k = requireTop data2 k := by
    intro k hk
    unfold requireTop
    rw [(hget k hk).1, (hget k hk).2]
  have hraw : rawMassConservation data1 = rawMassConservation data2 := by
    unfold rawMassConservation
    rw [(hget _ (by decide)).1]
  unfold readRunConfig at hc ⊢
  rw [(get_ok_iff _ _ _).mpr b1, ok_bind] at hc
  rw [(get_ok_iff _ _ _).mpr a1, ok_bind, hreq _ (by decide), hreq _ (by decide), hreq _ (by decide), hraw]
  simp only [bind_ok_iff, pure_ok_iff] at hc
  obtain ⟨lv, g1, sl, g2, sz, g3, x, g4, raw, g5, rfl⟩ := hc
  refine ⟨rfl, ?_⟩
  rw [g1, ok_bind, g2, ok_bind, g3, ok_bind, g4, ok_bind, g5, ok_bind]
  rfl

end PyFlowGo
