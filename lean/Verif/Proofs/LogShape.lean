import Verif.Proofs.StepReal
import Verif.Proofs.LogLemmas
import Verif.Spec.LogSpec
import Verif.Props.Logger
/-
  The columns of the rows of a log: which rows `addAll` changes and how, and what a run can write.
-/
set_option linter.unusedSectionVars false
namespace PyFlowGo
open Spec

section
variable {ν : Type}

/-- Several assignments `d[k] = v`. -/
def Row.setAll (r : Row ν) (es : List (String × ν)) : Row ν := es.foldl (fun r e => r.set e.1 e.2) r

theorem Row.mem_keys_set (r : Row ν) (k : String) (v : ν) (x : String) :
    x ∈ (r.set k v).keys ↔ x ∈ r.keys ∨ x = k := by
  rw [Row.keys_set]
  split
  · rename_i h
    constructor
    · exact Or.inl
    · rintro (h' | rfl)
      · exact h'
      · simpa using h
  · simp

theorem Row.mem_keys_setAll (es : List (String × ν)) (r : Row ν) (x : String) :
    x ∈ (r.setAll es).keys ↔ x ∈ r.keys ∨ x ∈ es.map Prod.fst := by
  induction es generalizing r with
  | nil => simp [Row.setAll]
  | cons e rest ih =>
    have : r.setAll (e :: rest) = (r.set e.1 e.2).setAll rest := rfl
    rw [this, ih, Row.mem_keys_set]
    simp only [List.map_cons, List.mem_cons]
    tauto

variable [BEq ν]

/-- `add_variable` changes the first row at the position, or appends one. -/
theorem addVariable_shape (log : Log ν) (n : String) (p v : ν) :
    (∃ pre r post, log = pre ++ r :: post ∧ r.atPosition p = true ∧ (∀ x ∈ pre, x.atPosition p = false) ∧
      log.addVariable n p v = pre ++ r.set n v :: post) ∨
    ((∀ x ∈ log, x.atPosition p = false) ∧ log.addVariable n p v = log ++ [newRow n p v]) := by
  induction log with
  | nil => right; exact ⟨by simp, rfl⟩
  | cons r rest ih =>
    unfold Log.addVariable
    by_cases h : r.atPosition p = true
    · left; exact ⟨[], r, rest, rfl, h, by simp, by simp [h]⟩
    · rw [if_neg h]
      have h : r.atPosition p = false := by simpa using h
      rcases ih with ⟨pre, r', post, h1, h2, h3, h4⟩ | ⟨h1, h2⟩
      · left
        exact ⟨r :: pre, r', post, by simp [h1], h2, by simpa [h] using h3, by simp [h4]⟩
      · right
        exact ⟨by simpa [h] using h1, by simp [h2]⟩

theorem addVariable_hit (pre post : Log ν) (r : Row ν) (n : String) (p v : ν) (hr : r.atPosition p = true)
    (hpre : ∀ x ∈ pre, x.atPosition p = false) :
    Log.addVariable (pre ++ r :: post) n p v = pre ++ r.set n v :: post := by
  induction pre with
  | nil => simp [Log.addVariable, hr]
  | cons a rest ih =>
    have ha : a.atPosition p = false := hpre a (by simp)
    simp only [List.cons_append, Log.addVariable, ha, Bool.false_eq_true, if_false]
    rw [ih fun x hx => hpre x (by simp [hx])]

theorem addAll_hit (es : List (String × ν)) (hes : ∀ e ∈ es, e.1 ≠ "position") (pre post : Log ν) (r : Row ν)
    (p : ν) (hr : r.atPosition p = true) (hpre : ∀ x ∈ pre, x.atPosition p = false) :
    Log.addAll (pre ++ r :: post) p es = pre ++ r.setAll es :: post := by
  induction es generalizing r with
  | nil => rfl
  | cons e rest ih =>
    have h1 : Log.addAll (pre ++ r :: post) p (e :: rest) =
        Log.addAll (Log.addVariable (pre ++ r :: post) e.1 p e.2) p rest := rfl
    rw [h1, addVariable_hit pre post r e.1 p e.2 hr hpre]
    exact ih (fun x hx => hes x (by simp [hx])) (r.set e.1 e.2)
      (by rw [set_atPosition (hes e (by simp))]; exact hr)

/-- Writing some variables at one position changes the first row at this position, or appends one row. -/
theorem addAll_shape (hrefl : ∀ v : ν, (v == v) = true) (log : Log ν) (p : ν) (es : List (String × ν))
    (hes : ∀ e ∈ es, e.1 ≠ "position") (hne : es ≠ []) :
    (∃ pre r post, log = pre ++ r :: post ∧ log.addAll p es = pre ++ r.setAll es :: post) ∨
    log.addAll p es = log ++ [Row.setAll [("position", p)] es] := by
  cases es with
  | nil => exact absurd rfl hne
  | cons e rest =>
    have hes' : ∀ x ∈ rest, x.1 ≠ "position" := fun x hx => hes x (by simp [hx])
    have h1 : Log.addAll log p (e :: rest) = Log.addAll (Log.addVariable log e.1 p e.2) p rest := rfl
    rcases addVariable_shape log e.1 p e.2 with ⟨pre, r, post, h2, h3, h4, h5⟩ | ⟨h2, h3⟩
    · left
      refine ⟨pre, r, post, h2, ?_⟩
      rw [h1, h5]
      exact addAll_hit rest hes' pre post (r.set e.1 e.2) p (by rw [set_atPosition (hes e (by simp))]; exact h3) h4
    · right
      rw [h1, h3]
      refine addAll_hit rest hes' log [] (newRow e.1 p e.2) p ?_ h2
      rw [newRow_atPosition (hes e (by simp))]
      exact hrefl p

/-- Every row has exactly the columns `K`. -/
def FullRows (K : List String) (log : Log ν) : Prop := ∀ r ∈ log, ∀ k, k ∈ r.keys ↔ k ∈ K

theorem fullRows_addAll (hrefl : ∀ v : ν, (v == v) = true) (log : Log ν) (p : ν) (es : List (String × ν))
    (hes : ∀ e ∈ es, e.1 ≠ "position") (hne : es ≠ []) (hlog : FullRows ("position" :: es.map Prod.fst) log) :
    FullRows ("position" :: es.map Prod.fst) (log.addAll p es) := by
  rcases addAll_shape hrefl log p es hes hne with ⟨pre, r, post, h1, h2⟩ | h
  · rw [h2]
    intro x hx k
    rw [List.mem_append, List.mem_cons] at hx
    rcases hx with hx | rfl | hx
    · exact hlog x (by rw [h1]; simp [hx]) k
    · rw [Row.mem_keys_setAll, hlog r (by rw [h1]; simp) k]
      simp only [List.mem_cons]; tauto
    · exact hlog x (by rw [h1]; simp [hx]) k
  · rw [h]
    intro x hx k
    rw [List.mem_append, List.mem_singleton] at hx
    rcases hx with hx | rfl
    · exact hlog x hx k
    · rw [Row.mem_keys_setAll]; simp [Row.keys]

/-- Writing only some of the columns leaves all rows but the last complete. -/
theorem fullRows_addAll_part (hrefl : ∀ v : ν, (v == v) = true) (K : List String) (log : Log ν) (p : ν)
    (es : List (String × ν)) (hes : ∀ e ∈ es, e.1 ≠ "position") (hne : es ≠ [])
    (hsub : ∀ k ∈ es.map Prod.fst, k ∈ K) (hlog : FullRows K log) :
    FullRows K (log.addAll p es) ∨
    ∃ r, log.addAll p es = log ++ [r] ∧ ∀ k, k ∈ r.keys ↔ k = "position" ∨ k ∈ es.map Prod.fst := by
  rcases addAll_shape hrefl log p es hes hne with ⟨pre, r, post, h1, h2⟩ | h
  · left
    rw [h2]
    intro x hx k
    rw [List.mem_append, List.mem_cons] at hx
    rcases hx with hx | rfl | hx
    · exact hlog x (by rw [h1]; simp [hx]) k
    · rw [Row.mem_keys_setAll, hlog r (by rw [h1]; simp) k]
      constructor
      · rintro (h | h)
        · exact h
        · exact hsub k h
      · exact Or.inl
    · exact hlog x (by rw [h1]; simp [hx]) k
  · right
    exact ⟨_, h, fun k => by rw [Row.mem_keys_setAll]; simp [Row.keys]⟩

omit [BEq ν] in
/-- The file is written when every row has only columns of the first row. -/
theorem writeValues_ok (log : Log ν) (h : ∀ r0 ∈ log.head?, ∀ r ∈ log, ∀ k ∈ r.keys, k ∈ r0.keys) :
    ∃ t, writeValues log = .ok t ∧ (t = none ↔ log = []) := by
  cases log with
  | nil => exact ⟨none, rfl, by simp⟩
  | cons r0 rest =>
    have hm : (r0 :: rest).mapM (csvRow r0.keys) =
        .ok ((r0 :: rest).map fun r => r0.keys.map fun k => r.get? k) := by
      refine mapM_eq_map _ _ _ fun r hr => ?_
      unfold csvRow
      rw [if_pos]
      rw [List.all_eq_true]
      intro k hk
      simpa using h r0 (by simp) r hr k hk
    refine ⟨_, by unfold writeValues; simp only [hm]; rfl, by simp⟩

end

variable {α : Type} [Add α] [Sub α] [Mul α] [Neg α] [OfScientific α] [PyNum α]

/-- The columns of a complete row. -/
def runColumns (g : Integrator α) : List String :=
  "position" :: ((fluxColumns g.models.fluxes ++ ["heat_budget"]) ++ stepColumns)

/-- The columns of a row whose step was given up after the heat budget. -/
def partColumns (g : Integrator α) : List String := "position" :: (fluxColumns g.models.fluxes ++ ["heat_budget"])

theorem accepted_log {g : Integrator α} {w w' : World α} (h : AcceptedStep g w w') :
    ∃ es, es.map Prod.fst = (fluxColumns g.models.fluxes ++ ["heat_budget"]) ++ stepColumns ∧
      (∀ e ∈ es, e.1 ≠ "position") ∧ w'.log = w.log.addAll (.num w.st.pos) es := by
  cases singleStep_ok h.2.1 with
  | still v x hv hle hw => exfalso; have := h.2.2; rw [hw] at this; simp at this
  | noGrowth v x hv hle d w1 es y facts hphi hw =>
    exfalso; have := h.2.2; rw [hw, facts.touched] at this; simp [World.touched] at this
  | accepted v x hv hle d w1 es y facts hphi visc tc f v2 y2 tho0 thob hvisc htc hv2 hf ht0 htb dt strain
      hdt hst s' hs stop hstop hw =>
    refine ⟨es ++ stepEntries g d w1.st (w.stepEffusion v) visc tc f tho0 thob, ?_, ?_, by rw [hw]⟩
    · rw [List.map_append, stepEntries_names]
      obtain ⟨es0, he, hn⟩ := facts.names
      rw [he, List.map_append, hn]; rfl
    · intro e he
      rcases List.mem_append.mp he with h | h
      · exact facts.names_ne e h
      · exact stepEntries_ne _ _ _ _ _ _ _ _ _ e h

/-- What a rejected step logs: nothing when the lava is still, otherwise the fluxes and the heat budget. -/
theorem rejected_log_cases {g : Integrator α} {w w' : World α} (h : RejectedStep g w w') :
    (∃ v x, g.models.lava.meanVelocity w.terrain w.st = .ok (v, x) ∧ leB v 0.0 = true ∧ w'.log = w.log) ∨
    ∃ v x, g.models.lava.meanVelocity w.terrain w.st = .ok (v, x) ∧ leB v 0.0 = false ∧
      ∃ es, es.map Prod.fst = fluxColumns g.models.fluxes ++ ["heat_budget"] ∧
      (∀ e ∈ es, e.1 ≠ "position") ∧ w'.log = w.log.addAll (.num w.st.pos) es := by
  cases singleStep_ok h.2.1 with
  | still v x hv hle hw => left; exact ⟨v, x, hv, hle, by rw [hw]⟩
  | noGrowth v x hv hle d w1 es y facts hphi hw =>
    right
    refine ⟨v, x, hv, hle, es, ?_, facts.names_ne, by rw [hw, facts.touched]; rfl⟩
    obtain ⟨es0, he, hn⟩ := facts.names
    rw [he, List.map_append, hn]; rfl
  | accepted v x hv hle d w1 es y facts hphi visc tc f v2 y2 tho0 thob hvisc htc hv2 hf ht0 htb dt strain
      hdt hst s' hs stop hstop hw => exfalso; exact h.2.2 (by rw [hw])

theorem rejected_log {g : Integrator α} {w w' : World α} (h : RejectedStep g w w') :
    w'.log = w.log ∨ ∃ es, es.map Prod.fst = fluxColumns g.models.fluxes ++ ["heat_budget"] ∧
      (∀ e ∈ es, e.1 ≠ "position") ∧ w'.log = w.log.addAll (.num w.st.pos) es := by
  rcases rejected_log_cases h with ⟨_, _, _, _, h⟩ | ⟨_, _, _, _, h⟩
  · exact Or.inl h
  · exact Or.inr h

theorem depthSearch_log (l : Lava α) (grid : List α) (w : World α) : (depthSearch l grid w).2.log = w.log := by
  induction grid generalizing w with
  | nil => rfl
  | cons d rest ih =>
    unfold depthSearch
    rw [PyM.bind_of_ok (PyM.modify_apply _ _), PyM.bind_apply]
    cases h : meanVelocityM l { w with terrain := { w.terrain with depth := d } } with
    | mk r w1 =>
      cases r with
      | error e =>
        dsimp only
        unfold meanVelocityM at h
        split at h <;> simp at h
        rw [← h.2]
      | ok v =>
        obtain ⟨x, _, rfl⟩ := meanVelocityM_ok h
        dsimp only
        rw [PyM.bind_of_ok (PyM.modify_apply _ _), PyM.bind_of_ok (PyM.modify_apply _ _), PyM.bind_of_ok (PyM.get_apply _)]
        split
        · rfl
        · rw [ih]

theorem initEffusion_log (l : Lava α) (grid : List α) (w : World α) : (initEffusionRateOn grid l w).2.log = w.log := by
  unfold initEffusionRateOn
  rw [PyM.bind_of_ok (PyM.get_apply _)]
  split
  · rfl
  · exact depthSearch_log l grid w

/-- The log of a run that ended normally: complete rows, except possibly the last one. -/
theorem runLoop_columns (hrefl : ∀ c : Cell α, (c == c) = true) {g : Integrator α} {n : Nat} {w w' : World α}
    (hlog : FullRows (runColumns g) w.log) (h : runLoop g n w = some (.ok (), w')) :
    FullRows (runColumns g) w'.log ∨
    ∃ init r, w'.log = init ++ [r] ∧ FullRows (runColumns g) init ∧ ∀ k, k ∈ r.keys ↔ k ∈ partColumns g := by
  obtain ⟨_, k, ws, h0, hacc, _, hlast⟩ := runLoop_ok h
  have hfull : ∀ i, i ≤ k → FullRows (runColumns g) (ws i).log := by
    intro i hi
    induction i with
    | zero => rw [h0]; exact hlog
    | succ i ih =>
      obtain ⟨es, hn, hp, hl⟩ := accepted_log (hacc i (by omega))
      rw [hl]
      have := ih (by omega)
      unfold runColumns at this ⊢
      rw [← hn] at this ⊢
      refine fullRows_addAll hrefl _ _ es hp ?_ this
      rintro rfl
      simp at hn
  rcases hlast with rfl | ⟨_, hr⟩
  · exact Or.inl (hfull k le_rfl)
  · rcases rejected_log hr with hl | ⟨es, hn, hp, hl⟩
    · left; rw [hl]; exact hfull k le_rfl
    · rw [hl]
      rcases fullRows_addAll_part hrefl (runColumns g) (ws k).log (.num (ws k).st.pos) es hp
        (by rintro rfl; simp at hn)
        (by rw [hn]; intro x hx; simp only [runColumns, List.mem_cons, List.mem_append] at hx ⊢; tauto)
        (hfull k le_rfl) with h1 | ⟨r, h1, h2⟩
      · exact Or.inl h1
      · right
        exact ⟨_, r, h1, hfull k le_rfl, fun x => by rw [h2, hn]; simp [partColumns]⟩

end PyFlowGo
