import Verif.Props.ThreadsLog
import Verif.Props.CutRun
import Verif.Props.RunRows
import Verif.Props.StepCases
/-
  C120: the same configuration in several threads.
-/
set_option linter.unusedSectionVars false
namespace PyFlowGo
open Spec

section
variable {ν : Type}

theorem row_ext (r r' : Row ν) (hk : r.keys = r'.keys) (hn : r.keys.Nodup) (h : ∀ k, r.get? k = r'.get? k) : r = r' := by
  induction r generalizing r' with
  | nil =>
    cases r' with
    | nil => rfl
    | cons a t => simp [Row.keys] at hk
  | cons a t ih =>
    cases r' with
    | nil => simp [Row.keys] at hk
    | cons b t' =>
      obtain ⟨ka, va⟩ := a
      obtain ⟨kb, vb⟩ := b
      simp only [Row.keys, List.map_cons, List.cons.injEq] at hk
      obtain ⟨rfl, hk⟩ := hk
      simp only [Row.keys, List.map_cons, List.nodup_cons] at hn
      have hv : va = vb := by
        have := h ka
        simpa [Row.get?] using this
      subst hv
      congr 1
      refine ih t' hk hn.2 fun k => ?_
      by_cases e : ka = k
      · subst e
        have hnone : ∀ s : Row ν, ka ∉ s.map Prod.fst → Row.get? s ka = none := by
          intro s hs
          unfold Row.get?
          rw [Option.map_eq_none_iff, List.find?_eq_none]
          intro x hx
          simp only [beq_iff_eq]
          intro e
          exact hs (List.mem_map.mpr ⟨x, hx, e⟩)
        rw [hnone t hn.1, hnone t' (by rw [← hk]; exact hn.1)]
      · have := h k
        simpa [Row.get?, List.find?_cons, e] using this

theorem keys_setAll_old (es : List (String × ν)) (r : Row ν) (h : ∀ e ∈ es, e.1 ∈ r.keys) : (r.setAll es).keys = r.keys := by
  induction es generalizing r with
  | nil => rfl
  | cons e rest ih =>
    show ((r.set e.1 e.2).setAll rest).keys = _
    have hk : (r.set e.1 e.2).keys = r.keys := by rw [Row.keys_set, if_pos (h e (by simp))]
    rw [ih _ (fun x hx => by rw [hk]; exact h x (by simp [hx])), hk]

theorem get?_setAll_any (es : List (String × ν)) (r r' : Row ν) (n : String) (h : n ∈ es.map Prod.fst) :
    (r.setAll es).get? n = (r'.setAll es).get? n := by
  induction es generalizing r r' with
  | nil => simp at h
  | cons e rest ih =>
    show ((r.set e.1 e.2).setAll rest).get? n = ((r'.set e.1 e.2).setAll rest).get? n
    by_cases hr : n ∈ rest.map Prod.fst
    · exact ih _ _ hr
    · have hn : n = e.1 := by simpa [hr] using h
      have ho : ∀ x ∈ rest, x.1 ≠ n := fun x hx e => hr (List.mem_map.mpr ⟨x, hx, e⟩)
      rw [Row.get?_setAll_other rest _ n ho, Row.get?_setAll_other rest _ n ho, Row.get?_set, Row.get?_set, if_pos hn, if_pos hn]

/-- Writing the same cells twice into a row is writing them once. -/
theorem setAll_twice (es : List (String × ν)) (r : Row ν) (hn : r.keys.Nodup) : (r.setAll es).setAll es = r.setAll es := by
  have hk : ((r.setAll es).setAll es).keys = (r.setAll es).keys :=
    keys_setAll_old es _ fun e he => (Row.mem_keys_setAll es r e.1).mpr (Or.inr (List.mem_map.mpr ⟨e, he, rfl⟩))
  refine row_ext _ _ hk (by rw [hk]; exact Row.nodup_setAll es r hn) fun k => ?_
  by_cases h : k ∈ es.map Prod.fst
  · exact get?_setAll_any es _ _ k h
  · exact Row.get?_setAll_other es _ k fun x hx e => h (List.mem_map.mpr ⟨x, hx, e⟩)

variable [BEq ν] [LawfulBEq ν]

/-- The first row of the log at position `x` already has the cells `es`. -/
def Settles (x : ν) (es : List (String × ν)) (log : Log ν) : Prop :=
  ∃ pre r post, log = pre ++ r :: post ∧ r.atPosition x = true ∧ (∀ y ∈ pre, Row.atPosition y x = false) ∧ r.setAll es = r

theorem settles_same {x : ν} {es : List (String × ν)} {log : Log ν} (hn : ∀ e ∈ es, e.1 ≠ "position") (h : Settles x es log) :
    log.addAll x es = log := by
  obtain ⟨pre, r, post, rfl, h1, h2, h3⟩ := h
  rw [addAll_hit es hn pre post r x h1 h2, h3]

theorem settles_new (x : ν) (es : List (String × ν)) (hn : ∀ e ∈ es, e.1 ≠ "position") (hne : es ≠ []) (log : Log ν)
    (hd : ∀ r ∈ log, (Row.keys r).Nodup) : Settles x es (log.addAll x es) := by
  have hfresh : Row.atPosition ([("position", x)] : Row ν) x = true := by simp [Row.atPosition, Row.get?]
  have hat : ∀ r : Row ν, r.atPosition x = true → (r.setAll es).atPosition x = true := by
    intro r hr
    unfold Row.atPosition at hr ⊢
    rw [Row.get?_setAll_other es r "position" hn]
    exact hr
  cases hes : es with
  | nil => exact absurd hes hne
  | cons e rest =>
    have he : e.1 ≠ "position" := hn e (by rw [hes]; simp)
    have hr : ∀ y ∈ rest, y.1 ≠ "position" := fun y hy => hn y (by rw [hes]; simp [hy])
    have e1 : log.addAll x (e :: rest) = (log.addVariable e.1 x e.2).addAll x rest := rfl
    rcases addVariable_shape log e.1 x e.2 with ⟨pre, r, post, h2, h3, h4, h5⟩ | ⟨h4, h5⟩
    · have e2 : log.addAll x es = pre ++ r.setAll es :: post := by rw [h2]; exact addAll_hit es hn pre post r x h3 h4
      rw [← hes, e2]
      exact ⟨pre, r.setAll es, post, rfl, hat r h3, h4, setAll_twice es r (hd r (by rw [h2]; simp))⟩
    · have e2 : log.addAll x es = log ++ [Row.setAll [("position", x)] es] := by
        rw [hes, e1, h5]
        have h6 := addAll_hit rest hr log [] (newRow e.1 x e.2) x (by
          unfold newRow
          rw [set_atPosition he]
          exact hfresh) h4
        exact h6
      rw [← hes, e2]
      exact ⟨log, _, [], rfl, hat _ hfresh, h4, setAll_twice es _ (by simp [Row.keys])⟩

theorem settles_other {x : ν} {es : List (String × ν)} (ops : List (LogOp ν))
    (ho : ∀ o ∈ ops, o.name ≠ "position" ∧ o.position ≠ x) {log : Log ν} (h : Settles x es log) : Settles x es (replay log ops) := by
  induction ops generalizing log with
  | nil => exact h
  | cons o rest ih =>
    refine ih (fun y hy => ho y (by simp [hy])) ?_
    obtain ⟨hn, hx⟩ := ho o (by simp)
    obtain ⟨pre, r, post, rfl, h1, h2, h3⟩ := h
    have hro : r.atPosition o.position = false := by
      rw [Bool.eq_false_iff]
      intro h4
      unfold Row.atPosition at h1 h4
      cases hg : r.get? "position" with
      | none => rw [hg] at h1; cases h1
      | some q =>
        rw [hg] at h1 h4
        exact hx ((eq_of_beq h4).trans (eq_of_beq h1).symm)
    have key : ∀ pre post : Log ν, (∀ y ∈ pre, Row.atPosition y x = false) →
        ∃ pre' post', Log.addVariable (pre ++ r :: post) o.name o.position o.value = pre' ++ r :: post' ∧
          ∀ y ∈ pre', Row.atPosition y x = false := by
      intro pre
      induction pre with
      | nil =>
        intro post _
        refine ⟨[], Log.addVariable post o.name o.position o.value, ?_, by simp⟩
        simp [Log.addVariable, hro]
      | cons a t iht =>
        intro post hp
        by_cases ha : a.atPosition o.position = true
        · refine ⟨a.set o.name o.value :: t, post, ?_, ?_⟩
          · simp [Log.addVariable, ha]
          · intro y hy
            rcases List.mem_cons.mp hy with rfl | hy
            · rw [set_atPosition hn]
              exact hp a (by simp)
            · exact hp y (by simp [hy])
        · obtain ⟨pre', post', h5, h6⟩ := iht post fun y hy => hp y (by simp [hy])
          refine ⟨a :: pre', post', ?_, ?_⟩
          · have ha : a.atPosition o.position = false := by simpa using ha
            simp only [List.cons_append, Log.addVariable, ha]
            rw [h5]
            rfl
          · intro y hy
            rcases List.mem_cons.mp hy with rfl | hy
            · exact hp y (by simp)
            · exact h6 y hy
    obtain ⟨pre', post', h5, h6⟩ := key pre post h2
    exact ⟨pre', r, post', h5, h1, h6, h3⟩

theorem replay_nodup (ops : List (LogOp ν)) (hn : ∀ o ∈ ops, o.name ≠ "position") (log : Log ν) (h : ∀ r ∈ log, (Row.keys r).Nodup) :
    ∀ r ∈ replay log ops, (Row.keys r).Nodup := by
  induction ops generalizing log with
  | nil => exact h
  | cons o rest ih =>
    refine ih (fun y hy => hn y (by simp [hy])) (log.addVariable o.name o.position o.value) ?_
    intro r hr
    rcases addVariable_shape log o.name o.position o.value with ⟨pre, r0, post, h2, _, _, h5⟩ | ⟨_, h3⟩
    · rw [h5] at hr
      rcases List.mem_append.mp hr with hr | hr
      · exact h r (by rw [h2]; simp [hr])
      · rcases List.mem_cons.mp hr with rfl | hr
        · exact Row.nodup_set _ _ _ (h r0 (by rw [h2]; simp))
        · exact h r (by rw [h2]; simp [hr])
    · rw [h3] at hr
      rcases List.mem_append.mp hr with hr | hr
      · exact h r hr
      · rw [List.mem_singleton] at hr
        subst hr
        exact Row.nodup_set _ _ _ (by simp [Row.keys])

end

section
variable {α : Type} [Add α] [Sub α] [Mul α] [Neg α] [OfScientific α] [PyNum α]

/-- Two threads with the same configuration, equally far, possibly with different result folders. -/
def Twin : Task α → Task α → Prop
  | .begin j _, .begin j' _ => j' = j
  | .loop _ g w, .loop _ g' w' => g' = g ∧ w' = { w with log := w'.log }
  | .done _, .done _ => True
  | _, _ => False

theorem twin_step (grid : List α) (env : Env α) {a c : Task α} {p q : Proc α} (hj : q.json = p.json) (hl : q.log = p.log) (ht : Twin a c) :
    Twin (a.step grid env p).1 (c.step grid env q).1 ∧ (c.step grid env q).2.log = (a.step grid env p).2.log := by
  cases a with
  | create j f => cases c <;> exact ht.elim
  | begin j f =>
    cases c with
    | begin j' f' =>
      have e : j' = j := ht
      subst e
      refine ⟨?_, by rw [begin_log, begin_log, hl]⟩
      unfold Task.step
      dsimp only
      rw [hj, hl]
      cases lookup p.json (env.canon j') with
      | none => trivial
      | some data =>
        dsimp only
        cases prepare env data p.log with
        | error e => trivial
        | ok pr =>
          dsimp only
          cases initEffusionRateOn grid pr.integrator.models.lava pr.world with
          | mk r w1 =>
            cases r with
            | error e => trivial
            | ok u => exact ⟨rfl, rfl⟩
    | create j' f' => exact ht.elim
    | loop n g w => exact ht.elim
    | done r => exact ht.elim
  | loop n g w =>
    cases c with
    | loop n' g' w' =>
      obtain ⟨rfl, e⟩ := ht
      generalize w'.log = L at e
      subst e
      by_cases hf : w.finished = true
      · rw [save_step grid env n g' w hf, save_step grid env n' g' { w with log := L } hf]
        refine ⟨trivial, ?_⟩
        have h1 : ∀ n (p : Proc α), (writtenBy env n p).2.log = p.log := by
          intro n p
          unfold writtenBy
          split <;> rfl
        show (writtenBy env n' q).2.log = (writtenBy env n p).2.log
        rw [h1, h1, hl]
      · unfold Task.step
        dsimp only
        rw [if_neg hf, if_neg hf, hl]
        cases singleStep g' { w with log := p.log } with
        | mk r w1 =>
          cases r with
          | error e => exact ⟨trivial, rfl⟩
          | ok u => exact ⟨⟨rfl, rfl⟩, rfl⟩
    | create j' f' => exact ht.elim
    | begin j' f' => exact ht.elim
    | done r => exact ht.elim
  | done r =>
    cases c with
    | done r' => exact ⟨trivial, hl⟩
    | create j' f' => exact ht.elim
    | begin j' f' => exact ht.elim
    | loop n g w => exact ht.elim

theorem twin_alone (grid : List α) (env : Env α) (p : Proc α) (j f f' : String) (k : Nat) :
    Twin (solo grid env (.begin j f) p k).1 (solo grid env (.begin j f') p k).1 ∧
      (solo grid env (.begin j f') p k).2.log = (solo grid env (.begin j f) p k).2.log := by
  induction k with
  | zero => exact ⟨rfl, rfl⟩
  | succ k ih => exact twin_step grid env (by rw [solo_json, solo_json]) ih.2 ih.1

/-- A thread in its loop has come there from the loop, or from the preparation. -/
theorem before_loop {grid : List α} {env : Env α} {t : Task α} {p : Proc α} {n : String} {g : Integrator α} {w : World α}
    (h : (t.step grid env p).1 = .loop n g w) :
    (∃ u L, t = .loop n g u ∧ u.finished = false ∧ singleStep g { u with log := L } = (.ok (), w)) ∨
    (∃ j f data pr, t = .begin j f ∧ lookup p.json (env.canon j) = some data ∧ prepare env data p.log = .ok pr ∧ g = pr.integrator) := by
  cases t with
  | create j f => cases h
  | begin j f =>
    right
    unfold Task.step at h
    dsimp only at h
    split at h
    · cases h
    · rename_i data hd
      split at h
      · cases h
      · rename_i pr hpr
        split at h
        · cases h
        · simp only [Task.loop.injEq] at h
          exact ⟨j, f, data, pr, rfl, hd, hpr, h.2.1.symm⟩
  | loop n' g' u =>
    left
    by_cases hf : u.finished = true
    · rw [save_step grid env n' g' u hf] at h
      cases h
    · unfold Task.step at h
      dsimp only at h
      rw [if_neg hf] at h
      split at h
      · cases h
      · rename_i w' hs
        simp only [Task.loop.injEq] at h
        obtain ⟨rfl, rfl, rfl⟩ := h
        exact ⟨u, p.log, rfl, by simpa using hf, hs⟩
  | done r => cases h

theorem solo_not_create (grid : List α) (env : Env α) (p : Proc α) (j f : String) (k : Nat) (j' f' : String) :
    (solo grid env (.begin j f) p k).1 ≠ .create j' f' := by
  induction k with
  | zero => intro h; cases h
  | succ k ih =>
    intro h
    have h : ((solo grid env (.begin j f) p k).1.step grid env (solo grid env (.begin j f) p k).2).1 = .create j' f' := h
    generalize (solo grid env (.begin j f) p k).2 = q at h
    cases ht : (solo grid env (.begin j f) p k).1 with
    | create a b => exact ih (by rw [ht] at h; cases h)
    | begin a b =>
      rw [ht] at h
      unfold Task.step at h
      dsimp only at h
      split at h
      · cases h
      · split at h
        · cases h
        · split at h <;> cases h
    | loop n g w =>
      rw [ht] at h
      by_cases hf : w.finished = true
      · rw [save_step grid env n g w hf] at h; cases h
      · unfold Task.step at h
        dsimp only at h
        rw [if_neg hf] at h
        split at h <;> cases h
    | done r => rw [ht] at h; cases h

theorem solo_begin_only_first (grid : List α) (env : Env α) (p : Proc α) (j f : String) (k : Nat) (j' f' : String) :
    (solo grid env (.begin j f) p (k + 1)).1 ≠ .begin j' f' := by
  intro h
  have h : ((solo grid env (.begin j f) p k).1.step grid env (solo grid env (.begin j f) p k).2).1 = .begin j' f' := h
  generalize (solo grid env (.begin j f) p k).2 = q at h
  cases ht : (solo grid env (.begin j f) p k).1 with
  | create a b => exact solo_not_create grid env p j f k a b ht
  | begin a b =>
    rw [ht] at h
    unfold Task.step at h
    dsimp only at h
    split at h
    · cases h
    · split at h
      · cases h
      · split at h <;> cases h
  | loop n g w =>
    rw [ht] at h
    by_cases hf : w.finished = true
    · rw [save_step grid env n g w hf] at h; cases h
    · unfold Task.step at h
      dsimp only at h
      rw [if_neg hf] at h
      split at h <;> cases h
  | done r => rw [ht] at h; cases h

theorem solo_dx (grid : List α) (env : Env α) (p : Proc α) (j f : String) (P : α → Prop)
    (hdx : ∀ data pr, lookup p.json (env.canon j) = some data → prepare env data p.log = .ok pr → P pr.integrator.dx) (k : Nat) :
    ∀ n g w, (solo grid env (.begin j f) p k).1 = .loop n g w → P g.dx := by
  induction k with
  | zero => intro n g w h; cases h
  | succ k ih =>
    intro n g w h
    rcases before_loop (h : ((solo grid env (.begin j f) p k).1.step grid env (solo grid env (.begin j f) p k).2).1 = .loop n g w) with
      ⟨u, L, h1, _, _⟩ | ⟨j', f', data, pr, h1, h2, h3, rfl⟩
    · exact ih n g u h1
    · cases k with
      | zero =>
        change Task.begin j f = Task.begin j' f' at h1
        simp only [Task.begin.injEq] at h1
        obtain ⟨rfl, rfl⟩ := h1
        exact hdx data pr h2 h3
      | succ k => exact absurd h1 (solo_begin_only_first grid env p j f k j' f')

/-- Once a thread is past its loop, its steps leave the log alone. -/
theorem solo_ended_log (grid : List α) (env : Env α) (t : Task α) (p : Proc α) (k : Nat)
    (h : AtEnd (solo grid env t p k).1 ∨ ∃ r, (solo grid env t p k).1 = .done r) (d : Nat) :
    (AtEnd (solo grid env t p (k + d)).1 ∨ ∃ r, (solo grid env t p (k + d)).1 = .done r) ∧
      (solo grid env t p (k + d)).2.log = (solo grid env t p k).2.log := by
  induction d with
  | zero => exact ⟨h, rfl⟩
  | succ d ih =>
    obtain ⟨h1, h2⟩ := ih
    have e : solo grid env t p (k + (d + 1)) =
        (solo grid env t p (k + d)).1.step grid env (solo grid env t p (k + d)).2 := rfl
    rw [e]
    generalize solo grid env t p (k + d) = a at h1 h2 ⊢
    obtain ⟨b, q⟩ := a
    cases b with
    | create j f => rcases h1 with h1 | ⟨r, h1⟩ <;> cases h1
    | begin j f => rcases h1 with h1 | ⟨r, h1⟩ <;> cases h1
    | loop n g w =>
      have hf : w.finished = true := by
        rcases h1 with h1 | ⟨r, h1⟩
        · exact h1
        · cases h1
      dsimp only
      rw [save_step grid env n g w hf]
      refine ⟨Or.inr ⟨_, rfl⟩, ?_⟩
      have h3 : (writtenBy env n q).2.log = q.log := by unfold writtenBy; split <;> rfl
      exact h3.trans h2
    | done r => exact ⟨Or.inr ⟨r, rfl⟩, h2⟩

end

/-- Positions grow along a run. -/
theorem solo_pos (grid : List ℝ) (env : Env ℝ) (p : Proc ℝ) (j f : String)
    (hdx : ∀ data pr, lookup p.json (env.canon j) = some data → prepare env data p.log = .ok pr → 0 < pr.integrator.dx)
    (m : Nat) (n : String) (g : Integrator ℝ) (w : World ℝ) (hm : (solo grid env (.begin j f) p m).1 = .loop n g w) (d : Nat) :
    ∀ n' g' w', (solo grid env (.begin j f) p (m + d + 1)).1 = .loop n' g' w' → w'.finished = false → w.st.pos < w'.st.pos := by
  induction d with
  | zero =>
    intro n' g' w' h hf
    rcases before_loop (h : ((solo grid env (.begin j f) p m).1.step grid env (solo grid env (.begin j f) p m).2).1 = .loop n' g' w') with
      ⟨u, L, h1, h2, h3⟩ | ⟨j', f', data, pr, h1, _⟩
    · rw [hm] at h1
      simp only [Task.loop.injEq] at h1
      obtain ⟨rfl, rfl, rfl⟩ := h1
      have hd := solo_dx grid env p j f (fun x => 0 < x) hdx m n g w hm
      rcases C07_grow_or_stop g { w with log := L } w' h2 h3 with ⟨_, h4⟩ | ⟨h4, _⟩
      · change w'.st.pos = w.st.pos + g.dx at h4
        rw [h4]
        linarith
      · rw [h4] at hf; cases hf
    · rw [hm] at h1; cases h1
  | succ d ih =>
    intro n' g' w' h hf
    rcases before_loop (h : ((solo grid env (.begin j f) p (m + d + 1)).1.step grid env
        (solo grid env (.begin j f) p (m + d + 1)).2).1 = .loop n' g' w') with
      ⟨u, L, h1, h2, h3⟩ | ⟨j', f', data, pr, h1, _⟩
    · have hlt := ih n' g' u h1 h2
      have hd := solo_dx grid env p j f (fun x => 0 < x) hdx _ n' g' u h1
      rcases C07_grow_or_stop g' { u with log := L } w' h2 h3 with ⟨_, h4⟩ | ⟨h4, _⟩
      · change w'.st.pos = u.st.pos + g'.dx at h4
        rw [h4]
        linarith
      · rw [h4] at hf; cases hf
    · exact absurd h1 (solo_begin_only_first grid env p j f (m + d) j' f')

theorem solo_step_log (grid : List ℝ) (env : Env ℝ) (p : Proc ℝ) (j f : String) (k : Nat) :
    ∃ ops : List (LogOp (Cell ℝ)), (solo grid env (.begin j f) p (k + 1)).2.log = replay (solo grid env (.begin j f) p k).2.log ops ∧
      ∀ o ∈ ops, o.name ≠ "position" ∧ ∃ n g w, (solo grid env (.begin j f) p k).1 = .loop n g w ∧ w.finished = false ∧
        o.position = .num w.st.pos :=
  step_log grid env _ _ (solo_not_create grid env p j f k)

theorem solo_nodup (grid : List ℝ) (env : Env ℝ) (p : Proc ℝ) (j f : String) (hl : p.log = []) (k : Nat) :
    ∀ r ∈ (solo grid env (.begin j f) p k).2.log, (Row.keys r).Nodup := by
  induction k with
  | zero =>
    intro r hr
    change r ∈ p.log at hr
    rw [hl] at hr
    cases hr
  | succ k ih =>
    obtain ⟨ops, h1, h2⟩ := solo_step_log grid env p j f k
    rw [h1]
    exact replay_nodup ops (fun o ho => (h2 o ho).1) _ ih

/-- Executing once more a step that was executed before changes nothing in the log. -/
theorem solo_again (grid : List ℝ) (env : Env ℝ) (p : Proc ℝ) (j f : String) (hl : p.log = [])
    (hdx : ∀ data pr, lookup p.json (env.canon j) = some data → prepare env data p.log = .ok pr → 0 < pr.integrator.dx)
    (c : Nat) (n : String) (g : Integrator ℝ) (w : World ℝ) (hc : (solo grid env (.begin j f) p c).1 = .loop n g w) (hf : w.finished = false)
    (ops : List (LogOp (Cell ℝ))) (hops : ∀ o ∈ ops, o.name ≠ "position" ∧ o.position = .num w.st.pos) (ht : Traces (singleStep g) w ops)
    (d : Nat) : replay (solo grid env (.begin j f) p (c + 1 + d)).2.log ops = (solo grid env (.begin j f) p (c + 1 + d)).2.log := by
  obtain ⟨es, hes⟩ : ∃ es : List (String × Cell ℝ), ops = es.map fun e => ⟨e.1, .num w.st.pos, e.2⟩ := by
    refine ⟨ops.map fun o => (o.name, o.value), ?_⟩
    rw [List.map_map]
    conv_lhs => rw [← List.map_id ops]
    refine List.map_congr_left fun o ho => ?_
    obtain ⟨a, b, c⟩ := o
    have := (hops _ ho).2
    dsimp only at this
    subst this
    rfl
  have hrep : ∀ L, replay L ops = L.addAll (.num w.st.pos) es := fun L => by rw [replay_addAll, hes]
  have hn : ∀ e ∈ es, e.1 ≠ "position" := by
    intro e he
    exact (hops ⟨e.1, .num w.st.pos, e.2⟩ (by rw [hes]; exact List.mem_map.mpr ⟨e, he, rfl⟩)).1
  by_cases hne : es = []
  · rw [hrep, hne]
    rfl
  rw [hrep]
  refine settles_same hn ?_
  induction d with
  | zero =>
    have e : (solo grid env (.begin j f) p (c + 1)).2.log = replay (solo grid env (.begin j f) p c).2.log ops := by
      show ((solo grid env (.begin j f) p c).1.step grid env (solo grid env (.begin j f) p c).2).2.log = _
      rw [hc]
      generalize (solo grid env (.begin j f) p c).2 = q
      unfold Task.step
      dsimp only
      rw [if_neg (by rw [hf]; exact Bool.false_ne_true), ht q.log]
      cases singleStep g w with
      | mk r w1 => cases r <;> rfl
    show Settles _ _ (solo grid env (.begin j f) p (c + 1)).2.log
    rw [e, hrep]
    exact settles_new _ es hn hne _ (solo_nodup grid env p j f hl c)
  | succ d ih =>
    obtain ⟨ops', h1, h2⟩ := solo_step_log grid env p j f (c + 1 + d)
    show Settles _ _ (solo grid env (.begin j f) p (c + 1 + d + 1)).2.log
    rw [h1]
    refine settles_other ops' (fun o ho => ?_) ih
    obtain ⟨h3, n', g', w', h4, h5, h6⟩ := h2 o ho
    refine ⟨h3, ?_⟩
    rw [h6]
    have := solo_pos grid env p j f hdx c n g w hc d n' g' w' (by rw [show c + d + 1 = c + 1 + d by omega]; exact h4) h5
    intro e
    injection e with e
    linarith

/-- The log of several threads with the same configuration is that of the thread that is ahead. -/
theorem same_log (grid : List ℝ) (env : Env ℝ) (p : Proc ℝ) (j : String) (hl : p.log = [])
    (hdx : ∀ data pr, lookup p.json (env.canon j) = some data → prepare env data p.log = .ok pr → 0 < pr.integrator.dx)
    (folders : List String) (sched : List Nat) :
    (∃ M, ((⟨folders.map fun f => .begin j f, p⟩ : Threads ℝ).exec grid env sched).proc.log = (solo grid env (.begin j "") p M).2.log ∧
      ∀ i f, folders[i]? = some f → sched.count i ≤ M) ∧
    ∀ i f, folders[i]? = some f →
      (∃ c, ((⟨folders.map fun f => .begin j f, p⟩ : Threads ℝ).exec grid env sched).tasks[i]? = some c ∧
        SameOwn False (solo grid env (.begin j f) p (sched.count i)).1 c) ∧
      ∀ x ∈ (solo grid env (.begin j f) p (sched.count i)).2.results,
        x ∈ ((⟨folders.map fun f => .begin j f, p⟩ : Threads ℝ).exec grid env sched).proc.results := by
  generalize hs : (⟨folders.map fun f => .begin j f, p⟩ : Threads ℝ) = s
  have hsj : s.proc.json = p.json := by rw [← hs]
  have hlen : s.tasks.length = folders.length := by rw [← hs]; simp
  induction sched using List.reverseRecOn with
  | nil =>
    refine ⟨⟨0, by rw [← hs]; rfl, fun i f _ => Nat.le_refl _⟩, fun i f hi => ⟨⟨.begin j f, ?_, rfl, rfl⟩, fun x hx => ?_⟩⟩
    · rw [← hs]
      show (folders.map fun f => Task.begin j f)[i]? = _
      rw [List.getElem?_map, hi]
      rfl
    · rw [← hs]
      exact hx
  | append_singleton sched k ih =>
    obtain ⟨⟨M, hM, hle⟩, ih⟩ := ih
    rw [threads_exec_snoc]
    cases hk : folders[k]? with
    | none =>
      have hnone : (s.exec grid env sched).tasks[k]? = none := by
        have hl' : (s.exec grid env sched).tasks.length = s.tasks.length := by
          clear ih hM hle
          induction sched using List.reverseRecOn with
          | nil => rfl
          | append_singleton a b ih =>
            rw [threads_exec_snoc]
            unfold Threads.step
            split
            · exact ih
            · simpa using ih
        rw [List.getElem?_eq_none_iff] at hk ⊢
        rw [hl', hlen]
        exact hk
      rw [threads_step_none hnone]
      have hcount : ∀ i f, folders[i]? = some f → (sched ++ [k]).count i = sched.count i := by
        intro i f hi
        have : k ≠ i := by rintro rfl; rw [hk] at hi; cases hi
        simp [List.count_append, this]
      refine ⟨⟨M, hM, fun i f hi => by rw [hcount i f hi]; exact hle i f hi⟩, fun i f hi => ?_⟩
      rw [hcount i f hi]
      exact ih i f hi
    | some fk =>
      obtain ⟨⟨c, hc1, hc2⟩, hres⟩ := ih k fk hk
      obtain ⟨htw, htl⟩ := twin_alone grid env p j "" fk (sched.count k)
      have hj : (s.exec grid env sched).proc.json = (solo grid env (.begin j fk) p (sched.count k)).2.json := by
        rw [threads_exec_json, solo_json, hsj]
      have hck : (sched ++ [k]).count k = sched.count k + 1 := by simp [List.count_append]
      have hci : ∀ i, k ≠ i → (sched ++ [k]).count i = sched.count i := fun i h => by simp [List.count_append, h]
      have hkM : sched.count k ≤ M := hle k fk hk
      rw [threads_step_some hc1]
      generalize hq : (s.exec grid env sched).proc = q at *
      generalize hT : (s.exec grid env sched).tasks = T at *
      -- what the step does
      have hstep : (∃ M', (c.step grid env q).2.log = (solo grid env (.begin j "") p M').2.log ∧ M ≤ M' ∧ sched.count k + 1 ≤ M') ∧
          SameOwn False (solo grid env (.begin j fk) p (sched.count k + 1)).1 (c.step grid env q).1 ∧
          (∀ x ∈ (solo grid env (.begin j fk) p (sched.count k + 1)).2.results, x ∈ (c.step grid env q).2.results) ∧
          ∀ x ∈ q.results, x ∈ (c.step grid env q).2.results := by
        have ha1 : solo grid env (.begin j fk) p (sched.count k + 1) =
            (solo grid env (.begin j fk) p (sched.count k)).1.step grid env (solo grid env (.begin j fk) p (sched.count k)).2 := rfl
        have hb1 : solo grid env (.begin j "") p (sched.count k + 1) =
            (solo grid env (.begin j "") p (sched.count k)).1.step grid env (solo grid env (.begin j "") p (sched.count k)).2 := rfl
        have hnc := solo_not_create grid env p j fk (sched.count k)
        have hquiet : (solo grid env (.begin j "") p (sched.count k + 1)).2.log = (solo grid env (.begin j "") p (sched.count k)).2.log →
            (c.step grid env q).2.log = q.log →
            ∃ M', (c.step grid env q).2.log = (solo grid env (.begin j "") p M').2.log ∧ M ≤ M' ∧ sched.count k + 1 ≤ M' := by
          intro h1 h2
          by_cases hlt : sched.count k < M
          · exact ⟨M, by rw [h2, hM], Nat.le_refl _, hlt⟩
          · have e : sched.count k = M := by omega
            exact ⟨M + 1, by rw [h2, hM, ← e, h1], by omega, by omega⟩
        rw [ha1]
        generalize hA : solo grid env (.begin j fk) p (sched.count k) = A at *
        obtain ⟨a, pa⟩ := A
        dsimp only at *
        cases a with
        | create x y => exact absurd rfl (hnc x y)
        | begin x y =>
          cases c with
          | begin x' y' =>
            obtain ⟨rfl, rfl⟩ := hc2
            refine ⟨hquiet ?_ (by rw [begin_log]), ?_, ?_, ?_⟩
            · rw [hb1]
              cases hB : (solo grid env (.begin j "") p (sched.count k)).1 with
              | begin u v => rw [begin_log]
              | create u v => rw [hB] at htw; exact htw.elim
              | loop u v z => rw [hB] at htw; exact htw.elim
              | done r => rw [hB] at htw; exact htw.elim
            · have := sameOwn_step grid env (P := False) (a := .begin x' y') (c := .begin x' y') (p := pa) (q := q) hj ⟨rfl, rfl⟩
              exact sameOwn_mono (fun h => h.elim id fun h => h.elim) this
            · rw [begin_log, begin_log]; exact hres
            · rw [begin_log]; exact fun x hx => hx
          | create u v => exact hc2.elim
          | loop u v z => exact hc2.elim
          | done r => exact hc2.elim
        | loop n g w =>
          cases c with
          | loop n' g' w' =>
            obtain ⟨rfl, rfl, e⟩ := hc2
            generalize w'.log = L at e
            subst e
            by_cases hf : w.finished = true
            · have hend : AtEnd (solo grid env (.begin j fk) p (sched.count k)).1 := by rw [hA]; exact hf
              have hlogM : q.log = pa.log := by
                have h1 := (solo_ended_log grid env (.begin j fk) p (sched.count k) (Or.inl hend) (M - sched.count k)).2
                rw [show sched.count k + (M - sched.count k) = M by omega, hA, (twin_alone grid env p j "" fk M).2] at h1
                rw [hM, h1]
              have hsv : (writtenBy env n' q).1 = (writtenBy env n' pa).1 ∧ (writtenBy env n' q).2.log = q.log ∧
                  (∀ x ∈ (writtenBy env n' pa).2.results, x ∈ (writtenBy env n' q).2.results) ∧ ∀ x ∈ q.results, x ∈ (writtenBy env n' q).2.results := by
                unfold writtenBy
                rw [hlogM]
                cases writeValues pa.log with
                | error e => exact ⟨rfl, hlogM, hres, fun x hx => hx⟩
                | ok o =>
                  cases o with
                  | none => exact ⟨rfl, hlogM, hres, fun x hx => hx⟩
                  | some tb =>
                    refine ⟨rfl, rfl, fun x hx => ?_, fun x hx => List.mem_cons.mpr (Or.inr hx)⟩
                    rcases List.mem_cons.mp hx with hx | hx
                    · exact List.mem_cons.mpr (Or.inl hx)
                    · exact List.mem_cons.mpr (Or.inr (hres x hx))
              rw [save_step grid env n' g' w hf] at *
              rw [save_step grid env n' g' { w with log := L } hf] at *
              refine ⟨hquiet ?_ hsv.2.1, Or.inl hsv.1, hsv.2.2⟩
              have h1 := (solo_ended_log grid env (.begin j fk) p (sched.count k) (Or.inl hend) 1).2
              rw [(twin_alone grid env p j "" fk (sched.count k + 1)).2, (twin_alone grid env p j "" fk (sched.count k)).2] at h1
              exact h1
            · have hf' : w.finished = false := by simpa using hf
              obtain ⟨ops, hops, htr⟩ := step_traced g' w
              have hlogs : ∀ n (L : Log (Cell ℝ)) (p : Proc ℝ), ((Task.loop n g' { w with log := L }).step grid env p).2.log = replay p.log ops ∧
                  ((Task.loop n g' { w with log := L }).step grid env p).2.results = p.results := by
                intro n L p
                unfold Task.step
                dsimp only
                rw [if_neg hf, htr p.log]
                cases singleStep g' w with
                | mk r w1 => cases r <;> exact ⟨rfl, rfl⟩
              refine ⟨?_, ?_, ?_, ?_⟩
              · rw [(hlogs _ _ _).1]
                by_cases hlt : sched.count k < M
                · refine ⟨M, ?_, Nat.le_refl _, hlt⟩
                  have h1 := solo_again grid env p j fk hl hdx (sched.count k) n' g' w (by rw [hA]) hf' ops hops htr (M - sched.count k - 1)
                  rw [show sched.count k + 1 + (M - sched.count k - 1) = M by omega, (twin_alone grid env p j "" fk M).2] at h1
                  rw [hM, h1]
                · have e : sched.count k = M := by omega
                  refine ⟨M + 1, ?_, by omega, by omega⟩
                  have h1 : (solo grid env (.begin j fk) p (M + 1)).2.log = replay pa.log ops := by
                    show ((solo grid env (.begin j fk) p M).1.step grid env (solo grid env (.begin j fk) p M).2).2.log = _
                    rw [← e, hA]
                    exact (hlogs n' w.log pa).1
                  rw [(twin_alone grid env p j "" fk (M + 1)).2] at h1
                  have h2 := htl
                  rw [h1, hM, h2, e]
              · have := sameOwn_step grid env (P := False) (a := .loop n' g' w) (c := .loop n' g' { w with log := L }) (p := pa) (q := q) hj
                  ⟨rfl, rfl, rfl⟩
                exact sameOwn_mono (fun h => h.elim id fun h => absurd h hf) this
              · rw [(hlogs n' w.log pa).2, (hlogs n' L q).2]; exact hres
              · rw [(hlogs n' L q).2]; exact fun x hx => hx
          | create u v => exact hc2.elim
          | begin u v => exact hc2.elim
          | done r => exact hc2.elim
        | done r =>
          cases c with
          | done r' =>
            refine ⟨hquiet ?_ rfl, hc2, hres, fun x hx => hx⟩
            rw [hb1]
            cases hB : (solo grid env (.begin j "") p (sched.count k)).1 with
            | done r => rfl
            | begin u v => rw [hB] at htw; exact htw.elim
            | create u v => rw [hB] at htw; exact htw.elim
            | loop u v z => rw [hB] at htw; exact htw.elim
          | create u v => exact hc2.elim
          | begin u v => exact hc2.elim
          | loop u v z => exact hc2.elim
      obtain ⟨⟨M', h1, h2, h3⟩, h4, h5, h6⟩ := hstep
      refine ⟨⟨M', h1, fun i f hi => ?_⟩, fun i f hi => ?_⟩
      · by_cases hki : k = i
        · subst hki; rw [hck]; exact h3
        · rw [hci i hki]; exact (hle i f hi).trans h2
      · by_cases hki : k = i
        · subst hki
          rw [hk] at hi
          obtain rfl := Option.some.inj hi
          obtain ⟨hlt, _⟩ := List.getElem?_eq_some_iff.mp hc1
          rw [hck]
          exact ⟨⟨_, by simp [hlt], h4⟩, h5⟩
        · obtain ⟨⟨c', h7, h8⟩, h9⟩ := ih i f hi
          rw [hci i hki]
          refine ⟨⟨c', ?_, h8⟩, fun x hx => h6 x (h9 x hx)⟩
          dsimp only
          rw [List.getElem?_set_ne hki]
          exact h7

/-- **C120**. The same configuration in several threads is harmless if all runners are constructed before the first step: for every
    schedule, every thread ends as it would alone and writes the same files with the same contents as alone (each into its own
    folder), because all threads write the same cells. -/
theorem C120_same_configuration (grid : List ℝ) (env : Env ℝ) (p : Proc ℝ) (j : String) (hl : p.log = [])
    (hdx : ∀ data pr, lookup p.json (env.canon j) = some data → prepare env data [] = .ok pr → 0 < pr.cfg.stepSize)
    (folders : List String) (sched : List Nat) (i : Nat) (f : String) (hi : folders[i]? = some f) (r : Except Err Unit) (q : Proc ℝ)
    (ha : solo grid env (.begin j f) p (sched.count i) = (.done r, q)) :
    ((⟨folders.map fun f => .begin j f, p⟩ : Threads ℝ).exec grid env sched).tasks[i]? = some (.done r) ∧
      ∀ x ∈ q.results, x ∈ ((⟨folders.map fun f => .begin j f, p⟩ : Threads ℝ).exec grid env sched).proc.results := by
  have hdx' : ∀ data pr, lookup p.json (env.canon j) = some data → prepare env data p.log = .ok pr → 0 < pr.integrator.dx := by
    intro data pr h1 h2
    rw [hl] at h2
    have h3 := hdx data pr h1 h2
    unfold prepare at h2
    simp only [bind_ok_iff, pure_ok_iff] at h2
    obtain ⟨_, _, _, _, _, _, _, _, _, _, _, _, _, _, rfl⟩ := h2
    exact h3
  obtain ⟨⟨c, h1, h2⟩, h3⟩ := (same_log grid env p j hl hdx' folders sched).2 i f hi
  rw [ha] at h2 h3
  refine ⟨?_, h3⟩
  cases c with
  | done r' =>
    rcases h2 with rfl | h2
    · exact h1
    · exact h2.elim
  | create u v => exact h2.elim
  | begin u v => exact h2.elim
  | loop u v z => exact h2.elim

/-- **C120**: hypotheses met. "rain.json" in two threads with two folders: in every schedule in which the first thread comes to its end, its
    file is there with its one line. -/
example (grid : List ℝ) : ∃ k t, t.rows.length = 1 ∧ ∀ sched : List Nat, sched.count 0 = k →
    ((⟨["a", "b"].map fun f => .begin "rain.json" f, newRunner exProc⟩ : Threads ℝ).exec grid exEnv sched).tasks[0]? = some (.done (.ok ())) ∧
    (resultFileName "a" "example" "x", t) ∈
      ((⟨["a", "b"].map fun f => .begin "rain.json" f, newRunner exProc⟩ : Threads ℝ).exec grid exEnv sched).proc.results := by
  obtain ⟨p', t, h1, h2, h3⟩ := exRain_runs grid "a"
  obtain ⟨k, _, h4⟩ := (begin_alone grid exEnv "rain.json" "a" 1 (newRunner exProc)).1 _ _ h1
  refine ⟨k, t, h3, fun sched hk => ?_⟩
  have h5 := C120_same_configuration grid exEnv (newRunner exProc) "rain.json" rfl (by
    intro data pr hd hp
    have e : data = exConfigR (.num 0) (exNum 5 6) (exChoiceRain "yes" "basic") := by
      have : lookup (newRunner exProc).json (exEnv.canon "rain.json") = some (exConfigR (.num 0) (exNum 5 6) (exChoiceRain "yes" "basic")) := rfl
      rw [this] at hd
      exact (Option.some.inj hd).symm
    subst e
    rw [exPrepare_rain [], Except.ok.injEq] at hp
    subst hp
    show (0 : ℝ) < 1
    norm_num) ["a", "b"] sched 0 "a" rfl (.ok ()) p' (by rw [hk]; exact h4)
  exact ⟨h5.1, h5.2 _ (by rw [h2]; simp)⟩

end PyFlowGo
