import Verif.Model.OpenFault
import Verif.Props.Schedules
import Verif.Proofs.Restart
/-
  Processes on a disk where some files cannot be opened for writing.
-/
set_option linter.unusedSectionVars false
namespace PyFlowGo
open Spec
variable {α : Type} [Add α] [Sub α] [Mul α] [Neg α] [OfScientific α] [PyNum α] {ρ : Type}

theorem runWhere_bind {σ : Type} (may : String → Bool) (p : Prog ρ) (f : ρ → Prog σ) (d : Files) :
    (p.bind f).runWhere may d = (match p.runWhere may d with
      | (.ok r, d') => (f r).runWhere may d'
      | (.error q, d') => (.error q, d')) := by
  induction p generalizing d with
  | ret r => rfl
  | read q k ih => exact ih _ d
  | write q t k ih =>
    show (if may q = true then (k.bind f).runWhere may (writeFile d q t) else (.error q, d)) =
      (match (if may q = true then k.runWhere may (writeFile d q t) else (.error q, d)) with
      | (.ok r, d') => (f r).runWhere may d'
      | (.error q, d') => (.error q, d'))
    by_cases hm : may q = true
    · rw [if_pos hm, if_pos hm]; exact ih _
    · rw [if_neg hm, if_neg hm]

theorem runWhere_same (may : String → Bool) (p : Prog ρ) {d d' : Files} (h : SameDisk d d') :
    (p.runWhere may d).1 = (p.runWhere may d').1 ∧ SameDisk (p.runWhere may d).2 (p.runWhere may d').2 := by
  induction p generalizing d d' with
  | ret r => exact ⟨rfl, h⟩
  | read q k ih => unfold Prog.runWhere; rw [h q]; exact ih _ h
  | write q t k ih =>
    unfold Prog.runWhere
    split
    · exact ih (h.write q t)
    · exact ⟨rfl, h⟩

theorem save_refused (may : String → Bool) (flush : List Char → List Nat) (p : String) (t : List Char) (k : Prog ρ) (d : Files)
    (hp : may p = false) : (Prog.save flush p t k).runWhere may d = (.error p, d) := by
  unfold Prog.save Prog.runWhere
  rw [if_neg (by rw [hp]; decide)]

theorem save_allowed (may : String → Bool) (flush : List Char → List Nat) (p : String) (t : List Char) (k : Prog ρ) (d : Files)
    (hp : may p = true) : ((Prog.save flush p t k).runWhere may d).1 = (k.runWhere may (writeFile d p t)).1 ∧
      SameDisk ((Prog.save flush p t k).runWhere may d).2 (k.runWhere may (writeFile d p t)).2 := by
  unfold Prog.save
  have key : ∀ (ns : List Nat) (d' : Files), SameDisk (writeFile d' p t) (writeFile d p t) →
      ((ns.foldr (fun n k => Prog.write p (t.take n) k) (.write p t k)).runWhere may d').1 = (k.runWhere may (writeFile d p t)).1 ∧
      SameDisk ((ns.foldr (fun n k => Prog.write p (t.take n) k) (.write p t k)).runWhere may d').2 (k.runWhere may (writeFile d p t)).2 := by
    intro ns
    induction ns with
    | nil => intro d' h; simp only [List.foldr_nil, Prog.runWhere, if_pos hp]; exact runWhere_same may k h
    | cons n ns ih =>
      intro d' h
      simp only [List.foldr_cons, Prog.runWhere, if_pos hp]
      exact ih (writeFile d' p (t.take n)) ((SameDisk.overwrite _ _ _ _).trans h)
  rw [Prog.runWhere, if_pos hp]
  exact key _ _ (SameDisk.overwrite _ _ _ _)

theorem runWhere_only {R : String → Prop} (may : String → Bool) {p : Prog ρ} (h : OnlyReads R p) (d : Files) :
    p.runWhere may d = (.ok (p.run d).1, (p.run d).2) := by
  induction p with
  | ret r => rfl
  | read q k ih => exact ih _ (h.2 _)
  | write q t k ih => exact absurd h id

/-- Nothing is refused when everything the process writes may be written. -/
theorem runWhere_all (may : String → Bool) (p : Prog ρ) (d : Files) (h : ∀ q, WritesAlone p d q → may q = true) :
    p.runWhere may d = (.ok (p.run d).1, (p.run d).2) := by
  induction p generalizing d with
  | ret r => rfl
  | read q k ih => exact ih _ d fun q' hq => h q' ((writes_read q k d q').mpr hq)
  | write q t k ih =>
    unfold Prog.runWhere
    rw [if_pos (h q ((writes_write q t k d q).mpr (.inl rfl)))]
    exact ih _ fun q' hq => h q' ((writes_write q t k d q').mpr (.inr hq))

/-- The moment of the refusal. -/
theorem refused_iff (may : String → Bool) (p : Prog ρ) (d : Files) (q : String) (e : Files) :
    p.runWhere may d = (.error q, e) ↔ ∃ n, nextAction (alone p d n).1 = .writes q ∧ may q = false ∧ (alone p d n).2 = e ∧
      ∀ m < n, ∀ q', nextAction (alone p d m).1 = .writes q' → may q' = true := by
  have shift : ∀ (p p' : Prog ρ) (d d' : Files), p.step d = (p', d') → (∀ q', nextAction p = .writes q' → may q' = true) →
      nextAction p ≠ .writes q ∨ may q = true →
      ((∃ n, nextAction (alone p d n).1 = .writes q ∧ may q = false ∧ (alone p d n).2 = e ∧
        ∀ m < n, ∀ q', nextAction (alone p d m).1 = .writes q' → may q' = true) ↔
      ∃ n, nextAction (alone p' d' n).1 = .writes q ∧ may q = false ∧ (alone p' d' n).2 = e ∧
        ∀ m < n, ∀ q', nextAction (alone p' d' m).1 = .writes q' → may q' = true) := by
    intro p p' d d' hs hq hne
    constructor
    · rintro ⟨n, h1, h2, h3, h4⟩
      cases n with
      | zero => rcases hne with h | h
                · exact absurd h1 h
                · rw [h] at h2; cases h2
      | succ n =>
        rw [alone_succ, hs] at h1 h3
        refine ⟨n, h1, h2, h3, fun m hm q' hw => h4 (m + 1) (by omega) q' ?_⟩
        rw [alone_succ, hs]; exact hw
    · rintro ⟨n, h1, h2, h3, h4⟩
      refine ⟨n + 1, by rw [alone_succ, hs]; exact h1, h2, by rw [alone_succ, hs]; exact h3, fun m hm q' hw => ?_⟩
      cases m with
      | zero => exact hq q' hw
      | succ m => rw [alone_succ, hs] at hw; exact h4 m (by omega) q' hw
  induction p generalizing d with
  | ret r =>
    constructor
    · intro h; cases h
    · rintro ⟨n, h1, -⟩
      exact absurd ⟨n, h1⟩ (writes_ret r d q)
  | read q' k ih =>
    show (k (lookup d q')).runWhere may d = _ ↔ _
    exact (ih _ d).trans (shift _ _ d d rfl (fun q' h => by cases h) (.inl (fun h => by cases h))).symm
  | write q' t k ih =>
    unfold Prog.runWhere
    by_cases hm : may q' = true
    · rw [if_pos hm]
      refine (ih _).trans (shift (.write q' t k) k d (writeFile d q' t) rfl (fun q'' h => by cases h; exact hm) ?_).symm
      by_cases e : q' = q
      · exact .inr (e ▸ hm)
      · exact .inl (fun h => e (by cases h; rfl))
    · rw [if_neg hm]
      constructor
      · intro h
        obtain ⟨h1, h2⟩ := Prod.mk.inj h
        cases h1
        exact ⟨0, rfl, by simpa using hm, h2, fun m hm => by omega⟩
      · rintro ⟨n, h1, h2, h3, h4⟩
        cases n with
        | zero => cases h1; rw [← h3]; rfl
        | succ n => exact absurd (h4 0 (by omega) q' rfl) hm

/-- The preparation of a run never writes. -/
theorem prepare_where (may : String → Bool) (F : TextFormat α) (jsonFile : String) (d : Files) :
    (prepareProg F jsonFile).runWhere may d = (.ok ((prepareProg F jsonFile).run d).1, d) := by
  have h : Along (fun a _ => ∀ q, a ≠ .writes q) (prepareProg F jsonFile) d :=
    prepare_along F jsonFile d (fun q _ q' h => by cases h) (fun _ h => by cases h)
  rw [runWhere_all may _ d (fun q ⟨n, hn⟩ => absurd hn (h.at n q)), prepare_disk]

end PyFlowGo
