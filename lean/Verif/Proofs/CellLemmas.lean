import Verif.Spec.RunSpec
import Verif.Proofs.LogLemmas
import Verif.Proofs.StepInv
/-
  Reading cells back from the log; equality of logged values at ℝ.
-/
namespace PyFlowGo
open Spec
open scoped Classical
set_option linter.unusedSectionVars false

noncomputable instance : LawfulBEq (Cell ℝ) where
  eq_of_beq {a b} h := by
    cases a <;> cases b <;> simp_all [BEq.beq]
  rfl {a} := by
    cases a <;> simp [BEq.beq]

variable {ν : Type} [BEq ν] [LawfulBEq ν]

omit [LawfulBEq ν] in
theorem newRow_atPosition {n : String} (hn : n ≠ "position") (p q v : ν) :
    (newRow n p v).atPosition q = (q == p) := by
  unfold Row.atPosition
  rw [newRow_get? hn, if_pos rfl]

omit [LawfulBEq ν] in
theorem set_atPosition {n : String} (hn : n ≠ "position") (r : Row ν) (q v : ν) :
    (r.set n v).atPosition q = r.atPosition q := by
  unfold Row.atPosition
  rw [Row.get?_set, if_neg (fun e => hn e.symm)]

theorem cellAt_addVariable (log : Log ν) {n m : String} (hn : n ≠ "position") (hm : m ≠ "position")
    (p q v : ν) :
    cellAt (log.addVariable n p v) q m = if q = p ∧ m = n then some v else cellAt log q m := by
  induction log with
  | nil =>
    simp only [Log.addVariable, cellAt, List.find?_cons, newRow_atPosition hn, List.find?_nil]
    by_cases hq : q = p
    · subst hq
      simp only [BEq.rfl, Option.bind_some, newRow_get? hn, if_neg hm, true_and, Option.bind_none]
    · have : (q == p) = false := by simpa using hq
      simp [this, hq]
  | cons r rest ih =>
    simp only [Log.addVariable]
    by_cases hr : r.atPosition p = true
    · simp only [hr, if_true, cellAt, List.find?_cons, set_atPosition hn]
      by_cases hq : r.atPosition q = true
      · simp only [hq, Option.bind_some, Row.get?_set]
        have hpq : q = p := by
          unfold Row.atPosition at hr hq
          split at hr
          · rename_i x hx
            rw [hx] at hq
            simp only [beq_iff_eq] at hr hq
            rw [hr, hq]
          · cases hr
        simp [hpq]
      · have hq' : r.atPosition q = false := by simpa using hq
        have hpq : q ≠ p := fun e => hq (e ▸ hr)
        simp [hq', hpq]
    · have hr' : r.atPosition p = false := by simpa using hr
      simp only [hr', Bool.false_eq_true, if_false, cellAt, List.find?_cons]
      by_cases hq : r.atPosition q = true
      · have hpq : q ≠ p := fun e => hr (e ▸ hq)
        simp [hq, hpq]
      · have hq' : r.atPosition q = false := by simpa using hq
        simp only [hq']
        simpa only [cellAt] using ih

/-- Cells after writing a list of entries at one position. -/
theorem cellAt_addAll (es : List (String × ν)) (hes : ∀ e ∈ es, e.1 ≠ "position") (log : Log ν)
    {m : String} (hm : m ≠ "position") (p q : ν) :
    cellAt (log.addAll p es) q m =
      if q = p then ((es.reverse.find? (fun e => e.1 == m)).map Prod.snd).or (cellAt log q m)
      else cellAt log q m := by
  induction es using List.reverseRecOn with
  | nil => simp [Log.addAll]
  | append_singleton es e ih =>
    rw [Log.addAll_append]
    show cellAt ((log.addAll p es).addVariable e.1 p e.2) q m = _
    rw [cellAt_addVariable _ (hes e (by simp)) hm, ih (fun e' he' => hes e' (by simp [he']))]
    by_cases hq : q = p
    · by_cases hme : m = e.1
      · simp [hq, hme]
      · have : (e.1 == m) = false := by simpa using fun h => hme h.symm
        simp [hq, hme, this]
    · simp [hq]

/-- A cell written last wins. -/
theorem cellAt_addAll_append (a b : List (String × ν)) (ha : ∀ e ∈ a, e.1 ≠ "position")
    (hb : ∀ e ∈ b, e.1 ≠ "position") (log : Log ν) {m : String} (hm : m ≠ "position") (p : ν) (v : ν)
    (h : (b.reverse.find? (fun e => e.1 == m)).map Prod.snd = some v) :
    cellAt (log.addAll p (a ++ b)) p m = some v := by
  rw [cellAt_addAll _ (by simpa [or_imp, forall_and] using ⟨fun x y hxy => ha _ hxy, fun x y hxy => hb _ hxy⟩)
    _ hm, if_pos rfl, List.reverse_append, List.find?_append]
  cases hf : b.reverse.find? (fun e => e.1 == m) with
  | none => rw [hf] at h; cases h
  | some e => rw [hf] at h; simpa using h

theorem cellAt_addAll_last_of_not_mem (a b : List (String × ν)) (ha : ∀ e ∈ a, e.1 ≠ "position")
    (hb : ∀ e ∈ b, e.1 ≠ "position") (log : Log ν) {m : String} (hm : m ≠ "position") (p : ν)
    (h : ∀ e ∈ b, e.1 ≠ m) :
    cellAt (log.addAll p (a ++ b)) p m = cellAt (log.addAll p a) p m := by
  rw [cellAt_addAll _ (by simpa [or_imp, forall_and] using ⟨fun x y hxy => ha _ hxy, fun x y hxy => hb _ hxy⟩)
    _ hm, if_pos rfl, cellAt_addAll _ ha _ hm, if_pos rfl, List.reverse_append, List.find?_append]
  have : b.reverse.find? (fun e => e.1 == m) = none := by
    rw [List.find?_eq_none]; intro e he; simpa using h e (List.mem_reverse.mp he)
  rw [this, Option.none_or]

end PyFlowGo
