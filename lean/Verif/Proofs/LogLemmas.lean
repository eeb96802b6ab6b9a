import Verif.Spec.LogSpec
import Mathlib.Data.List.Induction
namespace PyFlowGo
open Spec
open scoped Classical
set_option linter.unusedSectionVars false
variable {ν : Type}

theorem Row.get?_set (r : Row ν) (k k' : String) (v : ν) :
    (r.set k v).get? k' = if k' = k then some v else r.get? k' := by
  induction r with
  | nil =>
    by_cases h : k' = k
    · subst h; simp [Row.set, Row.get?]
    · have : ¬ k = k' := fun e => h e.symm
      simp [Row.set, Row.get?, h, this]
  | cons a t ih =>
    obtain ⟨ka, va⟩ := a
    simp only [Row.get?] at ih
    by_cases hk : ka = k
    · subst hk
      by_cases h : k' = ka
      · subst h; simp [Row.set, Row.get?]
      · have : ¬ ka = k' := fun e => h e.symm
        simp [Row.set, Row.get?, h, this]
    · by_cases h : ka = k'
      · subst h; simp [Row.set, Row.get?, hk]
      · simp [Row.set, Row.get?, hk, h]
        simpa using ih

theorem Row.keys_cons (k : String) (v : ν) (t : Row ν) : Row.keys ((k, v) :: t) = k :: t.keys := rfl

theorem Row.keys_set (r : Row ν) (k : String) (v : ν) :
    (r.set k v).keys = if k ∈ r.keys then r.keys else r.keys ++ [k] := by
  induction r with
  | nil => simp [Row.set, Row.keys]
  | cons a t ih =>
    obtain ⟨ka, va⟩ := a
    by_cases hk : ka = k
    · subst hk
      simp [Row.set, Row.keys_cons]
    · have hk' : ¬ k = ka := fun e => hk e.symm
      have hs : Row.set ((ka, va) :: t) k v = (ka, va) :: Row.set t k v := by simp [Row.set, hk]
      rw [hs, Row.keys_cons, Row.keys_cons, ih]
      by_cases hm : k ∈ Row.keys t
      · simp [hm]
      · simp [hm, hk']

theorem Row.get?_isSome (r : Row ν) (k : String) : (r.get? k).isSome = true ↔ k ∈ r.keys := by
  induction r with
  | nil => simp [Row.get?, Row.keys]
  | cons a t ih =>
    obtain ⟨ka, va⟩ := a
    simp only [Row.get?, Row.keys] at ih
    by_cases h : ka = k
    · subst h; simp [Row.get?, Row.keys]
    · have : ¬ k = ka := fun e => h e.symm
      simp [Row.get?, Row.keys, h, this] at ih ⊢

variable [BEq ν] [LawfulBEq ν]

omit [BEq ν] [LawfulBEq ν] in
theorem newRow_get? {name : String} (h : name ≠ "position") (p v : ν) (k : String) :
    (newRow name p v).get? k = if k = "position" then some p else if k = name then some v else none := by
  rw [newRow, Row.get?_set]
  by_cases hk : k = name
  · subst hk; simp [h]
  · by_cases hp : k = "position"
    · subst hp; simp [hk, Row.get?]
    · have : ¬ "position" = k := fun e => hp e.symm
      simp [hk, hp, Row.get?, this]

/-- One `add_variable` on a log whose columns are known. -/
theorem addVariable_columns (log : Log ν) (ps : List ν) (F : String → ν → Option ν)
    (hp : log.getValues "position" = ps.map some)
    (hF : ∀ n, n ≠ "position" → log.getValues n = ps.map (F n))
    (hnd : ps.Nodup) (name : String) (hname : name ≠ "position") (p v : ν)
    (hnew : p ∉ ps → ∀ n, F n p = none) :
    (log.addVariable name p v).getValues "position" =
      (if p ∈ ps then ps else ps ++ [p]).map some ∧
    ∀ n, n ≠ "position" → (log.addVariable name p v).getValues n =
      (if p ∈ ps then ps else ps ++ [p]).map
        (fun q => if q = p ∧ n = name then some v else F n q) := by
  induction log generalizing ps with
  | nil =>
    have : ps = [] := by simpa [Log.getValues] using hp.symm
    subst this
    refine ⟨by simp [Log.addVariable, Log.getValues, newRow_get? hname], fun n hn => ?_⟩
    simp only [Log.addVariable, Log.getValues, List.map_cons, List.map_nil, newRow_get? hname, if_neg hn]
    by_cases h : n = name
    · simp [h]
    · simp [h, hnew (by simp)]
  | cons r rest ih =>
    cases ps with
    | nil => simp [Log.getValues] at hp
    | cons q qs =>
      have hp0 : r.get? "position" = some q := by
        simp [Log.getValues] at hp; exact hp.1
      have hp1 : Log.getValues rest "position" = qs.map some := by
        simp [Log.getValues] at hp ⊢; exact hp.2
      have hF0 : ∀ n, n ≠ "position" → r.get? n = F n q := fun n hn => by
        have := hF n hn; simp [Log.getValues] at this; exact this.1
      have hF1 : ∀ n, n ≠ "position" → Log.getValues rest n = qs.map (F n) := fun n hn => by
        have := hF n hn; simp [Log.getValues] at this ⊢; exact this.2
      have hq : q ∉ qs := (List.nodup_cons.mp hnd).1
      have hqs : qs.Nodup := (List.nodup_cons.mp hnd).2
      by_cases hpq : p = q
      · subst hpq
        have hat : r.atPosition p = true := by simp [Row.atPosition, hp0]
        simp only [Log.addVariable, hat, if_true, List.mem_cons, true_or, Log.getValues, List.map_cons,
          Row.get?_set]
        refine ⟨?_, fun n hn => ?_⟩
        · rw [if_neg (fun e => hname e.symm), hp0]
          rw [Log.getValues] at hp1
          rw [hp1]
        · have h1 := hF1 n hn
          rw [Log.getValues] at h1
          rw [h1]
          congr 1
          · by_cases h : n = name <;> simp [h, hF0 n hn]
          · apply List.map_congr_left
            intro x hx
            have : x ≠ p := fun e => hq (e ▸ hx)
            simp [this]
      · have hat : r.atPosition p = false := by simp [Row.atPosition, hp0, hpq]
        have hnew' : p ∉ qs → ∀ n, F n p = none := fun h n =>
          hnew (by simp [hpq, h]) n
        obtain ⟨i1, i2⟩ := ih qs hp1 hF1 hqs hnew'
        have hmem : (if p ∈ q :: qs then q :: qs else q :: qs ++ [p]) =
            q :: (if p ∈ qs then qs else qs ++ [p]) := by
          by_cases h : p ∈ qs <;> simp [h, hpq]
        rw [hmem]
        simp only [Log.addVariable, hat, Bool.false_eq_true, if_false, List.map_cons]
        refine ⟨?_, fun n hn => ?_⟩
        · simp only [Log.getValues, List.map_cons, hp0]
          simp only [Log.getValues] at i1
          rw [i1]
        · have hqp : ¬ q = p := fun e => hpq e.symm
          have i2n := i2 n hn
          simp only [Log.getValues] at i2n
          simp only [Log.getValues, List.map_cons, hF0 n hn, hqp, false_and, if_false, i2n]

theorem writtenPositions_append (ops : List (LogOp ν)) (o : LogOp ν) :
    writtenPositions (ops ++ [o]) =
      if o.position ∈ writtenPositions ops then writtenPositions ops
      else writtenPositions ops ++ [o.position] := by
  unfold writtenPositions
  rw [List.map_append, List.eraseDups_append]
  by_cases h : o.position ∈ ops.map (·.position)
  · rw [if_pos (List.mem_eraseDups.mpr h)]
    have : List.removeAll (List.map (·.position) [o]) (ops.map (·.position)) = [] := by
      simp only [List.removeAll, List.map_cons, List.map_nil, List.filter_cons, List.filter_nil]
      rw [if_neg]; simp [List.mem_map] at h ⊢; exact h
    rw [this]; simp
  · rw [if_neg (fun e => h (List.mem_eraseDups.mp e))]
    have : List.removeAll (List.map (·.position) [o]) (ops.map (·.position)) = [o.position] := by
      simp only [List.removeAll, List.map_cons, List.map_nil, List.filter_cons, List.filter_nil]
      rw [if_pos]; simp [List.mem_map] at h ⊢; exact h
    rw [this]; simp [List.eraseDups_cons]

theorem lastWrite_append (ops : List (LogOp ν)) (o : LogOp ν) (p : ν) (n : String) :
    lastWrite (ops ++ [o]) p n =
      if p = o.position ∧ n = o.name then some o.value else lastWrite ops p n := by
  unfold lastWrite
  rw [List.filter_append]
  by_cases h : p = o.position ∧ n = o.name
  · obtain ⟨rfl, rfl⟩ := h
    simp
  · rw [if_neg h]
    have : List.filter (fun o => o.position == p && o.name == n) [o] = [] := by
      simp only [List.filter_cons, List.filter_nil]
      rw [if_neg]; simp only [Bool.and_eq_true, beq_iff_eq]; intro e; exact h ⟨e.1.symm, e.2.symm⟩
    rw [this, List.append_nil]

theorem lastWrite_none_of_not_mem (ops : List (LogOp ν)) (p : ν) (h : p ∉ writtenPositions ops)
    (n : String) : lastWrite ops p n = none := by
  unfold lastWrite
  have : List.filter (fun o => o.position == p && o.name == n) ops = [] := by
    rw [List.filter_eq_nil_iff]
    intro o ho e
    simp only [Bool.and_eq_true, beq_iff_eq] at e
    exact h (List.mem_eraseDups.mpr (List.mem_map.mpr ⟨o, ho, e.1⟩))
  rw [this]; rfl

theorem writtenPositions_nodup (ops : List (LogOp ν)) : (writtenPositions ops).Nodup := by
  induction ops using List.reverseRecOn with
  | nil => simp [writtenPositions]
  | append_singleton ops o ih =>
    rw [writtenPositions_append]
    split
    · exact ih
    · rename_i h
      rw [List.nodup_append]
      exact ⟨ih, by simp, fun a ha b hb e => h (by simp at hb; rw [← hb, ← e]; exact ha)⟩

theorem history_append (ops : List (LogOp ν)) (o : LogOp ν) :
    history (ops ++ [o]) = (history ops).addVariable o.name o.position o.value := by
  simp [history]

/-- The log of a history, column by column. -/
theorem history_columns (ops : List (LogOp ν)) (hn : ∀ o ∈ ops, o.name ≠ "position") :
    (history ops).getValues "position" = (writtenPositions ops).map some ∧
    ∀ n, n ≠ "position" →
      (history ops).getValues n = (writtenPositions ops).map (fun p => lastWrite ops p n) := by
  induction ops using List.reverseRecOn with
  | nil => simp [history, writtenPositions, Log.getValues]
  | append_singleton ops o ih =>
    obtain ⟨h1, h2⟩ := ih (fun o' ho' => hn o' (by simp [ho']))
    have := addVariable_columns (history ops) (writtenPositions ops) (fun n p => lastWrite ops p n) h1 h2
      (writtenPositions_nodup ops) o.name (hn o (by simp)) o.position o.value
      (fun h n => lastWrite_none_of_not_mem ops _ h n)
    rw [history_append, writtenPositions_append]
    refine ⟨?_, fun n hn' => ?_⟩
    · rw [this.1]
    · rw [this.2 n hn']
      apply List.map_congr_left
      intro q _
      rw [lastWrite_append]

end PyFlowGo
