import Verif.Proofs.LogShape
import Verif.Props.Integrator
import Verif.Props.RunLog
/-
  C63: the rows of a run: one per accepted step, in order, never modified later, and at most one partial row.
-/
set_option linter.unusedSectionVars false
namespace PyFlowGo
open Spec

/-- Writing several columns at a position no row has yet appends one row. -/
theorem addAll_new {ν : Type} [BEq ν] (hrefl : ∀ v : ν, (v == v) = true) (log : Log ν) (es : List (String × ν))
    (hes : ∀ e ∈ es, e.1 ≠ "position") (hne : es ≠ []) (p : ν) (hlog : ∀ r ∈ log, r.atPosition p = false) :
    log.addAll p es = log ++ [Row.setAll [("position", p)] es] := by
  cases es with
  | nil => exact absurd rfl hne
  | cons e rest =>
    have h1 : log.addVariable e.1 p e.2 = log ++ [newRow e.1 p e.2] := by
      rcases addVariable_shape log e.1 p e.2 with ⟨pre, r, post, h2, h3, _, _⟩ | ⟨_, h3⟩
      · rw [hlog r (by rw [h2]; simp)] at h3; cases h3
      · exact h3
    have h2 : log.addAll p (e :: rest) = Log.addAll (log ++ newRow e.1 p e.2 :: []) p rest := by
      show Log.addAll (log.addVariable e.1 p e.2) p rest = _
      rw [h1]
    rw [h2, addAll_hit rest (fun x hx => hes x (by simp [hx])) log [] _ _ ?_ hlog]
    · rfl
    · have hp : e.1 ≠ "position" := hes e (by simp)
      unfold newRow Row.atPosition
      rw [Row.get?_set, if_neg (fun h => hp h.symm)]
      simp [Row.get?, hrefl]

theorem Row.get?_setAll_other {ν : Type} (es : List (String × ν)) (r : Row ν) (k : String) (h : ∀ e ∈ es, e.1 ≠ k) :
    (r.setAll es).get? k = r.get? k := by
  induction es generalizing r with
  | nil => rfl
  | cons e rest ih =>
    show ((r.set e.1 e.2).setAll rest).get? k = _
    rw [ih _ (fun x hx => h x (by simp [hx])), Row.get?_set, if_neg (fun e' => h e (by simp) e'.symm)]

theorem atPosition_num (r : Row (Cell ℝ)) (q p : ℝ) (h : r.get? "position" = some (.num q)) :
    r.atPosition (.num p) = true ↔ p = q := by
  unfold Row.atPosition
  rw [h]
  simp

/-- The rows of `k` accepted steps on an empty log. -/
theorem acceptedRun_rows (g : Integrator ℝ) (hdx : 0 < g.dx) (k : Nat) (ws : Nat → World ℝ) (h : AcceptedRun g k ws)
    (h0 : (ws 0).log = []) :
    ∃ row : Nat → Row (Cell ℝ), (∀ i, i < k → (row i).get? "position" = some (.num ((ws 0).st.pos + i * g.dx)) ∧
        ∀ c, c ∈ (row i).keys ↔ c ∈ runColumns g) ∧
      ∀ i, i ≤ k → (ws i).log = (List.range i).map row := by
  induction k with
  | zero => exact ⟨fun _ => [], by simp, fun i hi => by rw [Nat.le_zero.mp hi, h0]; rfl⟩
  | succ k ih =>
    obtain ⟨row, h1, h2⟩ := ih (fun i hi => h i (by omega))
    have hk := h k (by omega)
    obtain ⟨es, hn, hp, hl⟩ := accepted_log hk
    have hpos := (C06_position_time g k ws (fun i hi => h i (by omega))).1
    have hfresh : ∀ r ∈ (ws k).log, r.atPosition (.num (ws k).st.pos) = false := by
      rw [h2 k le_rfl]
      intro r hr
      obtain ⟨i, hi, rfl⟩ := List.mem_map.mp hr
      rw [List.mem_range] at hi
      rw [Bool.eq_false_iff, ne_eq, atPosition_num _ _ _ (h1 i hi).1, hpos]
      have : (i : ℝ) * g.dx < k * g.dx := mul_lt_mul_of_pos_right (by exact_mod_cast hi) hdx
      intro e
      linarith
    have hne : es ≠ [] := by rintro rfl; simp at hn
    rw [addAll_new (fun c => beq_self_eq_true c) _ es hp hne _ hfresh] at hl
    refine ⟨fun i => if i = k then Row.setAll [("position", .num (ws k).st.pos)] es else row i, ?_, ?_⟩
    · intro i hi
      dsimp only
      by_cases hik : i = k
      · subst hik
        rw [if_pos rfl]
        constructor
        · rw [Row.get?_setAll_other _ _ _ hp, hpos]; simp [Row.get?]
        · intro c
          rw [Row.mem_keys_setAll, hn]
          simp [runColumns, Row.keys]
      · rw [if_neg hik]; exact h1 i (by omega)
    · intro i hi
      have hmap : ∀ j, j ≤ k → (List.range j).map
          (fun i => if i = k then Row.setAll [("position", .num (ws k).st.pos)] es else row i) = (List.range j).map row := by
        intro j hj
        refine List.map_congr_left fun x hx => ?_
        rw [List.mem_range] at hx
        rw [if_neg (by omega)]
      by_cases hik : i = k + 1
      · rw [hik, hl, List.range_succ, List.map_append, hmap k le_rfl, h2 k le_rfl]
        simp
      · rw [hmap i (by omega), h2 i (by omega)]

/-- **C63**. The rows of a run on an empty log, with a positive step: one full row per accepted step, the i-th at
    x0 + i*dx, in order; and one more row exactly when the last step was given up although the lava was moving (its
    crystal fraction would not have increased), at the position where the flow stopped, which lacks the columns
    written after the heat budget. No row is changed once its step is over. -/
theorem C63_rows_cases (g : Integrator ℝ) (hdx : 0 < g.dx) (n : Nat) (w w' : World ℝ) (hw : w.log = [])
    (h : runLoop g n w = some (.ok (), w')) :
    ∃ k ws row, ws 0 = w ∧ AcceptedRun g k ws ∧
      (∀ i, i < k → (row i).get? "position" = some (.num (w.st.pos + i * g.dx)) ∧
        ∀ c, c ∈ (row i).keys ↔ c ∈ runColumns g) ∧
      (∀ i, i ≤ k → (ws i).log = (List.range i).map row) ∧
      ((w' = ws k ∧ w'.log = (List.range k).map row) ∨
       (RejectedStep g (ws k) w' ∧ (∃ v x, g.models.lava.meanVelocity (ws k).terrain (ws k).st = .ok (v, x) ∧ v ≤ 0) ∧
        w'.log = (List.range k).map row) ∨
       (RejectedStep g (ws k) w' ∧ (∃ v x, g.models.lava.meanVelocity (ws k).terrain (ws k).st = .ok (v, x) ∧ 0 < v) ∧
        ∃ r : Row (Cell ℝ), w'.log = (List.range k).map row ++ [r] ∧
          r.get? "position" = some (.num (w.st.pos + k * g.dx)) ∧ ∀ c, c ∈ r.keys ↔ c ∈ partColumns g)) := by
  obtain ⟨_, k, ws, h0, hacc, _, hlast⟩ := runLoop_ok h
  obtain ⟨row, h1, h2⟩ := acceptedRun_rows g hdx k ws hacc (by rw [h0]; exact hw)
  rw [h0] at h1
  refine ⟨k, ws, row, h0, hacc, h1, h2, ?_⟩
  rcases hlast with rfl | ⟨_, hr⟩
  · exact Or.inl ⟨rfl, h2 k le_rfl⟩
  · rcases rejected_log_cases hr with ⟨v, x, hv, hle, hl⟩ | ⟨v, x, hv, hle, es, hn, hp, hl⟩
    · right; left
      rw [leB_real] at hle
      exact ⟨hr, ⟨v, x, hv, by norm_num at hle; exact hle⟩, by rw [hl]; exact h2 k le_rfl⟩
    · right; right
      rw [Bool.eq_false_iff, ne_eq, leB_real, not_le] at hle
      refine ⟨hr, ⟨v, x, hv, by norm_num at hle; exact hle⟩, ?_⟩
      have hpos := (C06_position_time g k ws hacc).1
      have hfresh : ∀ r ∈ (ws k).log, r.atPosition (.num (ws k).st.pos) = false := by
        rw [h2 k le_rfl]
        intro r hr
        obtain ⟨i, hi, rfl⟩ := List.mem_map.mp hr
        rw [List.mem_range] at hi
        rw [Bool.eq_false_iff, ne_eq, atPosition_num _ _ _ (h1 i hi).1, hpos, h0]
        have : (i : ℝ) * g.dx < k * g.dx := mul_lt_mul_of_pos_right (by exact_mod_cast hi) hdx
        intro e
        linarith
      have hne : es ≠ [] := by rintro rfl; simp at hn
      rw [addAll_new (fun c => beq_self_eq_true c) _ es hp hne _ hfresh, h2 k le_rfl] at hl
      refine ⟨_, hl, ?_, ?_⟩
      · rw [Row.get?_setAll_other _ _ _ hp, hpos, h0]; simp [Row.get?]
      · intro c
        rw [Row.mem_keys_setAll, hn]
        simp [partColumns, Row.keys]

theorem C63_rows (g : Integrator ℝ) (hdx : 0 < g.dx) (n : Nat) (w w' : World ℝ) (hw : w.log = [])
    (h : runLoop g n w = some (.ok (), w')) :
    ∃ k ws row, ws 0 = w ∧ AcceptedRun g k ws ∧ (w' = ws k ∨ RejectedStep g (ws k) w') ∧
      (∀ i, i < k → (row i).get? "position" = some (.num (w.st.pos + i * g.dx)) ∧
        ∀ c, c ∈ (row i).keys ↔ c ∈ runColumns g) ∧
      (∀ i, i ≤ k → (ws i).log = (List.range i).map row) ∧
      (w'.log = (List.range k).map row ∨
        ∃ r : Row (Cell ℝ), w'.log = (List.range k).map row ++ [r] ∧
          r.get? "position" = some (.num (w.st.pos + k * g.dx)) ∧ ∀ c, c ∈ r.keys ↔ c ∈ partColumns g) := by
  obtain ⟨k, ws, row, h0, hacc, h1, h2, h3⟩ := C63_rows_cases g hdx n w w' hw h
  refine ⟨k, ws, row, h0, hacc, ?_, h1, h2, ?_⟩
  · rcases h3 with ⟨h, _⟩ | ⟨h, _⟩ | ⟨h, _⟩
    · exact Or.inl h
    · exact Or.inr h
    · exact Or.inr h
  · rcases h3 with ⟨_, h⟩ | ⟨_, _, h⟩ | ⟨_, _, h⟩
    · exact Or.inl h
    · exact Or.inl h
    · exact Or.inr h

/-- **C63**. The positions in the result of such a run: x0, x0 + dx, x0 + 2 dx, ... without gaps, as many as there
    are rows. -/
theorem C63_positions (g : Integrator ℝ) (hdx : 0 < g.dx) (n : Nat) (w w' : World ℝ) (hw : w.log = [])
    (h : runLoop g n w = some (.ok (), w')) :
    w'.log.getValues "position" =
      (List.range w'.log.length).map fun i => some (.num (w.st.pos + (i : ℝ) * g.dx)) := by
  obtain ⟨k, ws, row, _, _, _, h1, _, h3⟩ := C63_rows g hdx n w w' hw h
  have hmap : ((List.range k).map row).map (fun r => r.get? "position") =
      (List.range k).map fun i => some (.num (w.st.pos + (i : ℝ) * g.dx)) := by
    rw [List.map_map]
    refine List.map_congr_left fun i hi => ?_
    exact (h1 i (List.mem_range.mp hi)).1
  unfold Log.getValues
  rcases h3 with h3 | ⟨r, h3, h4, _⟩
  · rw [h3, hmap]; simp
  · rw [h3, List.map_append, hmap]
    simp [List.range_succ, h4]

/-- **C63**. What a step logged is what the result shows: later steps leave the row of an earlier position alone. -/
theorem C63_rows_are_final_end (g : Integrator ℝ) (hdx : 0 < g.dx) (n : Nat) (w w' : World ℝ) (hw : w.log = [])
    (h : runLoop g n w = some (.ok (), w')) :
    ∃ k ws, ws 0 = w ∧ AcceptedRun g k ws ∧ (w' = ws k ∨ RejectedStep g (ws k) w') ∧
      (w'.log.length = k ∨ w'.log.length = k + 1 ∧ ∃ r, w'.log[k]? = some r ∧ ∀ c, c ∈ r.keys ↔ c ∈ partColumns g) ∧
      ∀ i, i < k → ∀ name, cellAt w'.log (.num (ws i).st.pos) name = cellAt (ws (i + 1)).log (.num (ws i).st.pos) name := by
  obtain ⟨k, ws, row, h0, hacc, hlast, h1, h2, h3⟩ := C63_rows g hdx n w w' hw h
  have hlen : w'.log.length = k ∨ w'.log.length = k + 1 ∧ ∃ r, w'.log[k]? = some r ∧ ∀ c, c ∈ r.keys ↔ c ∈ partColumns g := by
    rcases h3 with h3 | ⟨r, h3, _, h5⟩
    · left; rw [h3]; simp
    · right; refine ⟨by rw [h3]; simp, r, ?_, h5⟩
      rw [h3, List.getElem?_append_right (by simp)]
      simp
  refine ⟨k, ws, h0, hacc, hlast, hlen, fun i hi name => ?_⟩
  have hpre : ∃ rest, w'.log = (ws (i + 1)).log ++ rest := by
    rw [h2 (i + 1) (by omega)]
    have hk : (List.range k).map row = (List.range (i + 1)).map row ++ ((List.range (k - (i + 1))).map fun j => row (i + 1 + j)) := by
      have : k = (i + 1) + (k - (i + 1)) := by omega
      conv_lhs => rw [this, List.range_add, List.map_append]
      rw [List.map_map]; rfl
    rcases h3 with h3 | ⟨r, h3, _⟩
    · exact ⟨_, h3.trans hk⟩
    · exact ⟨_, by rw [h3, hk, List.append_assoc]⟩
  obtain ⟨rest, hr⟩ := hpre
  have hpos : (ws i).st.pos = w.st.pos + i * g.dx := by
    rw [(C06_position_time g i ws (fun j hj => hacc j (by omega))).1, h0]
  have hfind : ((ws (i + 1)).log.find? fun r => r.atPosition (.num (ws i).st.pos)) ≠ none := by
    rw [ne_eq, List.find?_eq_none]
    intro hall
    refine hall (row i) ?_ ?_
    · rw [h2 (i + 1) (by omega)]
      exact List.mem_map.mpr ⟨i, by simp, rfl⟩
    · rw [atPosition_num _ _ _ (h1 i hi).1, hpos]
  unfold cellAt
  rw [hr, List.find?_append]
  cases hf : ((ws (i + 1)).log.find? fun r => r.atPosition (.num (ws i).st.pos)) with
  | none => exact absurd hf hfind
  | some r => rfl

theorem C63_rows_are_final (g : Integrator ℝ) (hdx : 0 < g.dx) (n : Nat) (w w' : World ℝ) (hw : w.log = [])
    (h : runLoop g n w = some (.ok (), w')) :
    ∃ k ws, ws 0 = w ∧ AcceptedRun g k ws ∧ (w' = ws k ∨ RejectedStep g (ws k) w') ∧
      (w'.log.length = k ∨ w'.log.length = k + 1) ∧
      ∀ i, i < k → ∀ name, cellAt w'.log (.num (ws i).st.pos) name = cellAt (ws (i + 1)).log (.num (ws i).st.pos) name := by
  obtain ⟨k, ws, h0, h1, h2, h3, h4⟩ := C63_rows_are_final_end g hdx n w w' hw h
  exact ⟨k, ws, h0, h1, h2, h3.imp id And.left, h4⟩

end PyFlowGo
