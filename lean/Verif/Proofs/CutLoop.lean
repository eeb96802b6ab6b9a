import Verif.Proofs.Alike
import Verif.Props.StepCases
import Verif.Props.RunRows
/-
  The loop of a run with a shorter channel follows that of a run with a longer one until the shorter end is reached.
-/
set_option linter.unusedSectionVars false
namespace PyFlowGo
open Spec

theorem Alike.log_eq {α : Type} {c : CrustModel α} {w w' : World α} (h : Alike c w w') : w'.log = w.log := by
  obtain ⟨L, t, fin, _, rfl⟩ := h; rfl

/-- What a normal step does to the flag and to the rest, in two worlds that are alike. -/
theorem step_both (g : Integrator ℝ) (w w1 v : World ℝ) (h : Alike g.models.crust w w1) (h0 : w.finished = false) (h1 : w1.finished = false)
    (hL : w1.terrain.maxLength ≤ w.terrain.maxLength) (hs : singleStep g w = (.ok (), v)) :
    ∃ v1, singleStep g w1 = (.ok (), v1) ∧ Alike g.models.crust v v1 ∧ v1.terrain.maxLength = w1.terrain.maxLength ∧
      v.terrain.maxLength = w.terrain.maxLength ∧ v1.iteration = v.iteration ∧ v1.st.pos = v.st.pos ∧
      ((AcceptedStep g w v ∧ AcceptedStep g w1 v1 ∧ v.st.pos = w.st.pos + g.dx ∧
        (v1.finished = true ↔ v.finished = true ∨ w1.terrain.maxLength ≤ v.st.pos)) ∨
       (RejectedStep g w v ∧ RejectedStep g w1 v1 ∧ v.finished = true ∧ v1.finished = true)) := by
  have key := Alongside.singleStep g w w1 h
  rw [hs] at key
  cases hs1 : singleStep g w1 with
  | mk r1 v1 =>
    rw [hs1] at key
    obtain ⟨e1, e2⟩ := key
    dsimp only at e1 e2
    subst e1
    have hit1 : v1.iteration = v.iteration := by obtain ⟨L, t, fin, _, rfl⟩ := e2; rfl
    have hit0 : w1.iteration = w.iteration := by obtain ⟨L, t, fin, _, rfl⟩ := h; rfl
    have hp1 : v1.st.pos = v.st.pos := by obtain ⟨L, t, fin, _, rfl⟩ := e2; rfl
    have hT : ∀ a b : World ℝ, a.finished = false → singleStep g a = (.ok (), b) → b.terrain.maxLength = a.terrain.maxLength := by
      intro a b ha hab
      rcases step_cases g a b ha hab with k | k
      · obtain ⟨A⟩ := acceptedFacts k
        rw [A.terrain_eq]
      · rw [(C14_rejected_step_moves_nothing g a b k).2.2.2.2.2.2.1]
    have hT0 := hT w v h0 hs
    have hT1 := hT w1 v1 h1 hs1
    refine ⟨v1, rfl, e2, hT1, hT0, hit1, hp1, ?_⟩
    rcases step_cases g w v h0 hs with k | k
    · left
      have k1 : AcceptedStep g w1 v1 := ⟨h1, hs1, by rw [hit1, hit0]; exact k.2.2⟩
      obtain ⟨A⟩ := acceptedFacts k
      refine ⟨k, k1, by rw [A.st_eq, A.hs], ?_⟩
      have q := C13_step_ends_iff g w v h0 hs
      have q1 := C13_step_ends_iff g w1 v1 h1 hs1
      have n0 := C07_crystals_increase g w v k
      have n1 := C07_crystals_increase g w1 v1 k1
      rw [q, q1, hT1, hT0, hp1]
      have f1 : g.models.lava.notCompatible v1.st = g.models.lava.notCompatible v.st := by
        obtain ⟨L, t, fin, _, rfl⟩ := e2
        exact notCompatible_time _ _ _
      have f2 : g.models.lava.yieldNotCompatible v1.terrain v1.st = g.models.lava.yieldNotCompatible v.terrain v.st := by
        obtain ⟨L, t, fin, _, rfl⟩ := e2
        exact yieldNotCompatible_time _ _ _ _ _
      have f3 : v1.st.temp = v.st.temp := by obtain ⟨L, t, fin, _, rfl⟩ := e2; rfl
      rw [f1, f2, f3]
      have m0 : ¬ v.st.crystal = w.st.crystal := by linarith
      have m1 : ¬ v1.st.crystal = w1.st.crystal := by linarith
      constructor
      · tauto
      · rintro ((h | h | h | h | h) | h)
        · exact absurd h m0
        · exact .inr (.inl h)
        · exact .inr (.inr (.inl h))
        · exact .inr (.inr (.inr (.inl h)))
        · exact .inr (.inr (.inr (.inr (hL.trans h))))
        · exact .inr (.inr (.inr (.inr h)))
    · right
      have k1 : RejectedStep g w1 v1 := ⟨h1, hs1, by rw [hit1, hit0]; exact k.2.2⟩
      exact ⟨k, k1, (C14_rejected_step_moves_nothing g w v k).1, (C14_rejected_step_moves_nothing g w1 v1 k1).1⟩

theorem runLoop_finished {α : Type} [Add α] [Sub α] [Mul α] [Neg α] [OfScientific α] [PyNum α] (g : Integrator α) (n : Nat) (w : World α)
    (h : w.finished = true) : runLoop g n w = some (.ok (), w) := by
  cases n <;> unfold runLoop <;> rw [if_pos h]

/-- The two loops. `m + 1` steps from here the end of the shorter channel is reached. -/
theorem cut_loop (g : Integrator ℝ) (n : Nat) : ∀ (m : Nat) (w w1 : World ℝ), Alike g.models.crust w w1 → w.finished = false → w1.finished = false →
    w1.terrain.maxLength ≤ w.terrain.maxLength → w1.terrain.maxLength ≤ w.st.pos + ((m : ℝ) + 1) * g.dx →
    (∀ j : ℕ, 1 ≤ j → j ≤ m → w.st.pos + j * g.dx < w1.terrain.maxLength) →
    (∃ r w' w1', runLoop g n w = some (r, w') ∧ runLoop g n w1 = some (r, w1') ∧ Alike g.models.crust w' w1' ∧
      (r = .ok () → w'.iteration ≤ w.iteration + m)) ∨
    (runLoop g n w = none ∧ runLoop g n w1 = none) ∨
    (∃ ws w1', ws 0 = w ∧ AcceptedRun g (m + 1) ws ∧ runLoop g n w1 = some (.ok (), w1') ∧ Alike g.models.crust (ws (m + 1)) w1') := by
  induction n with
  | zero =>
    intro m w w1 h h0 h1 hL hK hlt
    right; left
    unfold runLoop
    rw [h0, h1]
    exact ⟨rfl, rfl⟩
  | succ n ih =>
    intro m w w1 h h0 h1 hL hK hlt
    have u : ∀ a : World ℝ, a.finished = false → runLoop g (n + 1) a = match singleStep g a with
        | (.ok _, w') => runLoop g n w'
        | (.error e, w') => some (.error e, w') := by
      intro a ha
      conv_lhs => unfold runLoop
      rw [ha, if_neg (by simp)]
      cases singleStep g a with
      | mk r b => cases r <;> rfl
    rw [u w h0, u w1 h1]
    cases hs : singleStep g w with
    | mk r v =>
      cases r with
      | error e =>
        have key := Alongside.singleStep g w w1 h
        rw [hs] at key
        cases hs1 : singleStep g w1 with
        | mk r1 v1 =>
          rw [hs1] at key
          obtain ⟨e1, e2⟩ := key
          dsimp only at e1 e2
          subst e1
          left
          exact ⟨_, _, _, rfl, rfl, e2, fun h => by cases h⟩
      | ok _ =>
        obtain ⟨v1, hs1, ha, hT1, hT0, hit, hp, hc⟩ := step_both g w w1 v h h0 h1 hL hs
        rw [hs1]
        dsimp only
        rcases hc with ⟨k, k1, hpos, hf⟩ | ⟨k, k1, hf, hf1⟩
        · cases m with
          | zero =>
            right; right
            have : v1.finished = true := hf.mpr (.inr (by rw [hpos]; simpa using hK))
            refine ⟨fun i => if i = 0 then w else v, v1, rfl, ?_, runLoop_finished g n v1 this, ha⟩
            intro i hi
            have : i = 0 := by omega
            subst this
            exact k
          | succ m =>
            have hlt1 := hlt 1 le_rfl (by omega)
            have hf' : v1.finished = v.finished := by
              rw [Bool.eq_iff_iff, hf]
              constructor
              · rintro (h | h)
                · exact h
                · rw [hpos] at h; push_cast at hlt1; linarith
              · exact .inl
            cases hv : v.finished with
            | true =>
              left
              refine ⟨_, v, v1, runLoop_finished g n v hv, runLoop_finished g n v1 (hf'.trans hv), ha, fun _ => ?_⟩
              have := k.2.2
              omega
            | false =>
              have := ih m v v1 ha hv (hf'.trans hv) (by rw [hT1, hT0]; exact hL) (by
                rw [hT1, hpos]; push_cast at hK; linarith) (by
                intro j hj hjm
                have := hlt (j + 1) (by omega) (by omega)
                rw [hT1, hpos]
                push_cast at this
                linarith)
              rcases this with ⟨r, w', w1', q1, q2, q3, q4⟩ | ⟨q1, q2⟩ | ⟨ws, w1', q1, q2, q3, q4⟩
              · left
                refine ⟨r, w', w1', q1, q2, q3, fun hr => ?_⟩
                have := k.2.2
                have := q4 hr
                omega
              · exact .inr (.inl ⟨q1, q2⟩)
              · right; right
                refine ⟨fun i => if i = 0 then w else ws (i - 1), w1', rfl, ?_, q3, by simpa using q4⟩
                intro i hi
                cases i with
                | zero => simpa [q1] using k
                | succ i => simpa using q2 i (by omega)
        · left
          refine ⟨_, v, v1, runLoop_finished g n v hf, runLoop_finished g n v1 hf1, ha, fun _ => ?_⟩
          have := (C14_rejected_step_moves_nothing g w v k).2.2.2.2.2.1
          omega

end PyFlowGo
