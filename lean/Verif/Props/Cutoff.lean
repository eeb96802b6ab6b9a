import Verif.Proofs.CutLoop
import Verif.Proofs.StrainKept
import Verif.Props.Euler
/-
  C96: `max_channel_length` only cuts the run off.
-/
set_option linter.unusedSectionVars false
namespace PyFlowGo
open Spec

/-- The same world with another length of the channel and another clock. -/
def World.retimed {α : Type} (w : World α) (L t : α) : World α :=
  { w with terrain := { w.terrain with maxLength := L }, st := { w.st with time := t } }

/-- The depth search leaves the log, the position, the length of the channel and the flag alone. -/
theorem depthSearch_keeps {α : Type} [Add α] [Sub α] [Mul α] [Neg α] [OfScientific α] [PyNum α] (l : Lava α) (grid : List α)
    (P : World α → Prop) (hP : ∀ w (d x e : α) (f : Option α), P w → P { w with terrain := { w.terrain with depth := d }, st := { w.st with strain := x }, effusionRate := e, fluxRate := f }) :
    Preserves P (depthSearch l grid) := by
  induction grid with
  | nil => exact Preserves.pure _
  | cons d rest ih =>
    unfold depthSearch
    refine Preserves.bind ?_ fun _ => Preserves.bind ?_ fun v => Preserves.bind ?_ fun _ => Preserves.bind ?_ fun _ =>
      Preserves.bind Preserves.get fun w => ?_
    · rintro w r w' h e
      cases e
      exact hP w d w.st.strain w.effusionRate w.fluxRate h
    · rintro w r w' h e
      unfold meanVelocityM at e
      split at e
      · cases e
        exact hP w w.terrain.depth _ w.effusionRate w.fluxRate h
      · cases e
        exact h
    · rintro w r w' h e
      cases e
      exact hP w w.terrain.depth w.st.strain _ w.fluxRate h
    · rintro w r w' h e
      cases e
      exact hP w w.terrain.depth w.st.strain w.effusionRate _ h
    · split
      · exact Preserves.pure _
      · exact ih

theorem initEffusion_keeps {α : Type} [Add α] [Sub α] [Mul α] [Neg α] [OfScientific α] [PyNum α] (l : Lava α) (grid : List α)
    (w : World α) : (initEffusionRateOn grid l w).2.log = w.log ∧ (initEffusionRateOn grid l w).2.st.pos = w.st.pos ∧
      (initEffusionRateOn grid l w).2.finished = w.finished ∧ (initEffusionRateOn grid l w).2.terrain.maxLength = w.terrain.maxLength ∧
      (initEffusionRateOn grid l w).2.iteration = w.iteration := by
  unfold initEffusionRateOn
  rw [PyM.bind_of_ok (PyM.get_apply _)]
  split
  · exact ⟨rfl, rfl, rfl, rfl, rfl⟩
  · exact depthSearch_keeps l grid (fun v => v.log = w.log ∧ v.st.pos = w.st.pos ∧ v.finished = w.finished ∧
      v.terrain.maxLength = w.terrain.maxLength ∧ v.iteration = w.iteration) (fun _ _ _ _ _ h => h) w _ _ ⟨rfl, rfl, rfl, rfl, rfl⟩ rfl

theorem acceptedRun_iteration (g : Integrator ℝ) (k : Nat) (ws : Nat → World ℝ) (h : AcceptedRun g k ws) :
    (ws k).iteration = (ws 0).iteration + k := by
  induction k with
  | zero => rfl
  | succ k ih =>
    have := ih (fun i hi => h i (by omega))
    have := (h k (by omega)).2.2
    omega

/-- Two chains of accepted steps from the same world agree as far as both go. -/
theorem acceptedRun_det (g : Integrator ℝ) (k m : Nat) (ws us : Nat → World ℝ) (h : AcceptedRun g k ws) (h' : AcceptedRun g m us)
    (h0 : ws 0 = us 0) : ∀ i, i ≤ k → i ≤ m → ws i = us i := by
  intro i
  induction i with
  | zero => intro _ _; exact h0
  | succ i ih =>
    intro hk hm
    have e := ih (by omega) (by omega)
    have h1 := (h i (by omega)).2.1
    have h2 := (h' i (by omega)).2.1
    rw [e, h2] at h1
    exact ((Prod.mk.inj h1).2).symm

/-- The log of a run that went on for at least `K` accepted steps starts with the log of those steps. -/
theorem take_of_run (g : Integrator ℝ) (hdx : 0 < g.dx) (n : Nat) (w w' : World ℝ) (hw : w.log = [])
    (h : runLoop g n w = some (.ok (), w')) (K : Nat) (ws : Nat → World ℝ) (h0 : ws 0 = w) (hacc : AcceptedRun g K ws) :
    w'.log.take K = (ws K).log := by
  obtain ⟨hfin, _⟩ := runLoop_ok h
  obtain ⟨k, us, row, g0, gacc, g1, g2, g3⟩ := C63_rows_cases g hdx n w w' hw h
  have hdet := acceptedRun_det g K k ws us hacc gacc (h0.trans g0.symm)
  have hk : K ≤ k := by
    by_contra hlt
    have hstep := hacc k (by omega)
    rw [hdet k (by omega) le_rfl] at hstep
    have rej : ∀ v, RejectedStep g (us k) v → False := by
      intro v hv
      have h1 := hstep.2.1
      rw [hv.2.1] at h1
      have h2 := (Prod.mk.inj h1).2
      exact hv.2.2 (by rw [h2]; exact hstep.2.2)
    rcases g3 with ⟨e, _⟩ | ⟨hr, _⟩ | ⟨hr, _⟩
    · have := hstep.1
      rw [← e, hfin] at this
      cases this
    · exact rej _ hr
    · exact rej _ hr
  have hK : (ws K).log = (List.range K).map row := by rw [hdet K le_rfl hk]; exact g2 K hk
  have ht : ((List.range k).map row).take K = (List.range K).map row := by
    rw [← List.map_take, List.take_range, Nat.min_eq_left hk]
  rw [hK]
  rcases g3 with ⟨_, e⟩ | ⟨_, _, e⟩ | ⟨_, _, r, e, _⟩
  · rw [e, ht]
  · rw [e, ht]
  · rw [e, List.take_append_of_le_length (by simpa using hk), ht]

/-- The log of a run of fewer than `K` accepted steps has at most `K` rows. -/
theorem short_of_run (g : Integrator ℝ) (hdx : 0 < g.dx) (n : Nat) (w w' : World ℝ) (hw : w.log = [])
    (h : runLoop g n w = some (.ok (), w')) (m : Nat) (hm : w'.iteration ≤ w.iteration + m) : w'.log.length ≤ m + 1 := by
  obtain ⟨k, us, row, g0, gacc, g1, g2, g3⟩ := C63_rows_cases g hdx n w w' hw h
  have hit := acceptedRun_iteration g k us gacc
  rw [g0] at hit
  have hk : w'.iteration = (us k).iteration ∧ (w'.log.length = k ∨ w'.log.length = k + 1) := by
    rcases g3 with ⟨e, e2⟩ | ⟨hr, _, e⟩ | ⟨hr, _, r, e, _⟩
    · exact ⟨by rw [e], .inl (by rw [e2]; simp)⟩
    · exact ⟨(C14_rejected_step_moves_nothing g _ _ hr).2.2.2.2.2.1, .inl (by rw [e]; simp)⟩
    · exact ⟨(C14_rejected_step_moves_nothing g _ _ hr).2.2.2.2.2.1, .inr (by rw [e]; simp)⟩
  omega

/-- **C96**. A run in a shorter channel is the run in the longer one, cut off after the first step that reaches the shorter end:
    it ends normally whenever the longer one does, within as many iterations, and its log is the first `K` rows of the other log, row
    by row, where `K` is the number of the first step that reaches the shorter end. The time on the clock at the start is without
    effect as well, unless the crust model reads the clock. -/
theorem C96_shorter_channel (grid : List ℝ) (n : Nat) (g : Integrator ℝ) (hdx : 0 < g.dx) (w : World ℝ) (hlog : w.log = [])
    (hfin : w.finished = false) (L t : ℝ) (hL : L ≤ w.terrain.maxLength) (ht : g.models.crust.readsClock → t = w.st.time)
    (K : ℕ) (hK : IsLeast {j : ℕ | 1 ≤ j ∧ L ≤ w.st.pos + j * g.dx} K)
    (w' : World ℝ) (h : simulateOn grid n g w = some (.ok (), w')) :
    ∃ w1', simulateOn grid n g (w.retimed L t) = some (.ok (), w1') ∧ w1'.log = w'.log.take K := by
  unfold simulateOn at h ⊢
  have key := Alongside.initEffusionRateOn (c := g.models.crust) grid g.models.lava w (w.retimed L t) ⟨L, t, w.finished, ht, rfl⟩
  have k0 := initEffusion_keeps g.models.lava grid w
  have k1 := initEffusion_keeps g.models.lava grid (w.retimed L t)
  cases hi : initEffusionRateOn grid g.models.lava w with
  | mk r v =>
    cases hi1 : initEffusionRateOn grid g.models.lava (w.retimed L t) with
    | mk r1 v1 =>
      rw [hi, hi1] at key
      rw [hi] at h k0
      rw [hi1] at k1
      obtain ⟨e1, ha⟩ := key
      dsimp only at e1 ha k0 k1
      subst e1
      cases r with
      | error e => cases h
      | ok _ =>
        dsimp only at h ⊢
        obtain ⟨a1, a2, a3, a4, a5⟩ := k0
        obtain ⟨b1, b2, b3, b4, b5⟩ := k1
        have b4 : v1.terrain.maxLength = L := b4
        have b3 : v1.finished = w.finished := b3
        obtain ⟨m, rfl⟩ : ∃ m, K = m + 1 := ⟨K - 1, by have := hK.1.1; omega⟩
        have := cut_loop g n m v v1 ha (a3.trans hfin) (b3.trans hfin) (by rw [b4, a4]; exact hL)
          (by rw [b4, a2]; have := hK.1.2; push_cast at this; exact this)
          (by
            intro j hj hjm
            rw [b4, a2]
            by_contra hc
            have := hK.2 ⟨hj, not_lt.mp hc⟩
            omega)
        rcases this with ⟨r, w2, w1', q1, q2, q3, q4⟩ | ⟨q1, q2⟩ | ⟨ws, w1', q1, q2, q3, q4⟩
        · rw [h] at q1
          obtain ⟨rfl, rfl⟩ := Prod.mk.inj (Option.some.inj q1)
          refine ⟨w1', q2, ?_⟩
          rw [q3.log_eq, List.take_of_length_le]
          exact short_of_run g hdx n v w' (a1.trans hlog) h m (q4 rfl)
        · rw [h] at q1; cases q1
        · refine ⟨w1', q3, ?_⟩
          rw [q4.log_eq]
          exact (take_of_run g hdx n v w' (a1.trans hlog) h (m + 1) ws q1 q2).symm

/-- **C96**, the other endings: when the run in the longer channel raises, the run in the shorter one raises the same exception with
    the same log, or has ended normally before, with `K` rows; when the longer one is still running, so is the shorter one, or it has
    ended normally with `K` rows. -/
theorem C96_other_endings (grid : List ℝ) (n : Nat) (g : Integrator ℝ) (hdx : 0 < g.dx) (w : World ℝ) (hlog : w.log = [])
    (hfin : w.finished = false) (L t : ℝ) (hL : L ≤ w.terrain.maxLength) (ht : g.models.crust.readsClock → t = w.st.time)
    (K : ℕ) (hK : IsLeast {j : ℕ | 1 ≤ j ∧ L ≤ w.st.pos + j * g.dx} K) :
    (∀ e w', simulateOn grid n g w = some (.error e, w') →
      (∃ w1', simulateOn grid n g (w.retimed L t) = some (.error e, w1') ∧ w1'.log = w'.log) ∨
      ∃ w1', simulateOn grid n g (w.retimed L t) = some (.ok (), w1') ∧ w1'.log.length = K) ∧
    (simulateOn grid n g w = none → simulateOn grid n g (w.retimed L t) = none ∨
      ∃ w1', simulateOn grid n g (w.retimed L t) = some (.ok (), w1') ∧ w1'.log.length = K) := by
  unfold simulateOn
  have key := Alongside.initEffusionRateOn (c := g.models.crust) grid g.models.lava w (w.retimed L t) ⟨L, t, w.finished, ht, rfl⟩
  have k0 := initEffusion_keeps g.models.lava grid w
  have k1 := initEffusion_keeps g.models.lava grid (w.retimed L t)
  cases hi : initEffusionRateOn grid g.models.lava w with
  | mk r v =>
    cases hi1 : initEffusionRateOn grid g.models.lava (w.retimed L t) with
    | mk r1 v1 =>
      rw [hi, hi1] at key
      rw [hi] at k0
      rw [hi1] at k1
      obtain ⟨e1, ha⟩ := key
      dsimp only at e1 ha k0 k1
      subst e1
      cases r with
      | error e =>
        dsimp only
        refine ⟨?_, by intro h; cases h⟩
        intro e' w' h
        cases h
        exact .inl ⟨v1, rfl, ha.log_eq⟩
      | ok _ =>
        dsimp only
        obtain ⟨a1, a2, a3, a4, a5⟩ := k0
        obtain ⟨b1, b2, b3, b4, b5⟩ := k1
        have b4 : v1.terrain.maxLength = L := b4
        have b3 : v1.finished = w.finished := b3
        obtain ⟨m, rfl⟩ : ∃ m, K = m + 1 := ⟨K - 1, by have := hK.1.1; omega⟩
        have := cut_loop g n m v v1 ha (a3.trans hfin) (b3.trans hfin) (by rw [b4, a4]; exact hL)
          (by rw [b4, a2]; have := hK.1.2; push_cast at this; exact this)
          (by
            intro j hj hjm
            rw [b4, a2]
            by_contra hc
            have := hK.2 ⟨hj, not_lt.mp hc⟩
            omega)
        rcases this with ⟨r, w2, w1', q1, q2, q3, q4⟩ | ⟨q1, q2⟩ | ⟨ws, w1', q1, q2, q3, q4⟩
        · rw [q1, q2]
          refine ⟨?_, by intro h; cases h⟩
          intro e w' h
          cases h
          exact .inl ⟨w1', rfl, q3.log_eq⟩
        · rw [q1, q2]
          exact ⟨fun _ _ h => (by cases h), fun _ => .inl rfl⟩
        · have hlen : w1'.log.length = m + 1 := by
            obtain ⟨row, _, h2⟩ := acceptedRun_rows g hdx (m + 1) ws q2 (by rw [q1]; exact a1.trans hlog)
            rw [q4.log_eq, h2 (m + 1) le_rfl]
            simp
          exact ⟨fun _ _ _ => .inr ⟨w1', q3, hlen⟩, fun _ => .inr ⟨w1', q3, hlen⟩⟩

end PyFlowGo
