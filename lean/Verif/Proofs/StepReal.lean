import Verif.Proofs.CellLemmas
/-
  Facts about one step at ℝ, and the shape of a run.
-/
namespace PyFlowGo
open Spec

section
variable {α : Type} [Add α] [Sub α] [Mul α] [Neg α] [OfScientific α] [PyNum α]

theorem flux_names_ne (fs : List (Flux α)) : ∀ n ∈ fluxColumns fs, n ≠ "position" := by
  induction fs with
  | nil => simp [fluxColumns]
  | cons f rest ih =>
    intro n hn
    simp only [fluxColumns, List.mem_append, List.mem_cons] at hn
    have h1 : ∀ n ∈ f.columns, n ≠ "position" := by
      cases f <;> simp [Flux.columns]
    have h2 : f.logName ≠ "position" := by cases f <;> simp [Flux.logName]
    rcases hn with h | h | h | h
    · exact h1 n h
    · exact h1 n h
    · rw [h]; exact h2
    · exact ih n h

theorem StepFacts.names_ne {g : Integrator α} {w : World α} {v x : α} {d : StepData α} {w1 : World α}
    {es : List (String × Cell α)} {y : α} (f : StepFacts g w v x d w1 es y) :
    ∀ e ∈ es, e.1 ≠ "position" := by
  obtain ⟨es0, rfl, hn⟩ := f.names
  intro e he
  rcases List.mem_append.mp he with h | h
  · exact flux_names_ne g.models.fluxes e.1 (hn ▸ List.mem_map.mpr ⟨e, h, rfl⟩)
  · simp only [List.mem_singleton] at h; rw [h]; show "heat_budget" ≠ "position"; decide

theorem stepEntries_ne (g : Integrator α) (d : StepData α) (s : FlowState α) (a b c e f h : α) :
    ∀ n ∈ stepEntries g d s a b c e f h, n.1 ≠ "position" := by
  intro n hn
  have : n.1 ∈ (stepEntries g d s a b c e f h).map Prod.fst := List.mem_map.mpr ⟨n, hn, rfl⟩
  simp only [stepEntries, List.map_cons, List.map_nil] at this
  intro e
  rw [e] at this
  revert this
  decide

theorem stepEntries_names (g : Integrator α) (d : StepData α) (s : FlowState α) (a b c e f h : α) :
    (stepEntries g d s a b c e f h).map Prod.fst = stepColumns := rfl

/-- An accepted step in the sense of the specification is the third outcome. -/
theorem acceptedStep_cases {g : Integrator α} {w w' : World α} (h : singleStep g w = (.ok (), w')) :
    (w'.iteration ≠ w.iteration + 1 ∧ w'.finished = true) ∨ w'.iteration = w.iteration + 1 := by
  cases singleStep_ok h with
  | still v x hv hle hw => left; rw [hw]; simp
  | noGrowth v x hv hle d w1 es y facts hphi hw =>
    left; rw [hw, facts.touched]; simp [World.touched]
  | accepted v x hv hle d w1 es y facts hphi visc tc f v2 y2 tho0 thob hvisc htc hv2 hf ht0 htb dt strain
      hdt hst s' hs stop hstop hw => right; rw [hw]

end

/-- Everything computed by an accepted step, at ℝ. -/
structure AcceptedFacts (g : Integrator ℝ) (w w' : World ℝ) where
  v : ℝ
  x : ℝ
  d : StepData ℝ
  w1 : World ℝ
  es : List (String × Cell ℝ)
  y : ℝ
  hv : g.models.lava.meanVelocity w.terrain w.st = .ok (v, x)
  vpos : 0 < v
  facts : StepFacts g w v x d w1 es y
  grow : w.st.crystal < d.newPhi
  visc : ℝ
  tc : ℝ
  f : ℝ
  v2 : ℝ
  y2 : ℝ
  tho0 : ℝ
  thob : ℝ
  hvisc : g.models.lava.bulkViscosity w1.st = .ok visc
  htc : g.models.crust.temperature w1.st = .ok tc
  hv2 : g.models.lava.meanVelocity w.terrain w1.st = .ok (v2, y2)
  hf : f = g.models.cover.value w.st.pos v2
  ht0 : g.models.lava.yieldStrength w.st = .ok tho0
  htb : g.models.lava.basalStress w.terrain w.st = .ok thob
  depth_ne : w.terrain.depth ≠ 0
  s' : FlowState ℝ
  hs : s' = { crystal := d.newPhi, temp := d.newTemp, pos := w.st.pos + g.dx,
              time := w.st.time + g.dx / v, strain := 3 * v / w.terrain.depth }
  stop : Bool
  hstop : stopTest g w.terrain s' = .ok stop
  hw : w' = { st := s', terrain := w.terrain,
              log := w.log.addAll (.num w.st.pos)
                (es ++ stepEntries g d w1.st (w.stepEffusion v) visc tc f tho0 thob),
              effusionRate := w.stepEffusion v, fluxRate := w.fluxRate,
              iteration := w.iteration + 1, finished := w.finished || stop }

theorem acceptedFacts {g : Integrator ℝ} {w w' : World ℝ} (h : AcceptedStep g w w') :
    Nonempty (AcceptedFacts g w w') := by
  cases singleStep_ok h.2.1 with
  | still v x hv hle hw => exfalso; have := h.2.2; rw [hw] at this; simp at this
  | noGrowth v x hv hle d w1 es y facts hphi hw =>
    exfalso; have := h.2.2; rw [hw, facts.touched] at this; simp [World.touched] at this
  | accepted v x hv hle d w1 es y facts hphi visc tc f v2 y2 tho0 thob hvisc htc hv2 hf ht0 htb dt strain
      hdt hst s' hs stop hstop hw =>
    have hvpos : 0 < v := by
      rw [Bool.eq_false_iff] at hle
      simp only [ne_eq, leB_real, not_le] at hle
      norm_num at hle; exact hle
    have hgrow : w.st.crystal < d.newPhi := by
      rw [Bool.eq_false_iff] at hphi
      simpa only [ne_eq, leB_real, not_le] using hphi
    obtain ⟨_, hdt⟩ := div_ok_iff.mp hdt
    obtain ⟨hd0, hst⟩ := div_ok_iff.mp hst
    refine ⟨⟨v, x, d, w1, es, y, hv, hvpos, facts, hgrow, visc, tc, f, v2, y2, tho0, thob, hvisc, htc, hv2,
      hf, ht0, htb, hd0, s', ?_, stop, hstop, hw⟩⟩
    rw [hs, hdt, hst]; norm_num

/-- The denominators of a step are not zero and the increments are what the energy balance says. -/
theorem StepFacts.real {g : Integrator ℝ} {w : World ℝ} {v x : ℝ} {d : StepData ℝ} {w1 : World ℝ}
    {es : List (String × Cell ℝ)} {y : ℝ} (f : StepFacts g w v x d w1 es y) :
    d.rate ≠ 0 ∧ w.stepEffusion v * g.models.lava.density w.st * g.models.lava.latentHeat ≠ 0 ∧
    d.dphiDx = d.heat / (w.stepEffusion v * g.models.lava.density w.st * g.models.lava.latentHeat) ∧
    d.newPhi - w.st.crystal = -d.rate * (d.newTemp - w.st.temp) := by
  obtain ⟨h1, h2⟩ := div_ok_iff.mp f.dtemp
  have hr : d.rate ≠ 0 := right_ne_zero_of_mul h1
  have he := left_ne_zero_of_mul h1
  refine ⟨hr, he, ?_, ?_⟩
  · rw [f.dphi, h2]
    field_simp
  · rw [f.newPhi, f.newTemp, f.dphi]; ring

variable {α : Type} [Add α] [Sub α] [Mul α] [Neg α] [OfScientific α] [PyNum α]

/-- A run that ended normally: accepted steps, then at most one rejected step. -/
theorem runLoop_ok {g : Integrator α} {n : Nat} {w w' : World α}
    (h : runLoop g n w = some (.ok (), w')) :
    w'.finished = true ∧ ∃ k ws, ws 0 = w ∧ AcceptedRun g k ws ∧ (∀ i, i < k → (ws i).finished = false) ∧
      (w' = ws k ∨ ((ws k).finished = false ∧ RejectedStep g (ws k) w')) := by
  induction n generalizing w with
  | zero =>
    unfold runLoop at h
    split at h
    · rename_i hf
      simp only [Option.some.injEq, Prod.mk.injEq, true_and] at h
      subst h
      exact ⟨hf, 0, fun _ => w, rfl, fun i hi => absurd hi (Nat.not_lt_zero i),
        fun i hi => absurd hi (Nat.not_lt_zero i), Or.inl rfl⟩
    · cases h
  | succ n ih =>
    unfold runLoop at h
    split at h
    · rename_i hf
      simp only [Option.some.injEq, Prod.mk.injEq, true_and] at h
      subst h
      exact ⟨hf, 0, fun _ => w, rfl, fun i hi => absurd hi (Nat.not_lt_zero i),
        fun i hi => absurd hi (Nat.not_lt_zero i), Or.inl rfl⟩
    · rename_i hf
      have hf : w.finished = false := by simpa using hf
      split at h
      · rename_i w2 hstep
        rcases acceptedStep_cases hstep with ⟨hit, hfin⟩ | hit
        · have : w' = w2 := by
            cases n <;> unfold runLoop at h <;> rw [if_pos hfin] at h <;>
              simp only [Option.some.injEq, Prod.mk.injEq, true_and] at h <;> exact h.symm
          subst this
          exact ⟨hfin, 0, fun _ => w, rfl, fun i hi => absurd hi (Nat.not_lt_zero i),
            fun i hi => absurd hi (Nat.not_lt_zero i), Or.inr ⟨hf, hf, hstep, hit⟩⟩
        · obtain ⟨h1, k, ws, h0, hacc, hnf, hlast⟩ := ih h
          refine ⟨h1, k + 1, fun i => if i = 0 then w else ws (i - 1), rfl, ?_, ?_, ?_⟩
          · intro i hi
            cases i with
            | zero => exact ⟨hf, by simpa [h0] using hstep, by simpa [h0] using hit⟩
            | succ i => simpa using hacc i (by omega)
          · intro i hi
            cases i with
            | zero => exact hf
            | succ i => simpa using hnf i (by omega)
          · simpa using hlast
      · cases h

end PyFlowGo
