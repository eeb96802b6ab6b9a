import Verif.Proofs.RunTable
import Verif.Props.Yield
import Verif.Props.Compat
/-
  Comparison of two runs of which the second loses more heat.
-/
set_option linter.unusedSectionVars false
namespace PyFlowGo
open Spec

/-- A part of a permuted sum. -/
theorem forall₂_part {α : Type} {P : α → ℝ → Prop} {fs gs ex : List α} (hp : fs.Perm (gs ++ ex)) {qs : List ℝ}
    (h : List.Forall₂ P fs qs) : ∃ q1 q2, List.Forall₂ P gs q1 ∧ List.Forall₂ P ex q2 ∧ qs.sum = q1.sum + q2.sum := by
  obtain ⟨us, h1, h2⟩ : ∃ us, List.Forall₂ P (gs ++ ex) us ∧ qs.Perm us := by
    generalize gs ++ ex = l at hp
    induction hp generalizing qs with
    | nil => exact ⟨qs, h, List.Perm.refl _⟩
    | cons x _ ih =>
      cases h with
      | cons h1 h2 =>
        obtain ⟨us, u1, u2⟩ := ih h2
        exact ⟨_ :: us, .cons h1 u1, u2.cons _⟩
    | swap x y l =>
      cases h with
      | cons h1 h2 =>
        cases h2 with
        | cons h2 h3 => exact ⟨_ :: _ :: _, .cons h2 (.cons h1 h3), .swap _ _ _⟩
    | trans _ _ ih1 ih2 =>
      obtain ⟨us, u1, u2⟩ := ih1 h
      obtain ⟨vs, v1, v2⟩ := ih2 u1
      exact ⟨vs, v1, u2.trans v2⟩
  refine ⟨us.take gs.length, us.drop gs.length, ?_, ?_, ?_⟩
  · have := List.forall₂_take gs.length h1
    rwa [List.take_left'] at this
    rfl
  · have := List.forall₂_drop gs.length h1
    rwa [List.drop_left'] at this
    rfl
  · rw [h2.sum_eq, ← List.sum_append, List.take_append_drop]

theorem sum_nonneg_of {α : Type} {P : α → ℝ → Prop} {ex : List α} {qs : List ℝ} (h : List.Forall₂ P ex qs)
    (hn : ∀ f ∈ ex, ∀ q, P f q → 0 ≤ q) : 0 ≤ qs.sum := by
  induction h with
  | nil => simp
  | cons h _ ih =>
    rw [List.sum_cons]
    have := hn _ (by simp) _ h
    have := ih fun f hf => hn f (by simp [hf])
    linarith

/-- The same row data serve the flow with fewer fluxes. -/
theorem rowMade_fewer {g : Integrator ℝ} {fs : List (Flux ℝ)} {T : Terrain ℝ} {fr : Option ℝ} {E : ℝ} {s : FlowState ℝ} {d : RowData}
    (h : RowMade (withFluxes g fs) T fr E s d) (q : ℝ) : RowMade g T fr E s { d with heat := q } :=
  ⟨h.velocity, h.moving, h.depth, h.cover, h.volume, h.mass, h.slope, h.viscosity, h.crust, h.yieldStrength, h.basalStress, h.rate,
    h.denominator⟩

theorem density_pos_only (l : Lava ℝ) (s s' : FlowState ℝ) (h : s.pos = s'.pos) : l.density s = l.density s' := by
  unfold Lava.density
  have : ∀ v : VesicleModel ℝ, v.fraction s = v.fraction s' := by
    intro v; cases v <;> unfold VesicleModel.fraction <;> dsimp only <;> rw [h]
  simp only [Lava.vesicleFraction, this]

/-- The width of a row is positive. -/
theorem row_width_pos {g : Integrator ℝ} {T : Terrain ℝ} {fr : Option ℝ} {E : ℝ} {s : FlowState ℝ} {d : RowData}
    (h : RowMade g T fr E s d) (hE : 0 < E) (hD : 0 < T.depth) (hfr : g.massConservation = true → ∀ flux, fr = some flux → 0 < flux)
    (hrho : 0 < g.models.lava.density s) : 0 < d.width := by
  have hv := h.moving
  cases hm : g.massConservation with
  | false => rw [h.volume hm]; positivity
  | true =>
    obtain ⟨flux, h1, h2⟩ := h.mass hm
    have := hfr hm _ h1
    rw [h2]; positivity

/-- A lava with fewer crystals at the same place is not declared unusable if one with more is not. -/
theorem checked_fewer (m : RelModel ℝ) (hm : PackingChecked m) (s s' : FlowState ℝ) (hp : s.pos = s'.pos) (hc : s.crystal ≤ s'.crystal)
    (h : m.notCompatible s' = .ok false) : m.notCompatible s ≠ .ok true := by
  have hv : ∀ v : VesicleModel ℝ, v.fraction s = v.fraction s' := by
    intro v; cases v <;> unfold VesicleModel.fraction <;> dsimp only <;> rw [hp]
  have quot : ∀ p : ℝ, 0 < p → (do let q ← PyNum.div s'.crystal p; return ltB (1.0:ℝ) q : Except Err Bool) = .ok false →
      (do let q ← PyNum.div s.crystal p; return ltB (1.0:ℝ) q : Except Err Bool) ≠ .ok true := by
    intro p h0 h1 h2
    rw [div_of_ne h0.ne', ok_bind] at h1 h2
    injection h1 with h1
    injection h2 with h2
    rw [← Bool.not_eq_true, ltB_real] at h1
    rw [ltB_real] at h2
    exact h1 (h2.trans_le (by gcongr))
  have direct : ∀ p : ℝ, (Except.ok (ltB p s'.crystal) : Except Err Bool) = .ok false → (Except.ok (ltB p s.crystal) : Except Err Bool) ≠ .ok true := by
    intro p h1 h2
    injection h1 with h1
    injection h2 with h2
    rw [← Bool.not_eq_true, ltB_real] at h1
    rw [ltB_real] at h2
    exact h1 (h2.trans_le hc)
  cases m <;> unfold RelModel.notCompatible at h ⊢ <;> dsimp only at h ⊢
  case er =>
    rw [div_of_ne (by norm_num), ok_bind] at h ⊢
    injection h with h
    intro h2
    injection h2 with h2
    rw [← Bool.not_eq_true, leB_real] at h
    rw [leB_real] at h2
    exact h (h2.trans hc)
  case kd p b => exact quot _ hm h
  case mp p => exact quot _ hm h
  case mpMueller rp =>
    rw [muellerPhimax_of_pos hm, ok_bind] at h ⊢
    exact quot _ (muellerPacking_pos _) h
  case mader => exact hm.elim
  case bll => rw [hv]; exact direct _ h
  case ptp1 => rw [hv]; exact direct _ h
  case ptp2 => rw [hv]; exact direct _ h
  case ptp3 => rw [hv]; exact direct _ h
  all_goals simp

/-- Hotter lava with fewer crystals at the same place does not come to rest if the other does not. -/
theorem yield_fewer (l : Lava ℝ) (T : Terrain ℝ) (s s' : FlowState ℝ) (h0 : 0 ≤ s.crystal) (hp : s'.pos = s.pos) (hc : s.crystal ≤ s'.crystal)
    (hT : s'.temp ≤ s.temp) (h : l.yieldNotCompatible T s' = .ok false) : l.yieldNotCompatible T s ≠ .ok true := by
  intro h2
  unfold Lava.yieldNotCompatible at h h2
  obtain ⟨t, ht, h⟩ := bind_ok_iff.mp h
  obtain ⟨b, hb, h⟩ := bind_ok_iff.mp h
  obtain ⟨t2, ht2, h2⟩ := bind_ok_iff.mp h2
  obtain ⟨b2, hb2, h2⟩ := bind_ok_iff.mp h2
  have e : b = b2 := by
    unfold Lava.basalStress at hb hb2
    rw [hp, density_pos_only l s' s hp] at hb
    rw [hb] at hb2
    injection hb2
  have ly : t2 ≤ t := C34_yield_grows l.yld s s' h0 hc hT hp t2 t ht2 ht
  rw [pure_ok_iff, ← Bool.not_eq_true, leB_real] at h
  rw [pure_ok_iff, leB_real] at h2
  exact h (by rw [e]; linarith)

/-- Crystals along an accepted run. -/
theorem crystals_ge {g : Integrator ℝ} {k : Nat} {ws : Nat → World ℝ} (h : AcceptedRun g k ws) :
    ∀ i, i ≤ k → (ws 0).st.crystal ≤ (ws i).st.crystal := by
  intro i
  induction i with
  | zero => intro _; exact le_rfl
  | succ i ih =>
    intro hi
    obtain ⟨A⟩ := acceptedFacts (h i (by omega))
    have := A.grow
    have e := A.st_eq
    have : (ws (i + 1)).st.crystal = A.d.newPhi := by rw [e, A.hs]
    linarith [ih (by omega)]

/-- The effusion rate left by a step that was given up although the lava moves. -/
theorem rejected_effusion {g : Integrator ℝ} {w w' : World ℝ} (h : RejectedStep g w w') (v x : ℝ)
    (hv : g.models.lava.meanVelocity w.terrain w.st = .ok (v, x)) (hpos : 0 < v) : w'.effusionRate = w.stepEffusion v := by
  cases singleStep_ok h.2.1 with
  | still v2 x2 hv2 hle hw =>
    rw [hv] at hv2
    injection hv2 with hv2
    have := congrArg Prod.fst hv2
    simp only [leB_real] at hle
    norm_num at hle
    dsimp only at this
    linarith
  | noGrowth v2 x2 hv2 hle d w1 es y facts hphi hw =>
    rw [hv] at hv2
    injection hv2 with hv2
    have : v = v2 := congrArg Prod.fst hv2
    rw [hw, facts.touched, this]; rfl
  | accepted v x hv hle d w1 es y facts hphi visc tc f v2 y2 tho0 thob hvisc htc hv2 hf ht0 htb dt strain
      hdt hst s' hs stop hstop hw => exact absurd (by rw [hw]) h.2.2

section
variable {g : Integrator ℝ} {fs extra : List (Flux ℝ)} {w a b : World ℝ} {E r K : ℝ} {R R' : ℝ → ℝ → ℝ → Prop}
  {k k' : Nat} {ws vs : Nat → World ℝ} {d e : Nat → RowData}

/-- A Lipschitz constant of the flow equations serves. -/
theorem lipschitz_colder {g : Integrator ℝ} {T : Terrain ℝ} {fr : Option ℝ} {E : ℝ} {R : ℝ → ℝ → ℝ → Prop} {r K : ℝ} (hr : 0 ≤ r) (hK : 0 ≤ K)
    (h : LipschitzRhs g T fr E R K) : ColderSlower g T fr E R R r (K * max 1 r) := by
  intro s s' G G' h1 h2 hp hT hc hG hG'
  obtain ⟨l1, _, _⟩ := h s s' G G' h1 h2 hp hG hG'
  have hn : 0 ≤ s.temp - s'.temp := by linarith
  have hx : |s.crystal - s'.crystal| = r * (s.temp - s'.temp) := by
    rw [abs_sub_comm, hc, abs_of_nonneg (mul_nonneg hr hn)]
  have hmax : max |s.temp - s'.temp| |s.crystal - s'.crystal| ≤ max 1 r * (s.temp - s'.temp) := by
    rw [hx, abs_of_nonneg hn]
    apply max_le
    · nlinarith [le_max_left 1 r]
    · exact mul_le_mul_of_nonneg_right (le_max_right _ _) hn
  have hKm := mul_le_mul_of_nonneg_left hmax hK
  have := (abs_le.mp l1).1
  linarith

/-- The flow that loses more heat is colder, row by row. -/
theorem compare_states (hl : StrainIndependent g.models.lava) (hperm : fs.Perm (g.models.fluxes ++ extra)) (hdx : 0 < g.dx) (hr0 : 0 < r)
    (hrate : ∀ s, g.models.cryst.rate s = .ok r) (hE : 0 < E) (hD : 0 < w.terrain.depth) (hL : 0 < g.models.lava.latentHeat)
    (hfr : ∀ flux, w.fluxRate = some flux → 0 < flux)
    (hrho : ∀ s, R' s.pos s.temp s.crystal → 0 < g.models.lava.density s)
    (hex : ∀ f ∈ extra, NeverWarms g.models w.terrain R' f)
    (hlip : ColderSlower g w.terrain w.fluxRate E R R' r K) (hsmall : g.dx * K ≤ 1)
    (t : RunTable g w a E k ws d) (t' : RunTable (withFluxes g fs) w b E k' vs e)
    (hin : ∀ i, i < k → R (ws i).st.pos (ws i).st.temp (ws i).st.crystal)
    (hin' : ∀ i, i < k' → R' (vs i).st.pos (vs i).st.temp (vs i).st.crystal) :
    ∀ i, i ≤ k → i ≤ k' → (vs i).st.temp ≤ (ws i).st.temp ∧
      (vs i).st.crystal - (ws i).st.crystal = r * ((ws i).st.temp - (vs i).st.temp) := by
  intro i
  induction i with
  | zero => intro _ _; rw [t.start, t'.start]; simp
  | succ i ih =>
    intro h1 h2
    obtain ⟨c1, c2⟩ := ih (by omega) (by omega)
    have h1 : i < k := by omega
    have h2 : i < k' := by omega
    have m1 := t.made i h1
    have m2 := t'.made i h2
    have s1 := t.step i h1
    have s2 := t'.step i h2
    have er1 : (d i).rate = r := by have := m1.rate; rw [hrate] at this; injection this with this; exact this.symm
    have er2 : (e i).rate = r := by
      have : g.models.cryst.rate _ = _ := m2.rate
      rw [hrate] at this; injection this with this; exact this.symm
    have hpos : (ws i).st.pos = (vs i).st.pos := by rw [t.pos i h1.le, t'.pos i h2.le]; rfl
    have hrho2 := hrho _ (hin' i h2)
    obtain ⟨qs, q1, q2⟩ := t.heat hl i h1
    obtain ⟨us, u1, u2⟩ := t'.heat hl i h2
    obtain ⟨p1, p2, pp1, pp2, psum⟩ := forall₂_part hperm u1
    have hwidth := row_width_pos m2 hE hD (fun _ => hfr) hrho2
    have hp2 : 0 ≤ p2.sum := sum_nonneg_of pp2 fun f hf q hq => hex f hf _ _ _ hwidth (hin' i h2) hq
    have hfe1 : FlowEquations g w.terrain w.fluxRate E (ws i).st ⟨tempGradient g E (ws i).st (d i), crystalGradient g E (ws i).st (d i), 1 / (d i).v⟩ :=
      ⟨d i, m1, ⟨qs, q1, q2⟩, rfl, rfl, rfl⟩
    let e0 : RowData := { e i with heat := p1.sum }
    have hfe2 : FlowEquations g w.terrain w.fluxRate E (vs i).st ⟨tempGradient g E (vs i).st e0, crystalGradient g E (vs i).st e0, 1 / e0.v⟩ :=
      ⟨e0, rowMade_fewer m2 _, ⟨p1, pp1, rfl⟩, rfl, rfl, rfl⟩
    have l1 := hlip _ _ _ _ (hin i h1) (hin' i h2) hpos c1 c2 hfe1 hfe2
    have hG : tempGradient (withFluxes g fs) E (vs i).st (e i) ≤ tempGradient g E (vs i).st e0 := by
      show -(e i).heat / (E * g.models.lava.density (vs i).st * g.models.lava.latentHeat * (e i).rate) ≤
        -p1.sum / (E * g.models.lava.density (vs i).st * g.models.lava.latentHeat * (e i).rate)
      rw [u2, psum, er2]
      have : 0 < E * g.models.lava.density (vs i).st * g.models.lava.latentHeat * r := by positivity
      gcongr
      linarith
    have hC1 : crystalGradient g E (ws i).st (d i) = -r * tempGradient g E (ws i).st (d i) := by
      unfold crystalGradient tempGradient
      rw [er1]; field_simp
    have hC2 : crystalGradient (withFluxes g fs) E (vs i).st (e i) = -r * tempGradient (withFluxes g fs) E (vs i).st (e i) := by
      unfold crystalGradient tempGradient
      rw [er2]
      have : (withFluxes g fs).models.lava = g.models.lava := rfl
      rw [this]; field_simp
    have edx : (withFluxes g fs).dx = g.dx := rfl
    have hT1 := s1.temp
    have hT2 := s2.temp
    have hP1 := s1.crystal
    have hP2 := s2.crystal
    rw [edx] at hT2 hP2
    refine ⟨?_, ?_⟩
    · rw [hT1, hT2]
      have hn : 0 ≤ (ws i).st.temp - (vs i).st.temp := by linarith
      have b1 : -(K * ((ws i).st.temp - (vs i).st.temp)) ≤ tempGradient g E (ws i).st (d i) - tempGradient (withFluxes g fs) E (vs i).st (e i) := by
        dsimp only at l1
        linarith
      have b2 := mul_le_mul_of_nonneg_right b1 hdx.le
      have b3 := mul_le_mul_of_nonneg_right hsmall hn
      nlinarith
    · rw [hT1, hT2, hP1, hP2, hC1, hC2]
      linear_combination c2
end
end PyFlowGo
