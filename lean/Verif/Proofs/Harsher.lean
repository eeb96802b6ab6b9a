import Verif.Spec.Harsher
import Verif.Proofs.Compare
/-
  C122: the rows of two runs of the same lava of which one loses more heat.
-/
set_option linter.unusedSectionVars false
namespace PyFlowGo
open Spec

section
variable {g g' : Integrator ℝ} {w a b : World ℝ} {E r K : ℝ} {R R' : ℝ → ℝ → ℝ → Prop} {k k' : Nat} {ws vs : Nat → World ℝ} {d e : Nat → RowData}

/-- The row of the harsher run, with the crust and the heat of the milder one. -/
theorem rowMade_same (hs : EqualLava g g') {T : Terrain ℝ} {fr : Option ℝ} {s : FlowState ℝ} {d : RowData} (h : RowMade g' T fr E s d) (q Tc : ℝ)
    (hTc : g.models.crust.temperature s = .ok Tc) : RowMade g T fr E s { d with heat := q, crustT := Tc } := by
  obtain ⟨dx, m, c⟩ := g
  obtain ⟨dx', m', c'⟩ := g'
  obtain ⟨l, ai, cr, co, cy, fl⟩ := m
  obtain ⟨l', ai', cr', co', cy', fl'⟩ := m'
  obtain ⟨rfl, rfl, rfl, rfl⟩ := hs
  exact ⟨h.velocity, h.moving, h.depth, h.cover, h.volume, h.mass, h.slope, h.viscosity, hTc, h.yieldStrength, h.basalStress, h.rate, h.denominator⟩

/-- The flow that loses more heat is colder, row by row. -/
theorem harsher_states (hs : EqualLava g g') (hl : StrainIndependent g.models.lava) (hdx : 0 < g.dx) (hr0 : 0 < r)
    (hrate : ∀ s, g.models.cryst.rate s = .ok r) (hE : 0 < E) (hD : 0 < w.terrain.depth) (hL : 0 < g.models.lava.latentHeat)
    (hfr : g.massConservation = true → ∀ flux, w.fluxRate = some flux → 0 < flux)
    (hrho : ∀ s, R' s.pos s.temp s.crystal → 0 < g.models.lava.density s)
    (hcrust : ∀ s, R' s.pos s.temp s.crystal → ∃ Tc, g.models.crust.temperature s = .ok Tc)
    (hloss : LosesMore g.models g'.models w.terrain R')
    (hlip : ColderSlower g w.terrain w.fluxRate E R R' r K) (hsmall : g.dx * K ≤ 1)
    (t : RunTable g w a E k ws d) (t' : RunTable g' w b E k' vs e)
    (hin : ∀ i, i < k → R (ws i).st.pos (ws i).st.temp (ws i).st.crystal)
    (hin' : ∀ i, i < k' → R' (vs i).st.pos (vs i).st.temp (vs i).st.crystal) :
    ∀ i, i ≤ k → i ≤ k' → (vs i).st.temp ≤ (ws i).st.temp ∧
      (vs i).st.crystal - (ws i).st.crystal = r * ((ws i).st.temp - (vs i).st.temp) := by
  have elava := hs.lava
  intro i
  induction i with
  | zero => intro _ _; rw [t.start, t'.start]; simp
  | succ i ih =>
    intro h1 h2
    obtain ⟨c1, c2⟩ := ih (by omega) (by omega)
    have h1 : i < k := by omega
    have h2 : i < k' := by omega
    have m1 := t.made i h1
    have m2 := t'.made i h2
    have s1 := t.step i h1
    have s2 := t'.step i h2
    have er1 : (d i).rate = r := by have := m1.rate; rw [hrate] at this; injection this with this; exact this.symm
    have er2 : (e i).rate = r := by
      have := m2.rate
      rw [hs.cryst, hrate] at this; injection this with this; exact this.symm
    have hpos : (ws i).st.pos = (vs i).st.pos := by rw [t.pos i h1.le, t'.pos i h2.le, hs.step]
    have hrho2 := hrho _ (hin' i h2)
    obtain ⟨qs, q1, q2⟩ := t.heat hl i h1
    obtain ⟨us, u1, u2⟩ := t'.heat (by rw [elava]; exact hl) i h2
    have hwidth := row_width_pos m2 hE hD (by rw [hs.switch]; exact hfr) (by rw [elava]; exact hrho2)
    obtain ⟨Tc, hTc⟩ := hcrust _ (hin' i h2)
    obtain ⟨p1, pp1, psum⟩ := hloss _ _ us hwidth (hin' i h2) (fun v x hv => by
      obtain ⟨z, hz⟩ := m2.velocity
      rw [elava, hv, Except.ok.injEq, Prod.mk.injEq] at hz
      rw [hz.1]; exact m2.moving) u1
    have hfe1 : FlowEquations g w.terrain w.fluxRate E (ws i).st ⟨tempGradient g E (ws i).st (d i), crystalGradient g E (ws i).st (d i), 1 / (d i).v⟩ :=
      ⟨d i, m1, ⟨qs, q1, q2⟩, rfl, rfl, rfl⟩
    let e0 : RowData := { e i with heat := p1.sum, crustT := Tc }
    have hfe2 : FlowEquations g w.terrain w.fluxRate E (vs i).st ⟨tempGradient g E (vs i).st e0, crystalGradient g E (vs i).st e0, 1 / e0.v⟩ :=
      ⟨e0, rowMade_same hs m2 _ _ hTc, ⟨p1, pp1, rfl⟩, rfl, rfl, rfl⟩
    have l1 := hlip _ _ _ _ (hin i h1) (hin' i h2) hpos c1 c2 hfe1 hfe2
    have hG : tempGradient g' E (vs i).st (e i) ≤ tempGradient g E (vs i).st e0 := by
      show -(e i).heat / (E * g'.models.lava.density (vs i).st * g'.models.lava.latentHeat * (e i).rate) ≤
        -p1.sum / (E * g.models.lava.density (vs i).st * g.models.lava.latentHeat * (e i).rate)
      rw [u2, er2, elava]
      have : 0 < E * g.models.lava.density (vs i).st * g.models.lava.latentHeat * r := by positivity
      gcongr
    have hC1 : crystalGradient g E (ws i).st (d i) = -r * tempGradient g E (ws i).st (d i) := by
      unfold crystalGradient tempGradient
      rw [er1]; field_simp
    have hC2 : crystalGradient g' E (vs i).st (e i) = -r * tempGradient g' E (vs i).st (e i) := by
      unfold crystalGradient tempGradient
      rw [er2, elava]; field_simp
    have hT1 := s1.temp
    have hT2 := s2.temp
    have hP1 := s1.crystal
    have hP2 := s2.crystal
    rw [hs.step] at hT2 hP2
    refine ⟨?_, ?_⟩
    · rw [hT1, hT2]
      have hn : 0 ≤ (ws i).st.temp - (vs i).st.temp := by linarith
      have b1 : -(K * ((ws i).st.temp - (vs i).st.temp)) ≤ tempGradient g E (ws i).st (d i) - tempGradient g' E (vs i).st (e i) := by
        dsimp only at l1
        linarith
      have b2 := mul_le_mul_of_nonneg_right b1 hdx.le
      have b3 := mul_le_mul_of_nonneg_right hsmall hn
      nlinarith
    · rw [hT1, hT2, hP1, hP2, hC1, hC2]
      linear_combination c2
end
end PyFlowGo
