import Verif.Props.Fresher
/-
  C121: a flow that is driven harder (a deeper channel, steeper ground, a larger effusion rate) is nowhere colder, nowhere more
  crystallised, and not shorter.
-/
set_option linter.unusedSectionVars false
namespace PyFlowGo
open Spec

theorem colderSlowerBy_zero {g : Integrator ℝ} {T : Terrain ℝ} {fluxRate : Option ℝ} {E : ℝ} {R R' : ℝ → ℝ → ℝ → Prop} {r K : ℝ} :
    ColderSlowerBy g T fluxRate E R R' r 0 K ↔ ColderSlower g T fluxRate E R R' r K := by
  unfold ColderSlowerBy ColderSlower
  simp only [add_zero]

theorem same_crystals {s s' : FlowState ℝ} (h : SameVent s s') (r : ℝ) : s'.crystal - s.crystal = r * (s.temp - s'.temp) + 0 := by
  rw [h.2.1, h.2.2]; ring

section
variable (g : Integrator ℝ) (hdx : 0 < g.dx) (n n' : Nat) (wa wb a b : World ℝ) (hwa : wa.log = []) (hwb : wb.log = [])
  (h : runLoop g n wa = some (.ok (), a)) (h' : runLoop g n' wb = some (.ok (), b))
  (hl : StrainIndependent g.models.lava) (r : ℝ) (hr0 : 0 < r) (hrate : ∀ s, g.models.cryst.rate s = .ok r)
  (Ea Eb : ℝ) (hEa : VentRate g wa Ea) (hEb : VentRate g wb Eb) (hEa0 : 0 < Ea) (hEb0 : 0 < Eb) (hL : 0 < g.models.lava.latentHeat)
  (hsame : SameVent wa.st wb.st)
  (hmass : g.massConservation = true → ∃ c, 0 < c ∧ wa.fluxRate = some (c * Ea) ∧ wb.fluxRate = some (c * Eb))
  (hphi : 0 ≤ wb.st.crystal) (hvent : g.models.lava.yieldNotCompatible wb.terrain wb.st = .ok false)
  (R R' : ℝ → ℝ → ℝ → Prop)
  (hin : ∀ x T phi, loggedNum a.log x "core_temperature" = some T → loggedNum a.log x "crystal_fraction" = some phi → R x T phi)
  (hin' : ∀ x T phi, loggedNum b.log x "core_temperature" = some T → loggedNum b.log x "crystal_fraction" = some phi → R' x T phi)
  (hrho : ∀ s, R' s.pos s.temp s.crystal → 0 < g.models.lava.density s)
  (hmu : ∀ s mu, R' s.pos s.temp s.crystal → g.models.lava.bulkViscosity s = .ok mu → 0 < mu)
  (hdrive : DrivesHarder g.models.lava wa.terrain wb.terrain R')
  (hloss : ∀ f ∈ g.models.fluxes, LosesNoMore g.models wa.terrain wb.terrain R' f)
  (K : ℝ) (hlip : ColderSlower g wa.terrain wa.fluxRate Ea R R' r K) (hsmall : g.dx * K ≤ 1)

include hdx hwa hwb h h' hl hr0 hrate hEa hEb hEa0 hEb0 hL hsame hmass hphi hvent hin hin' hrho hmu hdrive hloss hlip hsmall

/-- **C121**, hotter. Take two finished runs (fresh logs, the same positive step, the same models) of a lava whose rheology does not use the strain
    rate and that crystallises at a constant rate `r`, from the same state at the vent, where it can move in both channels. Let the first channel
    drive the lava harder and lose, per cubic metre carried, no more heat. If the step is small for the flow equations in the first channel
    (`dx K <= 1`, as in C118), then wherever both tables show a core temperature the first is not colder, and wherever both show a crystal fraction the
    first does not show a larger one. -/
theorem C121_hotter :
    (∀ x T T', BothShow a.log b.log "core_temperature" x T T' → T' ≤ T) ∧
    (∀ x phi phi', BothShow a.log b.log "crystal_fraction" x phi phi' → phi ≤ phi') :=
  C128_hotter g hdx n n' wa wb a b hwa hwb h h' hl r hr0 hrate Ea Eb hEa hEb hEa0 hEb0 hL 0 le_rfl hsame.1 hsame.2.1.le
    (same_crystals hsame r) hmass (hsame.2.2 ▸ hphi) hphi hvent R R' hin hin' hrho hmu hdrive hloss K (colderSlowerBy_zero.mpr hlip) hsmall

/-- **C121**, faster. If moreover lava that is hotter and has fewer crystals is not more viscous, then wherever both tables show a mean velocity the
    first is not slower. -/
theorem C121_faster
    (hmuR : ∀ s mu, R s.pos s.temp s.crystal → g.models.lava.bulkViscosity s = .ok mu → 0 < mu)
    (hthin : ∀ s s' mu mu', R s.pos s.temp s.crystal → R' s'.pos s'.temp s'.crystal → s.pos = s'.pos → s'.temp ≤ s.temp → s.crystal ≤ s'.crystal →
      g.models.lava.bulkViscosity s = .ok mu → g.models.lava.bulkViscosity s' = .ok mu' → mu ≤ mu') :
    ∀ x v v', BothShow a.log b.log "mean_velocity" x v v' → v' ≤ v :=
  C128_faster g hdx n n' wa wb a b hwa hwb h h' hl r hr0 hrate Ea Eb hEa hEb hEa0 hEb0 hL 0 le_rfl hsame.1 hsame.2.1.le
    (same_crystals hsame r) hmass (hsame.2.2 ▸ hphi) hphi hvent R R' hin hin' hrho hmu hdrive hloss K (colderSlowerBy_zero.mpr hlip) hsmall hmuR hthin

/-- **C121**, farther. If moreover the relative-viscosity model tests for packing, the first channel is not configured shorter, the bulk viscosity at the end
    of the first flow is positive (if the lava is above the solidus there and not packed), and the first table shows no heat budget that is zero or negative, then the first flow runs at least as far. -/
theorem C121_farther (hpack : PackingChecked g.models.lava.rel) (hlen : wb.terrain.maxLength ≤ wa.terrain.maxLength)
    (hfin0 : wa.finished = false) (hmua : ∀ mu, g.models.lava.notCompatible a.st = .ok false → g.models.cryst.solidTemperature < a.st.temp → g.models.lava.bulkViscosity a.st = .ok mu → 0 < mu)
    (hheat : ∀ x q, loggedNum a.log x "heat_budget" = some q → 0 < q) : b.st.pos ≤ a.st.pos := by
  obtain ⟨k, ws, d, t⟩ := run_table g hdx n' wb b hwb h' Eb hEb
  rcases Nat.eq_zero_or_pos k with rfl | hk
  · obtain ⟨k1, ws1, d1, t1⟩ := run_table g hdx n wa a hwa h Ea hEa
    rw [t.finalPos, t1.finalPos, hsame.1]
    have : 0 ≤ (k1 : ℝ) * g.dx := by positivity
    push_cast
    linarith
  have hR : R' wb.st.pos wb.st.temp wb.st.crystal := by
    have := hin' _ _ _ (t.row 0 hk).core_temperature (t.row 0 hk).crystal_fraction
    rwa [t.start] at this
  refine C128_farther g hdx n n' wa wb a b hwa hwb h h' hl r hr0 hrate Ea Eb hEa hEb hEa0 hEb0 hL 0 le_rfl hsame.1 hsame.2.1.le
    (same_crystals hsame r) hmass (hsame.2.2 ▸ hphi) hphi hvent R R' hin hin' hrho hmu hdrive hloss K (colderSlowerBy_zero.mpr hlip) hsmall hpack hlen hfin0 ?_ hmua hheat
  intro v x hv
  have hsb : g.models.lava.meanVelocity wa.terrain wa.st = g.models.lava.meanVelocity wa.terrain wb.st := by
    have hs : g.models.lava.meanVelocity wa.terrain { wa.st with strain := wb.st.strain, time := wb.st.time } = g.models.lava.meanVelocity wa.terrain wb.st := by
      obtain ⟨e1, e2, e3⟩ := hsame
      congr 1
      cases hA : wa.st; cases hB : wb.st
      rw [hA, hB] at e1 e2 e3
      dsimp only at e1 e2 e3 ⊢
      rw [e1, e2, e3]
    exact (meanVelocity_time g.models.lava wa.terrain wa.st wa.terrain.maxLength wb.st.time).symm.trans
      ((meanVelocity_strain _ hl wa.terrain { wa.st with time := wb.st.time } wb.st.strain).symm.trans hs)
  obtain ⟨xb, hvb⟩ := (t.made 0 hk).velocity
  rw [t.start] at hvb
  obtain ⟨va, xa, _, _, hva, hvle, _, _, _, hvb0⟩ := driven_velocity hdrive hR hphi (fun mu => hmu _ mu hR) hvb hvent
  rw [hsb, hva, Except.ok.injEq, Prod.mk.injEq] at hv
  rw [← hv.1]
  exact hvb0.trans_le hvle

end
end PyFlowGo
