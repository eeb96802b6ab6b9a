import Verif.Spec.ProfileSpec
import Verif.Props.RunRows
import Verif.Props.RunOutExamples
import Mathlib.Algebra.BigOperators.Group.Finset.Basic
import Mathlib.Algebra.BigOperators.Intervals
import Mathlib.Algebra.BigOperators.Ring.Finset
/-
  C64: the result file alone, read as a table, obeys the conservation laws from row to row.
-/
set_option linter.unusedSectionVars false
namespace PyFlowGo
open Spec

/-- What one accepted step leaves in its row. -/
theorem accepted_shows {g : Integrator ℝ} {w w' : World ℝ} (h : AcceptedStep g w w') :
    ∃ r : ProfileRow, Shows w'.log w.st.pos r ∧ r.crystal = w.st.crystal ∧ r.temp = w.st.temp ∧ 0 < r.velocity ∧
      (∃ x, g.models.lava.meanVelocity w.terrain w.st = .ok (r.velocity, x)) ∧
      r.depth = w.terrain.depth ∧ r.density = g.models.lava.density w.st ∧ g.models.cryst.rate w.st = .ok r.rate ∧
      g.models.lava.yieldStrength w.st = .ok r.yieldStrength ∧ g.models.lava.basalStress w.terrain w.st = .ok r.basalStress ∧
      r.effusionRate = w'.effusionRate ∧
      r.width * r.velocity * r.depth = (if g.massConservation then r.width * r.velocity * r.depth else r.effusionRate) ∧
      w.st.crystal < w'.st.crystal ∧ w'.st.crystal = w.st.crystal + r.crystalGradient * g.dx ∧
      w'.st.temp = w.st.temp + r.tempGradient * g.dx ∧
      w'.st.crystal - w.st.crystal = -r.rate * (w'.st.temp - w.st.temp) ∧
      r.effusionRate * r.density * g.models.lava.latentHeat * (w'.st.crystal - w.st.crystal) = r.heat * g.dx ∧
      w.terrain.slope w.st.pos = .ok r.slope := by
  obtain ⟨A⟩ := acceptedFacts h
  have e1 := A.crystal_eq
  have e2 := A.temp_eq
  have e3 := A.eff_eq
  have hs : A.w1.st.crystal = w.st.crystal := by rw [A.facts.touched]; rfl
  have ht : A.w1.st.temp = w.st.temp := by rw [A.facts.touched]; rfl
  have hdens : g.models.lava.density A.w1.st = g.models.lava.density w.st := by
    rw [A.facts.touched]; exact density_strain _ _ _
  obtain ⟨_, hne, h3, h4⟩ := A.facts.real
  refine ⟨{ crystal := w.st.crystal, temp := w.st.temp, velocity := A.v, width := A.d.width, depth := w.terrain.depth,
            density := g.models.lava.density w.st, heat := A.d.heat, rate := A.d.rate, crystalGradient := A.d.dphiDx,
            tempGradient := A.d.dtempDx, yieldStrength := A.tho0, basalStress := A.thob,
            effusionRate := w.stepEffusion A.v, slope := A.d.slope },
    ⟨loggedNum_of_cell (A.logged (by decide) (by rw [← hs]; rfl)),
     loggedNum_of_cell (A.logged (by decide) (by rw [← ht]; rfl)),
     loggedNum_of_cell (A.logged (by decide) (by rw [← A.facts.v_eq]; rfl)),
     loggedNum_of_cell (A.logged (by decide) (by rfl)),
     loggedNum_of_cell (A.logged (by decide) (by rw [← A.facts.depth_eq]; rfl)),
     loggedNum_of_cell (A.logged (by decide) (by rw [← hdens]; rfl)),
     loggedNum_of_cell A.logged_heat,
     loggedNum_of_cell (A.logged (by decide) (by rfl)),
     loggedNum_of_cell (A.logged (by decide) (by rfl)),
     loggedNum_of_cell (A.logged (by decide) (by rfl)),
     loggedNum_of_cell (A.logged (by decide) (by rfl)),
     loggedNum_of_cell (A.logged (by decide) (by rfl)),
     A.logged (by decide) (by rfl),
     loggedNum_of_cell (A.logged (by decide) (by rfl))⟩,
    rfl, rfl, A.vpos, ⟨A.x, A.hv⟩, rfl, rfl, A.facts.rate, A.ht0, A.htb, e3.symm, ?_, by rw [e1]; exact A.grow,
    by rw [e1, A.facts.newPhi], by rw [e2, A.facts.newTemp], by rw [e1, e2]; exact h4, ?_, A.facts.slope⟩
  · cases hm : g.massConservation with
    | true => rfl
    | false =>
      have hwid := A.facts.width
      rw [hm] at hwid
      simp only [channelWidth, Bool.false_eq_true, if_false] at hwid
      obtain ⟨_, hw⟩ := div_ok_iff.mp hwid
      have hv : A.v ≠ 0 := A.vpos.ne'
      have hd := A.depth_ne
      dsimp only
      rw [hw, if_neg (by simp)]
      field_simp
  · dsimp only
    rw [e1, A.facts.newPhi, h3]
    generalize w.stepEffusion A.v * g.models.lava.density w.st * g.models.lava.latentHeat = E at hne
    field_simp
    ring

/-- **C64**. The result of a run (fresh log, positive step), read as a table: there are `k` complete rows, at x0, x0+dx,
    ..., the first showing the initial state, and possibly one more row with position and heat fluxes only; every complete row shows a positive velocity, the initial depth, and (volume mode)
    width * velocity * depth equal to the effusion rate, the slope of the profile at its position, or (mass mode) that times the density equal to
    the mass flux fixed at the start; every row but the first shows a core temperature above the
    solid temperature, a yield strength below the basal stress, and lies before the end of the channel; consecutive rows
    obey the laws of the flow. -/
theorem C64_table (g : Integrator ℝ) (hdx : 0 < g.dx) (n : Nat) (w w' : World ℝ) (hw : w.log = [])
    (h : runLoop g n w = some (.ok (), w')) :
    ∃ (k : Nat) (r : Nat → ProfileRow), (w'.log.length = k ∨ w'.log.length = k + 1 ∧
        ∃ last, w'.log[k]? = some last ∧ ∀ c, c ∈ last.keys ↔ c ∈ partColumns g) ∧
      (∀ i, i < k → Shows w'.log (w.st.pos + i * g.dx) (r i) ∧ 0 < (r i).velocity ∧ (r i).depth = w.terrain.depth ∧
        w.terrain.slope (w.st.pos + i * g.dx) = .ok (r i).slope ∧
        (g.massConservation = false → (r i).width * (r i).velocity * (r i).depth = (r i).effusionRate) ∧
        (g.massConservation = true → ∃ flux, w.fluxRate = some flux ∧
          (r i).width * (r i).velocity * (r i).depth * (r i).density = flux)) ∧
      (0 < k → (r 0).crystal = w.st.crystal ∧ (r 0).temp = w.st.temp ∧
        (w.iteration = 0 → (r 0).effusionRate = (r 0).velocity * w.terrain.width * w.terrain.depth)) ∧
      (∀ i, i + 1 < k → RowLaws g.models.lava.latentHeat g.dx (r i) (r (i + 1)) ∧
        g.models.cryst.solidTemperature < (r (i + 1)).temp ∧ (r (i + 1)).yieldStrength < (r (i + 1)).basalStress ∧
        w.st.pos + ((i + 1 : ℕ) : ℝ) * g.dx < w.terrain.maxLength) := by
  obtain ⟨k, ws, h0, hacc, _, hlen, hfinal⟩ := C63_rows_are_final_end g hdx n w w' hw h
  classical
  choose r hr using fun i (hi : i < k) => accepted_shows (hacc i hi)
  have hpos : ∀ i, i ≤ k → (ws i).st.pos = w.st.pos + i * g.dx := by
    intro i hi
    rw [(C06_position_time g i ws (fun j hj => hacc j (by omega))).1, h0]
  have hter : ∀ i, i ≤ k → (ws i).terrain = w.terrain := by
    intro i
    induction i with
    | zero => intro _; rw [h0]
    | succ i ih =>
      intro hi
      obtain ⟨A⟩ := acceptedFacts (hacc i (by omega))
      rw [A.terrain_eq, ih (by omega)]
  have hflux : ∀ i, i ≤ k → (ws i).fluxRate = w.fluxRate := by
    intro i
    induction i with
    | zero => intro _; rw [h0]
    | succ i ih =>
      intro hi
      obtain ⟨A⟩ := acceptedFacts (hacc i (by omega))
      rw [A.flux_eq, ih (by omega)]
  let dummy : ProfileRow := ⟨0, 0, 0, 0, 0, 0, 0, 0, 0, 0, 0, 0, 0, 0⟩
  refine ⟨k, fun i => if hi : i < k then r i hi else dummy, hlen, ?_, ?_, ?_⟩
  · intro i hi
    simp only [dif_pos hi]
    obtain ⟨hsh, _, _, hv, _, hd, _, _, _, _, _, hcons, _, _, _, _, _, hsl⟩ := hr i hi
    have hshows : Shows w'.log (ws i).st.pos (r i hi) := by
      have key : ∀ name, loggedNum w'.log (ws i).st.pos name = loggedNum (ws (i + 1)).log (ws i).st.pos name := by
        intro name; unfold loggedNum; rw [hfinal i hi]
      constructor <;> first | rw [key] | rw [hfinal i hi]
      exacts [hsh.1, hsh.2, hsh.3, hsh.4, hsh.5, hsh.6, hsh.7, hsh.8, hsh.9, hsh.10, hsh.11, hsh.12, hsh.13, hsh.14]
    rw [hpos i hi.le] at hshows
    refine ⟨hshows, hv, by rw [hd, hter i hi.le], by rw [← hpos i hi.le, ← hter i hi.le]; exact hsl, fun hm => by rw [hcons, hm]; rfl, fun hm => ?_⟩
    obtain ⟨flux, wd, v, dp, rho, e1, _, e3, e4, e5, e6, e7⟩ := C12_mass_conservation g hm _ _ (hacc i hi)
    rw [hsh.width] at e3
    rw [hsh.velocity] at e4
    rw [hsh.depth] at e5
    rw [hsh.density] at e6
    cases e3; cases e4; cases e5; cases e6
    exact ⟨flux, by rw [← hflux i hi.le]; exact e1, e7⟩
  · intro hk
    simp only [dif_pos hk]
    obtain ⟨_, hc, ht, _, ⟨x, hv⟩, _, _, _, _, _, he, _⟩ := hr 0 hk
    rw [hc, ht, h0]
    refine ⟨rfl, rfl, fun hit => ?_⟩
    obtain ⟨A⟩ := acceptedFacts (hacc 0 hk)
    rw [A.hv, Except.ok.injEq, Prod.mk.injEq] at hv
    rw [he, A.eff_eq, ← hv.1, ← hter 0 (by omega)]
    have : (ws 0).iteration = 0 := by rw [h0]; exact hit
    simp [World.stepEffusion, this]
  · intro i hi
    have hi0 : i < k := by omega
    simp only [dif_pos hi0, dif_pos hi]
    obtain ⟨_, hc, ht, _, _, hd, _, _, _, _, he, _, hlt, hcg, htg, hct, hen, _⟩ := hr i hi0
    obtain ⟨_, hc', ht', _, _, hd', _, _, hy', hb', he', _⟩ := hr (i + 1) hi
    have hreason := (C13_accepted_reason g _ _ (hacc i hi0)).2 (hacc (i + 1) hi).1
    refine ⟨⟨by rw [hc, hc']; exact hlt, by rw [hc, hc']; exact hcg, by rw [ht, ht']; exact htg,
      by rw [hc, hc', ht, ht']; exact hct, by rw [hc, hc']; exact hen, by rw [hd, hd', hter _ hi.le, hter _ hi0.le], ?_⟩,
      by rw [ht']; exact hreason.1, ?_, by rw [← hpos _ hi.le, ← hter _ hi.le]; exact hreason.2.2.2⟩
    · rw [he, he']
      obtain ⟨B⟩ := acceptedFacts (hacc (i + 1) hi)
      have hit := (C06_position_time g (i + 1) ws (fun j hj => hacc j (by omega))).2.1
      have : (ws (i + 1)).iteration ≠ 0 := by omega
      rw [B.eff_eq]; simp [World.stepEffusion, this]
    · have hyc := hreason.2.2.1
      unfold Lava.yieldNotCompatible at hyc
      rw [hy', ok_bind, hb', ok_bind, pure_ok_iff, Bool.eq_false_iff] at hyc
      simpa only [ne_eq, leB_real, not_le] using hyc

/-- **C64**. Consequences for the whole table: the crystal fraction and the core temperature shown in a row are those of
    the first row plus the sums of the gradients shown above it times the step; all rows show one effusion rate and one
    depth; crystal fractions increase strictly down the table; and the heat shown above a row is the latent heat of the
    crystals grown up to it. -/
theorem C64_integrated (L dx : ℝ) (k : Nat) (r : Nat → ProfileRow)
    (h : ∀ i, i + 1 < k → RowLaws L dx (r i) (r (i + 1))) :
    (∀ j, j < k → (r j).crystal = (r 0).crystal + (∑ i ∈ Finset.range j, (r i).crystalGradient) * dx ∧
      (r j).temp = (r 0).temp + (∑ i ∈ Finset.range j, (r i).tempGradient) * dx ∧
      (r j).effusionRate = (r 0).effusionRate ∧ (r j).depth = (r 0).depth ∧
      (r 0).effusionRate * L * ∑ i ∈ Finset.range j, (r i).density * ((r (i + 1)).crystal - (r i).crystal) =
        (∑ i ∈ Finset.range j, (r i).heat) * dx) ∧
    ∀ i j, i < j → j < k → (r i).crystal < (r j).crystal := by
  constructor
  · intro j
    induction j with
    | zero => intro _; simp
    | succ j ih =>
      intro hj
      obtain ⟨h1, h2, h3, h4, h5⟩ := ih (by omega)
      have c := h j hj
      rw [Finset.sum_range_succ, Finset.sum_range_succ, Finset.sum_range_succ, Finset.sum_range_succ]
      refine ⟨?_, ?_, by rw [c.same_rate, h3], by rw [c.same_depth, h4], ?_⟩
      · rw [c.crystal_slope, h1]; ring
      · rw [c.temp_slope, h2]; ring
      · have e := c.energy
        rw [h3] at e
        rw [mul_add, h5, add_mul, ← e]; ring
  · intro i j hij
    induction j with
    | zero => omega
    | succ j ih =>
      intro hj
      have c := (h j hj).crystals_increase
      rcases Nat.lt_succ_iff_lt_or_eq.mp hij with h' | rfl
      · exact (ih h' (by omega)).trans c
      · exact c

/-- **C64**: the hypotheses are met by runs with any number n >= 2 of complete rows. -/
example (n : Nat) (hn : 2 ≤ n) : ∃ (g : Integrator ℝ) (w w' : World ℝ), 0 < g.dx ∧ w.log = [] ∧
    runLoop g n w = some (.ok (), w') ∧ ∃ (k : Nat) (r : Nat → ProfileRow), n ≤ k + 1 ∧
      ∀ i, i + 1 < k → RowLaws g.models.lava.latentHeat g.dx (r i) (r (i + 1)) := by
  have hn' : (0:ℝ) < n := by positivity
  obtain ⟨w', t, h1, h2, _⟩ := long_result (1 / (300 * n)) 0 n (by positivity) n (by omega)
    (by field_simp; norm_num) (by linarith) (by linarith)
  obtain ⟨k, r, h3, _, _, h4⟩ := C64_table (longG _) (by show (0:ℝ) < 1; norm_num) n _ w' rfl h1
  exact ⟨_, _, w', by show (0:ℝ) < 1; norm_num, rfl, h1, k, r, by omega, fun i hi => (h4 i hi).1⟩

end PyFlowGo
