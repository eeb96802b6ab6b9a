import Verif.Props.Lifetime
/-
  C106 with mass conservation.
-/
set_option linter.unusedSectionVars false
namespace PyFlowGo
open Spec

/-- One step in mass mode. The width follows from the mass flux, the crystals from the effusion rate and the density of the row. -/
theorem step_account_mass {g : Integrator ℝ} (hm : g.massConservation = true) {T : Terrain ℝ} {flux E : ℝ} (hf : flux ≠ 0) {s s' : FlowState ℝ} {d : RowData}
    (hr : RowMade g T (some flux) E s d) (he : EulerStep g T E s s' d) :
    d.width = flux / (d.v * T.depth) / g.models.lava.density s ∧ d.width ≠ 0 ∧
      T.depth * g.models.lava.latentHeat * E * (g.models.lava.density s ^ 2 * (s'.crystal - s.crystal)) =
      flux * (d.heat / d.width * (s'.time - s.time)) := by
  have hv := hr.moving.ne'
  have hd := hr.depth
  have hden := hr.denominator
  have hE : E ≠ 0 := fun h => hden (by rw [h]; ring)
  have hrho : g.models.lava.density s ≠ 0 := fun h => hden (by rw [h]; ring)
  have hL : g.models.lava.latentHeat ≠ 0 := fun h => hden (by rw [h]; ring)
  obtain ⟨flux', e, hw⟩ := hr.mass hm
  obtain rfl := Option.some.inj e
  refine ⟨hw, ?_, ?_⟩
  · rw [hw]
    exact div_ne_zero (div_ne_zero hf (mul_ne_zero hv hd)) hrho
  · rw [he.crystal, he.time, hw]
    unfold crystalGradient
    generalize g.models.lava.density s = rho at *
    generalize g.models.lava.latentHeat = L at *
    field_simp
    ring

/-- **C106**, the account with mass conservation. Up to every row the heat shown per square metre of surface times the time the steps took, multiplied by the conserved mass flux, is depth times
    latent heat times effusion rate times the sum of density squared times crystals grown. In volume mode (`C106_heat_account`) one factor density × effusion rate cancels against the flux;
    here it does so only where the density is that of the vent. -/
theorem C106_mass_account (g : Integrator ℝ) (hdx : 0 < g.dx) (hm : g.massConservation = true) (n : Nat) (w w' : World ℝ) (hw : w.log = [])
    (flux : ℝ) (hflux : w.fluxRate = some flux) (hf : flux ≠ 0) (h : runLoop g n w = some (.ok (), w')) :
    ∃ (k : Nat) (s : Nat → FlowState ℝ) (d : Nat → RowData) (E : ℝ), (w'.log.length = k ∨ w'.log.length = k + 1) ∧
      s 0 = w.st ∧ w'.st = { s k with strain := w'.st.strain } ∧
      (∀ i, i < k → RowMade g w.terrain w.fluxRate E (s i) (d i) ∧ RowShown g w.terrain E w'.log (s i) (d i) ∧
        EulerStep g w.terrain E (s i) (s (i + 1)) (d i)) ∧
      ∀ j, j ≤ k → w.terrain.depth * g.models.lava.latentHeat * E *
          ∑ i ∈ Finset.range j, g.models.lava.density (s i) ^ 2 * ((s (i + 1)).crystal - (s i).crystal) =
        flux * ∑ i ∈ Finset.range j, (d i).heat / (d i).width * ((s (i + 1)).time - (s i).time) := by
  obtain ⟨k, s, d, E, hlen, h0, hend, _, hrow⟩ := C70_euler_table g hdx n w w' hw h
  refine ⟨k, s, d, E, hlen, h0, hend, fun i hi => ⟨(hrow i hi).1, (hrow i hi).2.1, (hrow i hi).2.2.1⟩, ?_⟩
  intro j hj
  rw [Finset.mul_sum, Finset.mul_sum]
  apply Finset.sum_congr rfl
  intro i hi
  have hi := Finset.mem_range.mp hi
  exact (step_account_mass hm hf (hflux ▸ (hrow i (by omega)).1) (hrow i (by omega)).2.2.1).2.2

/-- **C106**, how long with mass conservation. If every row shows a positive density of at most `rho`, an effusion rate of at most `e` and a heat loss of at least `q` watt per square metre,
    then `q` times the duration of the flow is at most `e * rho / flux` times the bound of the volume mode. -/
theorem C106_mass_lifetime (g : Integrator ℝ) (hdx : 0 < g.dx) (hm : g.massConservation = true) (n : Nat) (w w' : World ℝ) (hw : w.log = [])
    (hit : w.iteration = 0) (hW : 0 < w.terrain.width) (hD : 0 < w.terrain.depth) (hL : 0 < g.models.lava.latentHeat)
    (flux : ℝ) (hflux : w.fluxRate = some flux) (hf : 0 < flux) (h : runLoop g n w = some (.ok (), w')) (rho e q : ℝ) (he0 : 0 ≤ e)
    (hrho : ∀ x y, loggedNum w'.log x "density" = some y → 0 < y ∧ y ≤ rho)
    (heff : ∀ x y, cellAt w'.log (.num x) "effusion_rate" = some (.text y) → y ≤ e)
    (hq : ∀ x b y, loggedNum w'.log x "heat_budget" = some y → loggedNum w'.log x "channel_width" = some b → q * b ≤ y) :
    q * (w'.st.time - w.st.time) ≤ e * rho / flux * (rho * w.terrain.depth * g.models.lava.latentHeat * (w'.st.crystal - w.st.crystal)) := by
  obtain ⟨k, ws, s, d, E, _, _, _, _, h0, hend, hE, hrow⟩ := growing_rows g hdx n w w' hw hit hW hD h
  rw [hend, ← h0]
  have key : ∀ j, j ≤ k → flux * (q * ((s j).time - (s 0).time)) ≤ e * rho * (rho * w.terrain.depth * g.models.lava.latentHeat * ((s j).crystal - (s 0).crystal)) := by
    intro j
    induction j with
    | zero => intro _; simp
    | succ j ih =>
      intro hj
      have ih := ih (by omega)
      obtain ⟨hr, hsh, he, hc, _⟩ := hrow j (by omega)
      rw [hflux] at hr
      have hEpos := hE (by omega)
      obtain ⟨hwid, hw0, hacc⟩ := step_account_mass hm hf.ne' hr he
      obtain ⟨r0, r1⟩ := hrho _ _ hsh.density
      have e1 := heff _ _ hsh.effusion_rate
      have hwpos : 0 < (d j).width := by
        rw [hwid]
        exact div_pos (div_pos hf (mul_pos hr.moving hD)) r0
      have hdt : 0 < (s (j + 1)).time - (s j).time := by
        rw [he.time]
        have := div_pos hdx hr.moving
        linarith
      have h1 : q * ((s (j + 1)).time - (s j).time) ≤ (d j).heat / (d j).width * ((s (j + 1)).time - (s j).time) := by
        apply mul_le_mul_of_nonneg_right _ hdt.le
        rw [le_div_iff₀ hwpos]
        exact hq _ _ _ hsh.heat_budget hsh.channel_width
      have hdc : 0 ≤ (s (j + 1)).crystal - (s j).crystal := (sub_pos.mpr hc).le
      have h2 : E * g.models.lava.density (s j) ^ 2 ≤ e * rho ^ 2 :=
        mul_le_mul e1 (pow_le_pow_left₀ r0.le r1 2) (sq_nonneg _) he0
      have h3 : w.terrain.depth * g.models.lava.latentHeat * E * (g.models.lava.density (s j) ^ 2 * ((s (j + 1)).crystal - (s j).crystal)) ≤
          e * rho * (rho * w.terrain.depth * g.models.lava.latentHeat * ((s (j + 1)).crystal - (s j).crystal)) := by
        have := mul_le_mul_of_nonneg_left (mul_le_mul_of_nonneg_right h2 hdc) (mul_pos hD hL).le
        linarith
      have h4 := mul_le_mul_of_nonneg_left h1 hf.le
      rw [hacc] at h3
      linarith
  have := key k le_rfl
  rw [show e * rho / flux * (rho * w.terrain.depth * g.models.lava.latentHeat * ((s k).crystal - (s 0).crystal)) =
    e * rho * (rho * w.terrain.depth * g.models.lava.latentHeat * ((s k).crystal - (s 0).crystal)) / flux by ring, le_div_iff₀ hf]
  linarith

end PyFlowGo
