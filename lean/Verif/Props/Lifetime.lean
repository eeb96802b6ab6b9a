import Verif.Props.Euler
import Verif.Props.Columns
/-
  C106: heat account of a whole run by time, and how long and how far a flow can run.
-/
set_option linter.unusedSectionVars false
namespace PyFlowGo
open Spec

/-- One step in volume mode: the latent heat released per square metre of channel is the heat lost per square metre in the time of the step. -/
theorem step_account {g : Integrator ℝ} (hm : g.massConservation = false) {T : Terrain ℝ} {fr : Option ℝ} {E : ℝ} {s s' : FlowState ℝ} {d : RowData}
    (hr : RowMade g T fr E s d) (he : EulerStep g T E s s' d) :
    d.width ≠ 0 ∧ T.depth * g.models.lava.latentHeat * (g.models.lava.density s * (s'.crystal - s.crystal)) =
      d.heat / d.width * (s'.time - s.time) := by
  have hv := hr.moving.ne'
  have hd := hr.depth
  have hden := hr.denominator
  have hE : E ≠ 0 := fun h => hden (by rw [h]; ring)
  have hrho : g.models.lava.density s ≠ 0 := fun h => hden (by rw [h]; ring)
  have hL : g.models.lava.latentHeat ≠ 0 := fun h => hden (by rw [h]; ring)
  have hw := hr.volume hm
  refine ⟨?_, ?_⟩
  · rw [hw]
    exact div_ne_zero hE (mul_ne_zero hv hd)
  · rw [he.crystal, he.time, hw]
    unfold crystalGradient
    generalize g.models.lava.density s = rho at *
    generalize g.models.lava.latentHeat = L at *
    field_simp
    ring

/-- **C106**, the account. In a run with a fresh log, a positive step and volume conservation, up to every row: the latent heat of the crystals
    grown so far, per square metre of channel floor (density times depth times latent heat times crystals grown, step by step), is the heat
    shown per square metre of surface (`heat_budget / channel_width`) times the time the steps took. The rows show the numbers named. -/
theorem C106_heat_account (g : Integrator ℝ) (hdx : 0 < g.dx) (hm : g.massConservation = false) (n : Nat) (w w' : World ℝ) (hw : w.log = [])
    (h : runLoop g n w = some (.ok (), w')) :
    ∃ (k : Nat) (s : Nat → FlowState ℝ) (d : Nat → RowData) (E : ℝ), (w'.log.length = k ∨ w'.log.length = k + 1) ∧
      s 0 = w.st ∧ w'.st = { s k with strain := w'.st.strain } ∧
      (∀ i, i < k → RowMade g w.terrain w.fluxRate E (s i) (d i) ∧ RowShown g w.terrain E w'.log (s i) (d i) ∧
        EulerStep g w.terrain E (s i) (s (i + 1)) (d i)) ∧
      ∀ j, j ≤ k → w.terrain.depth * g.models.lava.latentHeat *
          ∑ i ∈ Finset.range j, g.models.lava.density (s i) * ((s (i + 1)).crystal - (s i).crystal) =
        ∑ i ∈ Finset.range j, (d i).heat / (d i).width * ((s (i + 1)).time - (s i).time) := by
  obtain ⟨k, s, d, E, hlen, h0, hend, _, hrow⟩ := C70_euler_table g hdx n w w' hw h
  refine ⟨k, s, d, E, hlen, h0, hend, fun i hi => ⟨(hrow i hi).1, (hrow i hi).2.1, (hrow i hi).2.2.1⟩, ?_⟩
  intro j hj
  rw [Finset.mul_sum]
  apply Finset.sum_congr rfl
  intro i hi
  have hi := Finset.mem_range.mp hi
  exact (step_account hm (hrow i (by omega)).1 (hrow i (by omega)).2.2.1).2

section
variable {g : Integrator ℝ} {T : Terrain ℝ} {fr : Option ℝ} {E : ℝ}

/-- The same for a stretch of steps whose surface loses at least `q` per square metre. -/
theorem stretch_bound (hm : g.massConservation = false) (hdx : 0 < g.dx) (hD : 0 < T.depth) (hL : 0 < g.models.lava.latentHeat)
    (j : Nat) (s : Nat → FlowState ℝ) (d : Nat → RowData)
    (hrow : ∀ i, i < j → RowMade g T fr E (s i) (d i) ∧ EulerStep g T E (s i) (s (i + 1)) (d i) ∧ (s i).crystal < (s (i + 1)).crystal)
    (rho q : ℝ) (hrho : ∀ i, i < j → g.models.lava.density (s i) ≤ rho) (hq : ∀ i, i < j → q * (d i).width ≤ (d i).heat)
    (hE : 0 < E) :
    q * ((s j).time - (s 0).time) ≤ rho * T.depth * g.models.lava.latentHeat * ((s j).crystal - (s 0).crystal) := by
  induction j with
  | zero => simp
  | succ j ih =>
    have ih := ih (fun i hi => hrow i (by omega)) (fun i hi => hrho i (by omega)) fun i hi => hq i (by omega)
    obtain ⟨hr, he, hc⟩ := hrow j (by omega)
    obtain ⟨hw0, hacc⟩ := step_account hm hr he
    have hwpos : 0 < (d j).width := by
      rw [hr.volume hm]
      exact div_pos hE (mul_pos hr.moving hD)
    have hdt : 0 < (s (j + 1)).time - (s j).time := by
      rw [he.time]
      have := div_pos hdx hr.moving
      linarith
    have h1 : q * ((s (j + 1)).time - (s j).time) ≤ (d j).heat / (d j).width * ((s (j + 1)).time - (s j).time) := by
      apply mul_le_mul_of_nonneg_right _ hdt.le
      rw [le_div_iff₀ hwpos]
      exact hq j (by omega)
    have h2 : T.depth * g.models.lava.latentHeat * (g.models.lava.density (s j) * ((s (j + 1)).crystal - (s j).crystal)) ≤
        T.depth * g.models.lava.latentHeat * (rho * ((s (j + 1)).crystal - (s j).crystal)) := by
      apply mul_le_mul_of_nonneg_left _ (mul_pos hD hL).le
      exact mul_le_mul_of_nonneg_right (hrho j (by omega)) (sub_pos.mpr hc).le
    rw [hacc] at h2
    linarith

end

/-- What a run shows of its rows, with the crystal fraction growing and the effusion rate positive. -/
theorem growing_rows (g : Integrator ℝ) (hdx : 0 < g.dx) (n : Nat) (w w' : World ℝ) (hw : w.log = []) (hit : w.iteration = 0)
    (hW : 0 < w.terrain.width) (hD : 0 < w.terrain.depth) (h : runLoop g n w = some (.ok (), w')) :
    ∃ (k : Nat) (ws : Nat → World ℝ) (s : Nat → FlowState ℝ) (d : Nat → RowData) (E : ℝ), ws 0 = w ∧ AcceptedRun g k ws ∧
      s = (fun i => (ws i).st) ∧ (w'.log.length = k ∨ w'.log.length = k + 1) ∧
      s 0 = w.st ∧ w'.st = { s k with strain := w'.st.strain } ∧ (0 < k → 0 < E) ∧
      ∀ i, i < k → RowMade g w.terrain w.fluxRate E (s i) (d i) ∧ RowShown g w.terrain E w'.log (s i) (d i) ∧
        EulerStep g w.terrain E (s i) (s (i + 1)) (d i) ∧ (s i).crystal < (s (i + 1)).crystal ∧
        (StrainIndependent g.models.lava → (d i).vCover = (d i).v ∧
          ∃ qs : List ℝ, List.Forall₂ (FluxIs g.models (d i).width w.terrain.depth w.terrain (s i)) g.models.fluxes qs ∧
            (d i).heat = qs.sum ∧ (ColumnsKept g.models.fluxes →
              List.Forall₂ (fun f q => loggedNum w'.log (s i).pos (fluxColumn f) = some q) g.models.fluxes qs)) := by
  obtain ⟨k, ws, s, d, E, hws, hacc, hs, _, _, _, _, hlen, h0, hend, hE, hrow⟩ := table_worlds g hdx n w w' hw h
  refine ⟨k, ws, s, d, E, hws, hacc, hs, hlen, h0, hend, fun hk => ?_, fun i hi => ⟨(hrow i hi).1, (hrow i hi).2.1, (hrow i hi).2.2.1, ?_, fun hsi => ?_⟩⟩
  · rw [hE hk, if_pos hit]
    exact mul_pos (mul_pos (hrow 0 hk).1.moving hW) hD
  · rw [hs]
    exact C07_crystals_increase g _ _ (hacc i hi)
  · obtain ⟨_, b, c⟩ := (hrow i hi).2.2.2 hsi
    exact ⟨b, c⟩

/-- **C106**, how long. A run (first use of the integrator, fresh log, volume conservation, positive width, depth, latent heat and step) none of
    whose rows shows a density above `rho`, and all of whose rows show a heat loss of at least `q` watt per square metre of surface
    (`heat_budget ≥ q * channel_width`): `q` times the time the flow took is at most the latent heat of the crystals grown, `rho` times depth
    times latent heat times the growth of the crystal fraction. The velocity plays no part in it. -/
theorem C106_lifetime (g : Integrator ℝ) (hdx : 0 < g.dx) (hm : g.massConservation = false) (n : Nat) (w w' : World ℝ) (hw : w.log = [])
    (hit : w.iteration = 0) (hW : 0 < w.terrain.width) (hD : 0 < w.terrain.depth) (hL : 0 < g.models.lava.latentHeat)
    (h : runLoop g n w = some (.ok (), w')) (rho q : ℝ)
    (hrho : ∀ x y, loggedNum w'.log x "density" = some y → y ≤ rho)
    (hq : ∀ x b y, loggedNum w'.log x "heat_budget" = some y → loggedNum w'.log x "channel_width" = some b → q * b ≤ y) :
    q * (w'.st.time - w.st.time) ≤ rho * w.terrain.depth * g.models.lava.latentHeat * (w'.st.crystal - w.st.crystal) := by
  obtain ⟨k, ws, s, d, E, _, _, _, _, h0, hend, hE, hrow⟩ := growing_rows g hdx n w w' hw hit hW hD h
  rw [hend, ← h0]
  rcases Nat.eq_zero_or_pos k with rfl | hk
  · simp
  exact stretch_bound hm hdx hD hL k s d (fun i hi => ⟨(hrow i hi).1, (hrow i hi).2.2.1, (hrow i hi).2.2.2.1⟩) rho q
    (fun i hi => hrho _ _ (hrow i hi).2.1.density) (fun i hi => hq _ _ _ (hrow i hi).2.1.heat_budget (hrow i hi).2.1.channel_width) (hE hk)

/-- **C106**, how long and how far, from the configuration. With the basic crystallisation model the crystals that can still grow above the
    solid temperature are `crystals_grown`. So, under the same conditions, at every complete row the flow is at most
    `rho * depth * latent heat * crystals_grown / q` seconds old, and if no row shows a velocity above `V` it lies at most `V` times that
    time from the vent; the last row of the file is at most one step further. -/
theorem C106_run_out_bound (g : Integrator ℝ) (hdx : 0 < g.dx) (hm : g.massConservation = false) (f grown ts : ℝ) (t0 : Terrain ℝ)
    (x0 time0 : ℝ) (hc : g.models.cryst = .basic f grown ts g.models.lava.eruptionT) (hts : ts < g.models.lava.eruptionT) (hgrown : 0 < grown)
    (n : Nat) (w w' : World ℝ) (hw : w.log = []) (hinit : initialState g.models t0 x0 time0 = .ok w.st)
    (hit : w.iteration = 0) (hW : 0 < w.terrain.width) (hD : 0 < w.terrain.depth) (hL : 0 < g.models.lava.latentHeat)
    (h : runLoop g n w = some (.ok (), w')) (rho q V : ℝ) (hq0 : 0 < q) (hrho0 : 0 ≤ rho)
    (hrho : ∀ x y, loggedNum w'.log x "density" = some y → y ≤ rho)
    (hq : ∀ x b y, loggedNum w'.log x "heat_budget" = some y → loggedNum w'.log x "channel_width" = some b → q * b ≤ y)
    (hV : ∀ x y, loggedNum w'.log x "mean_velocity" = some y → y ≤ V) :
    ∃ (k : Nat) (time : Nat → ℝ), (w'.log.length = k ∨ w'.log.length = k + 1) ∧ time 0 = w.st.time ∧
      (0 < k → time k = w'.st.time ∧ w'.st.pos = w.st.pos + k * g.dx) ∧
      ∀ i, i < k → loggedNum w'.log (w.st.pos + i * g.dx) "position" = some (w.st.pos + i * g.dx) ∧
        (∃ v, loggedNum w'.log (w.st.pos + i * g.dx) "mean_velocity" = some v ∧ time (i + 1) = time i + g.dx / v) ∧
        time i - w.st.time ≤ rho * w.terrain.depth * g.models.lava.latentHeat * grown / q ∧
        i * g.dx ≤ V * (rho * w.terrain.depth * g.models.lava.latentHeat * grown / q) := by
  obtain ⟨k, ws, s, d, E, hws, hacc, hs, hlen, h0, hend, hE, hrow⟩ := growing_rows g hdx n w w' hw hit hW hD h
  have hpos : ∀ i, i ≤ k → (s i).pos = w.st.pos + i * g.dx := by
    intro i hi
    rw [hs]
    dsimp only
    rw [(C06_position_time g i ws (fun j hj => hacc j (by omega))).1, hws]
  refine ⟨k, fun i => (s i).time, hlen, by dsimp only; rw [h0], fun hk => ⟨by rw [hend], by rw [hend]; exact hpos k le_rfl⟩, fun i hi => ?_⟩
  obtain ⟨hr, hsh, he, _⟩ := hrow i hi
  have hshow := hsh.position
  have hvel := hsh.mean_velocity
  rw [hpos i hi.le] at hshow hvel
  have htemp : ts < (s i).temp := by
    rcases Nat.eq_zero_or_pos i with rfl | hi0
    · rw [h0]
      unfold initialState at hinit
      simp only [bind_ok_iff, pure_ok_iff] at hinit
      obtain ⟨_, _, _, _, _, _, e⟩ := hinit
      rw [← e]
      exact hts
    · obtain ⟨j, rfl⟩ : ∃ j, i = j + 1 := ⟨i - 1, by omega⟩
      have := ((C13_accepted_reason g _ _ (hacc j (by omega))).2 (hacc (j + 1) hi).1).1
      rw [hc] at this
      rw [hs]
      exact this
  have hcr : (s i).crystal - (s 0).crystal ≤ grown := by
    have b := C10_crystal_bound g f grown ts t0 x0 time0 hc hts hgrown k ws hacc (by rw [hws]; exact hinit) (by omega) i hi.le
      (by rw [hs] at htemp; exact htemp)
    have a := (C10_crystal_budget g f grown ts t0 x0 time0 hc k ws hacc (by rw [hws]; exact hinit) (by omega)).2 0 (by omega)
    have e0 : (ws 0).st.temp = g.models.lava.eruptionT := by
      rw [hws]
      unfold initialState at hinit
      simp only [bind_ok_iff, pure_ok_iff] at hinit
      obtain ⟨_, _, _, _, _, _, e⟩ := hinit
      rw [← e]
    rw [e0] at a
    rw [hs]
    dsimp only
    rw [a]
    linarith
  have hlife := stretch_bound hm hdx hD hL i s d (fun j hj => ⟨(hrow j (by omega)).1, (hrow j (by omega)).2.2.1, (hrow j (by omega)).2.2.2.1⟩) rho q
    (fun j hj => hrho _ _ (hrow j (by omega)).2.1.density)
    (fun j hj => hq _ _ _ (hrow j (by omega)).2.1.heat_budget (hrow j (by omega)).2.1.channel_width) (hE (by omega))
  have htime : (s i).time - w.st.time ≤ rho * w.terrain.depth * g.models.lava.latentHeat * grown / q := by
    rw [le_div_iff₀ hq0, ← h0, mul_comm]
    refine hlife.trans ?_
    exact mul_le_mul_of_nonneg_left hcr (mul_nonneg (mul_nonneg hrho0 hD.le) hL.le)
  have hdist : ∀ j, j ≤ i → (j : ℝ) * g.dx ≤ V * ((s j).time - (s 0).time) := by
    intro j
    induction j with
    | zero => intro _; simp
    | succ j ih =>
      intro hj
      obtain ⟨hr', hsh', he', _⟩ := hrow j (by omega)
      have ih := ih (by omega)
      have hv := hV _ _ hsh'.mean_velocity
      have h1 : g.dx ≤ V * (g.dx / (d j).v) := by
        have := mul_le_mul_of_nonneg_right hv (div_pos hdx hr'.moving).le
        rwa [mul_div_cancel₀ _ hr'.moving.ne'] at this
      rw [he'.time]
      push_cast
      linarith
  have hV0 : 0 ≤ V := hr.moving.le.trans (hV _ _ hsh.mean_velocity)
  refine ⟨hshow, ⟨_, hvel, he.time⟩, htime, (hdist i le_rfl).trans ?_⟩
  rw [h0]
  exact mul_le_mul_of_nonneg_left htime hV0

theorem forall₂_pair {β γ : Type} {R S : β → γ → Prop} {l : List β} {u : List γ} (h1 : List.Forall₂ R l u) (h2 : List.Forall₂ S l u) :
    List.Forall₂ (fun a b => R a b ∧ S a b) l u := by
  induction h1 with
  | nil => exact .nil
  | cons h _ ih =>
    cases h2 with
    | cons h' h2 => exact .cons ⟨h, h'⟩ (ih h2)

theorem mem_le_sum {fs : List (Flux ℝ)} {qs : List ℝ} {P : Flux ℝ → ℝ → Prop} (h : List.Forall₂ P fs qs) (hq : ∀ f q, f ∈ fs → P f q → 0 ≤ q)
    (f0 : Flux ℝ) (h0 : f0 ∈ fs) : ∃ q, P f0 q ∧ q ≤ qs.sum := by
  induction h with
  | nil => cases h0
  | @cons f q fs qs hp hrest ih =>
    have hrest0 : 0 ≤ qs.sum := by
      clear ih h0
      have hq' : ∀ f q, f ∈ fs → P f q → 0 ≤ q := fun f q hf => hq f q (List.mem_cons_of_mem _ hf)
      clear hq
      induction hrest with
      | nil => simp
      | @cons f q fs qs hp _ ih =>
        rw [List.sum_cons]
        have := hq' f q (by simp) hp
        have := ih fun f q hf => hq' f q (List.mem_cons_of_mem _ hf)
        linarith
    rw [List.sum_cons]
    rcases List.mem_cons.mp h0 with rfl | hmem
    · exact ⟨q, hp, by linarith⟩
    · obtain ⟨q', h1, h2⟩ := ih (fun f q hf => hq f q (List.mem_cons_of_mem _ hf)) hmem
      have := hq f q (by simp) hp
      exact ⟨q', h1, by linarith⟩

/-- **C106**, a radiating flow. A lava whose rheology does not see the strain rate, a crust of constant temperature `Tc` not colder than the air,
    a radiative flux `σ`, `ε`, no flux column that is negative or overwritten, and at every row either a closed crust or a core (less the buffer) at least as hot as the crust: every row
    loses at least `σ * ε * (Tc^4 - Ta^4)` per square metre, so this number may be taken for `q` above. -/
theorem C106_radiating_flow (g : Integrator ℝ) (hdx : 0 < g.dx) (hm : g.massConservation = false) (hsi : StrainIndependent g.models.lava)
    (σ ε Tc : ℝ) (hrad : Flux.radBasic σ ε ∈ g.models.fluxes) (hcols : ColumnsKept g.models.fluxes) (hcrust : g.models.crust = .constant Tc)
    (hσ : 0 ≤ σ * ε) (hTc : 0 ≤ Tc)
    (n : Nat) (w w' : World ℝ) (hw : w.log = []) (hit : w.iteration = 0) (hW : 0 < w.terrain.width) (hD : 0 < w.terrain.depth)
    (h : runLoop g n w = some (.ok (), w'))
    (hpos : ∀ f ∈ g.models.fluxes, ∀ x y, loggedNum w'.log x (fluxColumn f) = some y → 0 ≤ y)
    (hsurf : ∀ x c y, loggedNum w'.log x "effective_cover_fraction" = some c → loggedNum w'.log x "core_temperature" = some y →
      c ≤ 1 ∧ (c = 1 ∨ Tc + g.models.lava.buffer ≤ y)) :
    ∃ (k : Nat), (w'.log.length = k ∨ w'.log.length = k + 1) ∧ ∀ i, i < k → ∃ b y, loggedNum w'.log (w.st.pos + i * g.dx) "channel_width" = some b ∧
      loggedNum w'.log (w.st.pos + i * g.dx) "heat_budget" = some y ∧ σ * ε * (Tc ^ 4 - g.models.air.temp ^ 4) * b ≤ y := by
  obtain ⟨k, ws, s, d, E, hws, hacc, hs, hlen, h0, hend, hE, hrow⟩ := growing_rows g hdx n w w' hw hit hW hD h
  refine ⟨k, hlen, fun i hi => ?_⟩
  have hp : (s i).pos = w.st.pos + i * g.dx := by
    rw [hs]
    dsimp only
    rw [(C06_position_time g i ws (fun j hj => hacc j (by omega))).1, hws]
  obtain ⟨hr, hsh, he, _, hfl⟩ := hrow i hi
  obtain ⟨hvc, qs, hqs, hsum, hshown⟩ := hfl hsi
  have hwpos : 0 < (d i).width := by
    rw [hr.volume hm]
    exact div_pos (hE (by omega)) (mul_pos hr.moving hD)
  have hboth := forall₂_pair hqs (hshown hcols)
  obtain ⟨q, ⟨hq1, hq2⟩, hqle⟩ := mem_le_sum hboth (fun f q hf hfq => hpos f hf _ _ hfq.2) _ hrad
  refine ⟨_, _, by rw [← hp]; exact hsh.channel_width, by rw [← hp]; exact hsh.heat_budget, ?_⟩
  rw [hsum]
  refine le_trans ?_ hqle
  obtain ⟨v, x, Tc', σ', e', hv, hT, _, _, hrx, hem, rfl⟩ := hq1
  rw [hcrust] at hT
  obtain rfl : Tc = Tc' := Except.ok.inj hT
  cases hem
  obtain ⟨x', hv'⟩ := hr.velocity
  rw [hv] at hv'
  have ev : v = (d i).v := (Prod.mk.inj (Except.ok.inj hv')).1
  obtain ⟨hc1, hc2⟩ := hsurf _ _ _ hsh.effective_cover_fraction hsh.core_temperature
  rw [hvc, ← ev] at hc1 hc2
  refine mul_le_mul_of_nonneg_right (mul_le_mul_of_nonneg_left ?_ hσ) hwpos.le
  generalize coverLaw g.models.cover (s i).pos v = c at *
  unfold radiantExchange coreTemperature at *
  rcases hc2 with rfl | hc2
  · linarith
  · have hp4 : Tc ^ 4 ≤ ((s i).temp - g.models.lava.buffer) ^ 4 := pow_le_pow_left₀ hTc (by linarith) 4
    have : 0 ≤ (1 - c) * (((s i).temp - g.models.lava.buffer) ^ 4 - Tc ^ 4) := mul_nonneg (by linarith) (by linarith)
    linarith

end PyFlowGo
