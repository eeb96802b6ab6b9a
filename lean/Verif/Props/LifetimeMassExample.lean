import Verif.Props.LifetimeMass
import Verif.Props.LifetimeExample
import Verif.Props.MassSwitch
/-
  C106 with mass conservation: flows of any length that meet the hypotheses.
-/
set_option linter.unusedSectionVars false
namespace PyFlowGo
open Spec

/-- In a log made of accepted steps only, every cell stands in the row of an accepted step. -/
theorem accepted_cell (g : Integrator ℝ) (hdx : 0 < g.dx) (n : Nat) (ws : Nat → World ℝ) (h : AcceptedRun g n ws) (h0 : (ws 0).log = [])
    (x : ℝ) (c : Cell ℝ) (name : String) (hs : cellAt (ws n).log (.num x) name = some c) :
    ∃ i, i < n ∧ x = (ws i).st.pos ∧ ∀ name, cellAt (ws n).log (.num x) name = cellAt (ws (i + 1)).log (.num x) name := by
  obtain ⟨row, r1, r2⟩ := acceptedRun_rows g hdx n ws h h0
  have hlog := r2 n le_rfl
  obtain ⟨r, hr⟩ : ∃ r, (ws n).log.find? (fun r => r.atPosition (.num x)) = some r := by
    cases hf : (ws n).log.find? (fun r => r.atPosition (.num x)) with
    | none =>
      unfold cellAt at hs
      rw [hf] at hs
      cases hs
    | some r => exact ⟨r, rfl⟩
  have hm := List.mem_of_find?_eq_some hr
  rw [hlog] at hm
  obtain ⟨i, hi, rfl⟩ := List.mem_map.mp hm
  have hi := List.mem_range.mp hi
  have hat : (row i).atPosition (.num x) = true := by
    have := List.find?_some hr
    exact this
  have hx : x = (ws 0).st.pos + i * g.dx := (atPosition_num _ _ _ (r1 i hi).1).mp hat
  refine ⟨i, hi, by rw [hx, (C06_position_time g i ws (fun j hj => h j (by omega))).1], fun name => ?_⟩
  unfold cellAt
  have hnone : ((List.range i).map row).find? (fun r => r.atPosition (.num x)) = none := by
    rw [List.find?_eq_none]
    intro r hr
    obtain ⟨j, hj, rfl⟩ := List.mem_map.mp hr
    have hj := List.mem_range.mp hj
    rw [atPosition_num _ _ _ (r1 j (by omega)).1, hx]
    intro e
    have : (j : ℝ) < i := by exact_mod_cast hj
    nlinarith
  have : (ws (i + 1)).log.find? (fun r => r.atPosition (.num x)) = some (row i) := by
    rw [r2 (i + 1) (by omega), List.range_succ, List.map_append, List.find?_append, hnone]
    simp only [List.map_cons, List.map_nil, Option.none_or]
    rw [List.find?_cons_of_pos (by exact hat)]
  rw [hr, this]

/-- **C106** with mass conservation: flows of any length meet the hypotheses of the bound on the life time. -/
example (n : Nat) (hn : 1 ≤ n) : ∃ (g : Integrator ℝ) (w w' : World ℝ) (flux rho e q : ℝ), 0 < g.dx ∧ g.massConservation = true ∧ w.log = [] ∧
    w.iteration = 0 ∧ 0 < w.terrain.width ∧ 0 < w.terrain.depth ∧ 0 < g.models.lava.latentHeat ∧ w.fluxRate = some flux ∧ 0 < flux ∧
    runLoop g n w = some (.ok (), w') ∧ w'.log.length = n ∧ 0 ≤ e ∧ 0 < q ∧
    (∀ x y, loggedNum w'.log x "density" = some y → 0 < y ∧ y ≤ rho) ∧
    (∀ x y, cellAt w'.log (.num x) "effusion_rate" = some (.text y) → y ≤ e) ∧
    ∀ x b y, loggedNum w'.log x "heat_budget" = some y → loggedNum w'.log x "channel_width" = some b → q * b ≤ y := by
  have hn' : (0 : ℝ) < n := by positivity
  set eps : ℝ := 1 / (300 * n) with heps0
  have heps : 0 < eps := by positivity
  have hsmall : 3 * eps * n ≤ 1 / 100 := by rw [heps0]; field_simp; norm_num
  set w0 : World ℝ := { longWorld 0 n with fluxRate := some 1 } with hw0
  have z := longInv_zero eps 0 n
  have h0 : LongInv (longTerrain n) eps 0 0 w0 := ⟨z.terrain, z.iter, z.unfinished, z.rate, z.pos, z.phi0, z.phi1, z.start, z.temp⟩
  obtain ⟨ws, w', g1, g2, rfl, _, g5, _⟩ := flow_run (longTerrain_channel (n : ℝ)) _ eps 0 _ slow_basic (gentle_rain _ eps heps) heps n hn hsmall (by linarith) (by linarith) w0 h0
  have hdx : 0 < (longG eps).dx := one_pos
  have hl0 : (ws 0).log = [] := by rw [g1]; rfl
  obtain ⟨row, _, r2⟩ := acceptedRun_rows _ hdx n ws g2 hl0
  obtain ⟨v, hv, _, hv1⟩ := long_velocity (longTerrain_channel (n : ℝ)) w0.st h0.phi0 (by rw [h0.start rfl]; norm_num) h0.temp
  have hv1 := hv1 (h0.start rfl)
  have hmass := runLoop_mass (longG eps) 1 one_ne_zero (fun s => exLava_density 1 (.kd 1 0) .ryerson s) n w0 (by
    intro v' x hv'
    have hv' : (exLava 1 (.kd 1 0) .ryerson).meanVelocity (longTerrain n) w0.st = .ok (v', x) := hv'
    rw [hv, Except.ok.injEq, Prod.mk.injEq] at hv'
    show some (1 : ℝ) = some ((v' * 1 * 1) * 1)
    rw [← hv'.1, hv1]
    norm_num)
  obtain ⟨e, he0, he⟩ : ∃ e : ℝ, 0 ≤ e ∧ ∀ i, i < n → ∀ E, cellAt (ws n).log (.num (ws i).st.pos) "effusion_rate" = some (.text E) → E ≤ e := by
    clear_value w0
    have : ∀ m, m ≤ n → ∃ e : ℝ, 0 ≤ e ∧ ∀ i, i < m → ∀ E, cellAt (ws n).log (.num (ws i).st.pos) "effusion_rate" = some (.text E) → E ≤ e := by
      intro m
      induction m with
      | zero => intro _; exact ⟨0, le_rfl, fun i hi => absurd hi (by omega)⟩
      | succ m ih =>
        intro hm
        obtain ⟨e, h1, h2⟩ := ih (by omega)
        by_cases hE : ∃ E, cellAt (ws n).log (.num (ws m).st.pos) "effusion_rate" = some (.text E)
        · obtain ⟨E, hE⟩ := hE
          refine ⟨max e E, h1.trans (le_max_left _ _), fun i hi E' hE' => ?_⟩
          rcases Nat.lt_succ_iff_lt_or_eq.mp hi with hi | rfl
          · exact (h2 i hi E' hE').trans (le_max_left _ _)
          · rw [hE, Option.some.injEq, Cell.text.injEq] at hE'
            rw [← hE']
            exact le_max_right _ _
        · refine ⟨e, h1, fun i hi E' hE' => ?_⟩
          rcases Nat.lt_succ_iff_lt_or_eq.mp hi with hi | rfl
          · exact h2 i hi E' hE'
          · exact absurd ⟨E', hE'⟩ hE
    exact this n le_rfl
  refine ⟨(longG eps).withMass true, w0, ws n, 1, 1, e, eps, hdx, rfl, rfl, rfl, one_pos, one_pos, one_pos, rfl, one_pos, by rw [hmass]; exact g5, by rw [r2 n le_rfl]; simp, he0, heps,
    fun x y hs => ?_, fun x y hs => ?_, fun x b y h1 h2 => ?_⟩
  · obtain ⟨i, hi, rfl, he⟩ := accepted_shown _ hdx n ws g2 hl0 x y _ hs
    obtain ⟨d, _, hsh, _⟩ := accepted_row (g2 i hi)
    rw [he, hsh.density] at hs
    rw [← Option.some.inj hs]
    have hd : (longG eps).models.lava.density (ws i).st = 1 := exLava_density 1 (.kd 1 0) .ryerson _
    rw [hd]
    exact ⟨one_pos, le_rfl⟩
  · obtain ⟨i, hi, rfl, _⟩ := accepted_cell _ hdx n ws g2 hl0 x _ _ hs
    exact he i hi y hs
  · obtain ⟨i, hi, rfl, he⟩ := accepted_shown _ hdx n ws g2 hl0 x y _ h1
    obtain ⟨d, _, hsh, _, hf⟩ := accepted_row (g2 i hi)
    obtain ⟨_, _, qs, hqs, hsum, _⟩ := hf fun _ _ => rfl
    rw [he, hsh.heat_budget] at h1
    rw [he, hsh.channel_width] at h2
    rw [← Option.some.inj h1, ← Option.some.inj h2, hsum]
    cases hqs with
    | cons hq hrest =>
      cases hrest
      have hq : _ = eps * 1 * 1 * d.width := hq
      rw [hq]
      simp

end PyFlowGo
