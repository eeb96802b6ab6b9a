import Verif.Props.PlotErrors
import Verif.Props.RunOutExamples
import Verif.Proofs.WindlessRun
/-
  C67 on concrete runs.
-/
namespace PyFlowGo
open Spec

/-- **C67**: runs of every length from 3 rows on that are drawn; the positions drawn are those of all rows but the first. -/
theorem still_drawn (x0 len eps : ℝ) (heps : 0 < eps) (n : Nat) (hn : 3 ≤ n) (hsmall : 3 * eps * n ≤ 1 / 100)
    (h1 : x0 + n - 1 < len) (h2 : len ≤ x0 + n) :
    ∃ w' t c, runLoop (flowG [.convection, .rain eps 1 1]) n (longWorld x0 len) = some (.ok (), w') ∧
      writeValues w'.log = .ok (some t) ∧ plotFile false t = .ok (c, true) ∧
      c.distance = (List.range (n - 1)).map (fun i : ℕ => x0 + ((i : ℝ) + 1)) := by
  obtain ⟨w', t, a1, a2, a3, a4⟩ := still_result (longTerrain_channel len) _ eps x0 (gentle_still (longTerrain_channel len) eps heps) heps n (by omega) hsmall h1 h2 _
    (longInv_zero eps x0 len) rfl
  have hdx : 0 < (flowG [.convection, .rain eps 1 1]).dx := by show (0:ℝ) < 1; norm_num
  have hlast : ∀ r ∈ w'.log.getLast?, "slope" ∈ r.keys := fun r hr =>
    (a3 r (List.mem_of_getLast? hr) "slope").mpr (List.mem_cons_of_mem _ (List.mem_append_right _ (by decide)))
  obtain ⟨c, q', hc⟩ := (C67_run_can_be_drawn false _ hdx n _ w' rfl a1 t a4).mpr
    ⟨by omega, hlast, Or.inl (by simp [flowG, flowModels])⟩
  obtain ⟨_, _, _, _, _, _, _, rfl⟩ := (C67_curves false q' _ t a4 c).mp hc
  refine ⟨w', t, c, a1, a4, hc, ?_⟩
  have := C67_source_is_not_drawn false true _ hdx n _ w' rfl a1 t a4 c hc
  rw [this, a2]
  refine List.map_congr_left fun i _ => ?_
  show x0 + ((i : ℝ) + 1) * 1 = _
  ring

/-- With 10 rows. -/
example : ∃ w' t c, runLoop (flowG [.convection, .rain (1 / 3000) 1 1]) 10 (longWorld 0 10) = some (.ok (), w') ∧
    writeValues w'.log = .ok (some t) ∧ plotFile false t = .ok (c, true) ∧ c.distance.length = 9 := by
  obtain ⟨w', t, c, h1, h2, h3, h4⟩ := still_drawn 0 10 (1 / 3000) (by norm_num) 10 (by norm_num) (by norm_num) (by norm_num)
    (by norm_num)
  exact ⟨w', t, c, h1, h2, h3, by rw [h4]; simp⟩

/-- The same flow without convection cannot be drawn. -/
example : ∃ w' t, runLoop (longG (1 / 3000)) 10 (longWorld 0 10) = some (.ok (), w') ∧ writeValues w'.log = .ok (some t) ∧
    ¬ ∃ c q', plotFile false t = .ok (c, q') := by
  obtain ⟨w', t, a1, a2, a3, a4⟩ := long_result (1 / 3000) 0 10 (by norm_num) 10 (by norm_num) (by norm_num) (by norm_num)
    (by norm_num)
  refine ⟨w', t, a1, a4, fun h => ?_⟩
  have := ((C67_run_can_be_drawn false _ (by show (0:ℝ) < 1; norm_num) 10 _ w' rfl a1 t a4).mp h).2.2
  simp [flowG, flowModels] at this

/-- The failures of runs of every length: without convection a flow of at least two complete rows fails by a KeyError. -/
theorem long_not_drawn (eps x0 len : ℝ) (heps : 0 < eps) (n : Nat) (hn : 2 ≤ n) (hsmall : 3 * eps * n ≤ 1 / 100)
    (h1 : x0 + n - 1 < len) (h2 : len ≤ x0 + n) (q : Bool) :
    ∃ w' t, runLoop (longG eps) n (longWorld x0 len) = some (.ok (), w') ∧ writeValues w'.log = .ok (some t) ∧
      plotFile q t = .error .keyError := by
  obtain ⟨w', t, a1, a2, a3, a4⟩ := long_result eps x0 len heps n (by omega) hsmall h1 h2
  refine ⟨w', t, a1, a4, ?_⟩
  have hlast : ∀ r ∈ w'.log.getLast?, "slope" ∈ r.keys := fun r hr =>
    (a3 r (List.mem_of_getLast? hr) "slope").mpr (List.mem_cons_of_mem _ (List.mem_append_right _ (by decide)))
  have hs : ¬ (.convection ∈ (longG eps).models.fluxes ∨ .snyder ∈ (longG eps).models.fluxes) := by simp [flowG, flowModels]
  rw [C67_run_failures q _ (by show (0:ℝ) < 1; norm_num) n _ w' rfl a1 t a4 _ n a2.symm _ _ Iff.rfl Iff.rfl]
  left
  refine ⟨rfl, Or.inr ?_⟩
  by_cases h : n = 2
  · exact Or.inl ⟨h, hlast, hs⟩
  · exact Or.inr ⟨by omega, hs⟩

/-- With convection, one row fails by a ValueError and two rows by an IndexError. -/
theorem short_not_drawn (eps : ℝ) (heps : 0 < eps) (n : Nat) (hn : 1 ≤ n) (hn2 : n ≤ 2) (hsmall : 3 * eps * n ≤ 1 / 100)
    (q : Bool) :
    ∃ w' t, runLoop (flowG [.convection, .rain eps 1 1]) n (longWorld 0 n) = some (.ok (), w') ∧
      writeValues w'.log = .ok (some t) ∧ plotFile q t = .error (if n = 1 then .valueError else .indexError) := by
  obtain ⟨w', t, a1, a2, a3, a4⟩ := still_result (longTerrain_channel n) _ eps 0 (gentle_still (longTerrain_channel n) eps heps) heps n (by omega) hsmall (by linarith) (by linarith) _
    (longInv_zero eps 0 n) rfl
  refine ⟨w', t, a1, a4, ?_⟩
  have hlast : ∀ r ∈ w'.log.getLast?, "slope" ∈ r.keys := fun r hr =>
    (a3 r (List.mem_of_getLast? hr) "slope").mpr (List.mem_cons_of_mem _ (List.mem_append_right _ (by decide)))
  rw [C67_run_failures q _ (by show (0:ℝ) < 1; norm_num) n _ w' rfl a1 t a4 _ n a2.symm _ _ Iff.rfl Iff.rfl]
  right
  by_cases h : n = 1
  · rw [if_pos h]; exact Or.inl ⟨rfl, Or.inl ⟨h, hlast⟩⟩
  · rw [if_neg h]; exact Or.inr ⟨rfl, by omega, hlast, Or.inl (by simp [flowG, flowModels])⟩

example (q : Bool) : ∃ w' t, runLoop (longG (1 / 3000)) 10 (longWorld 0 10) = some (.ok (), w') ∧
    writeValues w'.log = .ok (some t) ∧ plotFile q t = .error .keyError :=
  long_not_drawn (1 / 3000) 0 10 (by norm_num) 10 (by norm_num) (by norm_num) (by norm_num) (by norm_num) q

/-- A hand-made file with an empty cell. -/
example : ∃ t, writeValues [[("effusion_rate", .num 1), ("position", .num 0), ("slope", .num 0)], [("position", Cell.num (1 : ℝ))]] =
    .ok (some t) ∧ plotFile false t = .error .valueError := by
  refine ⟨_, rfl, (C67_failures false [("effusion_rate", .num 1), ("position", .num 0), ("slope", .num 0)] [[("position", Cell.num (1 : ℝ))]] _ rfl _).mpr ?_⟩
  exact .badRow (by simp [Row.keys]) [] _ [] rfl (by simp) _
    ⟨["position"], "slope", _, rfl, by simp [Row.keys], by simp [Row.keys], Or.inl ⟨by simp [Row.keys], rfl⟩⟩

end PyFlowGo
