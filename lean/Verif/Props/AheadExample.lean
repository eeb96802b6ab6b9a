import Verif.Props.Ahead
import Verif.Props.SupplyExample
/-
  C116: examples meeting the hypotheses.
-/
set_option linter.unusedSectionVars false
namespace PyFlowGo
open Spec

theorem still_step (env : Env ℝ) : TopEntry (stillConfig 3 3 (.int 1)) "step_size" (.num 1) ∧ (Json.num (1 : ℝ)).toFloat env = .ok 1 :=
  ⟨⟨_, rfl, rfl⟩, rfl⟩

theorem steep_usable (r : SlopeLine ℝ) (h : 0.1 < r.slopeDeg) : usableRows [r] = [r] := by
  unfold usableRows
  rw [List.filter_cons_of_pos (by simpa using h)]
  rfl

theorem steep_two (a b : SlopeLine ℝ) (ha : 0.1 < a.slopeDeg) (hb : 0.1 < b.slopeDeg) : usableRows [a, b] = [a, b] := by
  rw [show [a, b] = [a] ++ [b] from rfl, usable_append, steep_usable a ha, steep_usable b hb]

theorem still_no_smoothing : ¬ EntryAt (stillConfig 3 3 (.int 1)) "terrain_conditions" "slope_smoothing_active" (.bool true) := by
  rintro ⟨o, inner, h1, h2, h3⟩
  cases h1
  cases h2
  cases h3

/-- **C116**: the three rows of the still example, whatever the profile does from 2 km on, and for any coordinates. -/
theorem ahead_example (rest : List (SlopeLine ℝ)) (far : (usableRows rest).Pairwise fun a b => a.dist < b.dist)
    (beyond : ∀ r ∈ rest, 2000 < r.dist) (lat lon elev : ℝ) :
    ∃ log t, log.length = 3 ∧ writeValues log = .ok (some t) ∧
    runOn [1] 3 (exEnv.withSlopes fun _ => some ([⟨lat, lon, elev, 0, 90⟩, ⟨lon, lat, elev, 2000, 90⟩] ++ rest)) "still.json" "out"
        ⟨[("still.json", stillConfig 3 3 (.int 1))], [], []⟩ =
      some (.ok (), ⟨[("still.json", stillConfig 3 3 (.int 1))], [(resultFileName "out" "example" (toString (1 : Int)), t)], log⟩) := by
  obtain ⟨log, t, ⟨hlen, _, cells, hc1, hc2⟩, _, hw, _, _, hrun⟩ := still_run_all exEnv rfl rfl 3 (by omega) (by omega) 1 (.inr rfl) (fun _ x => x)
  have r0 := hrun "still.json" "out" ⟨[("still.json", stillConfig 3 (3 : ℕ) (.int 1))], [], []⟩ (by rw [lookup_cons_eq, if_pos rfl])
  have e3 : ((3 : ℕ) : ℝ) = 3 := by norm_num
  rw [e3] at r0
  refine ⟨log, t, hlen, hw, ?_⟩
  have p90 : (0.1 : ℝ) < 90 := by norm_num
  refine C116_terrain_ahead [1] 3 exEnv "still.json" "out" _ _ (stillConfig 3 3 (.int 1))
    (by show lookup [("still.json", _)] "still.json" = _; rw [lookup_cons_eq]; exact if_pos rfl) rfl r0
    (.str "slope.txt") ⟨_, rfl, rfl⟩ "slope.txt" (Or.inl rfl) _ _ _ rfl rfl ?_ 2000 0 ?_ ?_ 0
    (still_number exEnv 3 3 (.int 1) ("lava_state", "position") (by decide)) (by norm_num) (.num 1) (still_step exEnv).1 1 (still_step exEnv).2
    one_pos ?_
  · rw [usable_append, steep_two _ _ p90 p90]
    refine List.pairwise_append.mpr ⟨by simp, far, ?_⟩
    intro a ha b hb
    have := beyond b (List.mem_of_mem_filter hb)
    simp only [List.mem_cons, List.not_mem_nil, or_false] at ha
    rcases ha with rfl | rfl
    · dsimp only; linarith
    · exact this
  · refine ⟨[⟨0, 0, 0, 0, 90⟩, ⟨0, 0, 0, 2000, 90⟩], [], [], _, [], rest, rfl, by rw [List.append_nil], ?_, .nil, ?_, ?_, Nat.zero_le _⟩
    · exact .cons ⟨rfl, rfl⟩ (.cons ⟨rfl, rfl⟩ .nil)
    · rw [steep_two _ _ p90 p90]; exact le_refl _
    · refine ⟨⟨0, 0, 0, 2000, 90⟩, ?_, le_refl _⟩
      rw [steep_two _ _ p90 p90]; simp
  · intro h
    exact absurd h still_no_smoothing
  · intro row hrow x hx
    have hm : row.get? "position" ∈ log.getValues "position" := List.mem_map_of_mem (f := fun r : Row (Cell ℝ) => r.get? "position") hrow
    rw [hc1, hx] at hm
    obtain ⟨c, hc, he⟩ := List.mem_map.mp hm
    have : x ∈ (List.range 3).map (fun i : ℕ => (i : ℝ)) := by
      rw [hc2]
      refine List.mem_map.mpr ⟨c, hc, ?_⟩
      cases he
      rfl
    obtain ⟨i, hi, rfl⟩ := List.mem_map.mp this
    have : (i : ℝ) ≤ 3 := by exact_mod_cast (List.mem_range.mp hi).le
    linarith

/-- For instance an ascent, a plain and a cliff at 3 km. -/
example := ahead_example [⟨0, 0, 0, 2500, -20⟩, ⟨0, 0, 0, 2600, 0⟩, ⟨0, 0, 0, 3000, 89⟩]
  (by
    rw [show ([⟨0, 0, 0, 2500, -20⟩, ⟨0, 0, 0, 2600, 0⟩, ⟨0, 0, 0, 3000, 89⟩] : List (SlopeLine ℝ)) =
      [] ++ [⟨0, 0, 0, 2500, -20⟩, ⟨0, 0, 0, 2600, 0⟩] ++ [⟨0, 0, 0, 3000, 89⟩] from rfl]
    rw [usable_insert _ _ _ (by intro r hr; simp only [List.mem_cons, List.not_mem_nil, or_false] at hr; rcases hr with rfl | rfl <;> norm_num)]
    rw [List.nil_append, steep_usable _ (by norm_num)]
    simp)
  (by intro r hr; simp only [List.mem_cons, List.not_mem_nil, or_false] at hr; rcases hr with rfl | rfl | rfl <;> norm_num) 19.4 (-155.3) 1200

/-- **C116**: a sample in the middle of the example's profile, or a dip in it, changes nothing in its run of three rows. -/
theorem insert_example (s : SlopeLine ℝ) (hs : 0 < s.dist ∧ s.dist < 2000 ∧ s.slopeDeg = 90 ∨ s.slopeDeg ≤ 0.1) :
    ∃ log t, log.length = 3 ∧ writeValues log = .ok (some t) ∧
    runOn [1] 3 (exEnv.withSlopes fun _ => some [⟨0, 0, 0, 0, 90⟩, s, ⟨0, 0, 0, 2000, 90⟩]) "still.json" "out"
        ⟨[("still.json", stillConfig 3 3 (.int 1))], [], []⟩ =
      some (.ok (), ⟨[("still.json", stillConfig 3 3 (.int 1))], [(resultFileName "out" "example" (toString (1 : Int)), t)], log⟩) := by
  obtain ⟨log, t, hlen, hw, hrun⟩ := still_one
  refine ⟨log, t, hlen, hw, ?_⟩
  have hp := still_prepare exEnv rfl 3 3 (.int 1) 1 (by show Except.ok ((1 : Int) : ℝ) = _; norm_num) []
  rw [← hrun]
  rcases hs with ⟨h1, h2, h3⟩ | h
  · exact C116_inserted_sample [1] 3 exEnv "still.json" "out" ⟨[("still.json", stillConfig 3 3 (.int 1))], [], []⟩ (stillConfig 3 3 (.int 1))
      (by rw [lookup_cons_eq]; exact if_pos rfl) _ hp
      still_no_smoothing (.str "slope.txt") ⟨_, rfl, rfl⟩ "slope.txt" (Or.inl rfl) _ [] [] ⟨0, 0, 0, 0, 90⟩ s ⟨0, 0, 0, 2000, 90⟩ rfl rfl
      (by norm_num) (by norm_num) ⟨h1, h2, by dsimp only; rw [h3]; ring⟩
  · exact C116_flat_samples [1] 3 exEnv "still.json" "out" ⟨[("still.json", stillConfig 3 3 (.int 1))], [], []⟩ (stillConfig 3 3 (.int 1))
      (by rw [lookup_cons_eq]; exact if_pos rfl) _ hp
      (.str "slope.txt") ⟨_, rfl, rfl⟩ "slope.txt" (Or.inl rfl) _ [⟨0, 0, 0, 0, 90⟩] [s] [⟨0, 0, 0, 2000, 90⟩] rfl rfl (by simpa using h)

/-- Two profiles that are the same up to 10 m and for one more sample, as a running mean over three samples needs. -/
example (t : Terrain ℝ) (ht : t.smoothingPoints = 3) (s s' : SlopeLine ℝ) :
    SameUpTo 10 1 [⟨0, 0, 0, 0, 5⟩, ⟨0, 0, 0, 10, 7⟩, ⟨0, 0, 0, 20, 6⟩, s] [⟨1, 0, 0, 0, 5⟩, ⟨1, 0, 0, 10, 7⟩, ⟨1, 0, 0, 20, 6⟩, s'] ∧
    ∃ a b b', profileFor t [⟨0, 0, 0, 0, 5⟩, ⟨0, 0, 0, 10, 7⟩, ⟨0, 0, 0, 20, 6⟩, s] = a ++ b ∧
      profileFor t [⟨1, 0, 0, 0, 5⟩, ⟨1, 0, 0, 10, 7⟩, ⟨1, 0, 0, 20, 6⟩, s'] = a ++ b' ∧ 2 ≤ a.length ∧ ∃ p ∈ a, 10 ≤ p.1 := by
  have h : SameUpTo 10 1 [⟨0, 0, 0, 0, 5⟩, ⟨0, 0, 0, 10, 7⟩, ⟨0, 0, 0, 20, 6⟩, s] [⟨1, 0, 0, 0, 5⟩, ⟨1, 0, 0, 10, 7⟩, ⟨1, 0, 0, 20, 6⟩, s'] := by
    refine ⟨[⟨0, 0, 0, 0, 5⟩, ⟨0, 0, 0, 10, 7⟩], [⟨0, 0, 0, 20, 6⟩], [s], [⟨1, 0, 0, 0, 5⟩, ⟨1, 0, 0, 10, 7⟩], [⟨1, 0, 0, 20, 6⟩], [s'],
      rfl, rfl, .cons ⟨rfl, rfl⟩ (.cons ⟨rfl, rfl⟩ .nil), .cons ⟨rfl, rfl⟩ .nil, ?_, ⟨⟨0, 0, 0, 10, 7⟩, ?_, le_refl _⟩, ?_⟩
    · rw [steep_two _ _ (by norm_num) (by norm_num)]; exact le_refl _
    · rw [steep_two _ _ (by norm_num) (by norm_num)]; simp
    · rw [steep_usable _ (by norm_num)]; exact le_refl _
  exact ⟨h, profile_common t 10 1 _ _ h fun _ => by rw [ht]; norm_num⟩

end PyFlowGo
