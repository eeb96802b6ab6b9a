import Verif.Props.RunOuts
import Verif.Proofs.LongRun
import Verif.Props.FullRun
/-
  C05 (the bound is attained), C59 and C60 on concrete runs.
-/
set_option linter.unusedSectionVars false
namespace PyFlowGo
open Spec

/-- **C05** (the bound is the best possible). For every number of steps, start and channel length in between there is
    a flow that ends normally after exactly ceil((L - x0)/dx) steps and not earlier. -/
theorem C05_bound_attained (x0 len : ℝ) (h : x0 < len) :
    ∃ (g : Integrator ℝ) (w w' : World ℝ), g.dx = 1 ∧ w.st.pos = x0 ∧ w.terrain.maxLength = len ∧
      runLoop g ⌈len - x0⌉₊ w = some (.ok (), w') ∧ w'.iteration = ⌈len - x0⌉₊ ∧
      ∀ m, m < ⌈len - x0⌉₊ → runLoop g m w = none := by
  have hpos : 0 < ⌈len - x0⌉₊ := Nat.ceil_pos.mpr (by linarith)
  generalize hn : ⌈len - x0⌉₊ = n at hpos
  have h1 : len - x0 ≤ n := by rw [← hn]; exact Nat.le_ceil _
  have h2 : (n : ℝ) < len - x0 + 1 := by rw [← hn]; exact Nat.ceil_lt_add_one (by linarith)
  have hnR : (1 : ℝ) ≤ n := by exact_mod_cast hpos
  obtain ⟨ws, w', g1, g2, g3, _, g5, g6⟩ := long_run (1 / (300 * n)) x0 len (by positivity) n hpos
    (by field_simp; norm_num) (by linarith) (by linarith)
  refine ⟨longG (1 / (300 * n)), longWorld x0 len, w', rfl, rfl, rfl, g5, ?_, g6⟩
  have := (C06_position_time _ n ws g2).2.1
  rw [g3, this, g1]
  show 0 + n = n
  omega

/-- The result of a long run: `n` complete rows. -/
theorem long_result (eps x0 len : ℝ) (heps : 0 < eps) (n : Nat) (hn : 1 ≤ n) (hsmall : 3 * eps * n ≤ 1 / 100)
    (h1 : x0 + n - 1 < len) (h2 : len ≤ x0 + n) :
    ∃ w' t, runLoop (longG eps) n (longWorld x0 len) = some (.ok (), w') ∧ w'.log.length = n ∧
      (∀ r ∈ w'.log, ∀ c, c ∈ r.keys ↔ c ∈ runColumns (longG eps)) ∧ writeValues w'.log = .ok (some t) := by
  obtain ⟨ws, w', g1, g2, g3, _, g5, _⟩ := long_run eps x0 len heps n hn hsmall h1 h2
  obtain ⟨row, r1, r2⟩ := acceptedRun_rows (longG eps) (by show (0:ℝ) < 1; norm_num) n ws g2 (by rw [g1]; rfl)
  have hlog : w'.log = (List.range n).map row := by rw [g3]; exact r2 n le_rfl
  have hcols : ∀ r ∈ w'.log, ∀ c, c ∈ r.keys ↔ c ∈ runColumns (longG eps) := by
    intro r hr
    rw [hlog] at hr
    obtain ⟨i, hi, rfl⟩ := List.mem_map.mp hr
    exact (r1 i (List.mem_range.mp hi)).2
  obtain ⟨t, ht, hne⟩ := writeValues_ok w'.log fun first hf r hr k hk =>
    (hcols first (List.mem_of_mem_head? hf) k).mpr ((hcols r hr k).mp hk)
  cases t with
  | none =>
    have := hne.mp rfl
    rw [hlog] at this
    rw [List.map_eq_nil_iff, List.range_eq_nil] at this
    omega
  | some t => exact ⟨w', t, g5, by rw [hlog]; simp, hcols, ht⟩

theorem long_processed (round : Nat → ℝ → ℝ) (eps x0 len : ℝ) (heps : 0 < eps) (n : Nat) (hn : 2 ≤ n)
    (hsmall : 3 * eps * n ≤ 1 / 100) (h1 : x0 + n - 1 < len) (h2 : len ≤ x0 + n) (lines : List (SlopeLine ℝ))
    (hl : ∃ l ∈ lines, l.dist ≤ 2 * x0 + n) :
    ∃ w' t ro, runLoop (longG eps) n (longWorld x0 len) = some (.ok (), w') ∧ w'.log.length = n ∧
      writeValues w'.log = .ok (some t) ∧ getRunOut round t lines = .ok ro := by
  obtain ⟨w', t, a1, a2, a3, a4⟩ := long_result eps x0 len heps n (by omega) hsmall h1 h2
  have := (C60_run_can_be_post_processed round (longG eps) (by show (0:ℝ) < 1; norm_num) n (longWorld x0 len) w' rfl a1 t
    a4 lines).mpr ⟨by omega, ?_, ?_⟩
  · obtain ⟨ro, hro⟩ := this
    exact ⟨w', t, ro, a1, a2, a4, hro⟩
  · intro r hr
    exact (a3 r (List.mem_of_mem_getLast? hr) "viscosity").mpr (runOut_columns _ _ (by decide))
  · obtain ⟨l, hl1, hl2⟩ := hl
    refine ⟨l, hl1, ?_⟩
    rw [a2]
    show l.dist ≤ 2 * x0 + n * 1
    linarith

/-- **C60**. A run of many rows that can be post-processed. -/
example (round : Nat → ℝ → ℝ) : ∃ w' t ro, runLoop (longG (1 / 3000)) 10 (longWorld 0 10) = some (.ok (), w') ∧
    w'.log.length = 10 ∧ writeValues w'.log = .ok (some t) ∧ getRunOut round t [⟨1, 2, 3, 4, 5⟩] = .ok ro := by
  refine long_processed round (1 / 3000) 0 10 (by norm_num) 10 (by norm_num) (by norm_num) (by norm_num) (by norm_num) _
    ⟨_, List.mem_singleton_self _, by norm_num⟩

/-- **C60** (a user expects run_outs to work on every result; it does not). A run that ended normally after one
    accepted step: its complete one-row result cannot be post-processed, whatever the profile. -/
theorem C60_one_row_fails (round : Nat → ℝ → ℝ) :
    ∃ (g : Integrator ℝ) (w w' : World ℝ) (t : CsvTable (Cell ℝ)), runLoop g 1 w = some (.ok (), w') ∧
      w'.log.length = 1 ∧ writeValues w'.log = .ok (some t) ∧
      ∀ lines : List (SlopeLine ℝ), ∃ e, getRunOut round t lines = .error e := by
  obtain ⟨w', t, a1, a2, a3, a4⟩ := long_result (1 / 300) 0 1 (by norm_num) 1 (by norm_num) (by norm_num) (by norm_num)
    (by norm_num)
  refine ⟨longG (1 / 300), longWorld 0 1, w', t, a1, a2, a4, fun lines => ?_⟩
  cases hr : getRunOut round t lines with
  | error e => exact ⟨e, rfl⟩
  | ok ro =>
    have := (C60_run_can_be_post_processed round (longG (1 / 300)) (by show (0:ℝ) < 1; norm_num) 1 (longWorld 0 1) w' rfl
      a1 t a4 lines).mp ⟨ro, hr⟩
    omega

/-- **C60** (the other failure). A run that ended normally with two rows of which the last is partial, because the
    flow stalled on hot ground: its result cannot be post-processed, whatever the profile. -/
theorem C60_partial_row_fails (round : Nat → ℝ → ℝ) :
    ∃ (g : Integrator ℝ) (w w' : World ℝ) (t : CsvTable (Cell ℝ)), runLoop g 2 w = some (.ok (), w') ∧
      w'.log.length = 2 ∧ writeValues w'.log = .ok (some t) ∧
      ∀ lines : List (SlopeLine ℝ), ∃ e, getRunOut round t lines = .error e := by
  obtain ⟨w1, w2, hacc, hnf, hrej, hloop, v, x, hv, hvpos⟩ := stall_run
  have hdx : 0 < (flowG [.conduction 999.999 100]).dx := by show (0:ℝ) < 1; norm_num
  obtain ⟨row, r1, r2⟩ := acceptedRun_rows (flowG [.conduction 999.999 100]) hdx 1
    (fun i => if i = 0 then longWorld 0 10 else w1) (by intro i hi; obtain rfl : i = 0 := by omega
                                                        exact hacc) rfl
  have hlog1 : w1.log = [row 0] := r2 1 le_rfl
  have hpos : w1.st.pos = 1 := by
    rw [(accepted_advance hacc).1]; show (0:ℝ) + 1 = 1; norm_num
  have hter : w1.terrain = longTerrain 10 := (accepted_advance hacc).2.2.1
  rcases rejected_log_cases hrej with ⟨v', x', hv', hle, _⟩ | ⟨_, _, _, _, es, hn, hp, hl⟩
  · exfalso
    rw [hter, hv] at hv'
    cases hv'
    rw [leB_real] at hle
    norm_num at hle
    linarith
  have hne : es ≠ [] := by rintro rfl; simp at hn
  rw [addAll_new (fun c => beq_self_eq_true c) _ es hp hne _ ?_, hlog1] at hl
  · obtain ⟨t, ht, hnone⟩ := C04_write_never_fails (fun c => beq_self_eq_true c) [] 2 (flowG [.conduction 999.999 100])
      (longWorld 0 10) w2 rfl (by
        rw [simulate_noSearch _ _ _ _ (by rw [eqB_real]; show (0:ℝ) = 0.0; norm_num)]; exact hloop)
    cases t with
    | none => rw [hnone.mp rfl] at hl; simp at hl
    | some t =>
      refine ⟨_, _, w2, t, hloop, by rw [hl]; rfl, ht, fun lines => ?_⟩
      cases hr : getRunOut round t lines with
      | error e => exact ⟨e, rfl⟩
      | ok ro =>
        exfalso
        obtain ⟨_, hvis, _⟩ := (C60_run_can_be_post_processed round _ hdx 2 (longWorld 0 10) w2 rfl hloop t ht lines).mp
          ⟨ro, hr⟩
        have := hvis (Row.setAll [("position", .num w1.st.pos)] es) (by rw [hl]; rfl)
        rw [Row.mem_keys_setAll, hn] at this
        revert this
        simp [Row.keys, fluxColumns, Flux.columns, Flux.logName, flowG, flowModels]
  · rw [hlog1]
    intro r hr
    rw [List.mem_singleton] at hr
    rw [hr, Bool.eq_false_iff, ne_eq, atPosition_num _ _ _ (r1 0 (by norm_num)).1, hpos]
    show ¬ (1 : ℝ) = 0 + (0 : ℕ) * 1
    norm_num

/-- **C59**. Never shorter than the last position allows, never longer than x0 + dx beyond it: with the profile
    sorted by distance, the reported point is the last one not beyond (last position + x0 + dx). -/
theorem C59_run_out_bounds (round : Nat → ℝ → ℝ) (g : Integrator ℝ) (hdx : 0 < g.dx) (n : Nat) (w w' : World ℝ)
    (hw : w.log = []) (h : runLoop g n w = some (.ok (), w')) (t : CsvTable (Cell ℝ))
    (ht : writeValues w'.log = .ok (some t)) (lines : List (SlopeLine ℝ))
    (hsorted : lines.Pairwise fun a b => a.dist ≤ b.dist) (ro : RunOut ℝ) (hro : getRunOut round t lines = .ok ro) :
    ∃ last ∈ lines, ro.runOut = round 0 last.dist ∧
      last.dist ≤ (w.st.pos + ((w'.log.length : ℝ) - 1) * g.dx) + (w.st.pos + g.dx) ∧
      ∀ l ∈ lines, l.dist ≤ (w.st.pos + ((w'.log.length : ℝ) - 1) * g.dx) + (w.st.pos + g.dx) → l.dist ≤ last.dist := by
  obtain ⟨last, hl, e⟩ := C59_run_out_of_a_run round g hdx n w w' hw h t ht lines ro hro
  have hb : 2 * w.st.pos + w'.log.length * g.dx =
      (w.st.pos + ((w'.log.length : ℝ) - 1) * g.dx) + (w.st.pos + g.dx) := by ring
  rw [hb] at hl
  have hmem := List.mem_filter.mp (List.mem_of_getLast? hl)
  refine ⟨last, hmem.1, e, by simpa using hmem.2, fun l hlm hle => ?_⟩
  have hs := List.Pairwise.filter (fun l : SlopeLine ℝ =>
    decide (l.dist ≤ (w.st.pos + ((w'.log.length : ℝ) - 1) * g.dx) + (w.st.pos + g.dx))) hsorted
  have hin : l ∈ lines.filter fun l : SlopeLine ℝ =>
      decide (l.dist ≤ (w.st.pos + ((w'.log.length : ℝ) - 1) * g.dx) + (w.st.pos + g.dx)) :=
    List.mem_filter.mpr ⟨hlm, by simpa using hle⟩
  generalize (lines.filter fun l : SlopeLine ℝ =>
      decide (l.dist ≤ (w.st.pos + ((w'.log.length : ℝ) - 1) * g.dx) + (w.st.pos + g.dx))) = ls at hs hin hl
  obtain ⟨pre, rfl⟩ : ∃ pre, ls = pre ++ [last] := by
    obtain ⟨pre, hp⟩ := List.getLast?_eq_some_iff.mp hl
    exact ⟨pre, hp⟩
  rcases List.mem_append.mp hin with hin | hin
  · exact (List.pairwise_append.mp hs).2.2 l hin last (by simp)
  · rw [List.mem_singleton] at hin; rw [hin]

/-- **C59** (a user expects the run-out to be where the flow stopped). A flow that starts at x0 and advances two
    steps is reported to have run out x0 further than it ever got, if the profile extends that far. -/
theorem C59_overshoot (x0 : ℝ) (hx : 0 < x0) :
    ∃ (g : Integrator ℝ) (w w' : World ℝ) (t : CsvTable (Cell ℝ)) (lines : List (SlopeLine ℝ)) (ro : RunOut ℝ),
      runLoop g 2 w = some (.ok (), w') ∧ w.log = [] ∧ w.st.pos = x0 ∧ w'.st.pos = x0 + 2 ∧
      writeValues w'.log = .ok (some t) ∧ getRunOut (fun _ x => x) t lines = .ok ro ∧ ro.runOut = w'.st.pos + x0 := by
  let lines : List (SlopeLine ℝ) := [⟨0, 0, 0, 0, 10⟩, ⟨0, 0, 0, 2 * x0 + 2, 10⟩]
  have hex : ∃ l ∈ lines, l.dist ≤ 2 * x0 + (2 : ℕ) := ⟨⟨0, 0, 0, 0, 10⟩, by simp [lines], by push_cast; linarith⟩
  obtain ⟨w', t, ro, a1, a2, a4, a5⟩ := long_processed (fun _ x => x) (1 / 600) x0 (x0 + 2) (by norm_num) 2 (by norm_num)
    (by norm_num) (by norm_num) (by norm_num) lines hex
  obtain ⟨last, b1, b2⟩ := C59_run_out_of_a_run _ (longG (1 / 600)) (by show (0:ℝ) < 1; norm_num) 2
    (longWorld x0 (x0 + 2)) w' rfl a1 t a4 lines ro a5
  obtain ⟨ws, w2, g1, g2, g3, _, g5, _⟩ := long_run (1 / 600) x0 (x0 + 2) (by norm_num) 2 (by norm_num) (by norm_num)
    (by norm_num) (by norm_num)
  have hw2 : w' = ws 2 := by
    rw [g5] at a1
    rw [← g3]
    simpa using (Option.some.inj a1).symm
  have hpos : w'.st.pos = x0 + 2 := by
    rw [hw2, (C06_position_time _ 2 ws g2).1, g1]
    show x0 + (2 : ℕ) * 1 = _
    norm_num
  refine ⟨_, _, w', t, lines, ro, a1, rfl, rfl, hpos, a4, a5, ?_⟩
  have hall : (lines.filter fun l : SlopeLine ℝ => decide (l.dist ≤ 2 * (longWorld x0 (x0 + 2)).st.pos +
      w'.log.length * (longG (1 / 600)).dx)) = lines := by
    rw [List.filter_eq_self]
    intro l hl
    rw [decide_eq_true_eq, a2]
    show l.dist ≤ 2 * x0 + (2 : ℕ) * 1
    simp only [lines, List.mem_cons, List.not_mem_nil, or_false] at hl
    rcases hl with rfl | rfl
    · show (0 : ℝ) ≤ _; positivity
    · show 2 * x0 + 2 ≤ 2 * x0 + (2 : ℕ) * 1; norm_num
  rw [hall] at b1
  have : last = ⟨0, 0, 0, 2 * x0 + 2, 10⟩ := by
    simpa [lines] using b1.symm
  rw [b2, this, hpos]
  show 2 * x0 + 2 = _
  ring

end PyFlowGo
