import Verif.Props.Euler
/-
  C69: the two bimodal crystallisation-rate models, at one state and over a whole result file.
-/
set_option linter.unusedSectionVars false
namespace PyFlowGo
open Spec

/-- **C69**. The distance model: the first rate up to and including the critical distance, the second beyond it. -/
theorem C69_distance_law (f d r1 r2 ts : ℝ) (s : FlowState ℝ) (r : ℝ) :
    (CrystModel.bimodal f d r1 r2 ts).rate s = .ok r ↔ (s.pos ≤ d ∧ r = r1) ∨ (d < s.pos ∧ r = r2) := by
  show Except.ok (if leB s.pos d then r1 else r2) = .ok r ↔ _
  rw [Except.ok.injEq]
  by_cases h : s.pos ≤ d
  · rw [if_pos ((leB_real _ _).mpr h)]
    exact ⟨fun e => Or.inl ⟨h, e.symm⟩, fun e => e.elim (fun e => e.2.symm) fun e => absurd h (not_le.mpr e.1)⟩
  · rw [if_neg (fun e => h ((leB_real _ _).mp e))]
    exact ⟨fun e => Or.inr ⟨not_le.mp h, e.symm⟩, fun e => e.elim (fun e => absurd e.1 h) fun e => e.2.symm⟩

/-- **C69**. The temperature model: the first rate as long as the core is at or above the critical temperature, the
    second below it. -/
theorem C69_temperature_law (f tc r1 r2 ts : ℝ) (s : FlowState ℝ) (r : ℝ) :
    (CrystModel.bimodalFTemp f tc r1 r2 ts).rate s = .ok r ↔ (tc ≤ s.temp ∧ r = r1) ∨ (s.temp < tc ∧ r = r2) := by
  show Except.ok (if leB tc s.temp then r1 else r2) = .ok r ↔ _
  rw [Except.ok.injEq]
  by_cases h : tc ≤ s.temp
  · rw [if_pos ((leB_real _ _).mpr h)]
    exact ⟨fun e => Or.inl ⟨h, e.symm⟩, fun e => e.elim (fun e => e.2.symm) fun e => absurd h (not_le.mpr e.1)⟩
  · rw [if_neg (fun e => h ((leB_real _ _).mp e))]
    exact ⟨fun e => Or.inr ⟨not_le.mp h, e.symm⟩, fun e => e.elim (fun e => absurd e.1 h) fun e => e.2.symm⟩

/-- The states of a run with the rate of each, and what their rows show. -/
theorem rate_table (g : Integrator ℝ) (hdx : 0 < g.dx) (n : Nat) (w w' : World ℝ) (hw : w.log = [])
    (h : runLoop g n w = some (.ok (), w')) :
    ∃ (k : Nat) (s : Nat → FlowState ℝ) (r : Nat → ℝ), (w'.log.length = k ∨ w'.log.length = k + 1) ∧ s 0 = w.st ∧
      (∀ i, i ≤ k → (s i).pos = w.st.pos + i * g.dx) ∧
      ∀ i, i < k → g.models.cryst.rate (s i) = .ok (r i) ∧
        loggedNum w'.log (w.st.pos + i * g.dx) "core_temperature" = some (s i).temp ∧
        loggedNum w'.log (w.st.pos + i * g.dx) "crystal_fraction" = some (s i).crystal ∧
        loggedNum w'.log (w.st.pos + i * g.dx) "dphi_dtemp" = some (r i) ∧
        (s (i + 1)).crystal - (s i).crystal = r i * ((s i).temp - (s (i + 1)).temp) ∧
        (s i).crystal < (s (i + 1)).crystal := by
  obtain ⟨k, ws, h0, hacc, _, hlen, hfinal⟩ := C63_rows_are_final g hdx n w w' hw h
  classical
  choose d hd using fun i (hi : i < k) => accepted_row (hacc i hi)
  have hpos : ∀ i, i ≤ k → (ws i).st.pos = w.st.pos + i * g.dx := by
    intro i hi
    rw [(C06_position_time g i ws (fun j hj => hacc j (by omega))).1, h0]
  refine ⟨k, fun i => (ws i).st, fun i => if hi : i < k then (d i hi).rate else 0, hlen, by dsimp only; rw [h0], hpos, ?_⟩
  intro i hi
  simp only [dif_pos hi]
  obtain ⟨h1, h2, h3, _⟩ := hd i hi
  have key : ∀ name, loggedNum w'.log (ws i).st.pos name = loggedNum (ws (i + 1)).log (ws i).st.pos name := by
    intro name; unfold loggedNum; rw [hfinal i hi]
  rw [← hpos i hi.le, key, key, key]
  refine ⟨h1.rate, h2.core_temperature, h2.crystal_fraction, h2.dphi_dtemp, ?_, C07_crystals_increase g _ _ (hacc i hi)⟩
  have hne := h1.denominator
  rw [h3.crystal, h3.temp]
  unfold crystalGradient tempGradient
  have hr := right_ne_zero_of_mul hne
  have hE := left_ne_zero_of_mul hne
  generalize (ws (i + 1)).effusionRate * g.models.lava.density (ws i).st * g.models.lava.latentHeat = E at hE
  field_simp
  ring

/-- **C69**. The result of a run with the distance model: the column `dphi_dtemp` shows the first rate in every complete
    row up to and including the critical distance and the second rate in every row beyond it; the crystals grown down to
    row `j` are the first rate times the cooling up to the first row beyond the critical distance, plus the second rate
    times the cooling from there on. -/
theorem C69_distance_table (g : Integrator ℝ) (hdx : 0 < g.dx) (f dc r1 r2 ts : ℝ)
    (hc : g.models.cryst = .bimodal f dc r1 r2 ts) (n : Nat) (w w' : World ℝ) (hw : w.log = [])
    (h : runLoop g n w = some (.ok (), w')) :
    ∃ (k : Nat) (phi T : Nat → ℝ), (w'.log.length = k ∨ w'.log.length = k + 1) ∧
      (0 < k → phi 0 = w.st.crystal ∧ T 0 = w.st.temp) ∧
      (∀ i, i < k → loggedNum w'.log (w.st.pos + i * g.dx) "core_temperature" = some (T i) ∧
        loggedNum w'.log (w.st.pos + i * g.dx) "crystal_fraction" = some (phi i) ∧
        (w.st.pos + i * g.dx ≤ dc → loggedNum w'.log (w.st.pos + i * g.dx) "dphi_dtemp" = some r1) ∧
        (dc < w.st.pos + i * g.dx → loggedNum w'.log (w.st.pos + i * g.dx) "dphi_dtemp" = some r2)) ∧
      ∀ m j, m ≤ j → j < k → (∀ i, i < m → w.st.pos + (i : ℝ) * g.dx ≤ dc) →
        (∀ i, m ≤ i → i < j → dc < w.st.pos + (i : ℝ) * g.dx) →
        phi j = phi 0 + r1 * (T 0 - T m) + r2 * (T m - T j) := by
  obtain ⟨k, s, r, hlen, h0, hpos, hrow⟩ := rate_table g hdx n w w' hw h
  have hrate : ∀ i, i < k → (w.st.pos + i * g.dx ≤ dc ∧ r i = r1) ∨ (dc < w.st.pos + i * g.dx ∧ r i = r2) := by
    intro i hi
    have := (hrow i hi).1
    rw [hc, C69_distance_law, hpos i hi.le] at this
    exact this
  refine ⟨k, fun i => (s i).crystal, fun i => (s i).temp, hlen, fun _ => by simp only [h0, and_self], ?_, ?_⟩
  · intro i hi
    obtain ⟨_, h2, h3, h4, _⟩ := hrow i hi
    refine ⟨h2, h3, fun hle => ?_, fun hlt => ?_⟩
    · rcases hrate i hi with ⟨_, e⟩ | ⟨hb, _⟩
      · rw [h4, e]
      · exact absurd hle (not_le.mpr hb)
    · rcases hrate i hi with ⟨hb, _⟩ | ⟨_, e⟩
      · exact absurd hb (not_le.mpr hlt)
      · rw [h4, e]
  · intro m j hmj hj h1 h2
    have first : ∀ m, m < k → (∀ i, i < m → w.st.pos + (i : ℝ) * g.dx ≤ dc) →
        (s m).crystal = (s 0).crystal + r1 * ((s 0).temp - (s m).temp) := by
      intro m
      induction m with
      | zero => intro _ _; ring
      | succ m ih =>
        intro hm hall
        have e := ih (by omega) (fun i hi => hall i (by omega))
        obtain ⟨_, _, _, _, e2, _⟩ := hrow m (by omega)
        rcases hrate m (by omega) with ⟨_, e3⟩ | ⟨hb, _⟩
        · rw [e3] at e2; linarith
        · exact absurd (hall m (by omega)) (not_le.mpr hb)
    clear hlen
    induction j with
    | zero =>
      obtain rfl : m = 0 := by omega
      ring
    | succ j ih =>
      by_cases hm : m = j + 1
      · subst hm
        have := first (j + 1) hj h1
        dsimp only; linarith
      · have e := ih (by omega) (by omega) (fun i hi hij => h2 i hi (by omega))
        obtain ⟨_, _, _, _, e2, _⟩ := hrow j (by omega)
        rcases hrate j (by omega) with ⟨hb, _⟩ | ⟨_, e3⟩
        · exact absurd hb (not_le.mpr (h2 j (by omega) (by omega)))
        · rw [e3] at e2; dsimp only at e ⊢; linarith

/-- **C69**. The result of a run with the temperature model and positive rates: the core temperature falls from row to
    row, the column `dphi_dtemp` shows the first rate in the rows at or above the critical temperature and the second
    in the rows below it, so that there is one row `m` where the rate switches (none if `m` is the number of rows);
    the crystals grown down to a row are the first rate times the cooling up to row `m` plus the second rate times the
    cooling from there on. -/
theorem C69_temperature_table (g : Integrator ℝ) (hdx : 0 < g.dx) (f tc r1 r2 ts : ℝ)
    (hc : g.models.cryst = .bimodalFTemp f tc r1 r2 ts) (hr1 : 0 < r1) (hr2 : 0 < r2) (n : Nat) (w w' : World ℝ)
    (hw : w.log = []) (h : runLoop g n w = some (.ok (), w')) :
    ∃ (k : Nat) (phi T : Nat → ℝ) (m : Nat), (w'.log.length = k ∨ w'.log.length = k + 1) ∧ m ≤ k ∧
      (0 < k → phi 0 = w.st.crystal ∧ T 0 = w.st.temp) ∧
      (∀ i, i < k → loggedNum w'.log (w.st.pos + i * g.dx) "core_temperature" = some (T i) ∧
        loggedNum w'.log (w.st.pos + i * g.dx) "crystal_fraction" = some (phi i) ∧
        (i < m → tc ≤ T i ∧ loggedNum w'.log (w.st.pos + i * g.dx) "dphi_dtemp" = some r1) ∧
        (m ≤ i → T i < tc ∧ loggedNum w'.log (w.st.pos + i * g.dx) "dphi_dtemp" = some r2)) ∧
      (∀ i j, i < j → j < k → T j < T i) ∧
      (∀ j, j < k → j ≤ m → phi j = phi 0 + r1 * (T 0 - T j)) ∧
      ∀ j, j < k → m ≤ j → phi j = phi 0 + r1 * (T 0 - T m) + r2 * (T m - T j) := by
  obtain ⟨k, s, r, hlen, h0, hpos, hrow⟩ := rate_table g hdx n w w' hw h
  have hrate : ∀ i, i < k → (tc ≤ (s i).temp ∧ r i = r1) ∨ ((s i).temp < tc ∧ r i = r2) := by
    intro i hi
    have := (hrow i hi).1
    rw [hc, C69_temperature_law] at this
    exact this
  have hcool : ∀ i, i < k → (s (i + 1)).temp < (s i).temp := by
    intro i hi
    obtain ⟨_, _, _, _, e, hlt⟩ := hrow i hi
    have hpos : 0 < r i := by rcases hrate i hi with ⟨_, e⟩ | ⟨_, e⟩ <;> rw [e] <;> assumption
    by_contra hge
    rw [not_lt] at hge
    nlinarith
  have hdec : ∀ i j, i < j → j ≤ k → (s j).temp < (s i).temp := by
    intro i j hij
    induction j with
    | zero => omega
    | succ j ih =>
      intro hj
      rcases Nat.lt_succ_iff_lt_or_eq.mp hij with h' | rfl
      · exact (hcool j (by omega)).trans (ih h' (by omega))
      · exact hcool i (by omega)
  -- the switch
  have hm : ∃ m, m ≤ k ∧ (∀ i, i < m → tc ≤ (s i).temp) ∧ (∀ i, m ≤ i → i < k → (s i).temp < tc) := by
    clear hlen hpos hrow hrate hcool
    induction k with
    | zero => exact ⟨0, le_rfl, fun i hi => absurd hi (Nat.not_lt_zero i), fun i _ hi => absurd hi (Nat.not_lt_zero i)⟩
    | succ k ih =>
      obtain ⟨m, h1, h2, h3⟩ := ih (fun i j hij hj => hdec i j hij (by omega))
      by_cases hk : tc ≤ (s k).temp
      · refine ⟨k + 1, le_rfl, fun i hi => ?_, fun i h4 h5 => by omega⟩
        rcases Nat.lt_succ_iff_lt_or_eq.mp hi with h' | rfl
        · exact hk.trans (hdec i k h' (by omega)).le
        · exact hk
      · refine ⟨m, by omega, h2, fun i h4 h5 => ?_⟩
        rcases Nat.lt_succ_iff_lt_or_eq.mp h5 with h' | rfl
        · exact h3 i h4 h'
        · exact not_le.mp hk
  obtain ⟨m, hmk, hhot, hcold⟩ := hm
  have hA : ∀ j, j ≤ k → j ≤ m → (s j).crystal = (s 0).crystal + r1 * ((s 0).temp - (s j).temp) := by
    intro j
    induction j with
    | zero => intro _ _; ring
    | succ j ih =>
      intro hj hjm
      have e := ih (by omega) (by omega)
      obtain ⟨_, _, _, _, e2, _⟩ := hrow j (by omega)
      rcases hrate j (by omega) with ⟨_, e3⟩ | ⟨hb, _⟩
      · rw [e3] at e2; linarith
      · exact absurd (hhot j (by omega)) (not_le.mpr hb)
  refine ⟨k, fun i => (s i).crystal, fun i => (s i).temp, m, hlen, hmk, fun _ => by simp only [h0, and_self], ?_,
    fun i j hij hj => hdec i j hij hj.le, fun j hj hjm => hA j hj.le hjm, ?_⟩
  · intro i hi
    obtain ⟨_, h2, h3, h4, _⟩ := hrow i hi
    refine ⟨h2, h3, fun him => ⟨hhot i him, ?_⟩, fun him => ⟨hcold i him hi, ?_⟩⟩
    · rcases hrate i hi with ⟨_, e⟩ | ⟨hb, _⟩
      · rw [h4, e]
      · exact absurd (hhot i him) (not_le.mpr hb)
    · rcases hrate i hi with ⟨hb, _⟩ | ⟨_, e⟩
      · exact absurd hb (not_le.mpr (hcold i him hi))
      · rw [h4, e]
  · intro j
    induction j with
    | zero =>
      intro _ hm0
      obtain rfl : m = 0 := by omega
      ring
    | succ j ih =>
      intro hj hjm
      by_cases hmj : m = j + 1
      · subst hmj
        have := hA (j + 1) hj.le le_rfl
        dsimp only; linarith
      · have e := ih (by omega) (by omega)
        obtain ⟨_, _, _, _, e2, _⟩ := hrow j (by omega)
        rcases hrate j (by omega) with ⟨hb, _⟩ | ⟨_, e3⟩
        · exact absurd hb (not_le.mpr (hcold j (by omega) (by omega)))
        · rw [e3] at e2; dsimp only at e ⊢; linarith

/-- The run used in the examples: `n` metres, with either bimodal model. -/
theorem bimodal_run (cr : CrystModel ℝ) (hcr : SlowCryst cr) (n : Nat) (hn : 2 ≤ n) :
    ∃ w', runLoop (flowG [.rain (1 / (300 * n)) 1 1] cr) n (longWorld 0 n) = some (.ok (), w') ∧ w'.log.length = n := by
  have hn' : (0:ℝ) < n := by positivity
  obtain ⟨ws, w', h1, h2, h3, _, h5, _⟩ := flow_run (longTerrain_channel (n : ℝ)) [.rain (1 / (300 * n)) 1 1] (1 / (300 * n)) 0 cr hcr
    (gentle_rain _ _ (by positivity) cr) (by positivity) n (by omega) (by field_simp; norm_num) (by linarith) (by linarith) _
    (longInv_zero _ 0 n)
  obtain ⟨row, r1, r2⟩ := acceptedRun_rows _ (by show (0:ℝ) < 1; norm_num) n ws h2 (by rw [h1]; rfl)
  exact ⟨w', h5, by rw [h3, r2 n le_rfl]; simp⟩

/-- **C69**: runs of any length n >= 3 in which the distance model switches its rate after the first row. -/
example (n : Nat) (hn : 3 ≤ n) : ∃ (g : Integrator ℝ) (w w' : World ℝ), 0 < g.dx ∧ w.log = [] ∧
    g.models.cryst = .bimodal 0 (w.st.pos + 1 / 2) (1 / 1000) (1 / 500) 0 ∧ runLoop g n w = some (.ok (), w') ∧
    loggedNum w'.log w.st.pos "dphi_dtemp" = some (1 / 1000) ∧
    loggedNum w'.log (w.st.pos + g.dx) "dphi_dtemp" = some (1 / 500) := by
  obtain ⟨w', h1, hlen⟩ := bimodal_run (.bimodal 0 (0 + 1 / 2) (1 / 1000) (1 / 500) 0)
    (slow_bimodal _ _ _ (by norm_num) (by norm_num)) n (by omega)
  obtain ⟨k, phi, T, hk, _, hrows, _⟩ := C69_distance_table _ (by show (0:ℝ) < 1; norm_num) 0 (0 + 1 / 2) (1 / 1000) (1 / 500) 0
    rfl n _ w' rfl h1
  refine ⟨_, _, w', by show (0:ℝ) < 1; norm_num, rfl, rfl, h1, ?_, ?_⟩
  · have := (hrows 0 (by omega)).2.2.1 (by
      show (0:ℝ) + ((0:ℕ):ℝ) * 1 ≤ _
      norm_num)
    simpa using this
  · have := (hrows 1 (by omega)).2.2.2 (by
      show _ < (0:ℝ) + ((1:ℕ):ℝ) * 1
      norm_num)
    simpa using this

/-- **C69**: runs of any length n >= 3 in which the temperature model switches: the first row is at the critical
    temperature and still has the first rate, all later rows have the second. -/
example (n : Nat) (hn : 3 ≤ n) : ∃ (g : Integrator ℝ) (w w' : World ℝ), 0 < g.dx ∧ w.log = [] ∧
    g.models.cryst = .bimodalFTemp 0 w.st.temp (1 / 1000) (1 / 500) 0 ∧ runLoop g n w = some (.ok (), w') ∧
    loggedNum w'.log w.st.pos "dphi_dtemp" = some (1 / 1000) ∧
    loggedNum w'.log (w.st.pos + g.dx) "dphi_dtemp" = some (1 / 500) := by
  obtain ⟨w', h1, hlen⟩ := bimodal_run (.bimodalFTemp 0 1000 (1 / 1000) (1 / 500) 0)
    (slow_bimodalFTemp _ _ _ (by norm_num) (by norm_num)) n (by omega)
  obtain ⟨k, phi, T, m, hk, _, hT0, hrows, hdec, _⟩ := C69_temperature_table _ (by show (0:ℝ) < 1; norm_num) 0 1000 (1 / 1000)
    (1 / 500) 0 rfl (by norm_num) (by norm_num) n _ w' rfl h1
  have hT : T 0 = 1000 := (hT0 (by omega)).2
  have hm0 : 0 < m := by
    by_contra h0
    have := ((hrows 0 (by omega)).2.2.2 (by omega)).1
    linarith
  have hm1 : m ≤ 1 := by
    by_contra h0
    have h2 := ((hrows 1 (by omega)).2.2.1 (by omega)).1
    have h3 := hdec 0 1 (by omega) (by omega)
    linarith
  refine ⟨_, _, w', by show (0:ℝ) < 1; norm_num, rfl, rfl, h1, ?_, ?_⟩
  · have := ((hrows 0 (by omega)).2.2.1 hm0).2
    simpa using this
  · have := ((hrows 1 (by omega)).2.2.2 hm1).2
    simpa using this

end PyFlowGo
