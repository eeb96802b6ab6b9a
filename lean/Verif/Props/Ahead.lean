import Verif.Proofs.Swap
import Verif.Spec.Ahead
import Verif.Props.SupplyConfig
import Verif.Props.StepCases
/-
  C116: a flow does not see the terrain ahead of it.
-/
set_option linter.unusedSectionVars false
namespace PyFlowGo
open Spec

section
variable {α : Type} [Add α] [Sub α] [Mul α] [Neg α] [OfScientific α] [PyNum α]

/-- **C116** (in every arithmetic). A simulation uses the slope profile only at the positions the lava comes to: with another profile that
    has the same slope at these positions it goes in the same way. -/
theorem C116_only_visited_positions (grid : List α) (n : Nat) (g : Integrator α) (w : World α) (sp : Option (Spline α))
    (h0 : (w.terrain.swapped sp).slope w.st.pos = w.terrain.slope w.st.pos)
    (h : ∀ w1 x, initEffusionRateOn grid g.models.lava w = (.ok (), w1) → Seen g w1 x → (w.terrain.swapped sp).slope x = w.terrain.slope x) :
    simulateOn grid n g (w.swapped sp) = (simulateOn grid n g w).map fun o => (o.1, o.2.swapped sp) := by
  have hi : initEffusionRateOn grid g.models.lava (w.swapped sp) =
      ((initEffusionRateOn grid g.models.lava w).1, (initEffusionRateOn grid g.models.lava w).2.swapped sp) := by
    unfold initEffusionRateOn
    rw [PyM.bind_of_ok (PyM.get_apply _), PyM.bind_of_ok (PyM.get_apply _)]
    rw [show (w.swapped sp).terrain.effusionRateInit = w.terrain.effusionRateInit from rfl]
    by_cases c : eqB w.terrain.effusionRateInit 0.0 = true
    · rw [if_pos c]; rfl
    · rw [if_neg c]
      exact search_swapped _ sp grid w h0
  unfold simulateOn
  rw [hi]
  have k : (initEffusionRateOn grid g.models.lava w).2.terrain.spline = w.terrain.spline ∧
      (initEffusionRateOn grid g.models.lava w).2.terrain.defaultSlope = w.terrain.defaultSlope := by
    unfold initEffusionRateOn
    rw [PyM.bind_of_ok (PyM.get_apply _)]
    split
    · exact ⟨rfl, rfl⟩
    · exact depthSearch_keeps g.models.lava grid (fun v => v.terrain.spline = w.terrain.spline ∧ v.terrain.defaultSlope = w.terrain.defaultSlope)
        (fun _ _ _ _ _ h => h) w _ _ ⟨rfl, rfl⟩ rfl
  cases e : initEffusionRateOn grid g.models.lava w with
  | mk r w1 =>
    rw [e] at k
    cases r with
    | error e => rfl
    | ok _ =>
      refine loop_swapped g sp n w1 fun x hx => ?_
      have := h w1 x e hx
      unfold Agree Terrain.slope Terrain.swapped at *
      dsimp only at *
      rw [k.1, k.2]
      exact this
end

/-- Where a completed run has been. -/
theorem seen_between (g : Integrator ℝ) (hdx : 0 < g.dx) (n : Nat) (w w' : World ℝ) (h : runLoop g n w = some (.ok (), w')) :
    w.st.pos ≤ w'.st.pos ∧ ∀ x, Seen g w x → w.st.pos ≤ x ∧ x ≤ w'.st.pos := by
  have step : ∀ w w1 : World ℝ, w.finished = false → singleStep g w = (.ok (), w1) → w.st.pos ≤ w1.st.pos := by
    intro w w1 hf e
    rcases C07_grow_or_stop g w w1 hf e with h | h
    · rw [h.2]; linarith
    · rw [h.2.2.2.1]
  induction n generalizing w with
  | zero =>
    unfold runLoop at h
    split at h
    · rename_i hf
      cases h
      refine ⟨le_refl _, fun x hx => ?_⟩
      cases hx with
      | here => exact ⟨le_refl _, le_refl _⟩
      | next _ h => rw [hf] at h; cases h
      | later _ _ _ h => rw [hf] at h; cases h
    · cases h
  | succ n ih =>
    unfold runLoop at h
    split at h
    · rename_i hf
      cases h
      refine ⟨le_refl _, fun x hx => ?_⟩
      cases hx with
      | here => exact ⟨le_refl _, le_refl _⟩
      | next _ h => rw [hf] at h; cases h
      | later _ _ _ h => rw [hf] at h; cases h
    · rename_i hf
      cases e : singleStep g w with
      | mk r v =>
        rw [e] at h
        cases r with
        | error e => cases h
        | ok _ =>
          obtain ⟨h1, h2⟩ := ih v h
          have h3 := step w v (by simpa using hf) e
          refine ⟨h3.trans h1, fun x hx => ?_⟩
          cases hx with
          | here => exact ⟨le_refl _, h3.trans h1⟩
          | next _ h => rw [e]; exact ⟨h3, h1⟩
          | later _ w1 _ _ e1 hx =>
            rw [e] at e1
            cases e1
            exact ⟨h3.trans (h2 x hx).1, (h2 x hx).2⟩

/-- A completed run ends at its start or one step behind a row of its log. -/
theorem end_position (g : Integrator ℝ) (hdx : 0 < g.dx) (n : Nat) (w w' : World ℝ) (hw : w.log = []) (h : runLoop g n w = some (.ok (), w')) :
    w'.st.pos = w.st.pos ∨ ∃ row ∈ w'.log, row.get? "position" = some (.num (w'.st.pos - g.dx)) := by
  obtain ⟨k, ws, row, h0, hacc, hlast, h1, h2, h3⟩ := C63_rows g hdx n w w' hw h
  have hp := (C06_position_time g k ws hacc).1
  have hp' : w'.st.pos = w.st.pos + k * g.dx := by
    rw [h0] at hp
    rcases hlast with rfl | hr
    · exact hp
    · rw [(C14_rejected_step_moves_nothing g _ _ hr).2.2.2.1, hp]
  cases k with
  | zero => left; rw [hp']; simp
  | succ k =>
    right
    refine ⟨row k, ?_, ?_⟩
    · have hk : row k ∈ (List.range (k + 1)).map row := List.mem_map_of_mem (List.mem_range.mpr (by omega))
      rcases h3 with h3 | ⟨r, h3, _⟩ <;> rw [h3]
      · exact hk
      · exact List.mem_append_left _ hk
    · rw [(h1 k (by omega)).1, hp']
      congr 2
      push_cast
      ring

/-- Interpolation in two tables with a common beginning. -/
theorem evalKnots_common (x : ℝ) (a b b' : List (ℝ × ℝ)) (h2 : 2 ≤ a.length) (hasc : Ascending a) (hx : ∃ p ∈ a, x ≤ p.1) :
    evalKnots x (a ++ b) = evalKnots x (a ++ b') := by
  induction a with
  | nil => simp at h2
  | cons p a ih =>
    cases a with
    | nil => simp at h2
    | cons q a =>
      have hpq : p.1 < q.1 := (List.pairwise_cons.mp hasc).1 q (by simp)
      by_cases hle : x ≤ q.1
      · have hb : leB x q.1 = true := (leB_real _ _).mpr hle
        have key : ∀ l, evalKnots x (p :: q :: l) = segment p q x := by
          intro l
          cases l with
          | nil => rfl
          | cons r l => rw [evalKnots, if_pos hb]
        rw [List.cons_append, List.cons_append, List.cons_append, List.cons_append, key, key]
      · have hb : ¬ leB x q.1 = true := fun h => hle ((leB_real _ _).mp h)
        cases a with
        | nil =>
          obtain ⟨r, hr, hxr⟩ := hx
          simp only [List.mem_cons, List.not_mem_nil, or_false] at hr
          rcases hr with rfl | rfl <;> linarith
        | cons r a =>
          simp only [List.cons_append] at ih ⊢
          rw [evalKnots, if_neg hb, evalKnots, if_neg hb]
          refine ih (by simp) (List.pairwise_cons.mp hasc).2 ?_
          obtain ⟨t, ht, hxt⟩ := hx
          refine ⟨t, ?_, hxt⟩
          rcases List.mem_cons.mp ht with rfl | ht
          · linarith
          · exact ht

theorem usable_append (a b : List (SlopeLine ℝ)) : usableRows (a ++ b) = usableRows a ++ usableRows b := by
  unfold usableRows
  rw [List.filter_append]

theorem usable_same {a a' : List (SlopeLine ℝ)} (h : List.Forall₂ SameSample a a') :
    (usableRows a).map (fun r => (r.dist, degToRad r.slopeDeg)) = (usableRows a').map (fun r => (r.dist, degToRad r.slopeDeg)) := by
  induction h with
  | nil => rfl
  | @cons r r' a a' h1 h2 ih =>
    have : usableRows (r :: a) = usableRows [r] ++ usableRows a := usable_append [r] a
    have e' : usableRows (r' :: a') = usableRows [r'] ++ usableRows a' := usable_append [r'] a'
    rw [this, e', List.map_append, List.map_append, ih]
    congr 1
    unfold usableRows
    by_cases c : (0.1 : ℝ) < r.slopeDeg
    · have c' : (0.1 : ℝ) < r'.slopeDeg := by rw [← h1.2]; exact c
      rw [List.filter_cons_of_pos (by simpa using c), List.filter_cons_of_pos (by simpa using c')]
      simp [h1.1, h1.2]
    · have c' : ¬ (0.1 : ℝ) < r'.slopeDeg := by rw [← h1.2]; exact c
      rw [List.filter_cons_of_neg (by simpa using c), List.filter_cons_of_neg (by simpa using c')]

/-- The centred mean looks no further ahead than its half width. -/
theorem mean_common (a b c c' : List ℝ) (h i : ℕ) (hi : i < a.length) (hb : h ≤ b.length) :
    centredMean (a ++ b ++ c) h i = centredMean (a ++ b ++ c') h i := by
  have hw : ∀ c : List ℝ, meanWindow (a ++ b ++ c).length i h = Finset.Icc (i - h) (i + h) := by
    intro c
    unfold meanWindow
    congr 1
    simp only [List.length_append]
    omega
  have hg : ∀ c : List ℝ, ∀ j ∈ Finset.Icc (i - h) (i + h), (a ++ b ++ c).getD j 0 = (a ++ b).getD j 0 := by
    intro c j hj
    have : j < (a ++ b).length := by
      simp only [Finset.mem_Icc] at hj
      simp only [List.length_append]
      omega
    rw [List.getD_eq_getElem?_getD, List.getD_eq_getElem?_getD, List.getElem?_append_left this]
  unfold centredMean
  rw [hw c, hw c', Finset.sum_congr rfl (hg c), Finset.sum_congr rfl (hg c')]

/-- The profiles of two files with a common beginning have a common beginning. -/
theorem profile_common (t : Terrain ℝ) (X : ℝ) (m : ℕ) (rows rows' : List (SlopeLine ℝ)) (h : SameUpTo X m rows rows')
    (hm : t.smoothing = true → t.smoothingPoints < 2 * (m + 1)) :
    ∃ a b b', profileFor t rows = a ++ b ∧ profileFor t rows' = a ++ b' ∧ 2 ≤ a.length ∧ ∃ p ∈ a, X ≤ p.1 := by
  obtain ⟨a, b, rest, a', b', rest', rfl, rfl, ha, hb, h2, ⟨r, hr, hX⟩, hlen⟩ := h
  have raw : ∀ a b rest : List (SlopeLine ℝ), rawProfile (a ++ b ++ rest) = rawProfile a ++ rawProfile b ++ rawProfile rest := by
    intro a b rest
    unfold rawProfile
    rw [usable_append, usable_append, List.map_append, List.map_append]
  have ea : rawProfile a' = rawProfile a := (usable_same ha).symm
  have eb : rawProfile b' = rawProfile b := (usable_same hb).symm
  have la : (rawProfile a).length = (usableRows a).length := List.length_map ..
  have lb : (rawProfile b).length = (usableRows b).length := List.length_map ..
  have hmem : (r.dist, degToRad r.slopeDeg) ∈ rawProfile a := List.mem_map_of_mem (f := fun r => (r.dist, degToRad r.slopeDeg)) hr
  unfold profileFor
  cases hs : t.smoothing with
  | false =>
    simp only [Bool.false_eq_true, if_false]
    rw [raw, raw, ea, eb]
    exact ⟨rawProfile a, rawProfile b ++ rawProfile rest, rawProfile b ++ rawProfile rest', by simp, by simp, by omega, _, hmem, hX⟩
  | true =>
    simp only [if_true]
    have hh : ⌊t.smoothingPoints / 2⌋₊ ≤ (rawProfile b).length := by
      have : ⌊t.smoothingPoints / 2⌋₊ < m + 1 := by
        by_cases hn : 0 ≤ t.smoothingPoints / 2
        · rw [Nat.floor_lt hn]
          push_cast
          have := hm hs
          linarith
        · rw [Nat.floor_of_nonpos (by linarith)]
          omega
      omega
    generalize ⌊t.smoothingPoints / 2⌋₊ = k at hh
    unfold smoothProfile
    dsimp only
    rw [raw, raw, ea, eb]
    generalize rawProfile a = A at *
    generalize rawProfile b = B at *
    generalize rawProfile rest = C
    generalize rawProfile rest' = C'
    have split : ∀ C : List (ℝ × ℝ), ∃ D, (List.range (A ++ B ++ C).length).map (fun i => (((A ++ B ++ C).getD i (0, 0)).1,
        centredMean ((A ++ B ++ C).map Prod.snd) k i)) =
        (List.range A.length).map (fun i => ((A.getD i (0, 0)).1, centredMean ((A ++ B).map Prod.snd) k i)) ++ D := by
      intro C
      refine ⟨((List.range (A ++ B ++ C).length).map (fun i => (((A ++ B ++ C).getD i (0, 0)).1,
        centredMean ((A ++ B ++ C).map Prod.snd) k i))).drop A.length, ?_⟩
      conv_lhs => rw [← List.take_append_drop A.length ((List.range (A ++ B ++ C).length).map _)]
      congr 1
      rw [← List.map_take, List.take_range]
      rw [Nat.min_eq_left (by simp)]
      apply List.map_congr_left
      intro i hi
      rw [List.mem_range] at hi
      refine Prod.ext ?_ ?_
      · dsimp only
        rw [List.append_assoc, List.getD_eq_getElem?_getD, List.getD_eq_getElem?_getD, List.getElem?_append_left hi]
      · dsimp only
        have := mean_common (A.map Prod.snd) (B.map Prod.snd) (C.map Prod.snd) [] k i (by simpa using hi) (by simpa using hh)
        rw [List.map_append, List.map_append, this]
        simp
    obtain ⟨D, hD⟩ := split C
    obtain ⟨D', hD'⟩ := split C'
    refine ⟨_, D, D', hD, hD', by simp; omega, ?_⟩
    obtain ⟨j, hj, ej⟩ := List.getElem_of_mem hmem
    refine ⟨_, List.mem_map_of_mem (List.mem_range.mpr hj), ?_⟩
    dsimp only
    rw [List.getD_eq_getElem?_getD, List.getElem?_eq_getElem hj, Option.getD_some, ej]
    exact hX

/-- The same configuration with other slope files. -/
def Env.withSlopes (env : Env ℝ) (files : String → Option (List (SlopeLine ℝ))) : Env ℝ := { env with slopeFile := files }

/-- What is prepared from another slope file. -/
theorem prepare_slopes (env : Env ℝ) (files : String → Option (List (SlopeLine ℝ))) (data : Json ℝ) (log : Log (Cell ℝ)) (pr : Prepared ℝ)
    (hp : prepare env data log = .ok pr) (v : Json ℝ) (hv : TopEntry data "slope_file" v) (path : String) (hpath : SlopePath v path)
    (rows' : List (SlopeLine ℝ)) (hf : files path = some rows')
    (h2 : 2 ≤ (usableRows rows').length) (hasc : (usableRows rows').Pairwise fun a b => a.dist < b.dist) :
    ∃ t0 rows, TerrainFrom env data t0 ∧ env.slopeFile path = some rows ∧ t0.readSlope rows = .ok pr.world.terrain ∧
      prepare (env.withSlopes files) data log =
        .ok { pr with world := pr.world.swapped (some ⟨profileFor t0 rows'⟩) } := by
  rw [C55_run_starts_from_the_configuration] at hp
  obtain ⟨h1, ⟨t0, path', rows, h3, h4, h5, h6, h7⟩, h8, h9, h10, h11, h12, h13, h14, h15, h16, h17, h18, h19, h20, h21, h22⟩ := hp
  have hv' : pr.cfg.slopeFile = v := topEntry_unique h1.2.2.1 hv
  have hpp : path' = path := by
    rw [hv'] at h5
    unfold SlopePath at h5 hpath
    rcases h5 with rfl | ⟨rfl, rfl⟩ <;> rcases hpath with h | ⟨h, h'⟩
    · cases h; rfl
    · cases h
    · cases h
    · exact h'.symm
  subst hpp
  obtain ⟨sp, hsp⟩ := readSlope_keeps h7
  refine ⟨t0, rows, h3, h6, h7, ?_⟩
  rw [C55_run_starts_from_the_configuration]
  refine ⟨h1, ⟨t0, path', rows', h3, h4, h5, hf, ?_⟩, h8, h9, h10, h11, h12, h13, h14, h15, h16, h17, h18, h19, h20, h21, h22⟩
  rw [C48_read_slope]
  refine ⟨h2, hasc, ((C48_read_slope _ _ _).mp h7).2.2.1, ?_⟩
  show (pr.world.terrain.swapped _) = _
  rw [hsp]
  rfl

theorem sameUpTo_two {X : ℝ} {m : ℕ} {rows rows' : List (SlopeLine ℝ)} (h : SameUpTo X m rows rows') : 2 ≤ (usableRows rows').length := by
  obtain ⟨a, b, rest, a', b', rest', rfl, rfl, ha, hb, h2, _⟩ := h
  have : (usableRows a).length = (usableRows a').length := by
    have := congrArg List.length (usable_same ha)
    simpa using this
  rw [usable_append, usable_append]
  simp only [List.length_append]
  omega

/-- **C116**. The result of a completed run depends on the slope profile only up to one step beyond the last row: with any other profile
    that begins with the same samples up to there (and, with smoothing, half the window of samples more), the run ends in the same way
    with the same rows and the same files. -/
theorem C116_terrain_ahead (grid : List ℝ) (fuel : Nat) (env : Env ℝ) (jsonFile folder : String) (p q : Proc ℝ) (data : Json ℝ)
    (hd : lookup p.json (env.canon jsonFile) = some data) (hlog : p.log = [])
    (hrun : runOn grid fuel env jsonFile folder p = some (.ok (), q))
    (v : Json ℝ) (hv : TopEntry data "slope_file" v) (path : String) (hpath : SlopePath v path)
    (files : String → Option (List (SlopeLine ℝ))) (rows rows' : List (SlopeLine ℝ))
    (hrows : env.slopeFile path = some rows) (hrows' : files path = some rows')
    (hasc : (usableRows rows').Pairwise fun a b => a.dist < b.dist)
    (X : ℝ) (m : ℕ) (hsame : SameUpTo X m rows rows') (hm : LooksAhead env data m)
    (x0 : ℝ) (hx0 : NumberAt env data "lava_state" "position" x0) (hX0 : x0 ≤ X)
    (sz : Json ℝ) (hsz : TopEntry data "step_size" sz) (dx : ℝ) (hdx : sz.toFloat env = .ok dx) (hpos : 0 < dx)
    (hX : ∀ row ∈ q.log, ∀ x, row.get? "position" = some (.num x) → x + dx ≤ X) :
    runOn grid fuel (env.withSlopes files) jsonFile folder p = some (.ok (), q) := by
  cases hp : prepare env data p.log with
  | error e =>
    unfold runOn at hrun
    rw [hd] at hrun
    dsimp only at hrun
    rw [hp] at hrun
    cases hrun
  | ok pr =>
    have hf := prepared_facts hp
    obtain ⟨_, _, _, hl, hit, hfin, hp0, ⟨sz', hsz', hdx'⟩, _⟩ := hf
    obtain rfl := topEntry_unique hsz hsz'
    have hdxe : pr.integrator.dx = dx := by rw [hdx] at hdx'; exact (Except.ok.inj hdx').symm
    have hx0e : pr.world.st.pos = x0 := number_unique hp0 hx0
    obtain ⟨t0, rows0, ht0, hr0, hslope, hp'⟩ := prepare_slopes env files data p.log pr hp v hv path hpath rows' hrows' (sameUpTo_two hsame) hasc
    obtain rfl : rows0 = rows := by rw [hr0] at hrows; exact Option.some.inj hrows
    obtain ⟨a, b, b', ea, eb, ha2, pt, hpt, hXpt⟩ := profile_common t0 X m rows0 rows' hsame (by
      intro hs
      obtain ⟨w, hw1, hw2⟩ := ht0.2.2.2.2.2.1
      have hw := hw2.mp hs
      subst hw
      exact hm hw1 _ (ht0.2.2.2.2.2.2.1 hs))
    have hC := (C48_read_slope _ _ _).mp hslope
    have hterr : pr.world.terrain.spline = some ⟨profileFor t0 rows0⟩ := by rw [hC.2.2.2]
    have hascA : Ascending a := by
      have := profileFor_ascending t0 rows0 hC.2.1
      rw [ea] at this
      exact (List.pairwise_append.mp this).1
    have agree : ∀ x, x ≤ X → (pr.world.terrain.swapped (some ⟨profileFor t0 rows'⟩)).slope x = pr.world.terrain.slope x := by
      intro x hx
      unfold Terrain.slope Terrain.swapped
      dsimp only
      rw [hterr]
      show evalKnots x _ = evalKnots x _
      rw [ea, eb]
      exact evalKnots_common x a b' b ha2 hascA ⟨pt, hpt, hx.trans hXpt⟩
    rw [runOn_finish grid fuel env jsonFile folder p data hd pr hp] at hrun
    rw [runOn_finish grid fuel (env.withSlopes files) jsonFile folder p data hd _ hp']
    have key : simulateOn grid fuel pr.integrator (pr.world.swapped (some ⟨profileFor t0 rows'⟩)) =
        (simulateOn grid fuel pr.integrator pr.world).map fun o => (o.1, o.2.swapped (some ⟨profileFor t0 rows'⟩)) := by
      refine C116_only_visited_positions grid fuel pr.integrator pr.world _ (agree _ (hx0e ▸ hX0)) fun w1 x hi hx => agree x ?_
      have k := initEffusion_keeps pr.integrator.models.lava grid pr.world
      rw [hi] at k
      dsimp only at k
      cases hs : simulateOn grid fuel pr.integrator pr.world with
      | none => rw [hs] at hrun; cases hrun
      | some o =>
        obtain ⟨r, w'⟩ := o
        have hs' : runLoop pr.integrator fuel w1 = some (r, w') := by
          unfold simulateOn at hs
          rw [hi] at hs
          exact hs
        rw [hs] at hrun
        cases r with
        | error e => cases hrun
        | ok u =>
          have hq : q.log = w'.log := by
            unfold outcome finishRun at hrun
            simp only [Option.map_some] at hrun
            revert hrun
            cases writeValues w'.log with
            | error e => intro h; cases h
            | ok t => cases t <;> (intro h; cases h; rfl)
          have hg : 0 < pr.integrator.dx := by rw [hdxe]; exact hpos
          obtain ⟨_, hb⟩ := seen_between pr.integrator hg fuel w1 w' hs'
          refine (hb x hx).2.trans ?_
          rcases end_position pr.integrator hg fuel w1 w' (by rw [k.1, hl, hlog]) hs' with he | ⟨row, hrow, hrp⟩
          · rw [he, k.2.1, hx0e]
            exact hX0
          · have := hX row (by rw [hq]; exact hrow) _ hrp
            rw [hdxe] at this
            linarith
    dsimp only
    rw [key]
    have ho : outcome ((simulateOn grid fuel pr.integrator pr.world).map fun o => (o.1, o.2.swapped (some ⟨profileFor t0 rows'⟩))) =
        outcome (simulateOn grid fuel pr.integrator pr.world) := by
      unfold outcome
      rw [Option.map_map]
      rfl
    rw [ho]
    exact hrun

/-- A knot on the line between its neighbours does not change the interpolation. -/
theorem evalKnots_insert (x : ℝ) (pre : List (ℝ × ℝ)) (p s q : ℝ × ℝ) (post : List (ℝ × ℝ)) (h1 : p.1 < s.1) (h2 : s.1 < q.1)
    (hs : s.2 = lineThrough p q s.1) :
    evalKnots x (pre ++ p :: s :: q :: post) = evalKnots x (pre ++ p :: q :: post) := by
  have d1 : s.1 - p.1 ≠ 0 := by linarith
  have d2 : q.1 - s.1 ≠ 0 := by linarith
  have d3 : q.1 - p.1 ≠ 0 := by linarith
  have e1 : segment p s x = segment p q x := by
    unfold segment
    rw [div_of_ne d1, div_of_ne d3]
    simp only [ok_bind]
    congr 1
    rw [hs]
    unfold lineThrough
    field_simp
    ring
  have e2 : segment s q x = segment p q x := by
    unfold segment
    rw [div_of_ne d2, div_of_ne d3]
    simp only [ok_bind]
    congr 1
    rw [hs]
    unfold lineThrough
    field_simp
    ring
  have base : ∀ post, evalKnots x (p :: s :: q :: post) = evalKnots x (p :: q :: post) := by
    intro post
    rw [evalKnots]
    by_cases c : leB x s.1 = true
    · rw [if_pos c, e1]
      have c' : leB x q.1 = true := (leB_real _ _).mpr (((leB_real _ _).mp c).trans h2.le)
      cases post with
      | nil => rfl
      | cons r post => rw [evalKnots, if_pos c']
    · rw [if_neg c]
      cases post with
      | nil => rw [evalKnots, e2]; rfl
      | cons r post =>
        rw [evalKnots, evalKnots, e2]
  induction pre with
  | nil => exact base post
  | cons a pre ih =>
    cases pre with
    | nil =>
      simp only [List.nil_append, List.cons_append] at ih ⊢
      rw [evalKnots, ih]
      cases post <;> rfl
    | cons b pre =>
      simp only [List.cons_append] at ih ⊢
      cases pre with
      | nil =>
        simp only [List.nil_append] at ih ⊢
        conv_rhs => rw [evalKnots]
        rw [evalKnots, ih]
      | cons c pre =>
        simp only [List.cons_append] at ih ⊢
        conv_rhs => rw [evalKnots]
        rw [evalKnots, ih]

/-- **C116**. A run sees of the slope profile only the slope as a function of the distance: with another slope file whose profile has the
    same slope at every distance everything is the same, whether the run completes, fails or does not end. -/
theorem C116_same_slopes (grid : List ℝ) (fuel : Nat) (env : Env ℝ) (jsonFile folder : String) (p : Proc ℝ) (data : Json ℝ)
    (hd : lookup p.json (env.canon jsonFile) = some data) (pr : Prepared ℝ) (hp : prepare env data p.log = .ok pr)
    (v : Json ℝ) (hv : TopEntry data "slope_file" v) (path : String) (hpath : SlopePath v path)
    (files : String → Option (List (SlopeLine ℝ))) (rows rows' : List (SlopeLine ℝ))
    (hrows : env.slopeFile path = some rows) (hrows' : files path = some rows')
    (h2 : 2 ≤ (usableRows rows').length) (hasc : (usableRows rows').Pairwise fun a b => a.dist < b.dist)
    (hsame : ∀ t, TerrainFrom env data t → ∀ x y, Interpolates (profileFor t rows) x y ↔ Interpolates (profileFor t rows') x y) :
    runOn grid fuel (env.withSlopes files) jsonFile folder p = runOn grid fuel env jsonFile folder p := by
  obtain ⟨t0, rows0, ht0, hr0, hslope, hp'⟩ := prepare_slopes env files data p.log pr hp v hv path hpath rows' hrows' h2 hasc
  obtain rfl : rows0 = rows := by rw [hr0] at hrows; exact Option.some.inj hrows
  have hC := (C48_read_slope _ _ _).mp hslope
  have hterr : pr.world.terrain.spline = some ⟨profileFor t0 rows0⟩ := by rw [hC.2.2.2]
  have agree : ∀ x, (pr.world.terrain.swapped (some ⟨profileFor t0 rows'⟩)).slope x = pr.world.terrain.slope x := by
    intro x
    unfold Terrain.slope Terrain.swapped
    dsimp only
    rw [hterr]
    show evalKnots x _ = evalKnots x _
    have l1 : 2 ≤ (profileFor t0 rows0).length := by rw [(C48_rows_kept t0 rows0).2.2.1]; exact hC.1
    have l2 : 2 ≤ (profileFor t0 rows').length := by rw [(C48_rows_kept t0 rows').2.2.1]; exact h2
    obtain ⟨y, hy⟩ := evalKnots_total _ l1 (profileFor_ascending t0 rows0 hC.2.1) x
    rw [hy]
    exact (evalKnots_iff _ l2 (profileFor_ascending t0 rows' hasc) x y).mpr
      ((hsame t0 ht0 x y).mp ((evalKnots_iff _ l1 (profileFor_ascending t0 rows0 hC.2.1) x y).mp hy))
  rw [runOn_finish grid fuel env jsonFile folder p data hd pr hp]
  rw [runOn_finish grid fuel (env.withSlopes files) jsonFile folder p data hd _ hp']
  have key := C116_only_visited_positions grid fuel pr.integrator pr.world (some ⟨profileFor t0 rows'⟩) (agree _) fun _ x _ _ => agree x
  dsimp only
  rw [key]
  have ho : outcome ((simulateOn grid fuel pr.integrator pr.world).map fun o => (o.1, o.2.swapped (some ⟨profileFor t0 rows'⟩))) =
      outcome (simulateOn grid fuel pr.integrator pr.world) := by
    unfold outcome
    rw [Option.map_map]
    rfl
  rw [ho]
  rfl

/-- Samples of 0.1 degree or less add nothing to a profile. -/
theorem usable_insert (pre post flat : List (SlopeLine ℝ)) (h : ∀ r ∈ flat, r.slopeDeg ≤ 0.1) :
    usableRows (pre ++ flat ++ post) = usableRows (pre ++ post) := by
  rw [usable_append, usable_append, usable_append]
  have : usableRows flat = [] := by
    unfold usableRows
    rw [List.filter_eq_nil_iff]
    intro r hr
    simpa using h r hr
  rw [this, List.append_nil]

/-- **C116**. Flat and uphill samples anywhere in the slope file change nothing, with or without smoothing. -/
theorem C116_flat_samples (grid : List ℝ) (fuel : Nat) (env : Env ℝ) (jsonFile folder : String) (p : Proc ℝ) (data : Json ℝ)
    (hd : lookup p.json (env.canon jsonFile) = some data) (pr : Prepared ℝ) (hp : prepare env data p.log = .ok pr)
    (v : Json ℝ) (hv : TopEntry data "slope_file" v) (path : String) (hpath : SlopePath v path)
    (files : String → Option (List (SlopeLine ℝ))) (pre flat post : List (SlopeLine ℝ))
    (hrows : env.slopeFile path = some (pre ++ post)) (hrows' : files path = some (pre ++ flat ++ post))
    (hflat : ∀ r ∈ flat, r.slopeDeg ≤ 0.1) :
    runOn grid fuel (env.withSlopes files) jsonFile folder p = runOn grid fuel env jsonFile folder p := by
  have hu := usable_insert pre post flat hflat
  obtain ⟨_, ⟨t0, path', rows0, h3, h4, h5, h6, h7⟩, _⟩ := (C55_run_starts_from_the_configuration env data p.log pr).mp hp
  have hpp : path' = path := by
    have hr := ((C55_run_starts_from_the_configuration env data p.log pr).mp hp).1.2.2.1
    rw [topEntry_unique hr hv] at h5
    unfold SlopePath at h5 hpath
    rcases h5 with rfl | ⟨rfl, rfl⟩ <;> rcases hpath with h | ⟨h, h'⟩
    · cases h; rfl
    · cases h
    · cases h
    · exact h'.symm
  subst hpp
  obtain rfl : rows0 = pre ++ post := by rw [h6] at hrows; exact Option.some.inj hrows
  have hC := (C48_read_slope _ _ _).mp h7
  refine C116_same_slopes grid fuel env jsonFile folder p data hd pr hp v hv path' hpath files _ _ hrows hrows' ?_ ?_ ?_
  · rw [hu]; exact hC.1
  · rw [hu]; exact hC.2.1
  · intro t _ x y
    have : profileFor t (pre ++ flat ++ post) = profileFor t (pre ++ post) := by
      unfold profileFor smoothProfile rawProfile
      rw [hu]
    rw [this]

/-- **C116**. Without smoothing, a sample that lies on the line between two neighbouring downhill samples adds nothing. -/
theorem C116_inserted_sample (grid : List ℝ) (fuel : Nat) (env : Env ℝ) (jsonFile folder : String) (p : Proc ℝ) (data : Json ℝ)
    (hd : lookup p.json (env.canon jsonFile) = some data) (pr : Prepared ℝ) (hp : prepare env data p.log = .ok pr)
    (hsm : ¬ EntryAt data "terrain_conditions" "slope_smoothing_active" (.bool true))
    (v : Json ℝ) (hv : TopEntry data "slope_file" v) (path : String) (hpath : SlopePath v path)
    (files : String → Option (List (SlopeLine ℝ))) (pre post : List (SlopeLine ℝ)) (a s b : SlopeLine ℝ)
    (hrows : env.slopeFile path = some (pre ++ a :: b :: post)) (hrows' : files path = some (pre ++ a :: s :: b :: post))
    (ha : 0.1 < a.slopeDeg) (hb : 0.1 < b.slopeDeg) (hs : Between a s b) :
    runOn grid fuel (env.withSlopes files) jsonFile folder p = runOn grid fuel env jsonFile folder p := by
  obtain ⟨_, ⟨t0, path', rows0, h3, h4, h5, h6, h7⟩, _⟩ := (C55_run_starts_from_the_configuration env data p.log pr).mp hp
  have hpp : path' = path := by
    have hr := ((C55_run_starts_from_the_configuration env data p.log pr).mp hp).1.2.2.1
    rw [topEntry_unique hr hv] at h5
    unfold SlopePath at h5 hpath
    rcases h5 with rfl | ⟨rfl, rfl⟩ <;> rcases hpath with h | ⟨h, h'⟩
    · cases h; rfl
    · cases h
    · cases h
    · exact h'.symm
  subst hpp
  obtain rfl : rows0 = pre ++ a :: b :: post := by rw [h6] at hrows; exact Option.some.inj hrows
  have hC := (C48_read_slope _ _ _).mp h7
  obtain ⟨s1, s2, s3⟩ := hs
  have hsd : (0.1 : ℝ) < s.slopeDeg := by
    have hp0 : 0 < b.dist - a.dist := by linarith
    have ht0 : 0 ≤ (s.dist - a.dist) / (b.dist - a.dist) := div_nonneg (by linarith) hp0.le
    have ht1 : (s.dist - a.dist) / (b.dist - a.dist) < 1 := by rw [div_lt_one hp0]; linarith
    rw [s3]
    generalize (s.dist - a.dist) / (b.dist - a.dist) = t at ht0 ht1
    nlinarith [mul_nonneg ht0 (sub_pos.mpr hb).le, mul_pos (sub_pos.mpr ht1) (sub_pos.mpr ha)]
  have one : ∀ r : SlopeLine ℝ, 0.1 < r.slopeDeg → usableRows [r] = [r] := by
    intro r hr
    unfold usableRows
    rw [List.filter_cons_of_pos (by simpa using hr)]
    rfl
  have eu : usableRows (pre ++ a :: b :: post) = usableRows pre ++ a :: b :: usableRows post := by
    rw [show pre ++ a :: b :: post = pre ++ ([a] ++ ([b] ++ post)) from rfl]
    rw [usable_append, usable_append, usable_append, one a ha, one b hb]
    rfl
  have eu' : usableRows (pre ++ a :: s :: b :: post) = usableRows pre ++ a :: s :: b :: usableRows post := by
    rw [show pre ++ a :: s :: b :: post = pre ++ ([a] ++ ([s] ++ ([b] ++ post))) from rfl]
    rw [usable_append, usable_append, usable_append, usable_append, one a ha, one b hb, one s hsd]
    rfl
  have h2' : 2 ≤ (usableRows (pre ++ a :: s :: b :: post)).length := by
    rw [eu']; simp only [List.length_append, List.length_cons]; omega
  have hasc' : (usableRows (pre ++ a :: s :: b :: post)).Pairwise fun a b => a.dist < b.dist := by
    have := hC.2.1
    rw [eu] at this
    rw [eu']
    simp only [List.pairwise_append, List.pairwise_cons, List.mem_cons] at this ⊢
    obtain ⟨q1, ⟨q2, q3, q4⟩, q5⟩ := this
    refine ⟨q1, ⟨?_, ?_, q3, q4⟩, ?_⟩
    · rintro r (rfl | rfl | hr)
      · exact s1
      · exact s1.trans s2
      · exact q2 r (Or.inr hr)
    · rintro r (rfl | hr)
      · exact s2
      · exact s2.trans (q3 r hr)
    · rintro r hr r' (rfl | rfl | rfl | hr')
      · exact q5 r hr _ (Or.inl rfl)
      · exact (q5 r hr _ (Or.inl rfl)).trans s1
      · exact q5 r hr _ (Or.inr (Or.inl rfl))
      · exact q5 r hr _ (Or.inr (Or.inr hr'))
  refine C116_same_slopes grid fuel env jsonFile folder p data hd pr hp v hv path' hpath files _ _ hrows hrows' h2' hasc' ?_
  intro t ht x y
  have hns : t.smoothing = false := by
    obtain ⟨w, hw1, hw2⟩ := ht.2.2.2.2.2.1
    cases hb : t.smoothing with
    | false => rfl
    | true =>
      have := hw2.mp hb
      subst this
      exact absurd hw1 hsm
  have l1 : 2 ≤ (profileFor t (pre ++ a :: b :: post)).length := by rw [(C48_rows_kept t _).2.2.1]; exact hC.1
  have l2 : 2 ≤ (profileFor t (pre ++ a :: s :: b :: post)).length := by rw [(C48_rows_kept t _).2.2.1]; exact h2'
  rw [← evalKnots_iff _ l1 (profileFor_ascending t _ hC.2.1) x y, ← evalKnots_iff _ l2 (profileFor_ascending t _ hasc') x y]
  have e1 : profileFor t (pre ++ a :: b :: post) = rawProfile pre ++ (a.dist, degToRad a.slopeDeg) :: (b.dist, degToRad b.slopeDeg) :: rawProfile post := by
    unfold profileFor
    rw [hns]
    simp only [Bool.false_eq_true, if_false]
    unfold rawProfile
    rw [eu]
    simp
  have e2 : profileFor t (pre ++ a :: s :: b :: post) =
      rawProfile pre ++ (a.dist, degToRad a.slopeDeg) :: (s.dist, degToRad s.slopeDeg) :: (b.dist, degToRad b.slopeDeg) :: rawProfile post := by
    unfold profileFor
    rw [hns]
    simp only [Bool.false_eq_true, if_false]
    unfold rawProfile
    rw [eu']
    simp
  rw [e1, e2, evalKnots_insert x _ _ _ _ _ s1 s2]
  unfold lineThrough degToRad
  dsimp only
  rw [s3]
  ring

end PyFlowGo
