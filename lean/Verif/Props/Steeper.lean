import Verif.Props.ThinnerExample
/-
  C135: which grounds are steeper, and the statement for configurations.
-/
set_option linter.unusedSectionVars false
namespace PyFlowGo
open Spec

/-- Between the first and the last entry, interpolation in the table with the larger values gives the larger value. -/
theorem evalKnots_le (x : ℝ) (kn kn' : List (ℝ × ℝ)) (h : List.Forall₂ (fun p p' => p.1 = p'.1 ∧ p'.2 ≤ p.2) kn kn') (hlen : 2 ≤ kn.length) (hasc : Ascending kn)
    (hlo : ∀ p, kn.head? = some p → p.1 ≤ x) (hhi : ∃ p ∈ kn, x ≤ p.1) (y y' : ℝ) (hy : evalKnots x kn = .ok y) (hy' : evalKnots x kn' = .ok y') : y' ≤ y := by
  have seg : ∀ p q p' q' : ℝ × ℝ, p.1 = p'.1 → q.1 = q'.1 → p'.2 ≤ p.2 → q'.2 ≤ q.2 → p.1 < q.1 → p.1 ≤ x → x ≤ q.1 → segment p q x = .ok y → segment p' q' x = .ok y' → y' ≤ y := by
    intro p q p' q' e1 e2 h1 h2 hpq hx1 hx2 hy hy'
    have d : q.1 - p.1 ≠ 0 := by linarith
    unfold segment at hy hy'
    rw [div_of_ne d, ok_bind, pure_ok_iff] at hy
    rw [← e1, ← e2, div_of_ne d, ok_bind, pure_ok_iff] at hy'
    have t0 : 0 ≤ (x - p.1) / (q.1 - p.1) := div_nonneg (by linarith) (by linarith)
    have t1 : (x - p.1) / (q.1 - p.1) ≤ 1 := by rw [div_le_one (by linarith)]; linarith
    rw [← hy, ← hy']
    nlinarith
  induction kn generalizing kn' with
  | nil => simp at hlen
  | cons p rest ih =>
    cases rest with
    | nil => simp at hlen
    | cons q rest =>
      cases h with
      | cons hp h =>
        cases h with
        | cons hq h =>
          have hpq : p.1 < q.1 := (List.pairwise_cons.mp hasc).1 q (by simp)
          have hpx : p.1 ≤ x := hlo p rfl
          cases rest with
          | nil =>
            cases h
            obtain ⟨z, hz, hzx⟩ := hhi
            have : x ≤ q.1 := by
              simp only [List.mem_cons, List.not_mem_nil, or_false] at hz
              rcases hz with rfl | rfl
              · linarith
              · exact hzx
            exact seg _ _ _ _ hp.1 hq.1 hp.2 hq.2 hpq hpx this hy hy'
          | cons r rest =>
            cases h with
            | cons hr h =>
              unfold evalKnots at hy hy'
              rw [← hq.1] at hy'
              by_cases hxq : x ≤ q.1
              · have hb : leB x q.1 = true := by rw [leB_real]; exact hxq
                rw [hb, if_pos rfl] at hy hy'
                exact seg _ _ _ _ hp.1 hq.1 hp.2 hq.2 hpq hpx hxq hy hy'
              · have hb : leB x q.1 = false := by rw [← Bool.not_eq_true, leB_real]; exact hxq
                rw [hb, if_neg (by simp)] at hy hy'
                refine ih _ (List.Forall₂.cons hq (List.Forall₂.cons hr h)) (by simp) (List.pairwise_cons.mp hasc).2 ?_ ?_ hy hy'
                · intro z hz
                  obtain rfl : q = z := Option.some.inj hz
                  exact (not_le.mp hxq).le
                · obtain ⟨z, hz, hzx⟩ := hhi
                  rcases List.mem_cons.mp hz with rfl | hz
                  · linarith
                  · exact ⟨z, hz, hzx⟩

/-- Smoothing keeps the order of two profiles with the same distances. -/
theorem profileFor_le (t : Terrain ℝ) (rows rows' : List (SlopeLine ℝ))
    (h : List.Forall₂ (fun r r' => r.dist = r'.dist ∧ r'.slopeDeg ≤ r.slopeDeg) (usableRows rows) (usableRows rows')) :
    List.Forall₂ (fun p p' => p.1 = p'.1 ∧ p'.2 ≤ p.2) (profileFor t rows) (profileFor t rows') := by
  have hraw : List.Forall₂ (fun p p' => p.1 = p'.1 ∧ p'.2 ≤ p.2) (rawProfile rows) (rawProfile rows') := by
    unfold rawProfile
    rw [List.forall₂_map_left_iff, List.forall₂_map_right_iff]
    refine h.imp fun r r' hr => ⟨hr.1, ?_⟩
    show degToRad r'.slopeDeg ≤ degToRad r.slopeDeg
    unfold degToRad
    have := mul_le_mul_of_nonneg_right hr.2 Real.pi_pos.le
    linarith
  unfold profileFor
  split
  · have hlen := hraw.length_eq
    unfold smoothProfile
    dsimp only
    rw [← hlen, List.forall₂_map_left_iff, List.forall₂_map_right_iff, List.forall₂_same]
    intro i hi
    have get : ∀ j, ((rawProfile rows).getD j (0, 0)).1 = ((rawProfile rows').getD j (0, 0)).1 ∧ ((rawProfile rows').map Prod.snd).getD j 0 ≤ ((rawProfile rows).map Prod.snd).getD j 0 := by
      intro j
      by_cases hj : j < (rawProfile rows).length
      · have hj' : j < (rawProfile rows').length := by rw [← hlen]; exact hj
        have := hraw.get hj hj'
        simp only [List.getD_eq_getElem?_getD, List.getElem?_map, List.getElem?_eq_getElem hj, List.getElem?_eq_getElem hj', Option.map_some, Option.getD_some]
        exact this
      · have hj' : ¬ j < (rawProfile rows').length := by rw [← hlen]; exact hj
        simp only [List.getD_eq_getElem?_getD, List.getElem?_map, List.getElem?_eq_none (not_lt.mp hj), List.getElem?_eq_none (not_lt.mp hj'), Option.map_none, Option.getD_none]
        exact ⟨trivial, le_rfl⟩
    refine ⟨(get i).1, ?_⟩
    dsimp only
    unfold centredMean
    rw [List.length_map, List.length_map, ← hlen]
    exact div_le_div_of_nonneg_right (Finset.sum_le_sum fun j _ => (get j).2) (Nat.cast_nonneg _)
  · exact hraw

/-- C135: **the profile file with the larger slopes is the steeper ground**. Two slope files are read for the same terrain settings, smoothed or not. Their usable samples lie at the same
    distances, those of the first are not less steep and at most vertical, and they cover the way from the vent to the end of the channel. Then the first ground is the steeper one. -/
theorem C135_profiles (t T T' : Terrain ℝ) (rows rows' : List (SlopeLine ℝ)) (vent : ℝ) (hr : t.readSlope rows = .ok T) (hr' : t.readSlope rows' = .ok T') (hg : 0 ≤ t.gravity)
    (h : List.Forall₂ (fun r r' => r.dist = r'.dist ∧ r'.slopeDeg ≤ r.slopeDeg) (usableRows rows) (usableRows rows')) (h90 : ∀ r ∈ usableRows rows, r.slopeDeg ≤ 90)
    (hfirst : ∃ r, (usableRows rows).head? = some r ∧ r.dist ≤ vent) (hlast : ∃ r ∈ usableRows rows, vent ≤ r.dist ∧ t.maxLength ≤ r.dist) : Steeper vent T T' := by
  obtain ⟨a1, a2, _, a4⟩ := (C48_read_slope t T rows).mp hr
  obtain ⟨b1, b2, _, b4⟩ := (C48_read_slope t T' rows').mp hr'
  refine ⟨by rw [a4, b4], by rw [a4, b4], fun x y y' hx hy hy' hpos => ?_⟩
  obtain ⟨r, hrh, hrv⟩ := hfirst
  obtain ⟨s, hs, hsv, hsl⟩ := hlast
  have hrm : r ∈ usableRows rows := List.mem_of_mem_head? (by rw [hrh]; rfl)
  have hlo : vent ≤ x := by rcases hx with rfl | hx; exacts [le_rfl, hx.1]
  have hhi : x ≤ s.dist := by
    rcases hx with rfl | hx
    · exact hsv
    · have := hx.2
      rw [b4] at this
      have : x < t.maxLength := this
      linarith
  obtain ⟨z, z1, z2, _, _, c, hc, _, z3⟩ := C50_inside_positive t T rows hr x r s hrm hs (hrv.trans hlo) hhi
  rw [hy, Except.ok.injEq] at z1
  rw [← z1] at z2 z3
  have hz : y ≤ Real.pi / 2 := by
    refine z3.trans ?_
    have := h90 c hc
    unfold degToRad
    have := mul_le_mul_of_nonneg_right this Real.pi_pos.le
    linarith
  have hmem : ∀ r ∈ usableRows rows, ∃ p ∈ profileFor t rows, p.1 = r.dist := by
    intro r hr
    have : r.dist ∈ (profileFor t rows).map Prod.fst := by
      rw [(C48_rows_kept t rows).2.2.2]; exact List.mem_map_of_mem hr
    obtain ⟨p, hp, he⟩ := List.mem_map.mp this
    exact ⟨p, hp, he⟩
  have hle : y' ≤ y := by
    refine evalKnots_le x _ _ (profileFor_le t rows rows' h) (by rw [(C48_rows_kept t rows).2.2.1]; exact a1) (profileFor_ascending t rows a2) ?_ ?_ y y' (by rw [a4] at hy; exact hy) (by rw [b4] at hy'; exact hy')
    · intro p hp
      have h1 : ((profileFor t rows).map Prod.fst).head? = some p.1 := by rw [List.head?_map, hp]; rfl
      rw [(C48_rows_kept t rows).2.2.2, List.head?_map, hrh] at h1
      have : r.dist = p.1 := Option.some.inj h1
      linarith
    · obtain ⟨p, hp, he⟩ := hmem s hs
      exact ⟨p, hp, by rw [he]; exact hhi⟩
  have hrow : ∀ c ∈ usableRows rows, ∃ c' ∈ usableRows rows', c'.dist = c.dist := by
    have : (usableRows rows).map (·.dist) = (usableRows rows').map (·.dist) := by
      rw [← List.forall₂_eq_eq_eq, List.forall₂_map_left_iff, List.forall₂_map_right_iff]
      exact h.imp fun _ _ hr => hr.1
    intro c hc
    have hm : c.dist ∈ (usableRows rows).map (·.dist) := List.mem_map_of_mem hc
    rw [this] at hm
    obtain ⟨c', hc', he⟩ := List.mem_map.mp hm
    exact ⟨c', hc', he⟩
  obtain ⟨r', hr'm, er⟩ := hrow r hrm
  obtain ⟨s', hs'm, es⟩ := hrow s hs
  obtain ⟨z', y1, y2, _⟩ := C50_inside_positive t T' rows' hr' x r' s' hr'm hs'm (by rw [er]; linarith) (by rw [es]; exact hhi)
  rw [hy', Except.ok.injEq] at y1
  rw [← y1] at y2
  have hd : 0 < degToRad 0.1 := by
    unfold degToRad
    have := Real.pi_pos
    positivity
  rw [a4, b4]
  refine mul_le_mul_of_nonneg_left (Real.sin_le_sin_of_le_of_le_pi_div_two ?_ hz hle) hg
  have := Real.pi_pos
  linarith

/-- C135: **stronger gravity is a steeper ground**: the same terrain with a gravity that is not smaller. -/
theorem C135_gravity (vent : ℝ) (T : Terrain ℝ) (gravity : ℝ) (h0 : 0 ≤ T.gravity) (h : T.gravity ≤ gravity) : Steeper vent { T with gravity := gravity } T := by
  refine ⟨rfl, le_rfl, fun x y y' _ hy hy' hpos => ?_⟩
  have hy : T.slope x = .ok y := hy
  rw [hy, Except.ok.injEq] at hy'
  rw [← hy'] at hpos ⊢
  exact mul_le_mul_of_nonneg_right h (pos_of_mul_pos_right hpos h0).le

/-- **C135 for runs**: two configurations with an effusion rate of zero whose models are the same, starting at the same place with the same temperature and crystals, of which the first
    lies on the steeper ground. -/
theorem C135_run (n n' : Nat) (env env' : Env ℝ) (jsonFile folder : String) (p p' : Proc ℝ)
    (d d' : Json ℝ) (hd : lookup p.json (env.canon jsonFile) = some d) (hd' : lookup p'.json (env'.canon jsonFile) = some d') (hlog : p.log = []) (hlog' : p'.log = [])
    (pr pr' : Prepared ℝ) (hprep : prepare env d [] = .ok pr) (hprep' : prepare env' d' [] = .ok pr') (hg : pr'.integrator = pr.integrator)
    (hsteep : Steeper pr'.world.st.pos pr.world.terrain pr'.world.terrain) (hsame : SameVent pr.world.st pr'.world.st)
    (hrate : pr.world.terrain.effusionRateInit = 0) (hrate' : pr'.world.terrain.effusionRateInit = 0) (hmass : pr.integrator.massConservation = false)
    (ha : Sensible pr.integrator pr.world.terrain pr.world.st.pos) (hb : Sensible pr.integrator pr'.world.terrain pr.world.st.pos)
    (r : ℝ) (he : Everyday pr.integrator pr.world.st.pos r)
    (hv : AtVent pr.integrator pr'.world) (hvent : pr.integrator.models.lava.yieldNotCompatible pr'.world.terrain pr'.world.st = .ok false)
    (q q' : Proc ℝ) (hrun : run n env jsonFile folder p = some (.ok (), q)) (hrun' : run n' env' jsonFile folder p' = some (.ok (), q'))
    (hsmall : StepIsSmall pr.integrator pr.world.terrain.depth (pr.world.st.temp - pr.integrator.models.lava.buffer) r q.log) :
    (∀ x T T', BothShow q.log q'.log "core_temperature" x T T' → T' ≤ T) ∧
    (∀ x phi phi', BothShow q.log q'.log "crystal_fraction" x phi phi' → phi ≤ phi') ∧
    (∀ x v v', BothShow q.log q'.log "mean_velocity" x v v' → v' ≤ v) ∧
    ((∀ x y, loggedNum q.log x "heat_budget" = some y → 0 < y) → ∀ x, CompleteRow q'.log x → CompleteRow q.log x) := by
  obtain ⟨_, _, _, f4, f5, f6, _⟩ := prepared_facts hprep
  obtain ⟨_, _, _, g4, g5, g6, _⟩ := prepared_facts hprep'
  obtain ⟨w, hsim, hql⟩ := run_log hd (by rw [hlog]; exact hprep) hrun
  obtain ⟨w', hsim', hql'⟩ := run_log hd' (by rw [hlog']; exact hprep') hrun'
  rw [open_rate _ _ _ _ hrate] at hsim
  rw [open_rate _ _ _ _ hrate', hg] at hsim'
  rw [hql] at hsmall
  rw [hql, hql']
  obtain ⟨c1, c2, c3, c4⟩ := C135_sensible pr.integrator pr.world.st.pos r n n' pr.world pr'.world w w' ha hb he hsteep hv le_rfl hsame f4 g4 f5 g5
    hvent (fun h => by rw [hmass] at h; cases h) hsim hsim' hsmall
  exact ⟨c1, c2, c3, fun h => (c4 f6 h).2⟩

noncomputable def steeperRows : List (SlopeLine ℝ) := [⟨0, 0, 0, 0, 24⟩, ⟨0, 0, 0, 30000, 12⟩]
noncomputable def flatterRows : List (SlopeLine ℝ) := [⟨0, 0, 0, 0, 12⟩, ⟨0, 0, 0, 20000, 0.05⟩, ⟨0, 0, 0, 30000, 6⟩]

theorem steeper_usable : usableRows steeperRows = [⟨0, 0, 0, 0, 24⟩, ⟨0, 0, 0, 30000, 12⟩] := by
  unfold usableRows steeperRows
  norm_num

theorem flatter_usable : usableRows flatterRows = [⟨0, 0, 0, 0, 12⟩, ⟨0, 0, 0, 30000, 6⟩] := by
  unfold usableRows flatterRows
  norm_num

/-- The runs of the template with rain as its only heat loss on both grounds end normally, and the flow on the flatter ground is nowhere hotter or faster and has no complete row that the
    other has not. -/
example : ∃ q q' : Proc ℝ,
    run 3000 { rainEnv with slopeFile := fun _ => some steeperRows } "rain.json" "out" ⟨[("rain.json", rainConfig (.num 0))], [], []⟩ = some (.ok (), q) ∧
    run 3000 { rainEnv with slopeFile := fun _ => some flatterRows } "rain.json" "out" ⟨[("rain.json", rainConfig (.num 0))], [], []⟩ = some (.ok (), q') ∧
    CompleteRow q'.log 0 ∧ CompleteRow q.log 0 ∧ (∀ x, CompleteRow q'.log x → CompleteRow q.log x) ∧
    (∀ x T T', BothShow q.log q'.log "core_temperature" x T T' → T' ≤ T) ∧
    (∀ x phi phi', BothShow q.log q'.log "crystal_fraction" x phi phi' → phi ≤ phi') ∧
    (∀ x v v', BothShow q.log q'.log "mean_velocity" x v v' → v' ≤ v) := by
  have h2 : 2 ≤ (usableRows steeperRows).length := by rw [steeper_usable]; simp
  have hasc : (usableRows steeperRows).Pairwise fun a b => a.dist < b.dist := by rw [steeper_usable]; simp
  have h2' : 2 ≤ (usableRows flatterRows).length := by rw [flatter_usable]; simp
  have hasc' : (usableRows flatterRows).Pairwise fun a b => a.dist < b.dist := by rw [flatter_usable]; simp
  have hprep := rain_prepare { rainEnv with slopeFile := fun _ => some steeperRows } (.num 0) 0 rfl steeperRows rfl h2 hasc
  have hprep' := rain_prepare { rainEnv with slopeFile := fun _ => some flatterRows } (.num 0) 0 rfl flatterRows rfl h2' hasc'
  have hin : ∃ r ∈ usableRows steeperRows, ∃ r' ∈ usableRows steeperRows, r.dist ≤ (0 : ℝ) ∧ (0 : ℝ) ≤ r'.dist := by
    rw [steeper_usable]; exact ⟨_, List.mem_cons_self, _, List.mem_cons_self, le_rfl, le_rfl⟩
  have hin' : ∃ r ∈ usableRows flatterRows, ∃ r' ∈ usableRows flatterRows, r.dist ≤ (0 : ℝ) ∧ (0 : ℝ) ≤ r'.dist := by
    rw [flatter_usable]; exact ⟨_, List.mem_cons_self, _, List.mem_cons_self, le_rfl, le_rfl⟩
  have hst : ∀ q ∈ usableRows steeperRows, q.slopeDeg < 180 ∧ q.slopeDeg ≤ 90 := by
    rw [steeper_usable]
    intro q hq
    simp only [List.mem_cons, List.not_mem_nil, or_false] at hq
    rcases hq with rfl | rfl <;> norm_num
  have hst' : ∀ q ∈ usableRows flatterRows, q.slopeDeg < 180 := by
    rw [flatter_usable]
    intro q hq
    simp only [List.mem_cons, List.not_mem_nil, or_false] at hq
    rcases hq with rfl | rfl <;> norm_num
  obtain ⟨_, ha⟩ := C117_template_sensible _ _ _ _ hprep rainChoice (exConfig_selects _ _) ⟨rfl, rfl, rfl, rfl, rfl, rfl⟩ (rain_physical _ _)
  obtain ⟨_, hb⟩ := C117_template_sensible _ _ _ _ hprep' rainChoice (exConfig_selects _ _) ⟨rfl, rfl, rfl, rfl, rfl, rfl⟩ (rain_physical _ _)
  have hva := template_vent _ _ _ hprep rainChoice (exConfig_selects _ _) ⟨rfl, rfl, rfl, rfl, rfl, rfl⟩ (rain_physical _ _)
    "slope.txt" steeperRows (Or.inl rfl) rfl hin fun q hq => (hst q hq).1
  have hvb := template_vent _ _ _ hprep' rainChoice (exConfig_selects _ _) ⟨rfl, rfl, rfl, rfl, rfl, rfl⟩ (rain_physical _ _)
    "slope.txt" flatterRows (Or.inl rfl) rfl hin' hst'
  have hd : lookup [("rain.json", rainConfig (.num 0))] "rain.json" = some (rainConfig (.num 0)) := by rw [lookup_cons_eq]; exact if_pos rfl
  obtain ⟨q, a1⟩ := C117_template_completes _ "rain.json" "out" ⟨[("rain.json", rainConfig (.num 0))], [], []⟩ _ _ hd hprep
    rainChoice (exConfig_selects _ _) ⟨rfl, rfl, rfl, rfl, rfl, rfl⟩ (rain_physical _ _) "slope.txt" steeperRows (Or.inl rfl) rfl hin (fun q hq => (hst q hq).1) (fun h => by cases h) 3000 (by norm_num)
    (by show ((30000 : ℝ) - 0) / 10 ≤ _; norm_num)
  obtain ⟨q', b1⟩ := C117_template_completes _ "rain.json" "out" ⟨[("rain.json", rainConfig (.num 0))], [], []⟩ _ _ hd hprep'
    rainChoice (exConfig_selects _ _) ⟨rfl, rfl, rfl, rfl, rfl, rfl⟩ (rain_physical _ _) "slope.txt" flatterRows (Or.inl rfl) rfl hin' hst' (fun h => by cases h) 3000 (by norm_num)
    (by show ((30000 : ℝ) - 0) / 10 ≤ _; norm_num)
  set pr := rainPrepared (.num 0) 0 steeperRows with hpr
  set pr' := rainPrepared (.num 0) 0 flatterRows with hpr'
  have hev : Everyday pr.integrator 0 (0.896 / (1387.15 - 1237.15)) :=
    template_everyday rainModels rfl (by
      intro f hf
      have hf : f ∈ [(Flux.rain 7.93e-8 958 2.8e6 : Flux ℝ)] := hf
      rw [List.mem_singleton.mp hf]
      show (0 : ℝ) ≤ 7.93e-8 * 958 * 2.8e6
      norm_num) false 10 0
  have hread : (templateTerrain 0 none).readSlope steeperRows = .ok pr.world.terrain := (C48_read_slope _ _ _).mpr ⟨h2, hasc, fun h => by simp [templateTerrain] at h, rfl⟩
  have hread' : (templateTerrain 0 none).readSlope flatterRows = .ok pr'.world.terrain := (C48_read_slope _ _ _).mpr ⟨h2', hasc', fun h => by simp [templateTerrain] at h, rfl⟩
  have hsteep : Steeper 0 pr.world.terrain pr'.world.terrain := by
    refine C135_profiles _ _ _ steeperRows flatterRows 0 hread hread' (by show (0 : ℝ) ≤ 9.81; norm_num) ?_ (fun q hq => (hst q hq).2) ?_ ?_
    · rw [steeper_usable, flatter_usable]
      exact List.Forall₂.cons ⟨rfl, by norm_num⟩ (List.Forall₂.cons ⟨rfl, by norm_num⟩ List.Forall₂.nil)
    · rw [steeper_usable]; exact ⟨_, rfl, le_rfl⟩
    · rw [steeper_usable]; exact ⟨_, List.mem_cons_of_mem _ List.mem_cons_self, by norm_num, by show (30000 : ℝ) ≤ 30000; norm_num⟩
  have hst0 : ∃ y, pr'.world.st = ⟨0.104, 1387.15, 0, 1, y⟩ := ⟨_, rfl⟩
  obtain ⟨y0, hst0⟩ := hst0
  have hslope : pr'.world.terrain.slope 0 = .ok (degToRad 12) := by
    refine C50_at_samples _ _ _ hread' (0, degToRad 12) ?_
    unfold profileFor
    rw [if_neg (by simp [templateTerrain])]
    unfold rawProfile
    rw [flatter_usable]
    simp
  have hcompat : rainModels.lava.yieldNotCompatible pr'.world.terrain pr'.world.st = .ok false := by
    have hy : rainModels.lava.yieldStrength ⟨0.104, 1387.15, 0, 1, y0⟩ = .ok (yieldLaw (⟨0.104, 1387.15, 0, 1, 0⟩ : FlowState ℝ) (.basic 1387.15)) := C34_yield_laws _ _ (by norm_num)
    have hbs : rainModels.lava.basalStress pr'.world.terrain ⟨0.104, 1387.15, 0, 1, y0⟩ = .ok (1.4 * (2970 * (1 - 0.64)) * 9.81 * Real.sin (degToRad 12)) := by
      unfold Lava.basalStress
      dsimp only
      rw [hslope, ok_bind]
      have hd : rainModels.lava.density ⟨0.104, 1387.15, 0, 1, y0⟩ = 2970 * (1 - 0.64) := by
        show (2970 : ℝ) * (1.0 - 0.64) = _
        norm_num
      rw [hd]
      rfl
    unfold Lava.yieldNotCompatible
    rw [hst0, hy, ok_bind, hbs, ok_bind, pure_ok_iff, ← Bool.not_eq_true, leB_real, not_le]
    refine template_yield.trans_lt ?_
    have := rain_stress_ge
    linarith
  obtain ⟨w, hsim, hql⟩ := run_log (grid := depthGrid) hd hprep a1
  rw [open_rate _ _ _ _ rfl] at hsim
  obtain ⟨t1, t2⟩ := rain_table (g := pr.integrator) (a := 7.93e-8) (b := 958) (c := 2.8e6) (r := 0.896 / (1387.15 - 1237.15)) (x0 := 0) (by norm_num) rfl rfl pr.world w ha hev.rate
    le_rfl hva rfl rfl 3000 hsim (1387.15 - 140)
  obtain ⟨w', hsim', hql'⟩ := run_log (grid := depthGrid) hd hprep' b1
  rw [open_rate _ _ _ _ rfl] at hsim'
  have fb : Fit pr'.integrator pr'.world.terrain 0 pr'.world.st := ⟨le_rfl, hvb.crystals, hvb.hot, hvb.room, hvb.off, hvb.ground⟩
  obtain ⟨k, hk⟩ := velocity_total hb hvb.depth fb
  obtain ⟨v, y, _, hv, _, _⟩ := hk pr'.world.st.strain
  have hv : pr'.integrator.models.lava.meanVelocity pr'.world.terrain pr'.world.st = .ok (v, y) := hv
  have hv0 : 0 < v := by
    obtain ⟨t0, tb, mu, f1, f2, f3, n1, n2, n3, f4, _⟩ := (meanVelocity_ok_iff _ _ _ _ _).mp hv
    obtain ⟨mu', m1, m2⟩ := viscosity_total hb fb
    rw [f3, Except.ok.injEq] at m1
    have hc : pr'.integrator.models.lava.yieldNotCompatible pr'.world.terrain pr'.world.st = .ok false := hcompat
    unfold Lava.yieldNotCompatible at hc
    rw [f1, ok_bind, f2, ok_bind, pure_ok_iff, ← Bool.not_eq_true, leB_real, not_le] at hc
    have ht0 : 0 ≤ t0 := by
      obtain ⟨t1, y1, y2⟩ := yield_total (g := pr'.integrator) hvb.crystals
      rw [y1, Except.ok.injEq] at f1
      rw [← f1]; exact y2
    rw [f4]
    exact bingham_pos hvb.depth (by linarith) (by rw [m1]; exact m2) ht0 hc.ne
  have hrow := C119_first_row (g := pr'.integrator) pr'.world w' hb le_rfl hvb rfl rfl rfl rfl (fun _ _ => rfl) v y hv hv0
    (fun width qs hw h => by
      have hfl : pr'.integrator.models.fluxes = [.rain 7.93e-8 958 2.8e6] := rfl
      rw [hfl] at h
      cases h with
      | cons a1 a2 =>
        cases a2
        have a1 : _ = 7.93e-8 * 958 * 2.8e6 * width := a1
        rw [a1]
        simp only [List.sum_cons, List.sum_nil, add_zero]
        positivity) 3000 hsim'
  rw [← hql] at t1 t2
  rw [← hql'] at hrow
  obtain ⟨c1, c2, c3, c4⟩ := C135_run 3000 3000 _ _ "rain.json" "out" _ _ _ _ hd hd rfl rfl pr pr' hprep hprep' rfl hsteep
    ⟨rfl, rfl, rfl⟩ rfl rfl rfl ha hb _ hev hvb hcompat q q' a1 b1 t1
  exact ⟨q, q', a1, b1, hrow, c4 t2 _ hrow, c4 t2, c1, c2, c3⟩

/-- The template on a planet with 9 instead of 9.81 metres per second squared lies on the flatter ground. -/
example : Steeper 0 (templateTerrain 0 none) { templateTerrain 0 none with gravity := 9 } :=
  C135_gravity 0 { templateTerrain 0 none with gravity := 9 } 9.81 (by norm_num) (by norm_num)

end PyFlowGo
