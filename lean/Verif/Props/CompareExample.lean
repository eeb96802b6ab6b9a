import Verif.Props.Compare
import Verif.Props.ConvergeExample
/-
  C118: two flows, cooled by one rain flux and by two, that meet the hypotheses.
-/
set_option linter.unusedSectionVars false
namespace PyFlowGo
open Spec Set

theorem rain_twice (eps : ℝ) (m : Models ℝ) (width depth : ℝ) (w : World ℝ) (hm : m.fluxes = [.rain eps 1 1, .rain eps 1 1]) :
    ∃ w2, heatBudget m width depth w = (.ok (2 * eps * width), w2) := by
  unfold heatBudget
  rw [hm]
  have h : (0.0 : ℝ) + eps * 1 * 1 * width + eps * 1 * 1 * width = 2 * eps * width := by rw [show (0.0 : ℝ) = 0 by norm_num]; ring
  simp only [heatBudgetLoop, Flux.compute]
  refine ⟨(logNum "heat_budget" (0.0 + eps * 1 * 1 * width + eps * 1 * 1 * width)
    (logNum "flowgofluxheatlossrain" (eps * 1 * 1 * width) (logNum "flowgofluxheatlossrain" (eps * 1 * 1 * width) w).2).2).2, ?_⟩
  refine Eq.trans (b := ((Except.ok (0.0 + eps * 1 * 1 * width + eps * 1 * 1 * width) : Except Err ℝ), _)) rfl ?_
  rw [h]
  rfl

theorem gentle_twice (T : Terrain ℝ) (eps : ℝ) (heps : 0 < eps) : Gentle [.rain eps 1 1, .rain eps 1 1] T (2 * eps) := by
  intro width w0 h0 h1 _ _ _ _
  obtain ⟨w2, hw2⟩ := rain_twice eps (flowModels [.rain eps 1 1, .rain eps 1 1]) width 1 w0 rfl
  exact ⟨_, w2, hw2, by positivity, by nlinarith⟩

/-- The states of the example stay in the region. -/
theorem flow_region (fs : List (Flux ℝ)) (c : ℝ) (hc : 0 ≤ c)
    (hq : ∀ width T s qs, 0 < width → List.Forall₂ (FluxIs (flowModels fs) width T.depth T s) fs qs → 0 ≤ qs.sum ∧ qs.sum ≤ c * width)
    (len : ℝ) (a : World ℝ) (k : Nat) (ws : Nat → World ℝ) (d : Nat → RowData) (hsmall : 3 * c * k ≤ 1 / 100)
    (t : RunTable (flowG fs) (longWorld 0 len) a 1 k ws d) :
    ∀ i, i ≤ k → FineRegion (ws i).st.pos (ws i).st.temp (ws i).st.crystal := by
  have hT := longTerrain_channel len
  have key : ∀ i : ℕ, i ≤ k → (ws i).st.temp = 1000 - 1000 * (ws i).st.crystal ∧ 0 ≤ (ws i).st.crystal ∧ (ws i).st.crystal ≤ 3 * c * i := by
    intro i
    induction i with
    | zero =>
      intro _
      rw [t.start]
      refine ⟨?_, le_refl (0 : ℝ), ?_⟩
      · show (1000 : ℝ) = 1000 - 1000 * 0; norm_num
      · show (0 : ℝ) ≤ _; simp
    | succ i ih =>
      intro hi
      obtain ⟨i1, i2, i3⟩ := ih (by omega)
      have hlt : i < k := by omega
      have hb : (ws i).st.crystal ≤ 1 / 100 := by
        have : (i : ℝ) ≤ k := by exact_mod_cast hlt.le
        have := mul_le_mul_of_nonneg_left this (show 0 ≤ 3 * c by linarith)
        linarith
      have hreg : FineRegion (ws i).st.pos (ws i).st.temp (ws i).st.crystal := ⟨i1, i2, hb⟩
      have hv := fine_velocity hT _ hreg
      have m := t.made i hlt
      have st := t.step i hlt
      obtain ⟨x, hx⟩ := m.velocity
      have hx : (exLava 1 (.kd 1 0) .ryerson).meanVelocity (longTerrain len) (ws i).st = .ok ((d i).v, x) := hx
      rw [hv, Except.ok.injEq, Prod.mk.injEq] at hx
      have hge := fineV_ge i2 hb
      have hw := m.volume rfl
      have hdep : (longWorld 0 len).terrain.depth = 1 := hT.depth
      rw [← hx.1, hdep, mul_one] at hw
      have hr := m.rate
      have hrate : (flowG fs).models.cryst.rate (ws i).st = .ok (1 / 1000) := by
        show PyNum.div (1 : ℝ) (1000 - 0) = _
        rw [div_of_ne (by norm_num)]; norm_num
      rw [hrate, Except.ok.injEq] at hr
      have hwid : 0 < (d i).width := by rw [hw]; exact div_pos one_pos (by linarith)
      have hwid3 : (d i).width ≤ 3 := by rw [hw, div_le_iff₀ (by linarith)]; linarith
      obtain ⟨qs, q1, q2⟩ := t.heat (fun _ _ => rfl) i hlt
      obtain ⟨n1, n2⟩ := hq _ _ _ _ hwid q1
      have hrho : (flowG fs).models.lava.density (ws i).st = 1 := exLava_density 1 (.kd 1 0) .ryerson _
      have hlat : (flowG fs).models.lava.latentHeat = 1 := rfl
      have e1 := st.crystal
      have e2 := st.temp
      have edx : (flowG fs).dx = 1 := rfl
      unfold crystalGradient at e1
      unfold tempGradient at e2
      rw [hrho, hlat, edx] at e1 e2
      rw [← hr] at e2
      have e1 : (ws (i + 1)).st.crystal = (ws i).st.crystal + (d i).heat := by rw [e1]; ring
      have e2 : (ws (i + 1)).st.temp = (ws i).st.temp - 1000 * (d i).heat := by rw [e2]; ring
      rw [e1, e2]
      have h3 : c * (d i).width ≤ c * 3 := mul_le_mul_of_nonneg_left hwid3 hc
      refine ⟨by rw [i1]; ring, by linarith, ?_⟩
      push_cast
      linarith
  intro i hi
  obtain ⟨i1, i2, i3⟩ := key i hi
  refine ⟨i1, i2, ?_⟩
  have : (i : ℝ) ≤ k := by exact_mod_cast hi
  have := mul_le_mul_of_nonneg_left this (show 0 ≤ 3 * c by linarith)
  linarith

/-- **C118**: the hypotheses are met by runs with any number `n >= 2` of rows, cooled by one rain flux and by two. -/
example (n : Nat) (hn : 2 ≤ n) : ∃ (g : Integrator ℝ) (fs extra : List (Flux ℝ)) (w a b : World ℝ) (E r K : ℝ) (R R' : ℝ → ℝ → ℝ → Prop),
    fs.Perm (g.models.fluxes ++ extra) ∧ extra ≠ [] ∧ 0 < g.dx ∧ w.log = [] ∧ runLoop g n w = some (.ok (), a) ∧
    runLoop (withFluxes g fs) n w = some (.ok (), b) ∧ a.log.length = n ∧ b.log.length = n ∧
    StrainIndependent g.models.lava ∧ 0 < r ∧ (∀ s, g.models.cryst.rate s = .ok r) ∧ VentRate g w E ∧ 0 < E ∧
    0 < w.terrain.depth ∧ 0 < g.models.lava.latentHeat ∧ (∀ flux, w.fluxRate = some flux → 0 < flux) ∧
    (∀ x T phi, loggedNum a.log x "core_temperature" = some T → loggedNum a.log x "crystal_fraction" = some phi → R x T phi) ∧
    (∀ x T phi, loggedNum b.log x "core_temperature" = some T → loggedNum b.log x "crystal_fraction" = some phi → R' x T phi) ∧
    (∀ s, R' s.pos s.temp s.crystal → 0 < g.models.lava.density s) ∧ (∀ f ∈ extra, NeverWarms g.models w.terrain R' f) ∧
    ColderSlower g w.terrain w.fluxRate E R R' r K ∧ g.dx * K ≤ 1 ∧
    0 ≤ w.st.crystal ∧ PackingChecked g.models.lava.rel ∧ (∀ mu, g.models.lava.bulkViscosity a.st = .ok mu → 0 < mu) ∧
    (∀ x q, loggedNum a.log x "heat_budget" = some q → 0 < q) := by
  obtain ⟨C, hC, hlip⟩ := fineV_lipschitz
  have hn0 : (0 : ℝ) < n := by positivity
  obtain ⟨eps, heps, e1, e2⟩ : ∃ eps : ℝ, 0 < eps ∧ 3 * (2 * eps) * n ≤ 1 / 100 ∧ eps * C ≤ 1 := by
    refine ⟨min (1 / (600 * n)) (1 / C), by positivity, ?_, ?_⟩
    · have := min_le_left (1 / (600 * (n : ℝ))) (1 / C)
      have h2 := mul_le_mul_of_nonneg_right this (show 0 ≤ 6 * (n : ℝ) by positivity)
      have : 1 / (600 * (n : ℝ)) * (6 * n) = 1 / 100 := by field_simp; norm_num
      linarith
    · have := mul_le_mul_of_nonneg_right (min_le_right (1 / (600 * (n : ℝ))) (1 / C)) hC.le
      have h2 : 1 / C * C = 1 := by field_simp
      linarith
  have e0 : 3 * eps * n ≤ 1 / 100 := by
    have : 0 < eps * n := by positivity
    linarith
  let len : ℝ := n
  have hT := longTerrain_channel len
  let w := longWorld 0 len
  obtain ⟨ws, a, h0, hacc, ha, hfin, hrun, _⟩ := flow_run hT [.rain eps 1 1] eps 0 _ slow_basic (gentle_rain _ eps heps) heps n (by omega) e0
    (by show (0 : ℝ) + n - 1 < n; linarith) (by show (n : ℝ) ≤ 0 + n; linarith) w (longInv_zero _ _ _)
  obtain ⟨vs, b, k0, kacc, kb, kfin, krun, _⟩ := flow_run hT [.rain eps 1 1, .rain eps 1 1] (2 * eps) 0 _ slow_basic (gentle_twice _ eps heps)
    (by positivity) n (by omega) e1 (by show (0 : ℝ) + n - 1 < n; linarith) (by show (n : ℝ) ≤ 0 + n; linarith) w (longInv_zero _ _ _)
  have hreg0 : FineRegion w.st.pos w.st.temp w.st.crystal := ⟨by show (1000 : ℝ) = 1000 - 1000 * 0; norm_num, le_refl (0 : ℝ), by show (0 : ℝ) ≤ _; norm_num⟩
  have hv0 : fineV 0 = 1 := by
    unfold fineV binghamVelocity
    rw [Real.zero_rpow (by norm_num)]
    norm_num
  have vent : ∀ fs, VentRate (flowG fs) w 1 := by
    intro fs v x hv
    have hv : (exLava 1 (.kd 1 0) .ryerson).meanVelocity (longTerrain len) w.st = .ok (v, x) := hv
    rw [fine_velocity hT w.st hreg0, Except.ok.injEq, Prod.mk.injEq] at hv
    have : w.st.crystal = 0 := rfl
    rw [this, hv0] at hv
    have hz : w.iteration = 0 := rfl
    rw [if_pos hz, ← hv.1]
    show (1 : ℝ) = 1 * (longTerrain len).width * (longTerrain len).depth
    rw [hT.depth, hT.width]; norm_num
  obtain ⟨k, us, d, t⟩ := run_table (flowG [.rain eps 1 1]) one_pos n w a rfl hrun 1 (vent _)
  obtain ⟨k', us', d', t'⟩ := run_table (flowG [.rain eps 1 1, .rain eps 1 1]) one_pos n w b rfl krun 1 (vent _)
  have hk : k = n := by
    have h1 := t.finalPos
    have h2 := acceptedRun_pos hacc n le_rfl
    rw [ha, h2, h0] at h1
    have h1 : w.st.pos + (n : ℝ) * 1 = w.st.pos + k * 1 := h1
    have : (k : ℝ) = n := by linarith
    exact_mod_cast this
  have hk' : k' = n := by
    have h1 := t'.finalPos
    have h2 := acceptedRun_pos kacc n le_rfl
    rw [kb, h2, k0] at h1
    have h1 : w.st.pos + (n : ℝ) * 1 = w.st.pos + k' * 1 := h1
    have : (k' : ℝ) = n := by linarith
    exact_mod_cast this
  subst hk
  have q1 : ∀ width T s qs, 0 < width → List.Forall₂ (FluxIs (flowModels [.rain eps 1 1]) width T.depth T s) [.rain eps 1 1] qs →
      0 < qs.sum ∧ qs.sum ≤ eps * width := by
    intro width T s qs hw h
    cases h with
    | cons a1 a2 =>
      cases a2
      have a1 : _ = eps * 1 * 1 * width := a1
      rw [a1]
      have : 0 < eps * width := by positivity
      simp only [List.sum_cons, List.sum_nil]
      exact ⟨by linarith, by linarith⟩
  have q2 : ∀ width T s qs, 0 < width → List.Forall₂ (FluxIs (flowModels [.rain eps 1 1, .rain eps 1 1]) width T.depth T s)
      [.rain eps 1 1, .rain eps 1 1] qs → 0 ≤ qs.sum ∧ qs.sum ≤ 2 * eps * width := by
    intro width T s qs hw h
    cases h with
    | cons a1 a2 =>
      cases a2 with
      | cons a2 a3 =>
        cases a3
        have a1 : _ = eps * 1 * 1 * width := a1
        have a2 : _ = eps * 1 * 1 * width := a2
        rw [a1, a2]
        have : 0 < eps * width := by positivity
        simp only [List.sum_cons, List.sum_nil]
        exact ⟨by linarith, by linarith⟩
  have r1 := flow_region _ eps heps.le (fun width T s qs h1 h2 => ⟨(q1 width T s qs h1 h2).1.le, (q1 width T s qs h1 h2).2⟩) len a k us d e0 t
  have r2 := flow_region _ (2 * eps) (by positivity) q2 len b k' us' d' (by rw [hk']; exact e1) t'
  have inR : ∀ (g : Integrator ℝ) (c : World ℝ) (k : Nat) (us : Nat → World ℝ) (d : Nat → RowData), RunTable g w c 1 k us d →
      (∀ i, i ≤ k → FineRegion (us i).st.pos (us i).st.temp (us i).st.crystal) →
      ∀ x T phi, loggedNum c.log x "core_temperature" = some T → loggedNum c.log x "crystal_fraction" = some phi → FineRegion x T phi := by
    intro g c k us d t hr x T phi h1 h2
    obtain ⟨i, hi, rfl⟩ := t.shown _ (step_not_part g _ (by simp)) _ _ h1
    rw [(t.row i hi).core_temperature, Option.some.injEq] at h1
    rw [(t.row i hi).crystal_fraction, Option.some.injEq] at h2
    rw [← h1, ← h2]
    exact hr i hi.le
  obtain ⟨row, o1, o2⟩ := acceptedRun_rows _ one_pos k ws hacc (by rw [h0]; rfl)
  obtain ⟨row', o1', o2'⟩ := acceptedRun_rows _ one_pos k vs kacc (by rw [k0]; rfl)
  have hrate : ∀ s, (flowG [.rain eps 1 1]).models.cryst.rate s = .ok (1 / 1000) := fun s => by
    show PyNum.div (1 : ℝ) (1000 - 0) = _
    rw [div_of_ne (by norm_num)]; norm_num
  have hdep : 0 < w.terrain.depth := by
    show 0 < (longTerrain len).depth
    rw [hT.depth]; norm_num
  have hfr : ∀ flux, w.fluxRate = some flux → 0 < flux := by
    intro flux h
    exact absurd (show (none : Option ℝ) = some flux from h) (by simp)
  have hrho : ∀ s : FlowState ℝ, FineRegion s.pos s.temp s.crystal → 0 < (flowG [.rain eps 1 1]).models.lava.density s := by
    intro s _
    show 0 < (exLava 1 (.kd 1 0) .ryerson).density s
    rw [exLava_density]; norm_num
  have hex : ∀ f ∈ [(.rain eps 1 1 : Flux ℝ)], NeverWarms (flowG [.rain eps 1 1]).models w.terrain FineRegion f := by
    intro f hf
    rw [List.mem_singleton.mp hf]
    exact (C118_never_warms _ _ _).1 eps 1 1 (by positivity)
  refine ⟨flowG [.rain eps 1 1], [.rain eps 1 1, .rain eps 1 1], [.rain eps 1 1], w, a, b, 1, 1 / 1000, eps * C, FineRegion, FineRegion,
    List.Perm.refl _, by simp, one_pos, rfl, hrun, krun, by rw [ha, o2 k le_rfl]; simp, by rw [kb, o2' k le_rfl]; simp, fun _ _ => rfl,
    by norm_num, hrate, vent _, one_pos, hdep, one_pos, hfr,
    inR _ _ _ _ _ t r1, inR _ _ _ _ _ t' r2, hrho, hex, ?_, by show (1 : ℝ) * (eps * C) ≤ 1; linarith, le_refl (0 : ℝ),
    by show (0 : ℝ) < 1; norm_num, ?_, ?_⟩
  · intro s s' G G' hs hs' _ hle hc hG hG'
    have hG := (fine_equations hT eps 1 s hs G).mp hG
    have hG' := (fine_equations hT eps 1 s' hs' G').mp hG'
    rw [hG, hG']
    have := (abs_le.mp (hlip _ ⟨hs.2.1, hs.2.2⟩ _ ⟨hs'.2.1, hs'.2.2⟩)).2
    have e : |s.crystal - s'.crystal| = 1 / 1000 * (s.temp - s'.temp) := by
      rw [abs_sub_comm, hc, abs_of_nonneg (by linarith)]
    rw [e] at this
    have h2 := mul_le_mul_of_nonneg_left this heps.le
    dsimp only
    have d1 : eps / fineV s.crystal = eps * (1 / fineV s.crystal) := by ring
    have d2 : eps / fineV s'.crystal = eps * (1 / fineV s'.crystal) := by ring
    rw [d1, d2]
    linarith
  · intro mu hmu
    have hend : a.st = (us k).st := by
      rw [ha]
      exact congrArg World.st (acceptedRun_unique (h0.trans t.start.symm) hacc t.accepted k le_rfl)
    have hmu : (exLava 1 (.kd 1 0) .ryerson).bulkViscosity a.st = .ok mu := hmu
    rw [hend, fine_bulk _ (r1 k le_rfl), Except.ok.injEq] at hmu
    rw [← hmu]; exact Real.exp_pos _
  · intro x q hq
    rw [ha, acceptedRun_unique (h0.trans t.start.symm) hacc t.accepted k le_rfl] at hq
    obtain ⟨i, hi, rfl⟩ := shown_accepted one_pos t.accepted (by rw [t.start]; rfl) _ _ _ hq
    have hshow := (t.row i hi).heat_budget
    rw [ha, acceptedRun_unique (h0.trans t.start.symm) hacc t.accepted k le_rfl, hq, Option.some.injEq] at hshow
    obtain ⟨qs, z1, z2⟩ := t.heat (fun _ _ => rfl) i hi
    rw [hshow, z2]
    have hwid := row_width_pos (t.made i hi) one_pos hdep (fun _ => hfr) (hrho _ (r1 i hi.le))
    exact (q1 _ _ _ _ hwid z1).1

end PyFlowGo
