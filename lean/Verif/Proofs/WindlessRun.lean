import Verif.Proofs.LongRun
import Verif.Spec.HeatSpec
import Verif.Props.RunRows
/-
  The long runs again, with forced convection (in still air) besides the rain, so that their results can be drawn.
-/
namespace PyFlowGo
open Spec

theorem gentle_still {len : ℝ} {T : Terrain ℝ} (hT : LongChannel len T) (eps : ℝ) (heps : 0 < eps) :
    Gentle [.convection, .rain eps 1 1] T eps := by
  intro width w0 h0 h1 hc0 hc1 ht hw
  have hsi : StrainIndependent (flowModels [.convection, .rain eps 1 1]).lava := fun _ _ => rfl
  obtain ⟨v, hv, _, _⟩ := long_velocity hT w0.st hc0 hc1 ht
  have hm : coreTemperature (flowModels [.convection, .rain eps 1 1]).lava w0.st = w0.st.temp := by
    show w0.st.temp - 0 = _; ring
  have hcov : coverLaw (flowModels [.convection, .rain eps 1 1]).cover w0.st.pos v = 1 := by
    show coverLaw (CoverModel.basic 0 1) w0.st.pos v = 1
    simp [coverLaw]
  have key : List.Forall₂ (FluxIs (flowModels [.convection, .rain eps 1 1]) width 1 w0.terrain w0.st)
      [.convection, .rain eps 1 1] [0, eps * width] := by
    refine List.Forall₂.cons ⟨v, _, 500, by rw [hw]; exact hv, rfl, by norm_num, ?_, ?_, ?_⟩
      (List.Forall₂.cons ?_ List.Forall₂.nil)
    · rw [hm]; linarith [ht.1]
    · rw [hcov]
      simp only [mix]
      norm_num
      positivity
    · have : (flowModels [.convection, .rain eps 1 1]).air.convCoef = 0 := by
        simp [flowModels, exModels, Air.convCoef]
      rw [this]; ring
    · show _ = eps * 1 * 1 * width
      ring
  obtain ⟨w2, hw2⟩ := (C45_budget_is_sum hsi width 1 (eps * width) w0).mpr ⟨[0, eps * width], key, by simp⟩
  exact ⟨_, w2, hw2, by positivity, by nlinarith⟩

/-- All kinds of losses: radiation (as from a black body that does not glow), conduction through a thick base, forced convection in
    still air and rain. -/
noncomputable def stillFluxes : List (Flux ℝ) := [.radBasic 0 1, .conduction 300 10000000000, .convection, .rain (1 / 1000) 1 1]

theorem gentle_all {len : ℝ} {T : Terrain ℝ} (hT : LongChannel len T) : Gentle stillFluxes T (11 / 10000) := by
  intro width w0 h0 h1 hc0 hc1 ht hw
  have hsi : StrainIndependent (flowModels stillFluxes).lava := fun _ _ => rfl
  obtain ⟨v, hv, _, _⟩ := long_velocity hT w0.st hc0 hc1 ht
  have hm : coreTemperature (flowModels stillFluxes).lava w0.st = w0.st.temp := by
    show w0.st.temp - 0 = _; ring
  have hcov : coverLaw (flowModels stillFluxes).cover w0.st.pos v = 1 := by
    show coverLaw (CoverModel.basic 0 1) w0.st.pos v = 1
    simp [coverLaw]
  have hta : (flowModels stillFluxes).air.temp = 300 := rfl
  have hves : (flowModels stillFluxes).lava.vesicleFraction w0.st = 0 := rfl
  set qc : ℝ := 1.929 ^ 2 * ((w0.st.temp - 300) / (10000000000 / 100 * 1)) * width with hqc
  have key : List.Forall₂ (FluxIs (flowModels stillFluxes) width 1 w0.terrain w0.st) stillFluxes [0, qc, 0, 1 / 1000 * width] := by
    refine .cons ⟨v, _, 500, 0, 1, by rw [hw]; exact hv, rfl, by norm_num, ?_, ?_, rfl, by ring⟩
      (.cons ⟨by norm_num, ?_⟩ (.cons ⟨v, _, 500, by rw [hw]; exact hv, rfl, by norm_num, ?_, ?_, ?_⟩
      (.cons ?_ .nil)))
    · rw [hm]; linarith [ht.1]
    · rw [hcov, hta]; unfold radiantExchange; norm_num
    · rw [hves, hqc]; norm_num
    · rw [hm]; linarith [ht.1]
    · rw [hcov]
      simp only [mix]
      norm_num
      positivity
    · have : (flowModels stillFluxes).air.convCoef = 0 := by
        simp [flowModels, exModels, Air.convCoef]
      rw [this]; ring
    · show _ = 1 / 1000 * 1 * 1 * width
      ring
  have hq0 : 0 ≤ qc := by
    rw [hqc]
    have : 0 ≤ w0.st.temp - 300 := by linarith [ht.1]
    positivity
  have hq1 : qc ≤ 1 / 10000 * width := by
    rw [hqc]
    have : w0.st.temp ≤ 1000 := ht.2
    apply mul_le_mul_of_nonneg_right _ h0.le
    norm_num
    linarith
  obtain ⟨w2, hw2⟩ := (C45_budget_is_sum hsi width 1 (qc + 1 / 1000 * width) w0).mpr ⟨[0, qc, 0, 1 / 1000 * width], key, by simp⟩
  exact ⟨_, w2, hw2, by positivity, by linarith⟩

/-- The result of such a run: `n` complete rows. -/
theorem still_result {len : ℝ} {T : Terrain ℝ} (hT : LongChannel len T) (fs : List (Flux ℝ)) (eps x0 : ℝ) (hfs : Gentle fs T eps) (heps : 0 < eps) (n : Nat) (hn : 1 ≤ n)
    (hsmall : 3 * eps * n ≤ 1 / 100) (h1 : x0 + n - 1 < len) (h2 : len ≤ x0 + n) (w0 : World ℝ)
    (h0 : LongInv T eps x0 0 w0) (hlog0 : w0.log = []) :
    ∃ w' t, runLoop (flowG fs) n w0 = some (.ok (), w') ∧ w'.log.length = n ∧
      (∀ r ∈ w'.log, ∀ c, c ∈ r.keys ↔ c ∈ runColumns (flowG fs)) ∧
      writeValues w'.log = .ok (some t) := by
  obtain ⟨ws, w', g1, g2, g3, _, g5, _⟩ := flow_run hT fs eps x0 _ slow_basic hfs heps n
    hn hsmall h1 h2 w0 h0
  obtain ⟨row, r1, r2⟩ := acceptedRun_rows (flowG fs) (by show (0:ℝ) < 1; norm_num) n ws g2
    (by rw [g1]; exact hlog0)
  have hlog : w'.log = (List.range n).map row := by rw [g3]; exact r2 n le_rfl
  have hcols : ∀ r ∈ w'.log, ∀ c, c ∈ r.keys ↔ c ∈ runColumns (flowG fs) := by
    intro r hr
    rw [hlog] at hr
    obtain ⟨i, hi, rfl⟩ := List.mem_map.mp hr
    exact (r1 i (List.mem_range.mp hi)).2
  obtain ⟨t, ht, hne⟩ := writeValues_ok w'.log fun first hf r hr k hk =>
    (hcols first (List.mem_of_mem_head? hf) k).mpr ((hcols r hr k).mp hk)
  cases t with
  | none =>
    have := hne.mp rfl
    rw [hlog] at this
    rw [List.map_eq_nil_iff, List.range_eq_nil] at this
    omega
  | some t => exact ⟨w', t, g5, by rw [hlog]; simp, hcols, ht⟩

end PyFlowGo
