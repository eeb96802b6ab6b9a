import Verif.Props.StrongerFluxes
import Verif.Props.Stronger
import Mathlib.Analysis.Calculus.MeanValue
import Mathlib.Analysis.SpecialFunctions.Pow.Deriv
/-
  C118 and C121: how small the step must be, from the parameters of the fluxes.
-/
set_option linter.unusedSectionVars false
namespace PyFlowGo
open Spec Set

/-- Hotter lava with fewer crystals is not slower. -/
theorem hotter_velocity {l : Lava ℝ} {T : Terrain ℝ} {s s' : FlowState ℝ} (hp : s.pos = s'.pos) (hT : s'.temp ≤ s.temp) (hc : s.crystal ≤ s'.crystal)
    (h0 : 0 ≤ s.crystal) (hd : 0 < T.depth) (hthin : ∀ mu mu', l.bulkViscosity s = .ok mu → l.bulkViscosity s' = .ok mu' → 0 < mu ∧ mu ≤ mu')
    (hy : ∀ t0 tb, l.yieldStrength s' = .ok t0 → l.basalStress T s' = .ok tb → 0 < tb ∧ t0 ≤ tb) {v x v' x' : ℝ}
    (hv : l.meanVelocity T s = .ok (v, x)) (hv' : l.meanVelocity T s' = .ok (v', x')) : v' ≤ v := by
  obtain ⟨u0, ub, mu', y0, yb, ym, _, _, _, rfl, _⟩ := (meanVelocity_ok_iff _ _ _ _ _).mp hv'
  obtain ⟨t0, tb, mu, z0, zb, zm, _, _, _, rfl, _⟩ := (meanVelocity_ok_iff _ _ _ _ _).mp hv
  have eb : tb = ub := by
    have : l.basalStress T s = l.basalStress T s' := by
      unfold Lava.basalStress
      rw [hp, density_pos_only _ _ _ hp]
    rw [zb, yb] at this
    injection this
  subst eb
  obtain ⟨hmu, hle⟩ := hthin _ _ zm ym
  obtain ⟨htb, hyt⟩ := hy _ _ y0 yb
  have hyle : t0 ≤ u0 := C34_yield_grows l.yld s s' h0 hc hT hp.symm t0 u0 z0 y0
  have ht0 : 0 ≤ t0 := by
    obtain ⟨t1, y1, y2, _⟩ := C34_yield_nonneg l.yld s h0
    have h0 : l.yld.strength s = .ok t0 := z0
    rw [y1] at h0; injection h0 with h0; rw [← h0]; exact y2
  have hmu2 : 0 < mu' := hmu.trans_le hle
  have s1 : binghamVelocity T.depth tb mu' u0 ≤ binghamVelocity T.depth tb mu' t0 := by
    rcases hyle.eq_or_lt with rfl | hlt2
    · exact le_rfl
    · exact (bingham_strictAnti_yield hd htb hmu2 ht0 hlt2 hyt).le
  have s2 : binghamVelocity T.depth tb mu' t0 ≤ binghamVelocity T.depth tb mu t0 := by
    unfold binghamVelocity
    rw [bingham_factor]
    have : 0 ≤ t0 / tb := by positivity
    gcongr
  exact s1.trans s2

/-- Sums over the fluxes. -/
theorem per_kelvin_sum {m : Models ℝ} {T : Terrain ℝ} {R R' : ℝ → ℝ → ℝ → Prop} {s s' : FlowState ℝ} {v x v' x' c : ℝ} (hc : 0 < c)
    (hR : R s.pos s.temp s.crystal) (hR' : R' s'.pos s'.temp s'.crystal) (hp : s.pos = s'.pos) (hT : s'.temp ≤ s.temp)
    (hv : m.lava.meanVelocity T s = .ok (v, x)) (hv' : m.lava.meanVelocity T s' = .ok (v', x')) (h0 : 0 < v') (hle : v' ≤ v) :
    ∀ (fs : List (Flux ℝ)) (ks qs qs' : List ℝ), List.Forall₂ (PerKelvin m T R R') fs ks →
      List.Forall₂ (FluxIs m (c / (v * T.depth)) T.depth T s) fs qs → List.Forall₂ (FluxIs m (c / (v' * T.depth)) T.depth T s') fs qs' →
      qs.sum - qs'.sum ≤ c * (ks.sum * (s.temp - s'.temp) / (v * T.depth)) := by
  intro fs ks qs qs' hk hq hq'
  induction hk generalizing qs qs' with
  | nil => cases hq; cases hq'; simp
  | @cons f k fs ks hf _ ih =>
    cases hq with
    | cons a1 a2 =>
      cases hq' with
      | cons b1 b2 =>
        have := ih _ _ a2 b2
        have a1 := fluxIs_scale (1 / c) a1
        rw [show 1 / c * (c / (v * T.depth)) = 1 / (v * T.depth) by field_simp] at a1
        have b1 := fluxIs_scale (1 / c) b1
        rw [show 1 / c * (c / (v' * T.depth)) = 1 / (v' * T.depth) by field_simp] at b1
        have h1 := hf s s' v x v' x' _ _ hR hR' hp hT hv hv' h0 hle a1 b1
        have h2 := mul_le_mul_of_nonneg_left h1 hc.le
        simp only [List.sum_cons]
        rw [show ∀ q q' : ℝ, c * (1 / c * q - 1 / c * q') = q - q' from fun q q' => by field_simp] at h2
        have e2 : c * ((k + ks.sum) * (s.temp - s'.temp) / (v * T.depth)) =
            c * (k * (s.temp - s'.temp) / (v * T.depth)) + c * (ks.sum * (s.temp - s'.temp) / (v * T.depth)) := by ring
        rw [e2]
        linarith

/-- **C128**, how small the step must be (the same step as for C118 and C121). If each flux takes at most `k` watt per square metre and kelvin more from hotter lava, and `K` is not
    below the sum of these `k` over velocity, depth, density, latent heat and crystallisation rate, then a colder lava cools more slowly by at most
    `K` per kelvin: the step `dx` is small enough for C118 and C121 as soon as `dx K <= 1`. -/
theorem C128_small_step (g : Integrator ℝ) (T : Terrain ℝ) (fluxRate : Option ℝ) (E : ℝ) (R R' : ℝ → ℝ → ℝ → Prop) (r K : ℝ)
    (hr0 : 0 < r) (hrate : ∀ s, g.models.cryst.rate s = .ok r) (hE : 0 < E) (hL : 0 < g.models.lava.latentHeat) (hd : 0 < T.depth)
    (hmass : g.massConservation = true → ∀ flux s, fluxRate = some flux → R s.pos s.temp s.crystal → 0 < flux ∧ flux ≤ E * g.models.lava.density s)
    (hphi : ∀ x t phi, R x t phi → 0 ≤ phi) (hrho : ∀ s, R s.pos s.temp s.crystal → 0 < g.models.lava.density s)
    (hmu : ∀ s mu, R s.pos s.temp s.crystal → g.models.lava.bulkViscosity s = .ok mu → 0 < mu)
    (hthin : ThinnerWhenHotter g.models.lava R R')
    (hyield : ∀ s t0 tb, R' s.pos s.temp s.crystal → g.models.lava.yieldStrength s = .ok t0 → g.models.lava.basalStress T s = .ok tb → 0 < tb ∧ t0 ≤ tb)
    (ks : List ℝ) (hks0 : 0 ≤ ks.sum) (hks : List.Forall₂ (PerKelvin g.models T R R') g.models.fluxes ks)
    (hK : ∀ s v x, R s.pos s.temp s.crystal → g.models.lava.meanVelocity T s = .ok (v, x) → 0 < v →
      ks.sum / (v * T.depth * g.models.lava.density s * g.models.lava.latentHeat * r) ≤ K) :
    ∀ δ, 0 ≤ δ → ColderSlowerBy g T fluxRate E R R' r δ K := by
  rintro δ hδ s s' G G' hR hR' hp hT hc ⟨d, m, ⟨qs, q1, q2⟩, hG, _, _⟩ ⟨d', m', ⟨qs', q1', q2'⟩, hG', _, _⟩
  have hc' : s.crystal ≤ s'.crystal := by
    have := mul_nonneg hr0.le (sub_nonneg.mpr hT)
    linarith
  obtain ⟨x, hv⟩ := m.velocity
  obtain ⟨x', hv'⟩ := m'.velocity
  have hle : d'.v ≤ d.v := hotter_velocity hp hT hc' (hphi _ _ _ hR) hd (fun mu mu' h1 h2 => ⟨hmu _ _ hR h1, hthin _ _ _ _ hR hR' hp hT hc' h1 h2⟩)
    (fun t0 tb h1 h2 => hyield s' t0 tb hR' h1 h2) hv hv'
  have er : d.rate = r := by have := m.rate; rw [hrate] at this; injection this with this; exact this.symm
  have er' : d'.rate = r := by have := m'.rate; rw [hrate] at this; injection this with this; exact this.symm
  have hdens : g.models.lava.density s' = g.models.lava.density s := density_pos_only _ _ _ hp.symm
  have hrho0 := hrho _ hR
  obtain ⟨c, hc0, hcE, w1, w2⟩ : ∃ c, 0 < c ∧ c ≤ E ∧ d.width = c / (d.v * T.depth) ∧ d'.width = c / (d'.v * T.depth) := by
    cases hm : g.massConservation with
    | false => exact ⟨E, hE, le_rfl, m.volume hm, m'.volume hm⟩
    | true =>
      obtain ⟨flux, f1, f2⟩ := m.mass hm
      obtain ⟨flux', f1', f2'⟩ := m'.mass hm
      rw [f1] at f1'
      injection f1' with f1'
      obtain ⟨k1, k2⟩ := hmass hm flux s f1 hR
      refine ⟨flux / g.models.lava.density s, by positivity, (div_le_iff₀ hrho0).mpr k2, ?_, ?_⟩
      · rw [f2, div_right_comm]
      · rw [f2', ← f1', hdens, div_right_comm]
  rw [w1] at q1
  rw [w2] at q1'
  have key := per_kelvin_sum hc0 hR hR' hp hT hv hv' m'.moving hle _ ks qs qs' hks q1 q1'
  have hvpos := m.moving
  have hn : 0 ≤ s.temp - s'.temp := by linarith
  have hk := hK s d.v x hR hv hvpos
  rw [hG, hG']
  unfold tempGradient
  rw [hdens, er, er', q2, q2']
  have hden : 0 < g.models.lava.density s * g.models.lava.latentHeat * r := by positivity
  calc -qs'.sum / (E * g.models.lava.density s * g.models.lava.latentHeat * r) - -qs.sum / (E * g.models.lava.density s * g.models.lava.latentHeat * r)
      = (qs.sum - qs'.sum) / (E * (g.models.lava.density s * g.models.lava.latentHeat * r)) := by ring
    _ ≤ c * (ks.sum * (s.temp - s'.temp) / (d.v * T.depth)) / (E * (g.models.lava.density s * g.models.lava.latentHeat * r)) := by gcongr
    _ ≤ E * (ks.sum * (s.temp - s'.temp) / (d.v * T.depth)) / (E * (g.models.lava.density s * g.models.lava.latentHeat * r)) := by
        have : 0 ≤ ks.sum * (s.temp - s'.temp) / (d.v * T.depth) := by positivity
        gcongr
    _ = ks.sum / (d.v * T.depth * g.models.lava.density s * g.models.lava.latentHeat * r) * (s.temp - s'.temp) := by field_simp
    _ ≤ K * (s.temp - s'.temp) := mul_le_mul_of_nonneg_right hk hn

/-- **C121** (and C118), how small the step must be. If each flux takes at most `k` watt per square metre and kelvin more from hotter lava, and `K` is not
    below the sum of these `k` over velocity, depth, density, latent heat and crystallisation rate, then a colder lava cools more slowly by at most
    `K` per kelvin: the step `dx` is small enough for C118 and C121 as soon as `dx K <= 1`. -/
theorem C121_small_step (g : Integrator ℝ) (T : Terrain ℝ) (fluxRate : Option ℝ) (E : ℝ) (R R' : ℝ → ℝ → ℝ → Prop) (r K : ℝ)
    (hr0 : 0 < r) (hrate : ∀ s, g.models.cryst.rate s = .ok r) (hE : 0 < E) (hL : 0 < g.models.lava.latentHeat) (hd : 0 < T.depth)
    (hmass : g.massConservation = true → ∀ flux s, fluxRate = some flux → R s.pos s.temp s.crystal → 0 < flux ∧ flux ≤ E * g.models.lava.density s)
    (hphi : ∀ x t phi, R x t phi → 0 ≤ phi) (hrho : ∀ s, R s.pos s.temp s.crystal → 0 < g.models.lava.density s)
    (hmu : ∀ s mu, R s.pos s.temp s.crystal → g.models.lava.bulkViscosity s = .ok mu → 0 < mu)
    (hthin : ThinnerWhenHotter g.models.lava R R')
    (hyield : ∀ s t0 tb, R' s.pos s.temp s.crystal → g.models.lava.yieldStrength s = .ok t0 → g.models.lava.basalStress T s = .ok tb → 0 < tb ∧ t0 ≤ tb)
    (ks : List ℝ) (hks0 : 0 ≤ ks.sum) (hks : List.Forall₂ (PerKelvin g.models T R R') g.models.fluxes ks)
    (hK : ∀ s v x, R s.pos s.temp s.crystal → g.models.lava.meanVelocity T s = .ok (v, x) → 0 < v →
      ks.sum / (v * T.depth * g.models.lava.density s * g.models.lava.latentHeat * r) ≤ K) :
    ColderSlower g T fluxRate E R R' r K :=
  colderSlowerBy_zero.mp (C128_small_step g T fluxRate E R R' r K hr0 hrate hE hL hd hmass hphi hrho hmu hthin hyield ks hks0 hks hK 0 le_rfl)

/-- The excess of the hotter lava, from the excess at equal velocity. -/
theorem excess {c k X Y Z v v' d t : ℝ} (hc : 0 ≤ c) (h0 : 0 < v') (hle : v' ≤ v) (hd : 0 < d) (hdiff : X - Y ≤ k * t) (hstar : v' / v * Y ≤ Z) :
    c * X * (1 / (v * d)) - c * Z * (1 / (v' * d)) ≤ c * k * t / (v * d) := by
  have hv : 0 < v := h0.trans_le hle
  have h1 : Y * (1 / (v * d)) ≤ Z * (1 / (v' * d)) := by
    calc Y * (1 / (v * d)) = (v' / v * Y) * (1 / (v' * d)) := by field_simp
      _ ≤ Z * (1 / (v' * d)) := by gcongr
  have h2 : X * (1 / (v * d)) ≤ (Y + k * t) * (1 / (v * d)) := by
    have : X ≤ Y + k * t := by linarith
    gcongr
  have h3 : X * (1 / (v * d)) - Z * (1 / (v' * d)) ≤ k * t * (1 / (v * d)) := by linarith
  have h4 := mul_le_mul_of_nonneg_left h3 hc
  calc c * X * (1 / (v * d)) - c * Z * (1 / (v' * d)) = c * (X * (1 / (v * d)) - Z * (1 / (v' * d))) := by ring
    _ ≤ c * (k * t * (1 / (v * d))) := h4
    _ = c * k * t / (v * d) := by ring

theorem fourth_power {x y M : ℝ} (h0 : 0 ≤ y) (h1 : y ≤ x) (h2 : x ≤ M) : x ^ 4 - y ^ 4 ≤ 4 * M ^ 3 * (x - y) := by
  have e : x ^ 4 - y ^ 4 = (x ^ 3 + x ^ 2 * y + x * y ^ 2 + y ^ 3) * (x - y) := by ring
  rw [e]
  apply mul_le_mul_of_nonneg_right _ (by linarith)
  have hx : 0 ≤ x := h0.trans h1
  have a1 : x ^ 3 ≤ M ^ 3 := by gcongr
  have a2 : x ^ 2 * y ≤ x ^ 3 := by
    have : x ^ 2 * y ≤ x ^ 2 * x := by gcongr
    linarith [this, show x ^ 2 * x = x ^ 3 by ring]
  have a3 : x * y ^ 2 ≤ x ^ 3 := by
    have : x * y ^ 2 ≤ x * x ^ 2 := by gcongr
    linarith [this, show x * x ^ 2 = x ^ 3 by ring]
  have a4 : y ^ 3 ≤ x ^ 3 := by gcongr
  linarith

/-- A kelvin of molten surface changes the convective temperature by at most a kelvin. -/
theorem convective_lip {f Tc x y : ℝ} (hf0 : 0 ≤ f) (hf1 : f ≤ 1) (hTc : 0 ≤ Tc) (hy : 1 ≤ y) (hxy : y ≤ x) :
    convectiveTemperature f Tc x - convectiveTemperature f Tc y ≤ x - y := by
  unfold convectiveTemperature mix
  have ha : 0 ≤ f * Tc ^ (1.333 : ℝ) := mul_nonneg hf0 (Real.rpow_nonneg hTc _)
  rcases hf1.eq_or_lt with rfl | hlt
  · simp only [sub_self, zero_mul, add_zero]; linarith
  have hb : 0 < 1 - f := by linarith
  have hb1 : 1 - f ≤ 1 := by linarith
  generalize f * Tc ^ (1.333 : ℝ) = A at *
  generalize 1 - f = b at *
  have hpos : ∀ z : ℝ, 1 ≤ z → 0 < A + b * z ^ (1.333 : ℝ) := fun z hz => by
    have := Real.rpow_pos_of_pos (show 0 < z by linarith) (1.333 : ℝ)
    positivity
  have hder : ∀ z : ℝ, 1 ≤ z → HasDerivAt (fun z : ℝ => (A + b * z ^ (1.333 : ℝ)) ^ (0.75 : ℝ))
      (b * (1.333 * z ^ ((1.333 : ℝ) - 1)) * 0.75 * (A + b * z ^ (1.333 : ℝ)) ^ ((0.75 : ℝ) - 1)) z := by
    intro z hz
    have h1 : HasDerivAt (fun z : ℝ => z ^ (1.333 : ℝ)) (1.333 * z ^ ((1.333 : ℝ) - 1)) z :=
      Real.hasDerivAt_rpow_const (Or.inl (by linarith))
    have h2 := (h1.const_mul b).const_add A
    exact h2.rpow_const (Or.inl (hpos z hz).ne')
  have hbound : ∀ z : ℝ, 1 ≤ z → b * (1.333 * z ^ ((1.333 : ℝ) - 1)) * 0.75 * (A + b * z ^ (1.333 : ℝ)) ^ ((0.75 : ℝ) - 1) ≤ 1 := by
    intro z hz
    have hz0 : 0 < z := by linarith
    have hzp : 0 < z ^ (1.333 : ℝ) := Real.rpow_pos_of_pos hz0 _
    have h1 : (A + b * z ^ (1.333 : ℝ)) ^ ((0.75 : ℝ) - 1) ≤ (b * z ^ (1.333 : ℝ)) ^ ((0.75 : ℝ) - 1) :=
      Real.rpow_le_rpow_of_nonpos (by positivity) (by linarith) (by norm_num)
    have hnn : 0 ≤ b * (1.333 * z ^ ((1.333 : ℝ) - 1)) * 0.75 := by
      have := Real.rpow_pos_of_pos hz0 ((1.333 : ℝ) - 1)
      positivity
    calc b * (1.333 * z ^ ((1.333 : ℝ) - 1)) * 0.75 * (A + b * z ^ (1.333 : ℝ)) ^ ((0.75 : ℝ) - 1)
        ≤ b * (1.333 * z ^ ((1.333 : ℝ) - 1)) * 0.75 * (b * z ^ (1.333 : ℝ)) ^ ((0.75 : ℝ) - 1) := mul_le_mul_of_nonneg_left h1 hnn
      _ = 0.99975 * ((b * b ^ ((0.75 : ℝ) - 1)) * (z ^ ((1.333 : ℝ) - 1) * (z ^ (1.333 : ℝ)) ^ ((0.75 : ℝ) - 1))) := by
          rw [Real.mul_rpow hb.le hzp.le]; ring
      _ = 0.99975 * (b ^ (0.75 : ℝ) * z ^ (-0.00025 : ℝ)) := by
          rw [← Real.rpow_mul hz0.le, ← Real.rpow_add hz0]
          have : b * b ^ ((0.75 : ℝ) - 1) = b ^ (0.75 : ℝ) := by
            rw [show b ^ (0.75 : ℝ) = b ^ (1 + ((0.75 : ℝ) - 1)) by norm_num, Real.rpow_add hb, Real.rpow_one]
          rw [this]
          norm_num
      _ ≤ 0.99975 * (1 * 1) := by
          have e1 : b ^ (0.75 : ℝ) ≤ 1 := Real.rpow_le_one hb.le hb1 (by norm_num)
          have e2 : z ^ (-0.00025 : ℝ) ≤ 1 := Real.rpow_le_one_of_one_le_of_nonpos hz (by norm_num)
          have e3 : 0 ≤ z ^ (-0.00025 : ℝ) := Real.rpow_nonneg hz0.le _
          have := mul_le_mul e1 e2 e3 zero_le_one
          linarith
      _ ≤ 1 := by norm_num
  have := Convex.image_sub_le_mul_sub_of_deriv_le (convex_Ici (1 : ℝ))
    (f := fun z : ℝ => (A + b * z ^ (1.333 : ℝ)) ^ (0.75 : ℝ)) (C := 1)
    (fun z hz => (hder z hz).continuousAt.continuousWithinAt)
    (fun z hz => (hder z (interior_subset hz)).differentiableAt.differentiableWithinAt)
    (fun z hz => by rw [(hder z (interior_subset hz)).deriv]; exact hbound z (interior_subset hz)) y hy x (hy.trans hxy) hxy
  linarith

/-- **C121** (and C118), what the fluxes take more per square metre and kelvin: rain nothing, conduction its conductivity over the distance to the base,
    radiation `4 sigma epsilon T^3` for molten surfaces up to `T`, and forced convection its coefficient. -/
theorem C121_per_kelvin (m : Models ℝ) (T : Terrain ℝ) (R R' : ℝ → ℝ → ℝ → Prop) (hd : 0 < T.depth) :
    (∀ rate rho lv, 0 ≤ rate * rho * lv → PerKelvin m T R R' (.rain rate rho lv) 0) ∧
    (∀ base pct, 0 < pct → (∀ x t phi, R' x t phi → base ≤ t) → (∀ s, R s.pos s.temp s.crystal → 0 ≤ m.lava.vesicleFraction s ∧ m.lava.vesicleFraction s ≤ 1) →
      PerKelvin m T R R' (.conduction base pct) (1.929 ^ 2 / (pct / 100 * T.depth))) ∧
    (CoverShrinks m.cover → CrustBetween m R' → CrustSteady m →
      ∀ M, (∀ x t phi, R x t phi → t - m.lava.buffer ≤ M) →
      (∀ sigma e, 0 ≤ sigma * e → PerKelvin m T R R' (.radBasic sigma e) (sigma * e * (4 * M ^ 3))) ∧
      (∀ sigma e1 e2, 0 ≤ sigma → 0 ≤ e2 → e2 ≤ e1 → PerKelvin m T R R' (.radTwoEmi sigma e1 e2) (sigma * (e1 * (4 * M ^ 3)))) ∧
      (0 ≤ m.air.convCoef → (∀ s Tc, R' s.pos s.temp s.crystal → m.crust.temperature s = .ok Tc → 1 ≤ Tc ∧ m.air.temp ≤ Tc ^ slippedExponent) →
        PerKelvin m T R R' .convection m.air.convCoef)) := by
  refine ⟨?_, ?_, fun hc hb hst M hM => ⟨?_, ?_, ?_⟩⟩
  · intro rate rho lv h s s' v x v' x' q q' _ _ _ hT _ _ h0 hle hq hq'
    have hq : q = rate * rho * lv * (1 / (v * T.depth)) := hq
    have hq' : q' = rate * rho * lv * (1 / (v' * T.depth)) := hq'
    rw [hq, hq']
    have : rate * rho * lv * (1 / (v * T.depth)) ≤ rate * rho * lv * (1 / (v' * T.depth)) := by gcongr
    simp only [zero_mul, zero_div]
    linarith
  · rintro base pct hp hbase hves s s' v x v' x' q q' hR hR' hpos hT _ _ h0 hle ⟨_, rfl⟩ ⟨_, rfl⟩
    have hv := h0.trans_le hle
    have eves : m.lava.vesicleFraction s' = m.lava.vesicleFraction s := by
      unfold Lava.vesicleFraction
      cases m.lava.ves <;> unfold VesicleModel.fraction <;> dsimp only <;> rw [hpos]
    rw [eves]
    obtain ⟨f0, f1⟩ := hves _ hR
    have hk2 : (1.929 - 1.554 * m.lava.vesicleFraction s) ^ 2 ≤ 1.929 ^ 2 := by
      apply sq_le_sq'
      · norm_num; linarith
      · norm_num; linarith
    have hk0 : 0 ≤ (1.929 - 1.554 * m.lava.vesicleFraction s) ^ 2 := sq_nonneg _
    generalize (1.929 - 1.554 * m.lava.vesicleFraction s) ^ 2 = kk at *
    have hb := hbase _ _ _ hR'
    have hpd : 0 < pct / 100 * T.depth := by positivity
    generalize pct / 100 * T.depth = D at *
    have h1 : (s'.temp - base) / D * (1 / (v * T.depth)) ≤ (s'.temp - base) / D * (1 / (v' * T.depth)) := by
      have : 0 ≤ s'.temp - base := by linarith
      gcongr
    have h2 := mul_le_mul_of_nonneg_left h1 hk0
    calc kk * ((s.temp - base) / D) * (1 / (v * T.depth)) - kk * ((s'.temp - base) / D) * (1 / (v' * T.depth))
        ≤ kk * ((s.temp - base) / D) * (1 / (v * T.depth)) - kk * ((s'.temp - base) / D) * (1 / (v * T.depth)) := by linarith
      _ = kk / D * (s.temp - s'.temp) / (v * T.depth) := by ring
      _ ≤ 1.929 ^ 2 / D * (s.temp - s'.temp) / (v * T.depth) := by
          have : 0 ≤ s.temp - s'.temp := by linarith
          gcongr
  · rintro sigma e hs s s' v x v' x' q q' hR hR' hpos hT hv hv' h0 hle ⟨u, y, Tc, sg, em, g1, g2, g3, g4, g5, g6, rfl⟩ ⟨u', y', Tc', sg', em', k1, k2, k3, k4, k5, k6, rfl⟩
    rw [hv] at g1; cases g1
    rw [hv'] at k1; cases k1
    rw [hst s s' hpos, k2] at g2; cases g2
    simp only [emissivityOf, Option.some.injEq, Prod.mk.injEq] at g6 k6
    obtain ⟨rfl, rfl⟩ := g6
    obtain ⟨rfl, rfl⟩ := k6
    obtain ⟨b1, b2, b3⟩ := hb s' _ hR' k2
    obtain ⟨_, star⟩ := exchange_star (x := s'.pos) hc b1 b2 b3 h0 hle
    obtain ⟨r0, r1, r2⟩ := cover_range (x := s'.pos) hc b1 b2 b3 h0 hle
    rw [← hpos] at star r0 r1 r2
    rw [← hpos]
    refine excess hs h0 hle hd ?_ star
    have hm1 : coreTemperature m.lava s ≤ M := hM _ _ _ hR
    have hm2 : 0 ≤ coreTemperature m.lava s' := by linarith
    have hm3 : coreTemperature m.lava s' ≤ coreTemperature m.lava s := by unfold coreTemperature; linarith
    have hfp := fourth_power hm2 hm3 hm1
    have hm4 : coreTemperature m.lava s - coreTemperature m.lava s' = s.temp - s'.temp := by unfold coreTemperature; ring
    rw [hm4] at hfp
    have hpp : coreTemperature m.lava s' ^ 4 ≤ coreTemperature m.lava s ^ 4 := by gcongr
    unfold radiantExchange
    nlinarith
  · rintro sigma ec el hs hel hle2 s s' v x v' x' q q' hR hR' hpos hT hv hv' h0 hle ⟨u, y, Tc, sg, em, g1, g2, g3, g4, g5, g6, rfl⟩ ⟨u', y', Tc', sg', em', k1, k2, k3, k4, k5, k6, rfl⟩
    rw [hv] at g1; cases g1
    rw [hv'] at k1; cases k1
    rw [hst s s' hpos, k2] at g2; cases g2
    simp only [emissivityOf, Option.some.injEq, Prod.mk.injEq] at g6 k6
    obtain ⟨rfl, rfl⟩ := g6
    obtain ⟨rfl, rfl⟩ := k6
    obtain ⟨b1, b2, b3⟩ := hb s' _ hR' k2
    obtain ⟨e1, star⟩ := exchange_star (x := s'.pos) hc b1 b2 b3 h0 hle
    obtain ⟨r0, r1, r2⟩ := cover_range (x := s'.pos) hc b1 b2 b3 h0 hle
    rw [← hpos] at star r0 r1 r2 e1
    rw [← hpos]
    have hv0 := h0.trans_le hle
    have m0 : ∀ f, 0 ≤ f → el ≤ mix f ec el := by
      intro f hf; unfold mix; nlinarith
    have m1 : mix (coverLaw m.cover s.pos v) ec el ≤ mix (coverLaw m.cover s.pos v') ec el := by
      unfold mix; nlinarith
    have m2 : 0 ≤ mix (coverLaw m.cover s.pos v) ec el := hel.trans (m0 _ r0)
    have m3 : 0 ≤ mix (coverLaw m.cover s.pos v') ec el := m2.trans m1
    have m4 : mix (coverLaw m.cover s.pos v) ec el ≤ ec := by unfold mix; nlinarith
    have hm1 : coreTemperature m.lava s ≤ M := hM _ _ _ hR
    have hm2 : 0 ≤ coreTemperature m.lava s' := by linarith
    have hm3 : coreTemperature m.lava s' ≤ coreTemperature m.lava s := by unfold coreTemperature; linarith
    have hfp := fourth_power hm2 hm3 hm1
    have hm4 : coreTemperature m.lava s - coreTemperature m.lava s' = s.temp - s'.temp := by unfold coreTemperature; ring
    rw [hm4] at hfp
    have hpp : coreTemperature m.lava s' ^ 4 ≤ coreTemperature m.lava s ^ 4 := by gcongr
    have hdiff : radiantExchange (coverLaw m.cover s.pos v) Tc (coreTemperature m.lava s) m.air.temp -
        radiantExchange (coverLaw m.cover s.pos v) Tc (coreTemperature m.lava s') m.air.temp ≤ 4 * M ^ 3 * (s.temp - s'.temp) := by
      unfold radiantExchange
      nlinarith
    have hnn : 0 ≤ 4 * M ^ 3 * (s.temp - s'.temp) := by
      have : 0 ≤ M := by linarith
      have : 0 ≤ s.temp - s'.temp := by linarith
      positivity
    have := excess (c := sigma) (k := ec * (4 * M ^ 3)) (t := s.temp - s'.temp) (d := T.depth)
      (X := mix (coverLaw m.cover s.pos v) ec el * radiantExchange (coverLaw m.cover s.pos v) Tc (coreTemperature m.lava s) m.air.temp)
      (Y := mix (coverLaw m.cover s.pos v) ec el * radiantExchange (coverLaw m.cover s.pos v) Tc (coreTemperature m.lava s') m.air.temp)
      (Z := mix (coverLaw m.cover s.pos v') ec el * radiantExchange (coverLaw m.cover s.pos v') Tc (coreTemperature m.lava s') m.air.temp)
      hs h0 hle hd
      (by
        rw [← mul_sub]
        calc _ ≤ mix (coverLaw m.cover s.pos v) ec el * (4 * M ^ 3 * (s.temp - s'.temp)) := mul_le_mul_of_nonneg_left hdiff m2
          _ ≤ ec * (4 * M ^ 3 * (s.temp - s'.temp)) := mul_le_mul_of_nonneg_right m4 hnn
          _ = _ := by ring)
      (by
        calc v' / v * (mix (coverLaw m.cover s.pos v) ec el * radiantExchange (coverLaw m.cover s.pos v) Tc (coreTemperature m.lava s') m.air.temp)
            = mix (coverLaw m.cover s.pos v) ec el * (v' / v * radiantExchange (coverLaw m.cover s.pos v) Tc (coreTemperature m.lava s') m.air.temp) := by ring
          _ ≤ mix (coverLaw m.cover s.pos v') ec el * radiantExchange (coverLaw m.cover s.pos v') Tc (coreTemperature m.lava s') m.air.temp :=
            mul_le_mul m1 star (mul_nonneg (div_nonneg h0.le hv0.le) e1) m3)
    rw [← mul_assoc, ← mul_assoc] at this
    exact this
  · rintro hcoef hair s s' v x v' x' q q' hR hR' hpos hT hv hv' h0 hle ⟨u, y, Tc, g1, g2, g3, g4, g5, rfl⟩ ⟨u', y', Tc', k1, k2, k3, k4, k5, rfl⟩
    rw [hv] at g1; cases g1
    rw [hv'] at k1; cases k1
    rw [hst s s' hpos, k2] at g2; cases g2
    obtain ⟨b1, b2, b3⟩ := hb s' _ hR' k2
    obtain ⟨j1, j2⟩ := hair s' _ hR' k2
    obtain ⟨_, _, star⟩ := convective_star (x := s'.pos) hc b1 b2 b3 h0 hle j2
    obtain ⟨r0, r1, r2⟩ := cover_range (x := s'.pos) hc b1 b2 b3 h0 hle
    rw [← hpos] at star r0 r1 r2
    rw [← hpos]
    have hm3 : coreTemperature m.lava s' ≤ coreTemperature m.lava s := by unfold coreTemperature; linarith
    have hm4 : coreTemperature m.lava s - coreTemperature m.lava s' = s.temp - s'.temp := by unfold coreTemperature; ring
    have hlip := convective_lip (Tc := Tc) r0 (r1.trans r2) (by linarith) (j1.trans b3) hm3
    rw [hm4] at hlip
    have := excess (k := 1) hcoef h0 hle hd (X := convectiveTemperature (coverLaw m.cover s.pos v) Tc (coreTemperature m.lava s) - m.air.temp)
      (Y := convectiveTemperature (coverLaw m.cover s.pos v) Tc (coreTemperature m.lava s') - m.air.temp) (t := s.temp - s'.temp) (by linarith) star
    rwa [mul_one] at this

end PyFlowGo
