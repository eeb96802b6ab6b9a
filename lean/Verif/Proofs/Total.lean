import Verif.Spec.Sensible
import Verif.Props.Compat
import Verif.Props.Costa
import Verif.Props.Bubbles
import Verif.Props.Yield
import Verif.Props.Heat
import Verif.Props.DepthSearch
import Verif.Props.Integrator
/-
  C117: with sensible parameters every computation of a step succeeds.
-/
set_option linter.unusedSectionVars false
namespace PyFlowGo
open Spec

/-- `m` succeeds from every world satisfying `P`, and establishes `Q`. -/
def Runs {β : Type} (P : World ℝ → Prop) (m : PyM (World ℝ) β) (Q : β → World ℝ → Prop) : Prop :=
  ∀ w, P w → ∃ a w1, m w = (.ok a, w1) ∧ Q a w1

theorem Runs.bind {β γ : Type} {P : World ℝ → Prop} {m : PyM (World ℝ) β} {Q : β → World ℝ → Prop} {f : β → PyM (World ℝ) γ}
    {R : γ → World ℝ → Prop} (h1 : Runs P m Q) (h2 : ∀ a, Runs (Q a) (f a) R) : Runs P (m >>= f) R := by
  intro w hw
  obtain ⟨a, w1, e1, q⟩ := h1 w hw
  obtain ⟨b, w2, e2, r⟩ := h2 a w1 q
  exact ⟨b, w2, by rw [PyM.bind_of_ok e1, e2], r⟩

theorem Runs.weaken {β : Type} {P P' : World ℝ → Prop} {m : PyM (World ℝ) β} {Q Q' : β → World ℝ → Prop} (h : Runs P m Q)
    (hp : ∀ w, P' w → P w) (hq : ∀ a w, Q a w → Q' a w) : Runs P' m Q' := by
  intro w hw
  obtain ⟨a, w1, e, q⟩ := h w (hp w hw)
  exact ⟨a, w1, e, hq a w1 q⟩

theorem Runs.pure {β : Type} {P : World ℝ → Prop} {Q : β → World ℝ → Prop} (a : β) (h : ∀ w, P w → Q a w) : Runs P (Pure.pure a) Q :=
  fun w hw => ⟨a, w, rfl, h w hw⟩

theorem Runs.get {P : World ℝ → Prop} {Q : World ℝ → World ℝ → Prop} (h : ∀ w, P w → Q w w) : Runs P PyM.get Q :=
  fun w hw => ⟨w, w, rfl, h w hw⟩

theorem Runs.modify {P : World ℝ → Prop} {Q : Unit → World ℝ → Prop} (f : World ℝ → World ℝ) (h : ∀ w, P w → Q () (f w)) :
    Runs P (PyM.modify f) Q :=
  fun w hw => ⟨(), f w, rfl, h w hw⟩

theorem Runs.lift {β : Type} {P : World ℝ → Prop} {Q : β → World ℝ → Prop} {e : Except Err β} (h : ∀ w, P w → ∃ a, e = .ok a ∧ Q a w) :
    Runs P (PyM.lift e) Q := by
  intro w hw
  obtain ⟨a, rfl, q⟩ := h w hw
  exact ⟨a, w, rfl, q⟩

/-- The state `s` on the terrain `t`, up to the strain rate and the log. -/
def Stand (t : Terrain ℝ) (s : FlowState ℝ) (w : World ℝ) : Prop := w.terrain = t ∧ ∃ y, w.st = { s with strain := y }

theorem stand_log {t : Terrain ℝ} {s : FlowState ℝ} (n : String) (c : Cell ℝ) : Runs (Stand t s) (logCell n c) fun _ => Stand t s :=
  Runs.modify _ fun _ h => h

theorem stand_logNum {t : Terrain ℝ} {s : FlowState ℝ} (n : String) (c : ℝ) : Runs (Stand t s) (logNum n c) fun _ => Stand t s :=
  stand_log n _

/-! ### The laws -/

theorem fraction_strain (ves : VesicleModel ℝ) (s : FlowState ℝ) (y : ℝ) : ves.fraction { s with strain := y } = ves.fraction s := by
  cases ves <;> rfl

theorem atPacking_strain (m : RelModel ℝ) (s : FlowState ℝ) (y : ℝ) : AtPacking { s with strain := y } m ↔ AtPacking s m := by
  cases m <;> unfold AtPacking packingLimit <;> dsimp only <;> simp only [fraction_strain]

/-- A compatibility check always has an answer. -/
theorem compat_total (x0 Ts : ℝ) (m : RelModel ℝ) (h : RelSensible x0 Ts m) (s : FlowState ℝ) (hp : x0 ≤ s.pos) (h0 : 0 ≤ s.crystal) :
    ∃ b, m.notCompatible s = .ok b := by
  cases m with
  | er => exact (C30_er_check_is_exact s).imp fun _ h => h.1
  | kd φ b => exact (C30_check_is_packing (.kd φ b) s (by simp) h).imp fun _ h => h.1
  | mp φ => exact (C30_check_is_packing (.mp φ) s (by simp) h).imp fun _ h => h.1
  | mpMueller rp => exact (C30_check_is_packing (.mpMueller rp) s (by simp) h).imp fun _ h => h.1
  | mader rp => exact h.elim
  | bll pm bs bg r t pc ves melt => exact ⟨_, rfl⟩
  | ptp1 ves => exact ⟨_, rfl⟩
  | ptp2 ves => exact ⟨_, rfl⟩
  | ptp3 ves => exact ⟨_, rfl⟩
  | costa1 p => exact ⟨_, rfl⟩
  | costa2 p => exact ⟨_, rfl⟩

/-- The relative viscosity exists and is positive in every state the program accepts, but at the packing limit itself. -/
theorem rel_total (x0 Ts : ℝ) (m : RelModel ℝ) (h : RelSensible x0 Ts m) (s : FlowState ℝ) (hp : x0 ≤ s.pos) (h0 : 0 ≤ s.crystal)
    (hT : Ts < s.temp) (hc : m.notCompatible s = .ok false) (ha : ¬ AtPacking s m) : ∃ r, m.relative s = .ok r ∧ 0 < r := by
  have std : m ≠ .er → RelValid s m → s.crystal ≠ packingLimit s m → ∃ r, m.relative s = .ok r ∧ 0 < r := by
    intro hne hv hpk
    obtain ⟨b, hb, hle⟩ := C30_check_is_packing m s hne hv
    rw [hc] at hb
    have hle := hle.mp (Except.ok.inj hb).symm
    obtain ⟨r, hr, h1⟩ := C29_at_least_one m s hv h0 (lt_of_le_of_ne hle hpk)
    exact ⟨r, hr, by linarith⟩
  cases m with
  | er =>
    obtain ⟨b, hb, hiff⟩ := C30_er_check_is_exact s
    rw [hc] at hb
    obtain ⟨r, hr⟩ := hiff.mp (Except.ok.inj hb).symm
    have hlt : s.crystal < packingLimit s .er := by
      unfold RelModel.notCompatible at hc
      dsimp only at hc
      rw [div_of_ne (by norm_num), ok_bind] at hc
      have := Except.ok.inj hc
      rw [← Bool.not_eq_true, leB_real, not_le] at this
      unfold packingLimit
      dsimp only
      rw [one_lit] at this
      exact this
    obtain ⟨r', hr', h1⟩ := C29_at_least_one .er s trivial h0 hlt
    exact ⟨r', hr', by linarith⟩
  | kd φ b => exact std (by simp) h ha
  | mp φ => exact std (by simp) h ha
  | mpMueller rp => exact std (by simp) h ha
  | mader rp => exact h.elim
  | ptp1 ves => exact std (by simp) (h s hp) ha
  | ptp2 ves => exact std (by simp) ⟨h.2 s hp, (h.1 s hp).2⟩ ha
  | ptp3 ves => exact std (by simp) (h s hp) ha
  | bll pm bs bg r t pc ves melt =>
    obtain ⟨h1, h2, h3, h4, h5, h6⟩ := h
    obtain ⟨eta, he, _⟩ := C28_melt_positive melt h5 s (h6 _ hT)
    have hn : s.crystal ≠ pm := ha
    have hle : s.crystal ≤ pm * (1 - ves.fraction s) := by
      unfold RelModel.notCompatible at hc; dsimp only at hc
      injection hc with hc
      rw [← Bool.not_eq_true, ltB_real, one_lit, not_lt] at hc
      exact hc
    have hlt : s.crystal < pm := lt_of_le_of_ne (hle.trans (by nlinarith [(h4 s hp).1])) hn
    cases hr : (RelModel.bll pm bs bg r t pc ves melt).relative s with
    | error e =>
      exact absurd ((C30_bll_fails_exactly_at_phimax pm bs bg r t pc ves melt s eta he h3 h1 h2 (h4 s hp).1 (h4 s hp).2 hc).1.mp ⟨e, hr⟩) hn
    | ok q => exact ⟨q, rfl, rel_pos (.bll pm bs bg r t pc ves melt) s h0 ⟨h1, hlt⟩ q hr⟩
  | costa1 p =>
    have : CostaModel (.costa1 p) := by
      rcases h with rfl | rfl
      · exact Or.inl rfl
      · exact Or.inr (Or.inl rfl)
    obtain ⟨_, r, hr, h1⟩ := C87_costa_total _ this s h0
    exact ⟨r, hr, by linarith⟩
  | costa2 p =>
    have : CostaModel (.costa2 p) := by
      rcases h with rfl | rfl
      · exact Or.inr (Or.inr (Or.inl rfl))
      · exact Or.inr (Or.inr (Or.inr rfl))
    obtain ⟨_, r, hr, h1⟩ := C87_costa_total _ this s h0
    exact ⟨r, hr, by linarith⟩

theorem bub_total (x0 Ts : ℝ) (rel : RelModel ℝ) (m : BubModel ℝ) (h : BubSensible x0 Ts rel m) (s : FlowState ℝ) (hp : x0 ≤ s.pos)
    (hT : Ts < s.temp) (hr : ∃ r, rel.relative s = .ok r) : ∃ c, m.relative s = .ok c ∧ 0 < c := by
  have fin : Spec.bubVesicles s m < 1 → (∃ c, m.relative s = .ok c) → ∃ c, m.relative s = .ok c ∧ 0 < c :=
    fun hv ⟨c, hc⟩ => ⟨c, hc, bub_pos m s hv c hc⟩
  cases m with
  | no => exact fin (by unfold Spec.bubVesicles; norm_num) ⟨_, rfl⟩
  | rigid ves => exact fin (h s hp).2 ⟨_, (C31_bubble_laws ves s (h s hp).2).2.1⟩
  | defo ves => exact fin (h s hp).2 ⟨_, (C31_bubble_laws ves s (h s hp).2).2.2⟩
  | mader radius tension ves melt rel' =>
    obtain ⟨h1, h2, ⟨h3, h4⟩, rfl⟩ := h
    obtain ⟨eta, he, _⟩ := C28_melt_positive melt h3 s (h4 _ hT)
    obtain ⟨rc, hrc⟩ := hr
    obtain ⟨k1, k2⟩ := C31_mader_switch radius tension ves melt rel' s eta rc (h2 s hp).2 h1 he hrc
    refine fin (h2 s hp).2 ?_
    rcases lt_or_ge (capillary radius tension eta rc s.strain) 1 with c | c
    · rw [k1 c]; exact ⟨_, (C31_bubble_laws ves s (h2 s hp).2).2.1⟩
    · rw [k2 c]; exact ⟨_, (C31_bubble_laws ves s (h2 s hp).2).2.2⟩

/-- What a step needs of the state. -/
structure Fit (g : Integrator ℝ) (t : Terrain ℝ) (x0 : ℝ) (s : FlowState ℝ) : Prop where
  downstream : x0 ≤ s.pos
  crystals : 0 ≤ s.crystal
  hot : g.models.cryst.solidTemperature < s.temp
  room : g.models.lava.notCompatible s = .ok false
  off : ¬ AtPacking s g.models.lava.rel
  ground : ∀ y, t.slope s.pos = .ok y → Real.sin y ≠ 0

variable {g : Integrator ℝ} {t : Terrain ℝ} {x0 : ℝ}

theorem Fit.withStrain {s : FlowState ℝ} (h : Fit g t x0 s) (y : ℝ) : Fit g t x0 { s with strain := y } where
  downstream := h.downstream
  crystals := h.crystals
  hot := h.hot
  room := by unfold Lava.notCompatible; rw [notCompatible_strain]; exact h.room
  off := fun k => h.off ((atPacking_strain _ s y).mp k)
  ground := h.ground

theorem density_pos (hg : Sensible g t x0) {s : FlowState ℝ} (hp : x0 ≤ s.pos) : 0 < g.models.lava.density s := by
  unfold Lava.density Lava.vesicleFraction
  rw [one_lit]
  exact mul_pos hg.density (by linarith [(hg.vesicles s hp).2])

theorem viscosity_total (hg : Sensible g t x0) {s : FlowState ℝ} (hs : Fit g t x0 s) :
    ∃ mu, g.models.lava.bulkViscosity s = .ok mu ∧ 0 < mu := by
  obtain ⟨a, ha, ha0⟩ := C28_melt_positive _ hg.melt.1 s (hg.melt.2 _ hs.hot)
  obtain ⟨b, hb, hb0⟩ := rel_total x0 _ _ hg.crystals s hs.downstream hs.crystals hs.hot hs.room hs.off
  obtain ⟨c, hc, hc0⟩ := bub_total x0 _ _ _ hg.bubbles s hs.downstream hs.hot ⟨b, hb⟩
  exact ⟨a * b * c, (C33_bulk_is_product _ _ _).mpr ⟨a, b, c, ha, hb, hc, rfl⟩, mul_pos (mul_pos ha0 hb0) hc0⟩

theorem stress_total (hg : Sensible g t x0) {s : FlowState ℝ} (hp : x0 ≤ s.pos) (hd : 0 < t.depth) :
    ∃ b, g.models.lava.basalStress t s = .ok b ∧ ((∀ y, t.slope s.pos = .ok y → Real.sin y ≠ 0) → b ≠ 0) := by
  obtain ⟨y, hy⟩ := hg.slopes s.pos
  refine ⟨t.depth * g.models.lava.density s * t.gravity * Real.sin y, ?_, fun h => ?_⟩
  · unfold Lava.basalStress
    rw [hy, ok_bind]
    rfl
  · exact mul_ne_zero (mul_ne_zero (mul_ne_zero hd.ne' (density_pos hg hp).ne') hg.gravity) (h y hy)

theorem yield_total {s : FlowState ℝ} (h0 : 0 ≤ s.crystal) : ∃ q, g.models.lava.yieldStrength s = .ok q ∧ 0 ≤ q := by
  obtain ⟨q, h1, h2, _⟩ := C34_yield_nonneg g.models.lava.yld s h0
  exact ⟨q, h1, h2⟩

/-- The part of the velocity that decides its sign. -/
noncomputable def push (tb t0 : ℝ) : ℝ := tb * (1 - 3 / 2 * (t0 / tb) + 1 / 2 * (t0 / tb) ^ 3)

/-- The velocity of a fit state, whatever the strain rate: its sign does not depend on it. -/
theorem velocity_total (hg : Sensible g t x0) (hd : 0 < t.depth) {s : FlowState ℝ} (hs : Fit g t x0 s) :
    ∃ k : ℝ, ∀ y, ∃ v x c, g.models.lava.meanVelocity t { s with strain := y } = .ok (v, x) ∧ 0 < c ∧ v = c * k := by
  obtain ⟨q, hq, _⟩ := yield_total (g := g) hs.crystals
  obtain ⟨b, hb, hb0⟩ := stress_total hg hs.downstream hd
  refine ⟨push b q, fun y => ?_⟩
  obtain ⟨mu, hmu, hmu0⟩ := viscosity_total hg (hs.withStrain y)
  refine ⟨_, _, t.depth / (3 * mu), (meanVelocity_ok_iff _ _ _ _ _).mpr ⟨q, b, mu, ?_, ?_, hmu, hmu0.ne', hb0 hs.ground, hd.ne', rfl, rfl⟩,
    by positivity, ?_⟩
  · unfold Lava.yieldStrength; rw [yield_strain]; exact hq
  · rw [basal_strain]; exact hb
  · unfold binghamVelocity push
    ring

end PyFlowGo
