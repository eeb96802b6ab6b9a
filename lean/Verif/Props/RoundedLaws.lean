import Verif.Proofs.RoundClose
import Verif.Props.Rounded
/-
  C85, C86: the conservation laws and the positions of a run in rounded arithmetic, with error bounds.
-/
set_option linter.unusedSectionVars false
namespace PyFlowGo
open Spec Rounded

section
variable {rd : ℝ → ℝ} {u : ℝ} (h0 : 0 ≤ u) (h1 : u < 1) (hA : Accurate u 0 rd)
include h0 h1 hA

theorem accurate_zero : rd 0 = 0 := by
  have := hA 0
  simp only [sub_zero, abs_zero, mul_zero, add_zero] at this
  exact abs_eq_zero.mp (le_antisymm this (abs_nonneg _))

theorem accurate_ne {x : ℝ} (h : rd x ≠ 0) : x ≠ 0 := fun e => h (by rw [e]; exact accurate_zero h0 h1 hA)

/-- **C85**. Volume conservation: on every accepted step with `mass_conservation` off, logged width times velocity times
    depth is the effusion rate of the run up to two relative rounding errors; the first width is the configured one up to
    four; the effusion rate itself is not touched after the first step. -/
theorem C85_volume (g : Integrator (Rounded rd)) (hm : g.massConservation = false) (w w' : World (Rounded rd))
    (h : AcceptedStep g w w') :
    ∃ width v depth, loggedNum w'.log w.st.pos "channel_width" = some width ∧
      loggedNum w'.log w.st.pos "mean_velocity" = some v ∧ loggedNum w'.log w.st.pos "channel_depth" = some depth ∧
      Close u 2 (val w'.effusionRate) (val width * val v * val depth) ∧
      (w.iteration = 0 → Close u 4 (val w.terrain.width) (val width)) ∧
      (w.iteration ≠ 0 → w'.effusionRate = w.effusionRate) := by
  obtain ⟨A⟩ := roundStep h
  have hz := accurate_zero h0 h1 hA
  have hv : 0 < val A.v := by have := A.vpos; rwa [hz] at this
  have hwid := A.facts.width
  rw [hm] at hwid
  simp only [channelWidth, Bool.false_eq_true, if_false] at hwid
  obtain ⟨hne, hw⟩ := Rounded.div_ok.mp hwid
  rw [val_mul] at hne hw
  have hd : val w.terrain.depth ≠ 0 := right_ne_zero_of_mul (accurate_ne h0 h1 hA hne)
  have c1 : Close u 2 (val (w.stepEffusion A.v) / (val A.v * val w.terrain.depth)) (val A.d.width) := by
    rw [hw]
    exact Close.then_round h0 h1 hA (Close.div h0 h1 (Close.refl _) (Close.round h0 h1 hA _))
  refine ⟨A.d.width, A.v, w.terrain.depth, A.logged (by decide) rfl, A.logged (by decide) (by rw [← A.facts.v_eq]; rfl),
    A.logged (by decide) (by rw [← A.facts.depth_eq]; rfl), ?_, fun hi => ?_, fun hi => ?_⟩
  · have := Close.mul h0 h1 c1 (Close.refl (u := u) (val A.v * val w.terrain.depth))
    rw [div_mul_cancel₀ _ (mul_ne_zero hv.ne' hd), ← mul_assoc] at this
    rw [A.eff]
    exact this
  · have e : val (w.stepEffusion A.v) = rd (rd (val A.v * val w.terrain.width) * val w.terrain.depth) := by
      unfold World.stepEffusion
      rw [hi]
      rfl
    have c2 : Close u 2 (val A.v * val w.terrain.width * val w.terrain.depth) (val (w.stepEffusion A.v)) := by
      rw [e]
      exact Close.then_round h0 h1 hA (Close.mul h0 h1 (Close.round h0 h1 hA _) (Close.refl _))
    have c3 := Close.trans h0 h1 (Close.div h0 h1 c2 (Close.refl (val A.v * val w.terrain.depth))) c1
    have e2 : val A.v * val w.terrain.width * val w.terrain.depth / (val A.v * val w.terrain.depth) = val w.terrain.width := by
      field_simp
    rwa [e2] at c3
  · rw [A.eff]
    unfold World.stepEffusion
    rw [if_neg (by simpa using hi)]

/-- **C85**. The errors do not accumulate: between any two rows of a run the products width * velocity * depth agree up to
    four relative rounding errors, however many steps lie between them. -/
theorem C85_rows_agree (g : Integrator (Rounded rd)) (hm : g.massConservation = false) (k : Nat)
    (ws : Nat → World (Rounded rd)) (h : AcceptedRun g k ws) (i j : Nat) (hi : i < k) (hj : j < k) :
    ∃ a b c a' b' c', loggedNum (ws (i + 1)).log (ws i).st.pos "channel_width" = some a ∧
      loggedNum (ws (i + 1)).log (ws i).st.pos "mean_velocity" = some b ∧
      loggedNum (ws (i + 1)).log (ws i).st.pos "channel_depth" = some c ∧
      loggedNum (ws (j + 1)).log (ws j).st.pos "channel_width" = some a' ∧
      loggedNum (ws (j + 1)).log (ws j).st.pos "mean_velocity" = some b' ∧
      loggedNum (ws (j + 1)).log (ws j).st.pos "channel_depth" = some c' ∧
      Close u 4 (val a * val b * val c) (val a' * val b' * val c') := by
  have heff : ∀ i, i < k → (ws (i + 1)).effusionRate = (ws 1).effusionRate := by
    intro i
    induction i with
    | zero => intro _; rfl
    | succ i ih =>
      intro hi
      obtain ⟨_, _, _, _, _, _, _, _, he⟩ := C85_volume h0 h1 hA g hm _ _ (h (i + 1) hi)
      rw [he ?_, ih (by omega)]
      obtain ⟨A⟩ := roundStep (h i (by omega))
      rw [A.iter]; omega
  obtain ⟨a, b, c, e1, e2, e3, e4, _⟩ := C85_volume h0 h1 hA g hm _ _ (h i hi)
  obtain ⟨a', b', c', e1', e2', e3', e4', _⟩ := C85_volume h0 h1 hA g hm _ _ (h j hj)
  rw [heff i hi] at e4
  rw [heff j hj] at e4'
  exact ⟨a, b, c, a', b', c', e1, e2, e3, e1', e2', e3', Close.trans h0 h1 (Close.symm h0 h1 e4) e4'⟩

/-- **C85**. Mass conservation: with `mass_conservation` on, width * velocity * depth * density is the mass flux of the run
    up to three relative rounding errors, and the mass flux is never touched. -/
theorem C85_mass (g : Integrator (Rounded rd)) (hm : g.massConservation = true) (w w' : World (Rounded rd))
    (h : AcceptedStep g w w') :
    ∃ flux width v depth rho, w.fluxRate = some flux ∧ w'.fluxRate = some flux ∧
      loggedNum w'.log w.st.pos "channel_width" = some width ∧
      loggedNum w'.log w.st.pos "mean_velocity" = some v ∧ loggedNum w'.log w.st.pos "channel_depth" = some depth ∧
      loggedNum w'.log w.st.pos "density" = some rho ∧
      Close u 3 (val flux) (val width * val v * val depth * val rho) := by
  obtain ⟨A⟩ := roundStep h
  have hz := accurate_zero h0 h1 hA
  have hv : 0 < val A.v := by have := A.vpos; rwa [hz] at this
  have hwid := A.facts.width
  rw [hm] at hwid
  simp only [channelWidth, if_true] at hwid
  cases hf : w.fluxRate with
  | none => rw [hf] at hwid; cases hwid
  | some fr =>
    rw [hf] at hwid
    obtain ⟨a, ha, hb⟩ := bind_ok_iff.mp hwid
    obtain ⟨hne, ha⟩ := Rounded.div_ok.mp ha
    obtain ⟨hrho, hb⟩ := Rounded.div_ok.mp hb
    rw [val_mul] at hne ha
    have hd : val w.terrain.depth ≠ 0 := right_ne_zero_of_mul (accurate_ne h0 h1 hA hne)
    have c1 : Close u 2 (val fr / (val A.v * val w.terrain.depth)) (val a) := by
      rw [ha]
      exact Close.then_round h0 h1 hA (Close.div h0 h1 (Close.refl _) (Close.round h0 h1 hA _))
    have c2 : Close u 3 (val fr / (val A.v * val w.terrain.depth) / val (g.models.lava.density w.st)) (val A.d.width) := by
      rw [hb]
      exact Close.then_round h0 h1 hA (Close.div h0 h1 c1 (Close.refl _))
    have hden : g.models.lava.density A.w1.st = g.models.lava.density w.st := by
      rw [A.facts.touched]; exact density_strain _ _ _
    refine ⟨fr, A.d.width, A.v, w.terrain.depth, g.models.lava.density w.st, rfl, by rw [A.flux, hf],
      A.logged (by decide) rfl, A.logged (by decide) (by rw [← A.facts.v_eq]; rfl),
      A.logged (by decide) (by rw [← A.facts.depth_eq]; rfl), A.logged (by decide) (by rw [← hden]; rfl), ?_⟩
    have := Close.mul h0 h1 c2 (Close.refl (u := u) (val A.v * val w.terrain.depth * val (g.models.lava.density w.st)))
    have e : val fr / (val A.v * val w.terrain.depth) / val (g.models.lava.density w.st) *
        (val A.v * val w.terrain.depth * val (g.models.lava.density w.st)) = val fr := by
      field_simp
    rw [e] at this
    have e2 : val A.d.width * (val A.v * val w.terrain.depth * val (g.models.lava.density w.st)) =
        val A.d.width * val A.v * val w.terrain.depth * val (g.models.lava.density w.st) := by ring
    rw [e2] at this
    exact this

/-- **C85**. Energy balance: the logged crystallisation gradient is heat / (effusion rate * density * latent heat) up to
    five relative rounding errors, and it is minus the crystallisation rate times the logged temperature gradient up to
    one; crystal fraction and temperature advance by gradient * dx, each with two roundings. -/
theorem C85_energy (g : Integrator (Rounded rd)) (w w' : World (Rounded rd)) (h : AcceptedStep g w w') :
    ∃ q rate a b, loggedNum w'.log w.st.pos "heat_budget" = some q ∧ loggedNum w'.log w.st.pos "dphi_dtemp" = some rate ∧
      loggedNum w'.log w.st.pos "dphi_dx" = some a ∧ loggedNum w'.log w.st.pos "dtemp_dx" = some b ∧
      Close u 5 (val q / (val w'.effusionRate * val (g.models.lava.density w.st) * val g.models.lava.latentHeat)) (val a) ∧
      Close u 1 (-val rate * val b) (val a) ∧
      (∃ x, Close u 1 (val a * val g.dx) x ∧ Close u 1 (val w.st.crystal + x) (val w'.st.crystal)) ∧
      (∃ x, Close u 1 (val b * val g.dx) x ∧ Close u 1 (val w.st.temp + x) (val w'.st.temp)) := by
  obtain ⟨A⟩ := roundStep h
  obtain ⟨hne, hd⟩ := Rounded.div_ok.mp A.facts.dtemp
  have hphi : val A.d.dphiDx = rd (val A.d.dtempDx * -val A.d.rate) := by rw [A.facts.dphi]; rfl
  refine ⟨A.d.heat, A.d.rate, A.d.dphiDx, A.d.dtempDx, A.logged_heat, A.logged (by decide) rfl, A.logged (by decide) rfl,
    A.logged (by decide) rfl, ?_, ?_, ⟨rd (val A.d.dphiDx * val g.dx), Close.round h0 h1 hA _, ?_⟩,
    ⟨rd (val A.d.dtempDx * val g.dx), Close.round h0 h1 hA _, ?_⟩⟩
  · rw [A.eff]
    generalize hE : val (w.stepEffusion A.v) = E
    generalize hρ : val (g.models.lava.density w.st) = ρ
    generalize hL : val g.models.lava.latentHeat = L
    generalize hr : val A.d.rate = r
    have eD : val (w.stepEffusion A.v * g.models.lava.density w.st * g.models.lava.latentHeat * A.d.rate) =
        rd (rd (rd (E * ρ) * L) * r) := by
      rw [← hE, ← hρ, ← hL, ← hr]; rfl
    rw [eD] at hne hd
    have c1 : Close u 3 (E * ρ * L * r) (rd (rd (rd (E * ρ) * L) * r)) :=
      Close.then_round h0 h1 hA (Close.mul h0 h1 (Close.then_round h0 h1 hA
        (Close.mul h0 h1 (Close.round h0 h1 hA _) (Close.refl _))) (Close.refl _))
    have hne2 : E * ρ * L * r ≠ 0 := by
      obtain ⟨θ, _, _, e⟩ := c1
      intro h2
      rw [h2, zero_mul] at e
      exact hne e
    have hr0 : r ≠ 0 := right_ne_zero_of_mul hne2
    have c2 : Close u 4 (-val A.d.heat / (E * ρ * L * r)) (val A.d.dtempDx) := by
      rw [hd]
      exact Close.then_round h0 h1 hA (Close.div h0 h1 (Close.refl _) c1)
    have c3 := Close.then_round h0 h1 hA (Close.mul h0 h1 c2 (Close.refl (u := u) (-r)))
    rw [hphi, hr]
    have e : -val A.d.heat / (E * ρ * L * r) * -r = val A.d.heat / (E * ρ * L) := by
      have := left_ne_zero_of_mul hne2
      field_simp
    rw [e] at c3
    exact c3
  · rw [hphi, show -val A.d.rate * val A.d.dtempDx = val A.d.dtempDx * -val A.d.rate by ring]
    exact Close.round h0 h1 hA _
  · rw [A.crystal, A.facts.newPhi]
    exact Close.round h0 h1 hA _
  · rw [A.temp, A.facts.newTemp]
    exact Close.round h0 h1 hA _

end

/-- **C85**. What "up to k relative rounding errors" means for the relative difference. -/
theorem C85_relative_error {u : ℝ} (h0 : 0 ≤ u) (h1 : u < 1) (k : Nat) (x y : ℝ) (h : Close u k x y) :
    |y - x| ≤ (1 / (1 - u) ^ k - 1) * |x| := Close.error h0 h1 h

/-! ### C86 -/

/-- **C86**. After `k` accepted steps the position differs from x0 + k*dx by at most k (1+u)^k (u (|x0| + k |dx|) + η). -/
theorem C86_position_drift {rd : ℝ → ℝ} {u η : ℝ} (h0 : 0 ≤ u) (hη : 0 ≤ η) (hA : Accurate u η rd)
    (g : Integrator (Rounded rd)) (k : Nat) (ws : Nat → World (Rounded rd)) (h : AcceptedRun g k ws) :
    |val (ws k).st.pos - (val (ws 0).st.pos + k * val g.dx)| ≤
      k * (1 + u) ^ k * (u * (|val (ws 0).st.pos| + k * |val g.dx|) + η) := by
  have key : ∀ M : ℝ, |val (ws 0).st.pos| + k * |val g.dx| ≤ M → ∀ i, i ≤ k →
      |val (ws i).st.pos - (val (ws 0).st.pos + i * val g.dx)| ≤ i * (1 + u) ^ i * (u * M + η) := by
    intro M hM i
    have hM0 : 0 ≤ M := le_trans (by positivity) hM
    have hB : 0 ≤ u * M + η := by positivity
    induction i with
    | zero => intro _; simp
    | succ i ih =>
      intro hi
      have ih := ih (by omega)
      obtain ⟨A⟩ := roundStep (h i (by omega))
      rw [A.pos]
      generalize hp : val (ws i).st.pos = p at ih
      generalize hx : val (ws 0).st.pos = x0 at ih hM
      generalize val g.dx = dx at ih hM
      have hexact : |x0 + ((i + 1 : ℕ) : ℝ) * dx| ≤ M := by
        refine le_trans ?_ hM
        refine le_trans (abs_add_le _ _) ?_
        rw [abs_mul, Nat.abs_cast]
        have : ((i + 1 : ℕ) : ℝ) ≤ k := by exact_mod_cast hi
        have := mul_le_mul_of_nonneg_right this (abs_nonneg dx)
        linarith
      have e1 := hA (p + dx)
      have e2 : |p + dx| ≤ |p - (x0 + i * dx)| + M := by
        have : p + dx = (p - (x0 + i * dx)) + (x0 + ((i + 1 : ℕ) : ℝ) * dx) := by push_cast; ring
        rw [this]
        exact le_trans (abs_add_le _ _) (by linarith)
      have e3 : |rd (p + dx) - (x0 + ((i + 1 : ℕ) : ℝ) * dx)| ≤
          |rd (p + dx) - (p + dx)| + |p - (x0 + i * dx)| := by
        have : rd (p + dx) - (x0 + ((i + 1 : ℕ) : ℝ) * dx) = (rd (p + dx) - (p + dx)) + (p - (x0 + i * dx)) := by
          push_cast; ring
        rw [this]; exact abs_add_le _ _
      have e4 : u * |p + dx| ≤ u * (|p - (x0 + i * dx)| + M) := mul_le_mul_of_nonneg_left e2 h0
      have hpow : (1 : ℝ) ≤ (1 + u) ^ (i + 1) := one_le_pow₀ (by linarith)
      have e5 : (1 + u) * |p - (x0 + i * dx)| ≤ i * (1 + u) ^ (i + 1) * (u * M + η) := by
        have := mul_le_mul_of_nonneg_left ih (show 0 ≤ 1 + u by linarith)
        calc _ ≤ _ := this
          _ = _ := by rw [pow_succ]; ring
      have e6 : u * M + η ≤ (1 + u) ^ (i + 1) * (u * M + η) := le_mul_of_one_le_left hB hpow
      calc |rd (p + dx) - (x0 + ((i + 1 : ℕ) : ℝ) * dx)| ≤ (1 + u) * |p - (x0 + i * dx)| + (u * M + η) := by linarith
        _ ≤ i * (1 + u) ^ (i + 1) * (u * M + η) + (1 + u) ^ (i + 1) * (u * M + η) := by linarith
        _ = ((i + 1 : ℕ) : ℝ) * (1 + u) ^ (i + 1) * (u * M + η) := by push_cast; ring
  exact key _ le_rfl k le_rfl

/-- **C86**. A step is felt: as long as the rounding error at the new position is smaller than the step, the position
    increases strictly. For doubles (u = 2^-53) and a step of 10 m this holds up to about 9e16 m. -/
theorem C86_step_is_felt {rd : ℝ → ℝ} {u η : ℝ} (hA : Accurate u η rd) (g : Integrator (Rounded rd))
    (w w' : World (Rounded rd)) (h : AcceptedStep g w w')
    (hs : u * |val w.st.pos + val g.dx| + η < val g.dx) : val w.st.pos < val w'.st.pos := by
  obtain ⟨A⟩ := roundStep h
  rw [A.pos]
  have := abs_le.mp (hA (val w.st.pos + val g.dx))
  linarith [this.1]

/-- **C86**. If every step is felt, a run on an empty log leaves one row per accepted step, in order, at the positions the
    flow went through, each with all the columns. -/
theorem C86_row_per_step {rd : ℝ → ℝ} (g : Integrator (Rounded rd)) (k : Nat) (ws : Nat → World (Rounded rd))
    (h : AcceptedRun g k ws) (hlog : (ws 0).log = []) (hfelt : ∀ i, i < k → val (ws i).st.pos < val (ws (i + 1)).st.pos) :
    (ws k).log.length = k ∧ ∀ i (hi : i < (ws k).log.length),
      ((ws k).log[i]).get? "position" = some (.num (ws i).st.pos) ∧ ∀ c, c ∈ ((ws k).log[i]).keys ↔ c ∈ runColumns g := by
  have hlt : ∀ j, j ≤ k → ∀ i, i < j → val (ws i).st.pos < val (ws j).st.pos := by
    intro j
    induction j with
    | zero => intro _ i hi; omega
    | succ j ih =>
      intro hj i hi
      by_cases e : i = j
      · subst e; exact hfelt i (by omega)
      · exact (ih (by omega) i (by omega)).trans (hfelt j (by omega))
  have key : ∀ k', k' ≤ k → ∃ row : Nat → Row (Cell (Rounded rd)),
      (∀ i, i < k' → (row i).get? "position" = some (.num (ws i).st.pos) ∧ ∀ c, c ∈ (row i).keys ↔ c ∈ runColumns g) ∧
      (ws k').log = (List.range k').map row := by
    intro k'
    induction k' with
    | zero => intro _; exact ⟨fun _ => [], by simp, by rw [hlog]; rfl⟩
    | succ j ih =>
      intro hj
      obtain ⟨row, r1, r2⟩ := ih (by omega)
      obtain ⟨es, hn, hp, hl⟩ := accepted_log (h j (by omega))
      have hfresh : ∀ r ∈ (ws j).log, r.atPosition (.num (ws j).st.pos) = false := by
        rw [r2]
        intro r hr
        obtain ⟨i, hi, rfl⟩ := List.mem_map.mp hr
        rw [List.mem_range] at hi
        unfold Row.atPosition
        rw [(r1 i hi).1]
        rw [Bool.eq_false_iff]
        intro e
        have e := congrArg (fun c => match c with | Cell.num x => val x | Cell.text x => val x) (eq_of_beq e)
        exact (hlt j (by omega) i hi).ne' e
      have hne : es ≠ [] := by rintro rfl; simp at hn
      rw [addAll_new (fun c => beq_self_eq_true c) _ es hp hne _ hfresh] at hl
      refine ⟨fun i => if i = j then Row.setAll [("position", .num (ws j).st.pos)] es else row i, ?_, ?_⟩
      · intro i hi
        dsimp only
        by_cases hij : i = j
        · subst hij
          rw [if_pos rfl]
          constructor
          · rw [Row.get?_setAll_other _ _ _ hp]; simp [Row.get?]
          · intro c
            rw [Row.mem_keys_setAll, hn]
            simp [runColumns, Row.keys]
        · rw [if_neg hij]; exact r1 i (by omega)
      · rw [hl, List.range_succ, List.map_append, r2]
        congr 1
        · refine List.map_congr_left fun x hx => ?_
          rw [List.mem_range] at hx
          rw [if_neg (by omega)]
        · simp
  obtain ⟨row, r1, r2⟩ := key k le_rfl
  refine ⟨by rw [r2]; simp, fun i hi => ?_⟩
  have hi' : i < k := by rw [r2] at hi; simpa using hi
  have e : (ws k).log[i] = row i := by simp [r2]
  rw [e]
  exact r1 i hi'

/-- **C86**. A step that is not felt overwrites its own row: when adding `dx` does not change the position, the next
    accepted step writes in the same row and the log does not grow. -/
theorem C86_absorbed_step {rd : ℝ → ℝ} (g : Integrator (Rounded rd)) (w w' w2 : World (Rounded rd))
    (h : AcceptedStep g w w') (h' : AcceptedStep g w' w2) (hs : w'.st.pos = w.st.pos) :
    w2.log.length = w'.log.length ∧ w2.log.map (fun r => r.get? "position") = w'.log.map (fun r => r.get? "position") := by
  have grow : ∀ (es : List (String × Cell (Rounded rd))) (log : Log (Cell (Rounded rd))) (p : Cell (Rounded rd)),
      (∀ e ∈ es, e.1 ≠ "position") → (∃ r ∈ log, r.atPosition p = true) →
      (log.addAll p es).length = log.length ∧
      (log.addAll p es).map (fun r => r.get? "position") = log.map (fun r => r.get? "position") ∧
      ∃ r ∈ log.addAll p es, r.atPosition p = true := by
    intro es
    induction es with
    | nil => intro log p _ hr; exact ⟨rfl, rfl, hr⟩
    | cons e rest ih =>
      intro log p he hr
      have hep : e.1 ≠ "position" := he e (by simp)
      show (Log.addAll (log.addVariable e.1 p e.2) p rest).length = _ ∧ _
      rcases addVariable_shape log e.1 p e.2 with ⟨pre, r, post, a, b, c, d⟩ | ⟨a, _⟩
      · have hat : (r.set e.1 e.2).atPosition p = true := by rw [set_atPosition hep]; exact b
        obtain ⟨i1, i2, i3⟩ := ih (log.addVariable e.1 p e.2) p (fun x hx => he x (by simp [hx]))
          (by rw [d]; exact ⟨r.set e.1 e.2, by simp, hat⟩)
        refine ⟨?_, ?_, i3⟩
        · rw [i1, d, a]; simp
        · show (Log.addAll (log.addVariable e.1 p e.2) p rest).map _ = _
          rw [i2, d, a]
          have : (r.set e.1 e.2).get? "position" = r.get? "position" := by
            rw [Row.get?_set, if_neg (fun h => hep h.symm)]
          simp [this]
      · obtain ⟨r, hr1, hr2⟩ := hr
        rw [a r hr1] at hr2; cases hr2
  obtain ⟨es, hn, hp, hl⟩ := accepted_log h
  obtain ⟨es2, hn2, hp2, hl2⟩ := accepted_log h'
  rw [hs] at hl2
  have hex : ∃ r ∈ w'.log, r.atPosition (.num w.st.pos) = true := by
    rw [hl]
    have hne : es ≠ [] := by rintro rfl; simp at hn
    cases es with
    | nil => exact absurd rfl hne
    | cons e rest =>
      have hep : e.1 ≠ "position" := hp e (by simp)
      have : ∃ r ∈ w.log.addVariable e.1 (.num w.st.pos) e.2, r.atPosition (.num w.st.pos) = true := by
        rcases addVariable_shape w.log e.1 (.num w.st.pos) e.2 with ⟨pre, r, post, a, b, c, d⟩ | ⟨a, d⟩
        · rw [d]; exact ⟨r.set e.1 e.2, by simp, by rw [set_atPosition hep]; exact b⟩
        · rw [d]; exact ⟨newRow e.1 (.num w.st.pos) e.2, by simp, by rw [newRow_atPosition hep]; exact beq_self_eq_true _⟩
      exact (grow rest _ _ (fun x hx => hp x (by simp [hx])) this).2.2
  obtain ⟨a, b, _⟩ := grow es2 w'.log (.num w.st.pos) hp2 hex
  rw [hl2]
  exact ⟨a, b⟩

end PyFlowGo
