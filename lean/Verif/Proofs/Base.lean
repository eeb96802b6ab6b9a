import Verif.Model.RealNum
import Mathlib.Tactic.Ring
import Mathlib.Tactic.Linarith
import Mathlib.Tactic.NormNum
import Mathlib.Tactic.FieldSimp
import Mathlib.Tactic.Positivity
/-
  Generic lemmas: sequencing of computations that may raise, and Python arithmetic at ℝ.
-/
namespace PyFlowGo

/-! ### `Except` -/

theorem bind_ok_iff {ε β γ : Type} {x : Except ε β} {f : β → Except ε γ} {c : γ} :
    (x >>= f) = .ok c ↔ ∃ b, x = .ok b ∧ f b = .ok c := by
  cases x with
  | error e => simp [bind, Except.bind]
  | ok b => simp [bind, Except.bind]

theorem bind_error_iff {ε β γ : Type} {x : Except ε β} {f : β → Except ε γ} {e : ε} :
    (x >>= f) = .error e ↔ x = .error e ∨ ∃ b, x = .ok b ∧ f b = .error e := by
  cases x with
  | error e => simp [bind, Except.bind]
  | ok b => simp [bind, Except.bind]

@[simp] theorem ok_bind {ε β γ : Type} (b : β) (f : β → Except ε γ) :
    ((Except.ok b : Except ε β) >>= f) = f b := rfl

@[simp] theorem error_bind {ε β γ : Type} (e : ε) (f : β → Except ε γ) :
    ((Except.error e : Except ε β) >>= f) = .error e := rfl

@[simp] theorem pure_ok_iff {ε β : Type} {b c : β} : (pure b : Except ε β) = .ok c ↔ b = c := by
  simp [pure, Except.pure]

theorem pure_eq_ok {ε β : Type} (b : β) : (pure b : Except ε β) = .ok b := rfl

@[simp] theorem pure_ne_error {ε β : Type} {b : β} {e : ε} : (pure b : Except ε β) ≠ .error e := by
  simp [pure, Except.pure]

theorem mapM_ok_iff {β γ : Type} (f : β → Except Err γ) (l : List β) (r : List γ) :
    l.mapM f = .ok r ↔ List.Forall₂ (fun a b => f a = .ok b) l r := by
  induction l generalizing r with
  | nil => cases r <;> simp [pure_ok_iff]
  | cons a l ih =>
    rw [List.mapM_cons]
    simp only [bind_ok_iff, pure_ok_iff, ih]
    constructor
    · rintro ⟨b, h1, bs, h2, rfl⟩
      exact List.Forall₂.cons h1 h2
    · intro h
      cases h with
      | cons h1 h2 => exact ⟨_, h1, _, h2, rfl⟩

theorem mapM_eq_map {β γ : Type} (f : β → Except Err γ) (g : β → γ) (l : List β) (h : ∀ a ∈ l, f a = .ok (g a)) :
    l.mapM f = .ok (l.map g) := by
  rw [mapM_ok_iff]
  induction l with
  | nil => exact List.Forall₂.nil
  | cons a l ih =>
    exact List.Forall₂.cons (h a (by simp)) (ih (fun b hb => h b (by simp [hb])))

/-! ### `PyM` -/
namespace PyM
variable {σ β γ : Type}

theorem bind_apply (m : PyM σ β) (f : β → PyM σ γ) (s : σ) :
    (m >>= f) s = match m s with
      | (.ok b, s') => f b s'
      | (.error e, s') => (.error e, s') := rfl

theorem bind_eq_ok {m : PyM σ β} {f : β → PyM σ γ} {s s' : σ} {c : γ} :
    (m >>= f) s = (.ok c, s') ↔ ∃ b s1, m s = (.ok b, s1) ∧ f b s1 = (.ok c, s') := by
  rw [bind_apply]
  cases h : m s with
  | mk r s1 => cases r with
    | error e => simp
    | ok b => simp

theorem bind_eq_error {m : PyM σ β} {f : β → PyM σ γ} {s s' : σ} {e : Err} :
    (m >>= f) s = (.error e, s') ↔
      m s = (.error e, s') ∨ ∃ b s1, m s = (.ok b, s1) ∧ f b s1 = (.error e, s') := by
  rw [bind_apply]
  cases h : m s with
  | mk r s1 => cases r with
    | error e => simp
    | ok b => simp

theorem bind_of_ok {m : PyM σ β} {f : β → PyM σ γ} {s s1 : σ} {b : β} (h : m s = (.ok b, s1)) :
    (m >>= f) s = f b s1 := by rw [bind_apply, h]

theorem bind_of_error {m : PyM σ β} {f : β → PyM σ γ} {s s1 : σ} {e : Err} (h : m s = (.error e, s1)) :
    (m >>= f) s = (.error e, s1) := by rw [bind_apply, h]

@[simp] theorem pure_apply (b : β) (s : σ) : (pure b : PyM σ β) s = (.ok b, s) := rfl
@[simp] theorem get_apply (s : σ) : (PyM.get : PyM σ σ) s = (.ok s, s) := rfl
@[simp] theorem modify_apply (f : σ → σ) (s : σ) : (PyM.modify f) s = (.ok (), f s) := rfl
@[simp] theorem raise_apply (e : Err) (s : σ) : (PyM.raise e : PyM σ β) s = (.error e, s) := rfl
@[simp] theorem lift_apply (x : Except Err β) (s : σ) : (PyM.lift x) s = (x, s) := rfl

theorem bind_pure (m : PyM σ β) : (m >>= fun b => (pure b : PyM σ β)) = m := by
  funext s
  rw [bind_apply]
  cases h : m s with
  | mk r s' => cases r <;> rfl

theorem lift_eq_ok {x : Except Err β} {s s' : σ} {b : β} :
    PyM.lift x s = (.ok b, s') ↔ x = .ok b ∧ s' = s := by
  simp [eq_comm]

end PyM

/-! ### Python arithmetic at ℝ -/

@[simp] theorem leB_real (x y : ℝ) : (leB x y = true) ↔ x ≤ y := by
  simp [leB]
@[simp] theorem ltB_real (x y : ℝ) : (ltB x y = true) ↔ x < y := by
  simp [ltB]
@[simp] theorem eqB_real (x y : ℝ) : (eqB x y = true) ↔ x = y := by
  simp [eqB]

@[simp] theorem npow_real (x : ℝ) (n : Nat) : PyNum.npow x n = x ^ n := rfl
@[simp] theorem exp_real (x : ℝ) : PyNum.exp x = Real.exp x := rfl
@[simp] theorem sin_real (x : ℝ) : PyNum.sin x = Real.sin x := rfl
@[simp] theorem pi_real : (PyNum.pi : ℝ) = Real.pi := rfl
@[simp] theorem absv_real (x : ℝ) : PyNum.absv x = |x| := rfl
@[simp] theorem ofInt_real (n : Int) : (PyNum.ofInt n : ℝ) = n := rfl

theorem div_real (x y : ℝ) : PyNum.div x y = if y = 0 then .error .zeroDiv else .ok (x / y) := rfl

theorem div_ok_iff {x y z : ℝ} : PyNum.div x y = .ok z ↔ y ≠ 0 ∧ z = x / y := by
  rw [div_real]
  by_cases h : y = 0
  · simp [h]
  · simp [h, eq_comm]

theorem div_of_ne {x y : ℝ} (h : y ≠ 0) : PyNum.div x y = .ok (x / y) := by simp [div_real, h]

theorem div_error_iff {x y : ℝ} {e : Err} : PyNum.div x y = .error e ↔ y = 0 ∧ e = .zeroDiv := by
  rw [div_real]
  by_cases h : y = 0
  · simp [h, eq_comm]
  · simp [h]

theorem pow_real (x y : ℝ) : PyNum.pow x y = realPow .zeroDiv .complexResult x y := rfl
theorem mpow_real (x y : ℝ) : PyNum.mpow x y = realPow .mathDomain .mathDomain x y := rfl

theorem realPow_of_pos {e1 e2 : Err} {x : ℝ} (y : ℝ) (h : 0 < x) : realPow e1 e2 x y = .ok (x ^ y) := by
  unfold realPow
  rw [if_neg (fun hh => absurd hh.1 (ne_of_gt h)), if_neg (fun hh => absurd hh.1 (not_lt.mpr h.le))]

theorem realPow_of_nonneg {e1 e2 : Err} {x y : ℝ} (hx : 0 ≤ x) (hy : 0 ≤ y) :
    realPow e1 e2 x y = .ok (x ^ y) := by
  unfold realPow
  rw [if_neg (fun hh => absurd hh.2 (not_lt.mpr hy)), if_neg (fun hh => absurd hh.1 (not_lt.mpr hx))]

theorem realPow_ok {e1 e2 : Err} {x y z : ℝ} (h : realPow e1 e2 x y = .ok z) : z = x ^ y := by
  unfold realPow at h
  split at h
  · cases h
  · split at h
    · cases h
    · injection h with h; exact h.symm

theorem realPow_ok_iff {e1 e2 : Err} {x y z : ℝ} :
    realPow e1 e2 x y = .ok z ↔ ¬ (x = 0 ∧ y < 0) ∧ ¬ (x < 0 ∧ ¬ IsInt y) ∧ z = x ^ y := by
  unfold realPow
  by_cases h1 : x = 0 ∧ y < 0
  · simp [h1]
  · by_cases h2 : x < 0 ∧ ¬ IsInt y
    · rw [if_neg h1, if_pos h2]; simp only [reduceCtorEq, false_iff]; tauto
    · rw [if_neg h1, if_neg h2]
      simp only [Except.ok.injEq]
      constructor
      · intro h; exact ⟨h1, h2, h.symm⟩
      · intro h; exact h.2.2.symm

theorem pow_of_pos {x : ℝ} (y : ℝ) (h : 0 < x) : PyNum.pow x y = .ok (x ^ y) := realPow_of_pos y h
theorem mpow_of_pos {x : ℝ} (y : ℝ) (h : 0 < x) : PyNum.mpow x y = .ok (x ^ y) := realPow_of_pos y h
theorem pow_of_nonneg {x y : ℝ} (hx : 0 ≤ x) (hy : 0 ≤ y) : PyNum.pow x y = .ok (x ^ y) :=
  realPow_of_nonneg hx hy
theorem mpow_of_nonneg {x y : ℝ} (hx : 0 ≤ x) (hy : 0 ≤ y) : PyNum.mpow x y = .ok (x ^ y) :=
  realPow_of_nonneg hx hy
theorem pow_ok {x y z : ℝ} (h : PyNum.pow x y = .ok z) : z = x ^ y := realPow_ok h
theorem mpow_ok {x y z : ℝ} (h : PyNum.mpow x y = .ok z) : z = x ^ y := realPow_ok h

theorem log10_real (x : ℝ) :
    PyNum.log10 x = if x ≤ 0 then .error .mathDomain else .ok (Real.logb 10 x) := rfl
theorem log10_of_pos {x : ℝ} (h : 0 < x) : PyNum.log10 x = .ok (Real.logb 10 x) := by
  rw [log10_real, if_neg (not_le.mpr h)]

theorem pyMax_real (a b : ℝ) : pyMax a b = max a b := by
  unfold pyMax
  by_cases h : a < b
  · rw [if_pos ((ltB_real a b).mpr h), max_eq_right h.le]
  · rw [if_neg (fun e => h ((ltB_real a b).mp e)), max_eq_left (not_lt.mp h)]

theorem pyMin_real (a b : ℝ) : pyMin a b = min a b := by
  unfold pyMin
  by_cases h : b < a
  · rw [if_pos ((ltB_real b a).mpr h), min_eq_right h.le]
  · rw [if_neg (fun e => h ((ltB_real b a).mp e)), min_eq_left (not_lt.mp h)]

end PyFlowGo
