import Verif.Spec.RoundFormat
import Verif.Proofs.Base
import Mathlib.Data.Int.Interval
import Mathlib.Data.Set.Finite.Lattice
/-
  Binary floating-point formats satisfy the assumptions on rounding.
-/
set_option linter.unusedSectionVars false
namespace PyFlowGo
open Spec

/-- Rounding to a multiple of `q`. -/
noncomputable def toMultiple (q x : ℝ) : ℝ := (⌊x / q + 1 / 2⌋ : ℝ) * q

theorem toMultiple_le {q x : ℝ} (hq : 0 < q) (n : ℤ) (h : x ≤ n * q) : toMultiple q x ≤ n * q := by
  unfold toMultiple
  refine mul_le_mul_of_nonneg_right ?_ hq.le
  have h1 : x / q ≤ n := by rw [div_le_iff₀ hq]; exact h
  have h2 : ⌊x / q + 1 / 2⌋ < n + 1 := by
    rw [Int.floor_lt]; push_cast; linarith
  exact_mod_cast Int.lt_add_one_iff.mp h2

theorem le_toMultiple {q x : ℝ} (hq : 0 < q) (n : ℤ) (h : n * q ≤ x) : n * q ≤ toMultiple q x := by
  unfold toMultiple
  refine mul_le_mul_of_nonneg_right ?_ hq.le
  have h1 : (n : ℝ) ≤ x / q := by rw [le_div_iff₀ hq]; exact h
  have h2 : n ≤ ⌊x / q + 1 / 2⌋ := by
    rw [Int.le_floor]; linarith
  exact_mod_cast h2

theorem toMultiple_self {q : ℝ} (hq : 0 < q) (n : ℤ) : toMultiple q (n * q) = n * q :=
  le_antisymm (toMultiple_le hq n le_rfl) (le_toMultiple hq n le_rfl)

theorem toMultiple_mono {q : ℝ} (hq : 0 < q) {x y : ℝ} (h : x ≤ y) : toMultiple q x ≤ toMultiple q y := by
  unfold toMultiple
  refine mul_le_mul_of_nonneg_right ?_ hq.le
  have : ⌊x / q + 1 / 2⌋ ≤ ⌊y / q + 1 / 2⌋ := Int.floor_le_floor (by
    have := div_le_div_of_nonneg_right h hq.le
    linarith)
  exact_mod_cast this

theorem toMultiple_error {q : ℝ} (hq : 0 < q) (x : ℝ) : |toMultiple q x - x| ≤ q / 2 := by
  unfold toMultiple
  have h1 := Int.floor_le (x / q + 1 / 2)
  have h2 := Int.lt_floor_add_one (x / q + 1 / 2)
  have e : x = x / q * q := by field_simp
  rw [abs_le]
  constructor
  · nlinarith
  · nlinarith

section
variable (p : Nat) (e : ℤ)

theorem quantum_pos (x : ℝ) : 0 < quantum p e x := by unfold quantum; positivity

theorem binaryPos_eq (x : ℝ) : binaryPos p e x = toMultiple (quantum p e x) x := rfl

/-- A power of two is a multiple of every smaller one. -/
theorem zpow_multiple {a b : ℤ} (h : a ≤ b) : ∃ n : ℤ, (2 : ℝ) ^ b = n * (2 : ℝ) ^ a := by
  refine ⟨2 ^ (b - a).toNat, ?_⟩
  push_cast
  rw [← zpow_natCast, Int.toNat_of_nonneg (by omega), ← zpow_add₀ (by norm_num)]
  congr 1
  ring

theorem binaryPos_mono (hp : 1 ≤ p) {x y : ℝ} (hx : 0 < x) (hxy : x ≤ y) : binaryPos p e x ≤ binaryPos p e y := by
  have hL : Int.log 2 x ≤ Int.log 2 y := Int.log_mono_right hx hxy
  by_cases hq : max (Int.log 2 x - p + 1) e = max (Int.log 2 y - p + 1) e
  · rw [binaryPos_eq, binaryPos_eq]
    unfold quantum
    rw [hq]
    exact toMultiple_mono (by positivity) hxy
  · have hM : max (Int.log 2 x - p + 1) e < max (Int.log 2 y - p + 1) e :=
      lt_of_le_of_ne (max_le_max (by omega) le_rfl) hq
    have hy : max (Int.log 2 y - p + 1) e = Int.log 2 y - p + 1 := by omega
    obtain ⟨n, hn⟩ := zpow_multiple (a := max (Int.log 2 x - p + 1) e) (b := Int.log 2 y) (by omega)
    obtain ⟨m, hm⟩ := zpow_multiple (a := max (Int.log 2 y - p + 1) e) (b := Int.log 2 y) (by omega)
    have h1 : x ≤ (2 : ℝ) ^ Int.log 2 y := by
      refine le_trans (Int.lt_zpow_succ_log_self (b := 2) (by norm_num) x).le ?_
      push_cast
      exact zpow_le_zpow_right₀ (by norm_num) (by omega)
    have h2 : (2 : ℝ) ^ Int.log 2 y ≤ y := by
      exact_mod_cast Int.zpow_log_le_self (b := 2) (by norm_num) (lt_of_lt_of_le hx hxy)
    rw [binaryPos_eq, binaryPos_eq]
    refine le_trans (b := (2 : ℝ) ^ Int.log 2 y) ?_ ?_
    · rw [hn] at h1 ⊢
      exact toMultiple_le (quantum_pos p e x) n h1
    · rw [hm] at h2 ⊢
      exact le_toMultiple (quantum_pos p e y) m h2

theorem binaryPos_nonneg {x : ℝ} (hx : 0 ≤ x) : 0 ≤ binaryPos p e x := by
  have := le_toMultiple (quantum_pos p e x) 0 (by simpa using hx)
  simpa [binaryPos_eq] using this

theorem binaryPos_zero : binaryPos p e 0 = 0 := by
  have := toMultiple_self (quantum_pos p e 0) 0
  simpa [binaryPos_eq] using this

theorem binaryPos_idem (hp : 1 ≤ p) {x : ℝ} (hx : 0 ≤ x) : binaryPos p e (binaryPos p e x) = binaryPos p e x := by
  rcases hx.eq_or_lt with rfl | hx
  · rw [binaryPos_zero, binaryPos_zero]
  generalize hz : binaryPos p e x = z
  have hz0 : 0 ≤ z := hz ▸ binaryPos_nonneg p e hx.le
  rcases hz0.eq_or_lt with rfl | hz1
  · exact binaryPos_zero p e
  have hform : z = (⌊x / quantum p e x + 1 / 2⌋ : ℝ) * quantum p e x := hz.symm
  -- it is enough that z is a multiple of its own quantum
  suffices h : ∃ n : ℤ, z = n * quantum p e z by
    obtain ⟨n, hn⟩ := h
    have hq := quantum_pos p e z
    rw [binaryPos_eq]
    generalize quantum p e z = q at hn hq
    rw [hn]
    exact toMultiple_self hq n
  generalize hE : max (Int.log 2 x - p + 1) e = E at *
  have hq : quantum p e x = (2 : ℝ) ^ E := by unfold quantum; rw [hE]
  rw [hq] at hform
  have hx1 : x ≤ (2 : ℝ) ^ (E + p) := by
    refine le_trans (Int.lt_zpow_succ_log_self (b := 2) (by norm_num) x).le ?_
    push_cast
    exact zpow_le_zpow_right₀ (by norm_num) (by omega)
  have hzle : z ≤ (2 : ℝ) ^ (E + p) := by
    obtain ⟨n, hn⟩ := zpow_multiple (a := E) (b := E + p) (by omega)
    rw [← hz, binaryPos_eq, hq]
    rw [hn] at hx1 ⊢
    exact toMultiple_le (by positivity) n hx1
  have hlow : (2 : ℝ) ^ Int.log 2 z ≤ z := by
    exact_mod_cast Int.zpow_log_le_self (b := 2) (by norm_num) hz1
  by_cases hlt : Int.log 2 z < E + p
  · obtain ⟨n, hn⟩ := zpow_multiple (a := max (Int.log 2 z - p + 1) e) (b := E) (by omega)
    refine ⟨⌊x / (2 : ℝ) ^ E + 1 / 2⌋ * n, ?_⟩
    unfold quantum
    push_cast
    rw [mul_assoc, ← hn]
    exact hform
  · have hzeq : z = (2 : ℝ) ^ (E + p) :=
      le_antisymm hzle (le_trans (zpow_le_zpow_right₀ (by norm_num) (not_lt.mp hlt)) hlow)
    have hlog : Int.log 2 z = E + p := by
      rw [hzeq]
      exact_mod_cast Int.log_zpow (R := ℝ) (b := 2) (by norm_num) (E + p)
    obtain ⟨n, hn⟩ := zpow_multiple (a := max (Int.log 2 z - p + 1) e) (b := E + p) (by rw [hlog]; omega)
    refine ⟨n, ?_⟩
    unfold quantum
    rw [← hn]
    exact hzeq

theorem binaryPos_error {x : ℝ} (hx : 0 < x) :
    |binaryPos p e x - x| ≤ (2 : ℝ) ^ (-(p : ℤ)) * x + (2 : ℝ) ^ (e - 1) := by
  have h1 := toMultiple_error (quantum_pos p e x) x
  rw [← binaryPos_eq] at h1
  refine le_trans h1 ?_
  have h2 : (2 : ℝ) ^ Int.log 2 x ≤ x := by
    exact_mod_cast Int.zpow_log_le_self (b := 2) (by norm_num) hx
  have h3 : quantum p e x ≤ (2 : ℝ) ^ (Int.log 2 x - p + 1) + (2 : ℝ) ^ e := by
    unfold quantum
    rcases max_choice (Int.log 2 x - p + 1) e with h | h <;> rw [h]
    · linarith [zpow_pos (show (0 : ℝ) < 2 by norm_num) e]
    · linarith [zpow_pos (show (0 : ℝ) < 2 by norm_num) (Int.log 2 x - p + 1)]
  have h4 : (2 : ℝ) ^ (Int.log 2 x - p + 1) = 2 * ((2 : ℝ) ^ (-(p : ℤ)) * (2 : ℝ) ^ Int.log 2 x) := by
    rw [← zpow_add₀ (by norm_num), ← zpow_one_add₀ (by norm_num)]
    congr 1; ring
  have h5 : (2 : ℝ) ^ e = 2 * (2 : ℝ) ^ (e - 1) := by
    rw [← zpow_one_add₀ (by norm_num)]; congr 1; ring
  have h6 := mul_le_mul_of_nonneg_left h2 (zpow_pos (show (0 : ℝ) < 2 by norm_num) (-(p : ℤ))).le
  linarith

theorem binary_of_nonneg {x : ℝ} (hx : 0 ≤ x) : binary p e x = binaryPos p e x := if_pos hx

theorem binary_neg (x : ℝ) : binary p e (-x) = -binary p e x := by
  unfold binary
  rcases lt_trichotomy x 0 with h | rfl | h
  · rw [if_pos (by linarith), if_neg (by linarith), neg_neg]
  · simp [binaryPos_zero]
  · rw [if_neg (by linarith), if_pos h.le, neg_neg]

/-- Every binary format rounds as assumed. -/
theorem binary_rounding (hp : 1 ≤ p) : Rounding (binary p e) where
  mono := by
    intro x y hxy
    rcases lt_or_ge x 0 with hx | hx
    · rcases lt_or_ge y 0 with hy | hy
      · have := binaryPos_mono p e hp (neg_pos.mpr hy) (neg_le_neg hxy)
        unfold binary
        rw [if_neg (by linarith), if_neg (by linarith)]
        linarith
      · have h1 := binaryPos_nonneg p e (neg_nonneg.mpr hx.le)
        have h2 := binaryPos_nonneg p e hy
        unfold binary
        rw [if_neg (by linarith), if_pos hy]
        linarith
    · rw [binary_of_nonneg p e hx, binary_of_nonneg p e (hx.trans hxy)]
      rcases hx.eq_or_lt with rfl | hx
      · rw [binaryPos_zero]; exact binaryPos_nonneg p e hxy
      · exact binaryPos_mono p e hp hx hxy
  idem := by
    have key : ∀ x, 0 ≤ x → binary p e (binary p e x) = binary p e x := by
      intro x hx
      rw [binary_of_nonneg p e hx, binary_of_nonneg p e (binaryPos_nonneg p e hx), binaryPos_idem p e hp hx]
    intro x
    rcases lt_or_ge x 0 with hx | hx
    · have h := key (-x) (by linarith)
      rw [binary_neg, binary_neg] at h
      linarith
    · exact key x hx
  neg := binary_neg p e

/-- Their accuracy: half a unit in the last place, plus half the smallest positive number. -/
theorem binary_accurate : Accurate ((2 : ℝ) ^ (-(p : ℤ))) ((2 : ℝ) ^ (e - 1)) (binary p e) := by
  have hη := (zpow_pos (show (0 : ℝ) < 2 by norm_num) (e - 1)).le
  intro x
  rcases lt_trichotomy x 0 with h | rfl | h
  · have := binaryPos_error p e (x := -x) (by linarith)
    unfold binary
    rw [if_neg (by linarith), abs_of_neg h, ← abs_neg]
    rw [show -(-binaryPos p e (-x) - x) = binaryPos p e (-x) - -x by ring]
    exact this
  · simp [binary, binaryPos_zero, hη]
  · rw [binary_of_nonneg p e h.le, abs_of_pos h]
    exact binaryPos_error p e h

/-- Every number of the format is a multiple of its smallest positive number. -/
theorem binary_multiple (x : ℝ) : ∃ n : ℤ, binary p e x = n * (2 : ℝ) ^ e := by
  have key : ∀ x, ∃ n : ℤ, binaryPos p e x = n * (2 : ℝ) ^ e := by
    intro x
    obtain ⟨n, hn⟩ := zpow_multiple (a := e) (b := max (Int.log 2 x - p + 1) e) (by omega)
    refine ⟨⌊x / quantum p e x + 1 / 2⌋ * n, ?_⟩
    unfold binaryPos
    push_cast
    rw [mul_assoc, ← hn]
    rfl
  unfold binary
  split
  · exact key x
  · obtain ⟨n, hn⟩ := key (-x)
    exact ⟨-n, by rw [hn]; push_cast; ring⟩

/-- A saturated format has finitely many numbers. -/
theorem saturated_finite (M : ℝ) : (Set.range (saturated p e M)).Finite := by
  have hq : (0 : ℝ) < (2 : ℝ) ^ e := by positivity
  refine Set.Finite.subset (s := {M, -M} ∪ (fun n : ℤ => (n : ℝ) * (2 : ℝ) ^ e) ''
    (Set.Icc (-⌈|M| / (2 : ℝ) ^ e⌉) ⌈|M| / (2 : ℝ) ^ e⌉)) ?_ ?_
  · exact ((Set.finite_singleton _).insert _).union ((Set.finite_Icc _ _).image _)
  · rintro _ ⟨x, rfl⟩
    unfold saturated
    obtain ⟨n, hn⟩ := binary_multiple p e x
    rw [hn]
    rcases max_choice (-M) (min M (n * (2 : ℝ) ^ e)) with h | h
    · rw [h]; left; right; rfl
    · rw [h]
      rcases min_choice M (n * (2 : ℝ) ^ e) with h2 | h2
      · rw [h2]; left; left; rfl
      · rw [h2]
        right
        refine ⟨n, ?_, rfl⟩
        rw [h2] at h
        have a1 : -M ≤ n * (2 : ℝ) ^ e := by rw [← h]; exact le_max_left _ _
        have a2 : n * (2 : ℝ) ^ e ≤ M := by rw [← h2]; exact min_le_left _ _
        have b1 : (n : ℝ) ≤ |M| / (2 : ℝ) ^ e := by
          rw [le_div_iff₀ hq]; exact a2.trans (le_abs_self M)
        have b2 : -(n : ℝ) ≤ |M| / (2 : ℝ) ^ e := by
          rw [le_div_iff₀ hq]
          have := le_abs_self M
          linarith
        have c := Int.le_ceil (|M| / (2 : ℝ) ^ e)
        constructor
        · have : -(n : ℝ) ≤ (⌈|M| / (2 : ℝ) ^ e⌉ : ℝ) := b2.trans c
          have : -n ≤ ⌈|M| / (2 : ℝ) ^ e⌉ := by exact_mod_cast this
          omega
        · exact_mod_cast b1.trans c

/-- A saturated format rounds as assumed when its largest number is one of the format. -/
theorem saturated_rounding (hp : 1 ≤ p) (M : ℝ) (hM : 0 ≤ M) (hr : Representable (binary p e) M) :
    Rounding (saturated p e M) := by
  have R := binary_rounding p e hp
  have hrep : binary p e M = M := hr
  have hneg : binary p e (-M) = -M := by rw [R.neg, hrep]
  refine ⟨?_, ?_, ?_⟩
  · intro x y h
    exact max_le_max le_rfl (min_le_min le_rfl (R.mono h))
  · intro x
    unfold saturated
    rcases max_choice (-M) (min M (binary p e x)) with h | h <;> rw [h]
    · rw [hneg]; simp [hM]
    · rcases min_choice M (binary p e x) with h2 | h2 <;> rw [h2]
      · rw [hrep]; simp [hM]
      · rw [R.idem, h2, ← h2, h]
  · intro x
    unfold saturated
    rw [R.neg]
    rcases le_total M (binary p e x) with h | h
    · rw [min_eq_left h, max_eq_right (show -M ≤ M by linarith), min_eq_right (show -binary p e x ≤ M by linarith),
        max_eq_left (show -binary p e x ≤ -M by linarith)]
    · rw [min_eq_right h]
      rcases le_total (-M) (binary p e x) with h2 | h2
      · rw [max_eq_right h2, min_eq_right (show -binary p e x ≤ M by linarith),
          max_eq_right (show -M ≤ -binary p e x by linarith)]
      · rw [max_eq_left h2, min_eq_left (show M ≤ -binary p e x by linarith), max_eq_right (show -M ≤ M by linarith)]; ring

/-- Numbers with few bits are in the format. -/
theorem binary_dyadic (m : ℤ) (k : ℤ) (hm : |m| < 2 ^ p) (hk : e ≤ k) :
    Representable (binary p e) (m * (2 : ℝ) ^ k) := by
  have hpos : ∀ m : ℤ, 0 < m → m < 2 ^ p → binary p e (m * (2 : ℝ) ^ k) = m * (2 : ℝ) ^ k := by
    intro m h0 h1
    have hx : (0 : ℝ) < m * (2 : ℝ) ^ k := mul_pos (by exact_mod_cast h0) (by positivity)
    rw [binary_of_nonneg p e hx.le, binaryPos_eq]
    have hlog : Int.log 2 ((m : ℝ) * (2 : ℝ) ^ k) < p + k := by
      have hup : (m : ℝ) * (2 : ℝ) ^ k < (2 : ℝ) ^ ((p : ℤ) + k) := by
        rw [zpow_add₀ (by norm_num)]
        refine mul_lt_mul_of_pos_right ?_ (by positivity)
        rw [zpow_natCast]
        exact_mod_cast h1
      have hlow : (2 : ℝ) ^ Int.log 2 ((m : ℝ) * (2 : ℝ) ^ k) ≤ (m : ℝ) * (2 : ℝ) ^ k := by
        exact_mod_cast Int.zpow_log_le_self (b := 2) (by norm_num) hx
      exact (zpow_lt_zpow_iff_right₀ (by norm_num)).mp (lt_of_le_of_lt hlow hup)
    obtain ⟨n, hn⟩ := zpow_multiple (a := max (Int.log 2 ((m : ℝ) * (2 : ℝ) ^ k) - p + 1) e) (b := k) (by omega)
    have e1 : (m : ℝ) * (2 : ℝ) ^ k = ((m * n : ℤ) : ℝ) * quantum p e ((m : ℝ) * (2 : ℝ) ^ k) := by
      unfold quantum
      push_cast
      rw [mul_assoc, ← hn]
    have hq := quantum_pos p e ((m : ℝ) * (2 : ℝ) ^ k)
    generalize quantum p e ((m : ℝ) * (2 : ℝ) ^ k) = q at e1 hq
    rw [e1]
    exact toMultiple_self hq _
  show binary p e _ = _
  rcases lt_trichotomy m 0 with h | rfl | h
  · have := hpos (-m) (by omega) (by have := neg_le_abs m; omega)
    push_cast at this
    rw [neg_mul, binary_neg] at this
    linarith
  · simp [binary, binaryPos_zero]
  · exact hpos m h (by have := le_abs_self m; omega)

/-- Below the quantum the bound on the exponent does not matter. -/
theorem binary_free {x : ℝ} (h : e ≤ Int.log 2 |x| - p + 1) : binary p e x = unbounded p x := by
  have key : ∀ e : ℤ, ∀ y : ℝ, e ≤ Int.log 2 y - p + 1 → quantum p e y = (2 : ℝ) ^ (Int.log 2 y - p + 1) := by
    intro e y h
    unfold quantum
    rw [max_eq_left h]
  unfold unbounded binary binaryPos
  split
  · rename_i hx
    rw [abs_of_nonneg hx] at h ⊢
    rw [key e x h, key _ x (by omega)]
  · rename_i hx
    rw [abs_of_neg (not_le.mp hx)] at h ⊢
    rw [key e _ h, key _ _ (by omega)]

/-- A power of two that is small enough for two numbers. -/
theorem unbounded_common (x y : ℝ) : ∃ e : ℤ, binary p e x = unbounded p x ∧ binary p e y = unbounded p y :=
  ⟨min (Int.log 2 |x| - p + 1) (Int.log 2 |y| - p + 1), binary_free _ _ (min_le_left _ _), binary_free _ _ (min_le_right _ _)⟩

theorem unbounded_rounding (hp : 1 ≤ p) : Rounding (unbounded p) where
  mono := by
    intro x y h
    obtain ⟨e, h1, h2⟩ := unbounded_common p x y
    rw [← h1, ← h2]
    exact (binary_rounding p e hp).mono h
  idem := by
    intro x
    obtain ⟨e, h1, h2⟩ := unbounded_common p x (unbounded p x)
    rw [← h2, ← h1]
    exact (binary_rounding p e hp).idem x
  neg := by
    intro x
    obtain ⟨e, h1, h2⟩ := unbounded_common p x (-x)
    rw [← h2, ← h1]
    exact binary_neg p e x

theorem unbounded_accurate : Accurate ((2 : ℝ) ^ (-(p : ℤ))) 0 (unbounded p) := by
  intro x
  have hall : ∀ n : ℕ, |unbounded p x - x| ≤ (2 : ℝ) ^ (-(p : ℤ)) * |x| + (1 / 2 : ℝ) ^ n := by
    intro n
    have hb := binary_accurate p (min (Int.log 2 |x| - p + 1) (-(n : ℤ))) x
    rw [binary_free _ _ (min_le_left _ _)] at hb
    refine le_trans hb ?_
    have : (2 : ℝ) ^ (min (Int.log 2 |x| - p + 1) (-(n : ℤ)) - 1) ≤ (1 / 2 : ℝ) ^ n := by
      rw [one_div, inv_pow, ← zpow_natCast, ← zpow_neg]
      exact zpow_le_zpow_right₀ (by norm_num) (by omega)
    linarith
  rw [add_zero]
  refine le_of_forall_pos_le_add fun ε hε => ?_
  obtain ⟨n, hn⟩ := exists_pow_lt_of_lt_one hε (show (1 / 2 : ℝ) < 1 by norm_num)
  exact (hall n).trans (by linarith)

theorem unbounded_dyadic (m : ℤ) (k : ℤ) (hm : |m| < 2 ^ p) : Representable (unbounded p) (m * (2 : ℝ) ^ k) := by
  have h1 := binary_dyadic p (min k (Int.log 2 |(m : ℝ) * (2 : ℝ) ^ k| - p + 1)) m k hm (min_le_left _ _)
  unfold Representable at h1 ⊢
  rw [binary_free _ _ (min_le_right _ _)] at h1
  exact h1

/-- Tiny numbers underflow to zero. -/
theorem binary_underflow {x : ℝ} (h0 : 0 ≤ x) (h : x < (2 : ℝ) ^ (e - 1)) (hp : 1 ≤ p) : binary p e x = 0 := by
  rcases h0.eq_or_lt with rfl | hx
  · simp [binary, binaryPos_zero]
  have hq : quantum p e x = (2 : ℝ) ^ e := by
    unfold quantum
    rw [max_eq_right]
    have hlow : (2 : ℝ) ^ Int.log 2 x ≤ x := by
      exact_mod_cast Int.zpow_log_le_self (b := 2) (by norm_num) hx
    have := (zpow_lt_zpow_iff_right₀ (show (1 : ℝ) < 2 by norm_num)).mp (lt_of_le_of_lt hlow h)
    omega
  rw [binary_of_nonneg p e h0]
  unfold binaryPos
  rw [hq]
  have : ⌊x / (2 : ℝ) ^ e + 1 / 2⌋ = 0 := by
    rw [Int.floor_eq_zero_iff]
    have hpos : (0 : ℝ) < (2 : ℝ) ^ e := by positivity
    refine ⟨by positivity, ?_⟩
    have : x / (2 : ℝ) ^ e < 1 / 2 := by
      rw [div_lt_iff₀ hpos]
      have : (2 : ℝ) ^ e = 2 * (2 : ℝ) ^ (e - 1) := by rw [← zpow_one_add₀ (by norm_num)]; congr 1; ring
      linarith
    linarith
  rw [this]; simp

/-- A term below a quarter of the spacing is absorbed by 1. -/
theorem binary_absorb {x : ℝ} (hx : |x| ≤ 1 / 2 ^ 60) (he : e ≤ -53) : binary 53 e (1 + x) = 1 := by
  obtain ⟨h1, h2⟩ := abs_le.mp hx
  have hpos : (0 : ℝ) < 1 + x := by norm_num at h1 ⊢; linarith
  rw [binary_of_nonneg 53 e hpos.le, binaryPos_eq]
  have key : ∀ q : ℝ, 0 < q → 1 / 2 ^ 53 ≤ q → (∃ n : ℤ, (1 : ℝ) = n * q) → toMultiple q (1 + x) = 1 := by
    rintro q hq hq1 ⟨n, hn⟩
    have h : ⌊(1 + x) / q + 1 / 2⌋ = n := by
      rw [Int.floor_eq_iff]
      have e1 : (1 + x) / q = n + x / q := by rw [add_div]; congr 1; rw [div_eq_iff hq.ne']; exact hn
      have e2 : |x / q| ≤ 1 / 4 := by
        rw [abs_div, abs_of_pos hq, div_le_iff₀ hq]
        norm_num at hx hq1 ⊢
        linarith
      obtain ⟨a, b⟩ := abs_le.mp e2
      rw [e1]
      constructor <;> linarith
    unfold toMultiple
    rw [h]; exact hn.symm
  refine key _ (quantum_pos _ _ _) ?_ ?_
  · have : (1 / 2 ^ 53 : ℝ) = (2 : ℝ) ^ (-53 : ℤ) := by norm_num
    rw [this]
    unfold quantum
    refine zpow_le_zpow_right₀ (by norm_num) (le_max_of_le_left ?_)
    have hl : (-1 : ℤ) ≤ Int.log 2 (1 + x) := by
      have : ((2 : ℕ) : ℝ) ^ (-1 : ℤ) ≤ 1 + x := by norm_num at h1 ⊢; linarith
      exact (Int.zpow_le_iff_le_log (b := 2) (by norm_num) hpos).mp this
    push_cast; omega
  · unfold quantum
    have hl : Int.log 2 (1 + x) ≤ 0 := by
      have hlow : (2 : ℝ) ^ Int.log 2 (1 + x) ≤ 1 + x := by
        exact_mod_cast Int.zpow_log_le_self (b := 2) (by norm_num) hpos
      have : (2 : ℝ) ^ Int.log 2 (1 + x) < (2 : ℝ) ^ (1 : ℤ) := lt_of_le_of_lt hlow (by norm_num at h2 ⊢; linarith)
      have := (zpow_lt_zpow_iff_right₀ (show (1 : ℝ) < 2 by norm_num)).mp this
      omega
    obtain ⟨n, hn⟩ := zpow_multiple (a := max (Int.log 2 (1 + x) - (53 : ℕ) + 1) e) (b := 0) (by push_cast; omega)
    exact ⟨n, by rw [← hn]; simp⟩

theorem unbounded_absorb {x : ℝ} (hx : |x| ≤ 1 / 2 ^ 60) : unbounded 53 (1 + x) = 1 := by
  rw [← binary_free 53 (min (-53) (Int.log 2 |1 + x| - (53 : ℕ) + 1)) (min_le_right _ _)]
  exact binary_absorb _ hx (min_le_left _ _)

end
end PyFlowGo
