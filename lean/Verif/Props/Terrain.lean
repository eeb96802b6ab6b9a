import Verif.Proofs.InterpLemmas
import Mathlib.Algebra.BigOperators.Intervals
import Mathlib.Algebra.Order.BigOperators.Group.Finset
import Mathlib.Data.Finset.Max
/-
  C48, C49, C50: the slope profile.
-/
namespace PyFlowGo
open scoped Classical

/-! ### Running mean -/

theorem sum_slice (l : List ℝ) (a : ℕ) : ∀ k, a ≤ k → k ≤ l.length →
    ((l.take k).drop a).sum = ∑ j ∈ Finset.Ico a k, l.getD j 0 := by
  intro k hk
  induction k, hk using Nat.le_induction with
  | base => intro h; simp
  | succ k hk ih =>
    intro h
    rw [Finset.sum_Ico_succ_top hk, ← ih (by omega), List.take_add_one, List.drop_append_of_le_length (by simp; omega)]
    simp [List.getD, List.getElem?_eq_getElem (by omega : k < l.length)]

theorem foldl_add_eq (l : List ℝ) : l.foldl (· + ·) 0.0 = l.sum := by
  rw [List.sum_eq_foldl]; norm_num

theorem trunc_nonneg {x : ℝ} (h : 0 ≤ x) : PyNum.truncInt x = ⌊x⌋ := by
  show (if 0 ≤ x then ⌊x⌋ else ⌈x⌉) = _
  rw [if_pos h]

theorem trunc_neg {x : ℝ} (h : x < 0) : PyNum.truncInt x = ⌈x⌉ := by
  show (if 0 ≤ x then ⌊x⌋ else ⌈x⌉) = _
  rw [if_neg (by linarith)]

theorem meanWindow_card {len i h : ℕ} (hi : i < len) :
    (meanWindow len i h).card = min (len - 1) (i + h) + 1 - (i - h) ∧ 0 < (meanWindow len i h).card := by
  unfold meanWindow
  rw [Nat.card_Icc]
  omega

theorem runningMeanAt_eq (l : List ℝ) (n : ℝ) (hn : 0 ≤ n) (i : ℕ) (hi : i < l.length) :
    runningMeanAt l n i = .ok (centredMean l ⌊n / 2⌋₊ i) := by
  unfold runningMeanAt
  rw [show (2.0 : ℝ) = 2 by norm_num, div_of_ne (by norm_num : (2 : ℝ) ≠ 0), ok_bind]
  have hh : 0 ≤ n / 2 := by positivity
  rw [trunc_nonneg hh, ofInt_real, trunc_nonneg (by positivity), show ((i : ℤ) : ℝ) = ((i : ℕ) : ℝ) by simp,
    Int.floor_natCast_add, ← Int.natCast_floor_eq_floor hh]
  generalize ⌊n / 2⌋₊ = h
  have hs : (max 0 ((i : ℤ) - (h : ℤ))).toNat = i - h := by omega
  have hl : min ((l.length : ℤ) - 1) ((i : ℤ) + (h : ℤ)) + 1 = ((min (l.length - 1) (i + h) + 1 : ℕ) : ℤ) := by omega
  dsimp only
  rw [hs, hl]
  set m := min (l.length - 1) (i + h) with hm
  have hml : m + 1 ≤ l.length := by omega
  have ham : i - h ≤ m + 1 := by omega
  have hcur : pySlice l (i - h) ((m + 1 : ℕ) : ℤ) = (l.take (m + 1)).drop (i - h) := by
    unfold pySlice
    dsimp only
    rw [if_neg (by omega), Int.toNat_natCast]
  rw [hcur, foldl_add_eq, sum_slice l _ _ ham hml]
  have hlen : ((l.take (m + 1)).drop (i - h)).length = m + 1 - (i - h) := by
    rw [List.length_drop, List.length_take]; omega
  rw [hlen]
  have hcard := meanWindow_card (h := h) hi
  have hpos : (((m + 1 - (i - h) : ℕ) : ℤ) : ℝ) ≠ 0 := by
    have : 0 < m + 1 - (i - h) := by omega
    simp only [Int.cast_natCast]; exact_mod_cast this.ne'
  rw [ofInt_real, div_of_ne hpos]
  unfold centredMean
  rw [hcard.1]
  congr 1

/-- C49: for a number of points `n ≥ 0` the running mean never fails, keeps the length, and its element
    `i` is the mean of the samples with index in `[max(0, i-⌊n/2⌋), min(len-1, i+⌊n/2⌋)]`. -/
theorem C49_running_mean (l : List ℝ) (n : ℝ) (hn : 0 ≤ n) :
    ∃ r, runningMean l n = .ok r ∧ r.length = l.length ∧
      ∀ i (hi : i < r.length), r[i] = centredMean l ⌊n / 2⌋₊ i := by
  refine ⟨(List.range l.length).map (centredMean l ⌊n / 2⌋₊), ?_, by simp, by simp⟩
  exact mapM_eq_map _ _ _ (fun i hi => runningMeanAt_eq l n hn i (List.mem_range.mp hi))

example : ∃ r, runningMean [1, 2, 6] (3 : ℝ) = .ok r ∧ r.length = 3 ∧ r[1]? = some 3 := by
  obtain ⟨r, h, hl, hv⟩ := C49_running_mean [1, 2, 6] 3 (by norm_num)
  refine ⟨r, h, hl, ?_⟩
  rw [List.getElem?_eq_getElem (by rw [hl]; norm_num), hv]
  have : ⌊(3 : ℝ) / 2⌋₊ = 1 := by rw [Nat.floor_eq_iff (by norm_num)]; norm_num
  rw [this]
  have hw : meanWindow ([1, 2, 6] : List ℝ).length 1 1 = {0, 1, 2} := by decide
  unfold centredMean
  rw [hw]
  norm_num

/-- The window of an interior sample has `2⌊n/2⌋ + 1` samples: for an even `n` that is `n + 1`. -/
theorem C49_even_uses_one_more (len i m : ℕ) (hlo : m ≤ i) (hhi : i + m < len) :
    (meanWindow len i ⌊((2 * m : ℕ) : ℝ) / 2⌋₊).card = 2 * m + 1 ∧
    (meanWindow len i ⌊((2 * m + 1 : ℕ) : ℝ) / 2⌋₊).card = 2 * m + 1 := by
  have h1 : ⌊((2 * m : ℕ) : ℝ) / 2⌋₊ = m := by
    rw [Nat.floor_eq_iff (by positivity)]; push_cast; constructor <;> linarith
  have h2 : ⌊((2 * m + 1 : ℕ) : ℝ) / 2⌋₊ = m := by
    rw [Nat.floor_eq_iff (by positivity)]; push_cast; constructor <;> linarith
  rw [h1, h2, (meanWindow_card (by omega)).1]
  omega

example : (meanWindow 10 4 ⌊((2 * 2 : ℕ) : ℝ) / 2⌋₊).card = 5 := (C49_even_uses_one_more 10 4 2 (by norm_num) (by norm_num)).1

theorem centredMean_between (l : List ℝ) (h i : ℕ) (hi : i < l.length) :
    ∃ a ∈ l, ∃ b ∈ l, a ≤ centredMean l h i ∧ centredMean l h i ≤ b := by
  have hc := meanWindow_card (h := h) hi
  have hne : (meanWindow l.length i h).Nonempty := Finset.card_pos.mp hc.2
  have hmem : ∀ j ∈ meanWindow l.length i h, l.getD j 0 ∈ l := by
    intro j hj
    simp only [meanWindow, Finset.mem_Icc] at hj
    have hj' : j < l.length := by omega
    rw [List.getD, List.getElem?_eq_getElem hj', Option.getD_some]
    exact List.getElem_mem _
  obtain ⟨a, ha, hamin⟩ := Finset.exists_min_image _ (fun j => l.getD j 0) hne
  obtain ⟨b, hb, hbmax⟩ := Finset.exists_max_image _ (fun j => l.getD j 0) hne
  refine ⟨_, hmem a ha, _, hmem b hb, ?_, ?_⟩
  · unfold centredMean
    rw [le_div_iff₀ (by exact_mod_cast hc.2), mul_comm]
    have := Finset.card_nsmul_le_sum _ _ _ hamin
    rwa [nsmul_eq_mul] at this
  · unfold centredMean
    rw [div_le_iff₀ (by exact_mod_cast hc.2), mul_comm]
    have := Finset.sum_le_card_nsmul _ _ _ hbmax
    rwa [nsmul_eq_mul] at this

/-- C49: every smoothed value lies between two of the samples (so between their minimum and maximum). -/
theorem C49_between_samples (l r : List ℝ) (n : ℝ) (hn : 0 ≤ n) (h : runningMean l n = .ok r) (v : ℝ) (hv : v ∈ r) :
    ∃ a ∈ l, ∃ b ∈ l, a ≤ v ∧ v ≤ b := by
  obtain ⟨r', h', hl, hval⟩ := C49_running_mean l n hn
  obtain rfl : r = r' := by rw [h] at h'; injection h'
  obtain ⟨i, hi, rfl⟩ := List.getElem_of_mem hv
  rw [hval]
  exact centredMean_between l _ i (by omega)

/-- C49: `n ∈ {0, 1}` (any `0 ≤ n < 2`) changes nothing. -/
theorem C49_small_window_identity (l : List ℝ) (n : ℝ) (hn : 0 ≤ n) (hn2 : n < 2) : runningMean l n = .ok l := by
  obtain ⟨r, h, hl, hval⟩ := C49_running_mean l n hn
  rw [h]
  congr 1
  refine List.ext_getElem hl (fun i h1 h2 => ?_)
  rw [hval]
  have : ⌊n / 2⌋₊ = 0 := by rw [Nat.floor_eq_zero]; linarith
  rw [this]
  have hw : meanWindow l.length i 0 = {i} := by
    unfold meanWindow
    rw [Nat.sub_zero, Nat.add_zero, min_eq_right (by omega), Finset.Icc_self]
  unfold centredMean
  rw [hw]
  simp [List.getElem?_eq_getElem h2]

/-- C49: constant profiles are not changed. -/
theorem C49_constant_fixed (c n : ℝ) (k : ℕ) (hn : 0 ≤ n) :
    runningMean (List.replicate k c) n = .ok (List.replicate k c) := by
  obtain ⟨r, h, hl, hval⟩ := C49_running_mean (List.replicate k c) n hn
  rw [h]
  congr 1
  refine List.ext_getElem hl (fun i h1 h2 => ?_)
  obtain ⟨a, ha, b, hb, h3, h4⟩ := C49_between_samples _ r n hn h r[i] (List.getElem_mem h1)
  rw [List.eq_of_mem_replicate ha] at h3
  rw [List.eq_of_mem_replicate hb] at h4
  rw [List.getElem_replicate]
  linarith

/-- C49: a negative number of points is always an error on a profile of two or more samples (some window
    is empty and its mean divides by zero). -/
theorem C49_negative_points (l : List ℝ) (n : ℝ) (hn : n < 0) (hl : 2 ≤ l.length) :
    runningMean l n = .error .zeroDiv := by
  have hall : ∀ i e, runningMeanAt l n i = .error e → e = .zeroDiv := by
    intro i e h
    unfold runningMeanAt at h
    rw [bind_error_iff] at h
    rcases h with h | ⟨b, _, h⟩
    · exact (div_error_iff.mp h).2
    · exact (div_error_iff.mp h).2
  have hlast : runningMeanAt l n (l.length - 1) = .error .zeroDiv := by
    unfold runningMeanAt
    rw [show (2.0 : ℝ) = 2 by norm_num, div_of_ne (by norm_num : (2 : ℝ) ≠ 0), ok_bind]
    dsimp only
    have hempty : pySlice l (max 0 (((l.length - 1 : ℕ) : ℤ) - PyNum.truncInt (n / 2))).toNat
        (min ((l.length : ℤ) - 1) (PyNum.truncInt (PyNum.ofInt ((l.length - 1 : ℕ) : ℤ) + n / 2)) + 1) = [] := by
      rw [trunc_neg (by linarith)]
      unfold pySlice
      dsimp only
      rw [List.drop_eq_nil_iff, List.length_take]
      by_cases hc : n / 2 ≤ -1
      · have hce : ⌈n / 2⌉ ≤ -1 := by rw [Int.ceil_le]; exact_mod_cast hc
        omega
      · have hce : ⌈n / 2⌉ = 0 := by rw [Int.ceil_eq_iff]; constructor <;> push_cast <;> linarith
        have h1 : (1 : ℝ) ≤ ((l.length - 1 : ℕ) : ℝ) := by exact_mod_cast (by omega : 1 ≤ l.length - 1)
        rw [hce, ofInt_real, show (((l.length - 1 : ℕ) : ℤ) : ℝ) = ((l.length - 1 : ℕ) : ℝ) by simp,
          trunc_nonneg (by linarith)]
        have hf : ⌊((l.length - 1 : ℕ) : ℝ) + n / 2⌋ = ((l.length - 1 : ℕ) : ℤ) - 1 := by
          rw [Int.floor_eq_iff]; push_cast; constructor <;> linarith
        rw [hf, if_neg (by omega)]
        omega
    rw [hempty]
    exact div_error_iff.mpr ⟨by simp, rfl⟩
  unfold runningMean
  cases h : (List.range l.length).mapM (runningMeanAt l n) with
  | error e =>
    congr 1
    have : ∀ (is : List ℕ), is.mapM (runningMeanAt l n) = .error e → e = .zeroDiv := by
      intro is
      induction is with
      | nil => intro h; simp [pure, Except.pure] at h
      | cons i is ih =>
        intro h
        rw [List.mapM_cons, bind_error_iff] at h
        rcases h with h | ⟨b, _, h⟩
        · exact hall i e h
        · rw [bind_error_iff] at h
          rcases h with h | ⟨b, _, h⟩
          · exact ih h
          · simp at h
    exact this _ h
  | ok r =>
    exfalso
    rw [mapM_ok_iff] at h
    have := (List.forall₂_iff_get.mp h).2 (l.length - 1) (by simp; omega)
      (by rw [← (List.forall₂_iff_get.mp h).1]; simp; omega)
    simp only [List.get_eq_getElem, List.getElem_range] at this
    rw [hlast] at this
    cases this

example : runningMean [1, 2] (-1 : ℝ) = .error .zeroDiv := C49_negative_points _ _ (by norm_num) (by simp)

/-! ### Reading a slope file -/

theorem keepSlopeLines_eq (rows : List (SlopeLine ℝ)) : keepSlopeLines rows = usableRows rows := by
  unfold keepSlopeLines usableRows
  congr 1
  funext r
  rw [Bool.eq_iff_iff, Bool.not_eq_true', ← Bool.not_eq_true, leB_real, decide_eq_true_iff, not_le]

theorem radians_real (d : ℝ) : radians d = .ok (degToRad d) := by
  unfold radians degToRad
  rw [show (180.0 : ℝ) = 180 by norm_num, div_of_ne (by norm_num : (180 : ℝ) ≠ 0)]
  rfl

theorem zip_profile (k : List (SlopeLine ℝ)) (m : List ℝ → ℕ → ℝ) :
    (k.map (·.dist)).zip ((List.range (k.map (fun r => degToRad r.slopeDeg)).length).map
        (m (k.map (fun r => degToRad r.slopeDeg)))) =
      (List.range (k.map (fun r => (r.dist, degToRad r.slopeDeg))).length).map (fun i =>
        (((k.map (fun r => (r.dist, degToRad r.slopeDeg))).getD i (0, 0)).1,
          m ((k.map (fun r => (r.dist, degToRad r.slopeDeg))).map Prod.snd) i)) := by
  apply List.ext_getElem
  · simp
  · intro i h1 h2
    have hi : i < k.length := by simpa using h2
    simp only [List.getElem_zip, List.getElem_map, List.getElem_range, List.map_map, Function.comp_def, List.getD]
    rw [List.getElem?_eq_getElem (by simpa using hi)]
    simp

theorem ascending_of_dists (k : List (SlopeLine ℝ)) (ys : List ℝ) (h : k.length = ys.length) :
    Ascending ((k.map (·.dist)).zip ys) ↔ k.Pairwise (fun a b => a.dist < b.dist) := by
  unfold Ascending
  have h1 : ((k.map (·.dist)).zip ys).Pairwise (fun p q => p.1 < q.1) ↔
      (((k.map (·.dist)).zip ys).map Prod.fst).Pairwise (· < ·) := by rw [List.pairwise_map]
  rw [h1, List.map_fst_zip (by simp [h]), List.pairwise_map]

/-- C48: reading a slope file succeeds exactly if at least two rows have a slope above 0.1 degree, the
    distances of these rows are strictly increasing and (when smoothing) the number of points is not
    negative.  Then the profile consists of exactly these rows, in order, in radians (and smoothed when
    asked), and nothing else of the terrain changes. -/
theorem C48_read_slope (t t' : Terrain ℝ) (rows : List (SlopeLine ℝ)) :
    t.readSlope rows = .ok t' ↔
      2 ≤ (usableRows rows).length ∧ (usableRows rows).Pairwise (fun a b => a.dist < b.dist) ∧
      (t.smoothing = true → 0 ≤ t.smoothingPoints) ∧
      t' = { t with spline := some ⟨profileFor t rows⟩ } := by
  unfold Terrain.readSlope profileFor
  rw [keepSlopeLines_eq]
  dsimp only
  rw [mapM_eq_map _ (fun r => degToRad r.slopeDeg) _ (fun r _ => radians_real r.slopeDeg), ok_bind]
  cases hs : t.smoothing with
  | false =>
    simp only [Bool.false_eq_true, if_false, ok_bind, bind_ok_iff, pure_ok_iff, make_ok_iff]
    have hz : ((usableRows rows).map (·.dist)).zip ((usableRows rows).map fun r => degToRad r.slopeDeg) =
        rawProfile rows := by
      unfold rawProfile
      rw [List.zip_map']
    rw [ascending_of_dists _ _ (by simp), hz]
    constructor
    · rintro ⟨b, ⟨_, h2, h3, rfl⟩, rfl⟩
      exact ⟨by simpa using h2, h3, by simp, rfl⟩
    · rintro ⟨h2, h3, _, rfl⟩
      exact ⟨_, ⟨by simp, by simpa using h2, h3, rfl⟩, rfl⟩
  | true =>
    simp only [if_true, bind_ok_iff, pure_ok_iff, make_ok_iff]
    by_cases hn : 0 ≤ t.smoothingPoints
    · have hrm : runningMean ((usableRows rows).map fun r => degToRad r.slopeDeg) t.smoothingPoints = .ok _ :=
        mapM_eq_map _ _ _ (fun i hi => runningMeanAt_eq _ _ hn i (List.mem_range.mp hi))
      rw [hrm]
      have hz := zip_profile (usableRows rows) (fun l => centredMean l ⌊t.smoothingPoints / 2⌋₊)
      constructor
      · rintro ⟨a, ha, b, ⟨_, h2, h3, rfl⟩, rfl⟩
        injection ha with ha
        subst ha
        rw [ascending_of_dists _ _ (by simp)] at h3
        refine ⟨by simpa using h2, h3, fun _ => hn, ?_⟩
        rw [hz]; rfl
      · rintro ⟨h2, h3, _, rfl⟩
        refine ⟨_, rfl, _, ⟨by simp, by simpa using h2, ?_, rfl⟩, ?_⟩
        · rw [ascending_of_dists _ _ (by simp)]; exact h3
        · rw [hz]; rfl
    · constructor
      · rintro ⟨a, ha, b, ⟨h1, h2, _, _⟩, _⟩
        rw [C49_negative_points _ _ (not_le.mp hn) (by simpa using h2)] at ha
        cases ha
      · rintro ⟨_, _, h, _⟩
        exact absurd (h trivial) hn

/-- C48: the kept rows are exactly the rows with slope above 0.1 degree, in file order (a sublist), and
    the profile has one distance and one slope for each of them. -/
theorem C48_rows_kept (t : Terrain ℝ) (rows : List (SlopeLine ℝ)) :
    (∀ r, r ∈ usableRows rows ↔ r ∈ rows ∧ 0.1 < r.slopeDeg) ∧ (usableRows rows).Sublist rows ∧
    (profileFor t rows).length = (usableRows rows).length ∧
    (profileFor t rows).map Prod.fst = (usableRows rows).map (·.dist) := by
  refine ⟨fun r => by unfold usableRows; simp, List.filter_sublist, ?_, ?_⟩
  · unfold profileFor smoothProfile rawProfile; split <;> simp
  · unfold profileFor smoothProfile rawProfile
    split
    · apply List.ext_getElem
      · simp
      · intro i h1 h2
        have hi : i < (usableRows rows).length := by simpa using h2
        simp [List.getD, hi]
    · simp

/-- A reading failure is a ValueError (spline) or a ZeroDivisionError (negative number of points). -/
theorem C48_errors (t : Terrain ℝ) (rows : List (SlopeLine ℝ)) (e : Err) (h : t.readSlope rows = .error e)
    (hn : t.smoothing = true → 0 ≤ t.smoothingPoints) : e = .valueError := by
  unfold Terrain.readSlope at h
  rw [keepSlopeLines_eq] at h
  dsimp only at h
  rw [mapM_eq_map _ (fun r => degToRad r.slopeDeg) _ (fun r _ => radians_real r.slopeDeg), ok_bind] at h
  have fin : ∀ a, (Spline.make ((usableRows rows).map (·.dist)) a >>= fun sp =>
      (pure { t with spline := some sp } : Except Err (Terrain ℝ))) = .error e → e = .valueError := by
    intro a h
    rw [bind_error_iff] at h
    rcases h with h | ⟨_, _, h⟩
    · exact make_error _ _ _ h
    · simp at h
  by_cases hs : t.smoothing = true
  case neg =>
    rw [if_neg hs, ok_bind] at h
    exact fin _ h
  case pos =>
    rw [if_pos hs] at h
    obtain ⟨r, hr, _⟩ := C49_running_mean ((usableRows rows).map fun r => degToRad r.slopeDeg) _ (hn hs)
    rw [hr, ok_bind] at h
    exact fin _ h

theorem profileFor_ascending (t : Terrain ℝ) (rows : List (SlopeLine ℝ))
    (h : (usableRows rows).Pairwise (fun a b => a.dist < b.dist)) : Ascending (profileFor t rows) := by
  unfold Ascending
  have h1 : (profileFor t rows).Pairwise (fun p q => p.1 < q.1) ↔
      ((profileFor t rows).map Prod.fst).Pairwise (· < ·) := by rw [List.pairwise_map]
  rw [h1, (C48_rows_kept t rows).2.2.2, List.pairwise_map]
  exact h

/-! ### The slope between and beyond the samples -/

/-- C50: after a slope file was read the slope at any distance is defined, and it is the linear
    interpolation (extrapolation beyond the ends) in the profile. -/
theorem C50_interpolation (t t' : Terrain ℝ) (rows : List (SlopeLine ℝ)) (h : t.readSlope rows = .ok t') (x : ℝ) :
    (∃ y, t'.slope x = .ok y) ∧ ∀ y, t'.slope x = .ok y ↔ Interpolates (profileFor t rows) x y := by
  obtain ⟨h2, h3, _, rfl⟩ := (C48_read_slope t t' rows).mp h
  have hlen : 2 ≤ (profileFor t rows).length := by rw [(C48_rows_kept t rows).2.2.1]; exact h2
  have hasc := profileFor_ascending t rows h3
  exact ⟨evalKnots_total _ hlen hasc x, evalKnots_iff _ hlen hasc x⟩

/-- C50: at a profile distance the slope is the profile slope. -/
theorem C50_at_samples (t t' : Terrain ℝ) (rows : List (SlopeLine ℝ)) (h : t.readSlope rows = .ok t')
    (p : ℝ × ℝ) (hp : p ∈ profileFor t rows) : t'.slope p.1 = .ok p.2 := by
  obtain ⟨h2, h3, _, _⟩ := (C48_read_slope t t' rows).mp h
  have hlen : 2 ≤ (profileFor t rows).length := by rw [(C48_rows_kept t rows).2.2.1]; exact h2
  have hasc := profileFor_ascending t rows h3
  rw [(C50_interpolation t t' rows h p.1).2]
  generalize profileFor t rows = kn at *
  obtain ⟨pre, post, rfl⟩ := List.append_of_mem hp
  cases post with
  | cons q post =>
    refine ⟨pre, p, q, post, rfl, Or.inr le_rfl, ?_, (lineThrough_left p q).symm⟩
    exact Or.inr (ascending_pair hasc).le
  | nil =>
    have hne : pre ≠ [] := by rintro rfl; simp at hlen
    obtain ⟨pre', a, rfl⟩ : ∃ pre' a, pre = pre' ++ [a] :=
      ⟨_, _, (List.dropLast_append_getLast hne).symm⟩
    have he : pre' ++ [a] ++ [p] = pre' ++ a :: p :: [] := by simp
    rw [he] at hasc
    have hap : a.1 < p.1 := ascending_pair hasc
    exact ⟨pre', a, p, [], he, Or.inr hap.le, Or.inl rfl, (lineThrough_right hap).symm⟩

/-- C50: between two consecutive profile points the slope lies between theirs. -/
theorem C50_between_neighbours (t t' : Terrain ℝ) (rows : List (SlopeLine ℝ)) (h : t.readSlope rows = .ok t')
    (p q : ℝ × ℝ) (hpq : Consecutive (profileFor t rows) p q) (x : ℝ) (h1 : p.1 ≤ x) (h2 : x ≤ q.1) :
    ∃ y, t'.slope x = .ok y ∧ min p.2 q.2 ≤ y ∧ y ≤ max p.2 q.2 := by
  obtain ⟨_, h3, _, _⟩ := (C48_read_slope t t' rows).mp h
  have hasc := profileFor_ascending t rows h3
  obtain ⟨pre, post, hk⟩ := hpq
  refine ⟨lineThrough p q x, ?_, lineThrough_between (ascending_pair (hk ▸ hasc)) h1 h2⟩
  rw [(C50_interpolation t t' rows h x).2]
  exact ⟨pre, p, q, post, hk, Or.inr h1, Or.inr h2, rfl⟩

/-- C50: up to the second (from the second last) profile point the slope is on the first (last) line,
    however far away. -/
theorem C50_extrapolates (t t' : Terrain ℝ) (rows : List (SlopeLine ℝ)) (h : t.readSlope rows = .ok t')
    (p q : ℝ × ℝ) (rest : List (ℝ × ℝ)) (x : ℝ) :
    (profileFor t rows = p :: q :: rest → x ≤ q.1 → t'.slope x = .ok (lineThrough p q x)) ∧
    (profileFor t rows = rest ++ [p, q] → p.1 ≤ x → t'.slope x = .ok (lineThrough p q x)) := by
  constructor
  · intro hk hx
    rw [(C50_interpolation t t' rows h x).2]
    exact ⟨[], p, q, rest, hk, Or.inl rfl, Or.inr hx, rfl⟩
  · intro hk hx
    rw [(C50_interpolation t t' rows h x).2]
    exact ⟨rest, p, q, [], hk, Or.inr hx, Or.inl rfl, rfl⟩

theorem profile_value_between (t : Terrain ℝ) (rows : List (SlopeLine ℝ)) (p : ℝ × ℝ) (hp : p ∈ profileFor t rows) :
    ∃ a ∈ usableRows rows, ∃ b ∈ usableRows rows, degToRad a.slopeDeg ≤ p.2 ∧ p.2 ≤ degToRad b.slopeDeg := by
  unfold profileFor at hp
  split at hp
  · unfold smoothProfile at hp
    dsimp only at hp
    obtain ⟨i, hi, rfl⟩ := List.mem_map.mp hp
    rw [List.mem_range] at hi
    obtain ⟨a, ha, b, hb, h1, h2⟩ := centredMean_between ((rawProfile rows).map Prod.snd) ⌊t.smoothingPoints / 2⌋₊ i
      (by simpa using hi)
    simp only [rawProfile, List.map_map, List.mem_map, Function.comp_apply] at ha hb
    obtain ⟨ra, hra, rfl⟩ := ha
    obtain ⟨rb, hrb, rfl⟩ := hb
    exact ⟨ra, hra, rb, hrb, h1, h2⟩
  · unfold rawProfile at hp
    obtain ⟨r, hr, rfl⟩ := List.mem_map.mp hp
    exact ⟨r, hr, r, hr, le_rfl, le_rfl⟩

theorem profile_dist_mem (t : Terrain ℝ) (rows : List (SlopeLine ℝ)) (r : SlopeLine ℝ) (hr : r ∈ usableRows rows) :
    ∃ p ∈ profileFor t rows, p.1 = r.dist := by
  have : r.dist ∈ (profileFor t rows).map Prod.fst := by
    rw [(C48_rows_kept t rows).2.2.2]; exact List.mem_map_of_mem hr
  obtain ⟨p, hp, h⟩ := List.mem_map.mp this
  exact ⟨p, hp, h⟩

/-- C50: inside the profile (between two usable rows) the slope, smoothed or not, lies between the slopes
    of two usable rows; in particular it exceeds 0.1 degree. -/
theorem C50_inside_positive (t t' : Terrain ℝ) (rows : List (SlopeLine ℝ)) (h : t.readSlope rows = .ok t')
    (x : ℝ) (r r' : SlopeLine ℝ) (hr : r ∈ usableRows rows) (hr' : r' ∈ usableRows rows)
    (h1 : r.dist ≤ x) (h2 : x ≤ r'.dist) :
    ∃ y, t'.slope x = .ok y ∧ degToRad 0.1 < y ∧
      ∃ a ∈ usableRows rows, ∃ b ∈ usableRows rows, degToRad a.slopeDeg ≤ y ∧ y ≤ degToRad b.slopeDeg := by
  obtain ⟨_, h3, _, _⟩ := (C48_read_slope t t' rows).mp h
  have hasc := profileFor_ascending t rows h3
  obtain ⟨⟨y, hy⟩, hiff⟩ := C50_interpolation t t' rows h x
  refine ⟨y, hy, ?_⟩
  suffices hs : ∃ a ∈ usableRows rows, ∃ b ∈ usableRows rows, degToRad a.slopeDeg ≤ y ∧ y ≤ degToRad b.slopeDeg by
    refine ⟨?_, hs⟩
    obtain ⟨a, ha, _, _, hay, _⟩ := hs
    refine lt_of_lt_of_le ?_ hay
    have := (((C48_rows_kept t rows).1 a).mp ha).2
    unfold degToRad
    have hpi := Real.pi_pos
    apply div_lt_div_of_pos_right _ (by norm_num)
    exact mul_lt_mul_of_pos_right this hpi
  obtain ⟨pre, p, q, post, hk, hb1, hb2, rfl⟩ := (hiff y).mp hy
  have hpq : p.1 < q.1 := ascending_pair (hk ▸ hasc)
  have hp : p ∈ profileFor t rows := by rw [hk]; simp
  have hq : q ∈ profileFor t rows := by rw [hk]; simp
  have hx1 : p.1 ≤ x := by
    rcases hb1 with rfl | hb1
    · obtain ⟨pr, hpr, hpe⟩ := profile_dist_mem t rows r hr
      rw [hk] at hpr hasc
      simp only [List.nil_append, List.mem_cons] at hpr
      have hall := (List.pairwise_cons.mp hasc).1
      rcases hpr with rfl | hpr
      · linarith
      · have := hall pr (by simpa using hpr); linarith
    · exact hb1
  have hx2 : x ≤ q.1 := by
    rcases hb2 with rfl | hb2
    · obtain ⟨pr, hpr, hpe⟩ := profile_dist_mem t rows r' hr'
      rw [hk] at hpr hasc
      rcases List.mem_append.mp hpr with hpr | hpr
      · have h4 := (List.pairwise_append.mp hasc).2.2 pr hpr q (by simp)
        linarith
      · simp only [List.mem_cons, List.not_mem_nil, or_false] at hpr
        rcases hpr with rfl | rfl
        · linarith
        · linarith
    · exact hb2
  obtain ⟨hlo, hhi⟩ := lineThrough_between hpq hx1 hx2
  obtain ⟨a, ha, b, hb, h5, h6⟩ := profile_value_between t rows p hp
  obtain ⟨c, hc, d, hd, h7, h8⟩ := profile_value_between t rows q hq
  rcases le_total p.2 q.2 with hle | hle
  · rw [min_eq_left hle] at hlo
    rw [max_eq_right hle] at hhi
    exact ⟨a, ha, d, hd, h5.trans hlo, hhi.trans h8⟩
  · rw [min_eq_right hle] at hlo
    rw [max_eq_left hle] at hhi
    exact ⟨c, hc, b, hb, h7.trans hlo, hhi.trans h6⟩

/-- Two samples: 45 degrees at 0 m, 1 degree at 10 m, and a flat sample between them. -/
noncomputable def exSlopeRows : List (SlopeLine ℝ) :=
  [⟨0, 0, 0, 0, 45⟩, ⟨0, 0, 0, 5, 0⟩, ⟨0, 0, 0, 10, 1⟩]

theorem exSlopeRows_usable : usableRows exSlopeRows = [⟨0, 0, 0, 0, 45⟩, ⟨0, 0, 0, 10, 1⟩] := by
  unfold usableRows exSlopeRows
  norm_num [List.filter]

/-- C50: beyond the profile the extrapolated slope may be negative: 45 degrees at 0 m and 1 degree at
    10 m give -43 degrees at 20 m, for every terrain without smoothing. -/
theorem C50_negative_beyond_profile (t : Terrain ℝ) (hs : t.smoothing = false) :
    ∃ t', t.readSlope exSlopeRows = .ok t' ∧ t'.slope 20 = .ok (degToRad (-43)) ∧ degToRad (-43) < 0 := by
  have hok := (C48_read_slope t { t with spline := some ⟨profileFor t exSlopeRows⟩ } exSlopeRows).mpr
    ⟨by rw [exSlopeRows_usable]; simp, by rw [exSlopeRows_usable]; simp, by simp [hs], rfl⟩
  have hpi := Real.pi_pos
  refine ⟨_, hok, ?_, by unfold degToRad; linarith⟩
  rw [(C50_extrapolates t _ exSlopeRows hok (0, degToRad 45) (10, degToRad 1) [] 20).2 ?_ (by norm_num)]
  · congr 1
    unfold lineThrough degToRad
    norm_num
    ring
  · unfold profileFor rawProfile
    rw [if_neg (by simp [hs]), exSlopeRows_usable]
    rfl

end PyFlowGo
