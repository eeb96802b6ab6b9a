import Verif.Proofs.Base
import Verif.Spec.TerrainSpec
/-
  Linear interpolation through a table with ascending abscissae.
-/
namespace PyFlowGo

theorem strictlyIncreasing_iff (kn : List (ℝ × ℝ)) : strictlyIncreasing kn = true ↔ Ascending kn := by
  induction kn with
  | nil => simp [strictlyIncreasing, Ascending]
  | cons p rest ih =>
    cases rest with
    | nil => simp [strictlyIncreasing, Ascending]
    | cons q rest =>
      rw [strictlyIncreasing, Bool.and_eq_true, ih, ltB_real]
      unfold Ascending
      constructor
      · rintro ⟨h1, h2⟩
        refine List.pairwise_cons.mpr ⟨fun r hr => ?_, h2⟩
        rcases List.mem_cons.mp hr with rfl | hr
        · exact h1
        · exact h1.trans ((List.pairwise_cons.mp h2).1 r hr)
      · intro h
        obtain ⟨h1, h2⟩ := List.pairwise_cons.mp h
        exact ⟨h1 q (by simp), h2⟩

theorem segment_ok {p q : ℝ × ℝ} (h : p.1 < q.1) (x : ℝ) : segment p q x = .ok (lineThrough p q x) := by
  unfold segment lineThrough
  rw [div_of_ne (by linarith : q.1 - p.1 ≠ 0)]
  rfl

theorem lineThrough_left (p q : ℝ × ℝ) : lineThrough p q p.1 = p.2 := by
  unfold lineThrough; simp

theorem lineThrough_right {p q : ℝ × ℝ} (h : p.1 < q.1) : lineThrough p q q.1 = q.2 := by
  unfold lineThrough
  rw [div_self (by linarith : q.1 - p.1 ≠ 0)]; ring

theorem ascending_pair {pre post : List (ℝ × ℝ)} {p q : ℝ × ℝ} (h : Ascending (pre ++ p :: q :: post)) :
    p.1 < q.1 := by
  have h2 := (List.pairwise_append.mp h).2.1
  exact (List.pairwise_cons.mp h2).1 q (by simp)

theorem evalKnots_at (pre : List (ℝ × ℝ)) : ∀ (p q : ℝ × ℝ) (post : List (ℝ × ℝ)) (x : ℝ),
    Ascending (pre ++ p :: q :: post) → (pre = [] ∨ p.1 ≤ x) → (post = [] ∨ x ≤ q.1) →
    evalKnots x (pre ++ p :: q :: post) = .ok (lineThrough p q x) := by
  induction pre with
  | nil =>
    intro p q post x hasc _ hpost
    have hpq := ascending_pair hasc
    cases post with
    | nil => simpa [evalKnots] using segment_ok hpq x
    | cons r post =>
      have hx : x ≤ q.1 := by simpa using hpost
      simp only [List.nil_append, evalKnots]
      rw [if_pos ((leB_real _ _).mpr hx)]
      exact segment_ok hpq x
  | cons a pre ih =>
    intro p q post x hasc hpre hpost
    have hx : p.1 ≤ x := by simpa using hpre
    have htail : Ascending (pre ++ p :: q :: post) := (List.pairwise_cons.mp hasc).2
    have ha : ∀ r ∈ pre ++ p :: q :: post, a.1 < r.1 := (List.pairwise_cons.mp hasc).1
    have hev := ih p q post x htail (Or.inr hx) hpost
    cases pre with
    | nil =>
      simp only [List.cons_append, List.nil_append, evalKnots]
      by_cases hle : x ≤ p.1
      · have hxe : x = p.1 := le_antisymm hle hx
        rw [if_pos ((leB_real _ _).mpr hle), segment_ok (ha p (by simp)), hxe,
          lineThrough_right (ha p (by simp)), lineThrough_left]
      · rw [if_neg (fun e => hle ((leB_real _ _).mp e))]
        exact hev
    | cons b pre =>
      have hb : b.1 < p.1 := by
        have := (List.pairwise_cons.mp htail).1 p (by simp)
        exact this
      have hgoal : evalKnots x (a :: b :: (pre ++ p :: q :: post)) = evalKnots x (b :: (pre ++ p :: q :: post)) := by
        have hne : pre ++ p :: q :: post ≠ [] := by simp
        obtain ⟨c, rest, hc⟩ := List.exists_cons_of_ne_nil hne
        rw [hc, evalKnots, if_neg (fun e => by have := (leB_real _ _).mp e; linarith)]
      rw [List.cons_append, List.cons_append, hgoal]
      exact hev

/-- Some pair of consecutive entries surrounds `x` (or is the end pair). -/
theorem exists_bracket (kn : List (ℝ × ℝ)) (hlen : 2 ≤ kn.length) (x : ℝ) :
    ∃ pre p q post, kn = pre ++ p :: q :: post ∧ (pre = [] ∨ p.1 ≤ x) ∧ (post = [] ∨ x ≤ q.1) := by
  induction kn with
  | nil => simp at hlen
  | cons a rest ih =>
    cases rest with
    | nil => simp at hlen
    | cons b rest =>
      cases rest with
      | nil => exact ⟨[], a, b, [], rfl, Or.inl rfl, Or.inl rfl⟩
      | cons c rest =>
        by_cases hle : x ≤ b.1
        · exact ⟨[], a, b, c :: rest, rfl, Or.inl rfl, Or.inr hle⟩
        · obtain ⟨pre, p, q, post, he, h1, h2⟩ := ih (by simp)
          refine ⟨a :: pre, p, q, post, by rw [he]; rfl, ?_, h2⟩
          right
          rcases h1 with rfl | h1
          · rw [List.nil_append] at he
            injection he with he1 he2
            rw [← he1]; linarith
          · exact h1

theorem evalKnots_iff (kn : List (ℝ × ℝ)) (hlen : 2 ≤ kn.length) (hasc : Ascending kn) (x y : ℝ) :
    evalKnots x kn = .ok y ↔ Interpolates kn x y := by
  constructor
  · intro h
    obtain ⟨pre, p, q, post, rfl, h1, h2⟩ := exists_bracket kn hlen x
    rw [evalKnots_at pre p q post x hasc h1 h2] at h
    injection h with h
    exact ⟨pre, p, q, post, rfl, h1, h2, h.symm⟩
  · rintro ⟨pre, p, q, post, rfl, h1, h2, rfl⟩
    exact evalKnots_at pre p q post x hasc h1 h2

theorem evalKnots_total (kn : List (ℝ × ℝ)) (hlen : 2 ≤ kn.length) (hasc : Ascending kn) (x : ℝ) :
    ∃ y, evalKnots x kn = .ok y := by
  obtain ⟨pre, p, q, post, rfl, h1, h2⟩ := exists_bracket kn hlen x
  exact ⟨_, evalKnots_at pre p q post x hasc h1 h2⟩

theorem make_ok_iff (xs ys : List ℝ) (s : Spline ℝ) :
    Spline.make xs ys = .ok s ↔
      xs.length = ys.length ∧ 2 ≤ xs.length ∧ Ascending (xs.zip ys) ∧ s = ⟨xs.zip ys⟩ := by
  unfold Spline.make
  dsimp only
  by_cases h : xs.length = ys.length
  · by_cases h2 : 2 ≤ xs.length
    · by_cases h3 : Ascending (xs.zip ys)
      · rw [if_pos (by simp [(strictlyIncreasing_iff _).mpr h3, h, h ▸ h2])]
        simp [h, h ▸ h2, h3, eq_comm]
      · rw [if_neg (by simp only [Bool.and_eq_true, strictlyIncreasing_iff]; tauto)]
        simp [h3]
    · rw [if_neg (by simp [h]; intro h4; omega)]
      simp [h2]
  · rw [if_neg (by simp [h])]
    simp [h]

theorem make_error (xs ys : List ℝ) (e : Err) (h : Spline.make xs ys = .error e) : e = .valueError := by
  unfold Spline.make at h
  dsimp only at h
  split at h
  · cases h
  · injection h with h; exact h.symm

/-- The line through two points lies between them. -/
theorem lineThrough_between {p q : ℝ × ℝ} (h : p.1 < q.1) {x : ℝ} (h1 : p.1 ≤ x) (h2 : x ≤ q.1) :
    min p.2 q.2 ≤ lineThrough p q x ∧ lineThrough p q x ≤ max p.2 q.2 := by
  unfold lineThrough
  have ht0 : 0 ≤ (x - p.1) / (q.1 - p.1) := div_nonneg (by linarith) (by linarith)
  have ht1 : (x - p.1) / (q.1 - p.1) ≤ 1 := by rw [div_le_one (by linarith)]; linarith
  generalize (x - p.1) / (q.1 - p.1) = t at *
  rcases le_total p.2 q.2 with hle | hle
  · rw [min_eq_left hle, max_eq_right hle]
    constructor <;> nlinarith
  · rw [min_eq_right hle, max_eq_left hle]
    constructor <;> nlinarith

end PyFlowGo
