import Verif.Proofs.InterpLemmas
import Verif.Model.Crystal
/-
  C62: the crystallisation rate from a table (MELTS).
-/
namespace PyFlowGo

/-- C62: a table is accepted exactly if it has at least two rows with strictly increasing temperatures. -/
theorem C62_table_accepted (rows : List (ℝ × ℝ)) (sp : Spline ℝ) :
    readMelts rows = .ok sp ↔ 2 ≤ rows.length ∧ Ascending rows ∧ sp = ⟨kelvinTable rows⟩ := by
  unfold readMelts
  rw [make_ok_iff]
  have hz : (rows.map (fun r => r.1 + 273.15)).zip (rows.map (·.2)) = kelvinTable rows := by
    unfold kelvinTable; rw [List.zip_map']
  rw [hz]
  have ha : Ascending (kelvinTable rows) ↔ Ascending rows := by
    unfold Ascending kelvinTable
    rw [List.pairwise_map]
    constructor <;> intro h <;> refine h.imp (fun {a b} hab => ?_) <;> dsimp only at * <;> linarith
  rw [ha]
  simp

theorem kelvin_ascending {rows : List (ℝ × ℝ)} (h : Ascending rows) : Ascending (kelvinTable rows) := by
  unfold Ascending kelvinTable at *
  rw [List.pairwise_map]
  refine h.imp (fun {a b} hab => ?_)
  dsimp only at *; linarith

/-- C62: with a table the rate is always defined and is the centred difference
    `(phi(T-1) - phi(T+1)) / 2` of the interpolated table. -/
theorem C62_centred_difference (rows : List (ℝ × ℝ)) (sp : Spline ℝ) (h : readMelts rows = .ok sp) (f solidT : ℝ)
    (s : FlowState ℝ) :
    (∃ r, (CrystModel.melts f solidT (some sp)).rate s = .ok r) ∧
    ∀ r, (CrystModel.melts f solidT (some sp)).rate s = .ok r ↔
      ∃ below above, Interpolates (kelvinTable rows) (s.temp - 1) below ∧
        Interpolates (kelvinTable rows) (s.temp + 1) above ∧ r = (below - above) / 2 := by
  obtain ⟨hlen, hasc, rfl⟩ := (C62_table_accepted rows sp).mp h
  have hlen' : 2 ≤ (kelvinTable rows).length := by unfold kelvinTable; simpa using hlen
  have hiff := evalKnots_iff _ hlen' (kelvin_ascending hasc)
  have htot := evalKnots_total _ hlen' (kelvin_ascending hasc)
  have key : ∀ r, (CrystModel.melts f solidT (some ⟨kelvinTable rows⟩)).rate s = .ok r ↔
      ∃ below above, Interpolates (kelvinTable rows) (s.temp - 1) below ∧
        Interpolates (kelvinTable rows) (s.temp + 1) above ∧ r = (below - above) / 2 := by
    intro r
    unfold CrystModel.rate CrystModel.crystalFraction Spline.eval
    dsimp only
    rw [show (1.0 : ℝ) = 1 by norm_num, show (2.0 : ℝ) = 2 by norm_num]
    simp only [bind_ok_iff, div_ok_iff, hiff]
    constructor
    · rintro ⟨a, ha, b, hb, _, rfl⟩
      exact ⟨b, a, hb, ha, by ring⟩
    · rintro ⟨b, a, hb, ha, rfl⟩
      exact ⟨a, ha, b, hb, by norm_num, by ring⟩
  refine ⟨?_, key⟩
  obtain ⟨a, ha⟩ := htot (s.temp - 1)
  obtain ⟨b, hb⟩ := htot (s.temp + 1)
  exact ⟨_, (key _).mpr ⟨a, b, (hiff _ _).mp ha, (hiff _ _).mp hb, rfl⟩⟩

theorem line_antitone {p q : ℝ × ℝ} (h : p.1 < q.1) (h2 : q.2 ≤ p.2) {x y : ℝ} (hxy : x ≤ y) :
    lineThrough p q y ≤ lineThrough p q x := by
  unfold lineThrough
  have : (x - p.1) / (q.1 - p.1) ≤ (y - p.1) / (q.1 - p.1) :=
    div_le_div_of_nonneg_right (by linarith) (by linarith)
  nlinarith

theorem evalKnots_antitone (kn : List (ℝ × ℝ)) (hlen : 2 ≤ kn.length) (hasc : Ascending kn)
    (hdec : NonIncreasing kn) (x y a b : ℝ) (hxy : x ≤ y) (hx : evalKnots x kn = .ok a) (hy : evalKnots y kn = .ok b) :
    b ≤ a := by
  induction kn generalizing x a with
  | nil => simp at hlen
  | cons p rest ih =>
    cases rest with
    | nil => simp at hlen
    | cons q rest =>
      have hpq : p.1 < q.1 := (List.pairwise_cons.mp hasc).1 q (by simp)
      have hpq2 : q.2 ≤ p.2 := (List.pairwise_cons.mp hdec).1 q (by simp)
      cases rest with
      | nil =>
        simp only [evalKnots, segment_ok hpq, Except.ok.injEq] at hx hy
        rw [← hx, ← hy]
        exact line_antitone hpq hpq2 hxy
      | cons r rest =>
        rw [evalKnots] at hx hy
        have hasc' : Ascending (q :: r :: rest) := (List.pairwise_cons.mp hasc).2
        have hdec' : NonIncreasing (q :: r :: rest) := (List.pairwise_cons.mp hdec).2
        by_cases h1 : y ≤ q.1
        · rw [if_pos ((leB_real _ _).mpr (hxy.trans h1)), segment_ok hpq, Except.ok.injEq] at hx
          rw [if_pos ((leB_real _ _).mpr h1), segment_ok hpq, Except.ok.injEq] at hy
          rw [← hx, ← hy]
          exact line_antitone hpq hpq2 hxy
        · rw [if_neg (fun e => h1 ((leB_real _ _).mp e))] at hy
          by_cases h2 : x ≤ q.1
          · rw [if_pos ((leB_real _ _).mpr h2), segment_ok hpq, Except.ok.injEq] at hx
            have hq : evalKnots q.1 (q :: r :: rest) = .ok q.2 := by
              have := evalKnots_at [] q r rest q.1 hasc' (Or.inl rfl)
                (Or.inr ((List.pairwise_cons.mp hasc').1 r (by simp)).le)
              rwa [lineThrough_left] at this
            have h3 := ih (by simp) hasc' hdec' q.1 q.2 (by linarith) hq hy
            have h4 := line_antitone hpq hpq2 h2
            rw [lineThrough_right hpq] at h4
            linarith
          · rw [if_neg (fun e => h2 ((leB_real _ _).mp e))] at hx
            exact ih (by simp) hasc' hdec' x a hxy hx hy

/-- C62: for a table whose fractions do not increase with temperature the rate is never negative. -/
theorem C62_rate_nonneg (rows : List (ℝ × ℝ)) (sp : Spline ℝ) (h : readMelts rows = .ok sp) (f solidT r : ℝ)
    (s : FlowState ℝ) (hdec : NonIncreasing rows)
    (hr : (CrystModel.melts f solidT (some sp)).rate s = .ok r) : 0 ≤ r := by
  obtain ⟨b, a, hb, ha, rfl⟩ := ((C62_centred_difference rows sp h f solidT s).2 r).mp hr
  obtain ⟨hlen, hasc, rfl⟩ := (C62_table_accepted rows sp).mp h
  have hlen' : 2 ≤ (kelvinTable rows).length := by unfold kelvinTable; simpa using hlen
  have hdec' : NonIncreasing (kelvinTable rows) := by
    unfold NonIncreasing kelvinTable at *; rw [List.pairwise_map]; exact hdec
  have hiff := evalKnots_iff _ hlen' (kelvin_ascending hasc)
  have := evalKnots_antitone _ hlen' (kelvin_ascending hasc) hdec' (s.temp - 1) (s.temp + 1) b a (by linarith)
    ((hiff _ _).mpr hb) ((hiff _ _).mpr ha)
  linarith

/-- C62: when both `T-1` and `T+1` lie on one segment of the table (the end segments extend without
    limit) the rate is minus the slope of that segment. -/
theorem C62_segment_slope (rows : List (ℝ × ℝ)) (sp : Spline ℝ) (h : readMelts rows = .ok sp) (f solidT : ℝ)
    (s : FlowState ℝ) (pre post : List (ℝ × ℝ)) (p q : ℝ × ℝ) (hk : rows = pre ++ p :: q :: post)
    (h1 : pre = [] ∨ p.1 + 273.15 ≤ s.temp - 1) (h2 : post = [] ∨ s.temp + 1 ≤ q.1 + 273.15) :
    (CrystModel.melts f solidT (some sp)).rate s = .ok (-((q.2 - p.2) / (q.1 - p.1))) := by
  rw [(C62_centred_difference rows sp h f solidT s).2]
  obtain ⟨hlen, hasc, rfl⟩ := (C62_table_accepted rows sp).mp h
  have hkt : kelvinTable rows = kelvinTable pre ++ (p.1 + 273.15, p.2) :: (q.1 + 273.15, q.2) :: kelvinTable post := by
    rw [hk]; unfold kelvinTable; simp
  have hpq : p.1 < q.1 := ascending_pair (hk ▸ hasc)
  have hp0 : pre = [] → kelvinTable pre = [] := by rintro rfl; rfl
  have hq0 : post = [] → kelvinTable post = [] := by rintro rfl; rfl
  refine ⟨_, _, ⟨_, _, _, _, hkt, ?_, ?_, rfl⟩, ⟨_, _, _, _, hkt, ?_, ?_, rfl⟩, ?_⟩
  · exact h1.imp hp0 id
  · exact h2.imp hq0 (fun h => by dsimp only; linarith)
  · exact h1.imp hp0 (fun h => by dsimp only; linarith)
  · exact h2.imp hq0 id
  · unfold lineThrough
    dsimp only
    have : q.1 - p.1 ≠ 0 := by linarith
    rw [show q.1 + 273.15 - (p.1 + 273.15) = q.1 - p.1 by ring]
    field_simp
    ring

/-- C62: without a table the rate is 0 in every state. -/
theorem C62_no_table (f solidT : ℝ) (s : FlowState ℝ) :
    (CrystModel.melts f solidT none).rate s = .ok 0 := by
  unfold CrystModel.rate CrystModel.crystalFraction
  simp only [ok_bind]
  rw [show (2.0 : ℝ) = 2 by norm_num, div_of_ne (by norm_num : (2 : ℝ) ≠ 0)]
  simp

/-- Non-vacuity: 0.5 at 1100 °C, 0.1 at 1200 °C; the rate at 1150 °C is 0.004 per kelvin. -/
example : ∃ sp, readMelts [((1100 : ℝ), (0.5 : ℝ)), (1200, 0.1)] = .ok sp ∧
    NonIncreasing [((1100 : ℝ), (0.5 : ℝ)), (1200, 0.1)] ∧
    ∀ s : FlowState ℝ, (CrystModel.melts 0.1 1000 (some sp)).rate s = .ok 0.004 := by
  have h := (C62_table_accepted [((1100 : ℝ), (0.5 : ℝ)), (1200, 0.1)] ⟨kelvinTable _⟩).mpr
    ⟨by simp, by simp [Ascending]; norm_num, rfl⟩
  refine ⟨_, h, by simp [NonIncreasing]; norm_num, fun s => ?_⟩
  rw [C62_segment_slope _ _ h 0.1 1000 s [] [] (1100, 0.5) (1200, 0.1) rfl (Or.inl rfl) (Or.inl rfl)]
  norm_num

end PyFlowGo
