import Verif.Model.EffArray
import Verif.Props.RunLog
import Verif.Props.RunConfig
import Verif.Spec.SweepSpec
import Mathlib.Tactic.Ring
import Mathlib.Tactic.Linarith
import Mathlib.Data.List.Pairwise
/-
  C56, C57, C58: the effusion-rate sweep.
-/
set_option linter.unusedSectionVars false
namespace PyFlowGo
open Spec

/-! ### C56: the rates -/

theorem mem_pyRange_pos {first stop step : Int} {l : List Int} (hs : 0 < step)
    (h : pyRange first stop step = .ok l) (r : Int) :
    r ∈ l ↔ ∃ k : Nat, r = first + step * (k : Int) ∧ r < stop := by
  unfold pyRange at h
  rw [if_neg (by omega), if_pos hs] at h
  injection h with h
  rw [← h, List.mem_map]
  constructor
  · rintro ⟨k, hk, rfl⟩
    refine ⟨k, rfl, ?_⟩
    rw [List.mem_range] at hk
    have h1 : (k : Int) < (stop - first + step - 1) / step := by omega
    have h2 : (k : Int) + 1 ≤ (stop - first + step - 1) / step := by omega
    have h3 := (Int.le_ediv_iff_mul_le hs).mp h2
    have h4 : ((k : Int) + 1) * step = step * (k : Int) + step := by ring
    omega
  · rintro ⟨k, rfl, h1⟩
    refine ⟨k, ?_, rfl⟩
    rw [List.mem_range]
    have h4 : ((k : Int) + 1) * step = step * (k : Int) + step := by ring
    have h3 : (k : Int) + 1 ≤ (stop - first + step - 1) / step := (Int.le_ediv_iff_mul_le hs).mpr (by omega)
    omega

theorem mem_pyRange_neg {first stop step : Int} {l : List Int} (hs : step < 0)
    (h : pyRange first stop step = .ok l) (r : Int) :
    r ∈ l ↔ ∃ k : Nat, r = first + step * (k : Int) ∧ stop < r := by
  unfold pyRange at h
  rw [if_neg (by omega), if_neg (by omega)] at h
  injection h with h
  rw [← h, List.mem_map]
  have hs' : 0 < -step := by omega
  constructor
  · rintro ⟨k, hk, rfl⟩
    refine ⟨k, rfl, ?_⟩
    rw [List.mem_range] at hk
    have h2 : (k : Int) + 1 ≤ (first - stop + (-step) - 1) / (-step) := by omega
    have h3 := (Int.le_ediv_iff_mul_le hs').mp h2
    have h4 : ((k : Int) + 1) * (-step) = -(step * (k : Int)) - step := by ring
    omega
  · rintro ⟨k, rfl, h1⟩
    refine ⟨k, ?_, rfl⟩
    rw [List.mem_range]
    have h4 : ((k : Int) + 1) * (-step) = -(step * (k : Int)) - step := by ring
    have h3 : (k : Int) + 1 ≤ (first - stop + (-step) - 1) / (-step) := (Int.le_ediv_iff_mul_le hs').mpr (by omega)
    omega

/-- The rates are visited in order, each once. -/
theorem pyRange_pairwise {first stop step : Int} {l : List Int} (h : pyRange first stop step = .ok l) :
    (0 < step → l.Pairwise (· < ·)) ∧ (step < 0 → l.Pairwise (· > ·)) := by
  unfold pyRange at h
  split at h
  · cases h
  · split at h <;> injection h with h <;> rw [← h] <;> constructor <;> intro hs
    · rw [List.pairwise_map]
      refine List.Pairwise.imp ?_ List.pairwise_lt_range
      intro a b hab
      have := mul_lt_mul_of_pos_left (Int.ofNat_lt.mpr hab) hs
      linarith
    · omega
    · omega
    · rw [List.pairwise_map]
      refine List.Pairwise.imp ?_ List.pairwise_lt_range
      intro a b hab
      have := mul_lt_mul_of_neg_left (Int.ofNat_lt.mpr hab) hs
      linarith

/-- **C56**. A step of zero is an error, and the only one. -/
theorem C56_zero_step (first last step : Int) :
    sweepRates first last step = .error .valueError ↔ step = 0 := by
  unfold sweepRates pyRange
  split
  · simp [*]
  · split <;> simp_all

theorem C56_ok (first last step : Int) (h : step ≠ 0) : ∃ l, sweepRates first last step = .ok l := by
  unfold sweepRates pyRange
  rw [if_neg h]
  split <;> exact ⟨_, rfl⟩

/-- **C56**. With a positive step the sweep runs, in increasing order and once each, exactly the rates
    first, first + step, first + 2 step, ... that are below last + step. -/
theorem C56_rates (first last step : Int) (l : List Int) (hs : 0 < step) (h : sweepRates first last step = .ok l) :
    l.Pairwise (· < ·) ∧ ∀ r, r ∈ l ↔ ∃ k : Nat, r = first + step * (k : Int) ∧ r < last + step :=
  ⟨(pyRange_pairwise h).1 hs, mem_pyRange_pos hs h⟩

/-- **C56**. When the step divides the range, these are exactly the rates up to and including `last`. -/
theorem C56_exact (first last step : Int) (l : List Int) (hs : 0 < step) (hd : step ∣ last - first)
    (h : sweepRates first last step = .ok l) :
    ∀ r, r ∈ l ↔ ∃ k : Nat, r = first + step * (k : Int) ∧ r ≤ last := by
  intro r
  rw [(C56_rates first last step l hs h).2]
  refine exists_congr fun k => and_congr_right fun hr => ?_
  obtain ⟨c, hc⟩ := hd
  constructor
  · intro h1
    have h2 : step * ((k : Int) - c) < step * 1 := by
      have : step * ((k : Int) - c) = step * (k : Int) - step * c := by ring
      omega
    have h3 := lt_of_mul_lt_mul_left h2 hs.le
    have h4 : step * (k : Int) ≤ step * c := mul_le_mul_of_nonneg_left (by omega) hs.le
    omega
  · intro h1; omega

/-- **C56** (what users do not expect). When the step does not divide the range, the sweep also runs exactly one
    rate strictly above `last` (unless it starts above it already and is empty). -/
theorem C56_overshoot (first last step : Int) (l : List Int) (hs : 0 < step) (hd : ¬ step ∣ last - first)
    (hne : first < last + step) (h : sweepRates first last step = .ok l) :
    ∃ r ∈ l, last < r ∧ (∀ x ∈ l, last < x → x = r) ∧ ∀ x ∈ l, x ≠ r → x < last := by
  have hm := (C56_rates first last step l hs h).2
  have hne' : ∀ k : Nat, first + step * (k : Int) ≠ last := fun k e => hd ⟨k, by omega⟩
  have hq : 0 ≤ (last - first + step) / step := Int.ediv_nonneg (by omega) hs.le
  obtain ⟨k, hk⟩ := Int.eq_ofNat_of_zero_le hq
  have h1 : step * (k : Int) ≤ last - first + step := by
    have := Int.mul_ediv_self_le (x := last - first + step) (k := step) (by omega); rw [hk] at this; exact this
  have h2 : last - first + step < step * (k : Int) + step := by
    have := Int.lt_mul_ediv_self_add (x := last - first + step) hs; rw [hk] at this; exact this
  have h3 : step * (k : Int) ≠ last - first + step := by
    intro e
    exact hd ⟨(k : Int) - 1, by rw [mul_sub]; omega⟩
  refine ⟨first + step * (k : Int), (hm _).mpr ⟨k, rfl, by omega⟩, by omega, ?_, ?_⟩
  · intro x hx hlt
    obtain ⟨j, rfl, hj⟩ := (hm x).mp hx
    have a1 : step * ((j : Int) - k) < step * 1 := by
      have : step * ((j : Int) - k) = step * (j : Int) - step * k := by ring
      omega
    have a2 : step * ((k : Int) - j) < step * 1 := by
      have : step * ((k : Int) - j) = step * (k : Int) - step * j := by ring
      omega
    have := lt_of_mul_lt_mul_left a1 hs.le
    have := lt_of_mul_lt_mul_left a2 hs.le
    have : (j : Int) = k := by omega
    rw [this]
  · intro x hx hxne
    obtain ⟨j, rfl, hj⟩ := (hm x).mp hx
    have a1 : step * ((j : Int) - k) < step * 1 := by
      have : step * ((j : Int) - k) = step * (j : Int) - step * k := by ring
      omega
    have a3 := lt_of_mul_lt_mul_left a1 hs.le
    have a4 : (j : Int) ≠ k := fun e => hxne (by rw [e])
    have a5 : step * (j : Int) ≤ step * ((k : Int) - 1) := mul_le_mul_of_nonneg_left (by omega) hs.le
    rw [mul_sub] at a5
    have := hne' j
    omega

/-- **C56**. The sweep is empty exactly when last + step ≤ first. -/
theorem C56_empty (first last step : Int) (l : List Int) (hs : 0 < step) (h : sweepRates first last step = .ok l) :
    l = [] ↔ last + step ≤ first := by
  have hm := (C56_rates first last step l hs h).2
  constructor
  · intro hl
    by_contra hc
    have : first ∈ l := (hm first).mpr ⟨0, by simp, by omega⟩
    rw [hl] at this
    cases this
  · intro hle
    rw [List.eq_nil_iff_forall_not_mem]
    intro r hr
    obtain ⟨k, rfl, hk⟩ := (hm r).mp hr
    have : 0 ≤ step * (k : Int) := mul_nonneg hs.le (by omega)
    omega

/-- **C56**. A negative step sweeps downwards; the same picture mirrored. -/
theorem C56_down (first last step : Int) (l : List Int) (hs : step < 0) (h : sweepRates first last step = .ok l) :
    l.Pairwise (· > ·) ∧ ∀ r, r ∈ l ↔ ∃ k : Nat, r = first + step * (k : Int) ∧ last + step < r :=
  ⟨(pyRange_pairwise h).2 hs, mem_pyRange_neg hs h⟩

example : sweepRates 5 20 5 = .ok [5, 10, 15, 20] := rfl
example : sweepRates 5 18 5 = .ok [5, 10, 15, 20] := rfl
example : sweepRates 20 5 (-5) = .ok [20, 15, 10, 5] := rfl
example : sweepRates 10 4 5 = .ok [] := rfl
example : (5 : Int) ∣ 20 - 5 ∧ ¬ (5 : Int) ∣ 18 - 5 := by decide

/-! ### C57: the names -/

theorem toString_int_inj {a b : Int} (h : toString a = toString b) : a = b := by
  have nat : ∀ m n : Nat, Nat.repr m = Nat.repr n → m = n := by
    intro m n h
    have h1 : Nat.toDigits 10 m = Nat.toDigits 10 n := by rw [← Nat.toList_repr, ← Nat.toList_repr, h]
    rw [← Nat.ofDigitChars_ten_toDigits (n := m), h1, Nat.ofDigitChars_ten_toDigits]
  have sign : ∀ m n : Nat, Nat.repr m ≠ "-" ++ Nat.repr n := by
    intro m n h
    have h1 : Nat.toDigits 10 m = '-' :: Nat.toDigits 10 n := by
      rw [← Nat.toList_repr, ← Nat.toList_repr, h, String.toList_append]; rfl
    have h2 := Nat.isDigit_of_mem_toDigits (b := 10) (n := m) (c := '-') (by omega) (by omega) (by rw [h1]; simp)
    revert h2
    decide
  have e : ∀ x : Int, toString x = Int.repr x := fun _ => rfl
  rw [e, e] at h
  cases a with
  | ofNat m =>
    cases b with
    | ofNat n => rw [nat m n h]
    | negSucc n => exact absurd h (sign m (n + 1))
  | negSucc m =>
    cases b with
    | ofNat n => exact absurd h.symm (sign n (m + 1))
    | negSucc n =>
      have h : "-" ++ Nat.repr (m + 1) = "-" ++ Nat.repr (n + 1) := h
      have h1 : Nat.repr (m + 1) = Nat.repr (n + 1) := by
        apply String.toList_injective
        have := congrArg String.toList h
        rw [String.toList_append, String.toList_append] at this
        exact List.append_cancel_left this
      have := nat _ _ h1
      rw [show m = n by omega]

/-- Joining a relative path: a prefix that depends on the folder only. -/
theorem pathJoin_rel (folder a : String) (ha : a.toList.head? ≠ some '/') :
    pathJoin folder a = (if folder.isEmpty || folder.toList.getLast? == some '/' then folder else folder ++ "/") ++ a := by
  unfold pathJoin
  rw [if_neg (by simpa using ha)]
  split <;> rfl

theorem pathJoin_inj {folder a b : String} (ha : a.toList.head? ≠ some '/') (hb : b.toList.head? ≠ some '/')
    (h : pathJoin folder a = pathJoin folder b) : a = b := by
  rw [pathJoin_rel _ _ ha, pathJoin_rel _ _ hb] at h
  apply String.toList_injective
  have := congrArg String.toList h
  rw [String.toList_append, String.toList_append] at this
  exact List.append_cancel_left this

/-- **C57**. Two runs of a sweep never share a result file: whatever the folder and the lava name, different rates
    give different names. -/
theorem C57_names_distinct (folder lava : String) (a b : Int)
    (h : resultFileName folder lava (toString a) = resultFileName folder lava (toString b)) : a = b := by
  unfold resultFileName at h
  have key : ∀ r : Int, ("results_flowgo_" ++ lava ++ "_" ++ toString r ++ "m3s.csv").toList.head? ≠ some '/' := by
    intro r
    simp [String.toList_append]
  have h1 := congrArg String.toList (pathJoin_inj (key a) (key b) h)
  simp only [String.toList_append] at h1
  exact toString_int_inj (String.toList_injective (List.append_cancel_left (List.append_cancel_right h1)))

variable {α : Type}

/-- **C57/C58**. The configuration of each run of a sweep: the template with another effusion rate and nothing
    else changed. -/
theorem set_spec (base data : Json α) (key : String) (v : Json α) (h : base.set key v = .ok data) :
    TopEntry data key v ∧ ∀ k, k ≠ key → ∀ x, TopEntry data k x ↔ TopEntry base k x := by
  unfold Json.set at h
  have hmap : ∀ (l : List (String × Json α)) (k : String),
      lookup (l.map fun kv => if kv.1 == key then (kv.1, v) else kv) k =
        if k = key then (lookup l k).map fun _ => v else lookup l k := by
    intro l k
    induction l with
    | nil => simp [lookup]
    | cons a rest ih =>
      unfold lookup at ih ⊢
      rw [List.map_cons, List.find?_cons, List.find?_cons]
      by_cases hk : a.1 = k
      · by_cases h2 : a.1 = key
        · have hkk : k = key := hk ▸ h2
          simp [hk, hkk]
        · have h3 : k ≠ key := hk ▸ h2
          simp [hk, h3]
      · have h4 : ((if a.1 == key then (a.1, v) else a).1 == k) = false := by
          split <;> simpa using hk
        have h5 : (a.1 == k) = false := by simpa using hk
        rw [h4, h5]
        exact ih
  have happ : ∀ (l : List (String × Json α)) (k : String), lookup l key = none →
      lookup (l ++ [(key, v)]) k = if k = key then some v else lookup l k := by
    intro l k hl
    unfold lookup at hl ⊢
    rw [List.find?_append]
    by_cases hk : k = key
    · rw [if_pos hk, hk]
      rw [Option.map_eq_none_iff] at hl
      rw [hl]; simp
    · rw [if_neg hk]
      have : ([(key, v)] : List (String × Json α)).find? (fun kv => kv.1 == k) = none := by
        have : (key == k) = false := by simpa using fun e => hk e.symm
        simp [this]
      rw [this, Option.or_none]
  cases base with
  | obj l =>
    dsimp only at h
    split at h
    · rename_i hs
      injection h with h
      obtain ⟨o, ho⟩ := Option.isSome_iff_exists.mp hs
      refine ⟨⟨_, h.symm, by rw [hmap, if_pos rfl, ho]; rfl⟩, fun k hk x => ?_⟩
      unfold TopEntry
      rw [← h]
      simp only [Json.obj.injEq, exists_eq_left']
      rw [hmap, if_neg hk]
    · rename_i hs
      injection h with h
      have hn : lookup l key = none := by simpa using hs
      refine ⟨⟨_, h.symm, by rw [happ l key hn, if_pos rfl]⟩, fun k hk x => ?_⟩
      unfold TopEntry
      rw [← h]
      simp only [Json.obj.injEq, exists_eq_left']
      rw [happ l k hn, if_neg hk]
  | _ => cases h

variable [Add α] [Sub α] [Mul α] [Neg α] [OfScientific α] [PyNum α]

theorem topEntry_unique {data : Json α} {k : String} {a b : Json α} (h1 : TopEntry data k a) (h2 : TopEntry data k b) :
    a = b := by
  obtain ⟨t, ht, h1⟩ := h1
  obtain ⟨t', ht', h2⟩ := h2
  rw [ht] at ht'
  injection ht' with e
  rw [← e, h1] at h2
  injection h2

theorem prepare_cfg {env : Env α} {data : Json α} {log : Log (Cell α)} {pr : Prepared α}
    (h : prepare env data log = .ok pr) : RunConfigFrom env data pr.cfg := by
  unfold prepare at h
  simp only [bind_ok_iff, pure_ok_iff] at h
  obtain ⟨cfg, h1, _, _, _, _, _, _, _, _, _, _, _, _, rfl⟩ := h
  exact (readRunConfig_iff env data cfg).mp h1

/-- What a call of `run` that ended normally wrote: nothing if the log is empty, else one file, named after the
    folder, the lava and the effusion rate of the configuration, with the log as its contents. -/
theorem run_wrote (grid : List α) (fuel : Nat) (env : Env α) (jsonFile folder : String) (p p' : Proc α)
    (h : runOn grid fuel env jsonFile folder p = some (.ok (), p')) :
    p'.json = p.json ∧ ∃ data rate lava, lookup p.json (env.canon jsonFile) = some data ∧
      TopEntry data "effusion_rate_init" rate ∧ TopEntry data "lava_name" lava ∧
      ((p'.log = [] ∧ p'.results = p.results) ∨
       (p'.log ≠ [] ∧ ∃ t, writeValues p'.log = .ok (some t) ∧
         p'.results = (env.canon (resultFileName folder (lava.show env) (rate.show env)), t) :: p.results)) := by
  unfold runOn at h
  split at h
  · simp at h
  · rename_i data hdata
    split at h
    · simp at h
    · rename_i pr hpr
      have hc := prepare_cfg hpr
      split at h
      · cases h
      · simp at h
      · rename_i u w hsim
        split at h
        · simp at h
        · rename_i hw
          simp only [Option.some.injEq, Prod.mk.injEq, true_and] at h
          subst h
          refine ⟨rfl, data, _, _, hdata, hc.1, hc.2.1, Or.inl ⟨?_, rfl⟩⟩
          cases hl : w.log with
          | nil => rfl
          | cons a r =>
            exfalso
            rw [hl] at hw
            unfold writeValues at hw
            obtain ⟨_, _, h⟩ := bind_ok_iff.mp hw
            rw [pure_ok_iff] at h
            cases h
        · rename_i t hw
          simp only [Option.some.injEq, Prod.mk.injEq, true_and] at h
          subst h
          refine ⟨rfl, data, _, _, hdata, hc.1, hc.2.1, Or.inr ⟨?_, t, hw, rfl⟩⟩
          intro hl
          dsimp only at hl
          rw [hl] at hw; simp [writeValues] at hw

/-- **C57**. `get_file_name_results` gives the name of the file `run` has written. -/
theorem C57_get_file_name_results (grid : List α) (fuel : Nat) (env : Env α) (jsonFile folder : String) (p p' : Proc α)
    (h : runOn grid fuel env jsonFile folder p = some (.ok (), p')) :
    ∃ name, getFileNameResults env folder jsonFile p = .ok name ∧
      ((p'.log = [] ∧ p'.results = p.results) ∨ ∃ t, p'.results = (env.canon name, t) :: p.results) := by
  obtain ⟨_, data, rate, lava, h1, h2, h3, h4⟩ := run_wrote grid fuel env jsonFile folder p p' h
  refine ⟨resultFileName folder (lava.show env) (rate.show env), ?_, ?_⟩
  · unfold getFileNameResults
    rw [h1]
    dsimp only
    rw [(get_ok_iff _ _ _).mpr h2, ok_bind]
    unfold requireTop
    rw [has_true_of h3, ok_bind, if_pos rfl, (get_ok_iff _ _ _).mpr h3, ok_bind, pure_ok_iff]
  · rcases h4 with h4 | ⟨_, t, _, h5⟩
    · exact Or.inl h4
    · exact Or.inr ⟨t, h5⟩

/-- `run` never touches a configuration file. -/
theorem run_keeps_json (grid : List α) (fuel : Nat) (env : Env α) (jsonFile folder : String) (p p' : Proc α)
    (r : Except Err Unit) (h : runOn grid fuel env jsonFile folder p = some (r, p')) : p'.json = p.json := by
  unfold runOn at h
  split at h
  · simp only [Option.some.injEq, Prod.mk.injEq] at h; rw [← h.2]
  · split at h
    · simp only [Option.some.injEq, Prod.mk.injEq] at h; rw [← h.2]
    · split at h
      · cases h
      · simp only [Option.some.injEq, Prod.mk.injEq] at h; rw [← h.2]
      · split at h <;> simp only [Option.some.injEq, Prod.mk.injEq] at h <;> rw [← h.2]

/-- A fresh run depends on the configuration files only through the one it reads. -/
theorem freshOutcome_congr (grid : List α) (fuel : Nat) (env : Env α) (jsonFile folder : String)
    (j1 j2 : List (String × Json α)) (h : lookup j1 (env.canon jsonFile) = lookup j2 (env.canon jsonFile)) :
    freshOutcome grid fuel env jsonFile folder j1 = freshOutcome grid fuel env jsonFile folder j2 := by
  unfold freshOutcome runOn
  dsimp only
  rw [h]
  cases lookup j2 (env.canon jsonFile) with
  | none => rfl
  | some data =>
    dsimp only
    cases prepare env data [] with
    | error e => rfl
    | ok pr =>
      dsimp only
      cases simulateOn grid fuel pr.integrator pr.world with
      | none => rfl
      | some o =>
        obtain ⟨r, w⟩ := o
        cases r with
        | error e => rfl
        | ok u =>
          dsimp only
          cases writeValues w.log with
          | error e => rfl
          | ok t => cases t <;> rfl

theorem lookup_cons {ν : Type} (k : String) (v : ν) (l : List (String × ν)) (x : String) :
    lookup ((k, v) :: l) x = if x = k then some v else lookup l x := by
  unfold lookup
  rw [List.find?_cons]
  by_cases h : x = k
  · simp [h]
  · have : (k == x) = false := by simpa using fun e => h e.symm
    rw [this, if_neg h]

/-- One run of the sweep for rate `r`, as `sweep_runs` describes it. -/
def IsSweepRun (grid : List α) (fuel : Nat) (env : Env α) (template : Json α) (working folder : String)
    (r : Int) (o : SweepRun α) : Prop :=
  WithRate template o.config r ∧
  freshOutcome grid fuel env working folder [(env.canon working, o.config)] = some (.ok (), o.log, o.files)

theorem sweepLoop_ok (grid : List α) (fuel : Nat) (env : Env α) (base : Json α) (working folder : String)
    (rates : List Int) (names names' : List String) (p p' : Proc α)
    (h : sweepLoop grid fuel env base working folder rates names p = some (.ok names', p')) :
    ∃ (lv : Json α) (runs : List (SweepRun α)), (rates ≠ [] → TopEntry base "lava_name" lv) ∧
      names' = names ++ rates.map (fun r => resultFileName folder (lv.show env) (toString r)) ∧
      List.Forall₂ (IsSweepRun grid fuel env base working folder) rates runs ∧
      p'.results = runs.reverse.flatMap (·.files) ++ p.results ∧
      (∀ x, x ≠ env.canon working → lookup p'.json x = lookup p.json x) ∧
      (∀ o ∈ runs.getLast?, lookup p'.json (env.canon working) = some o.config ∧ p'.log = o.log) ∧
      (rates = [] → p' = p) := by
  induction rates generalizing names p with
  | nil =>
    unfold sweepLoop at h
    simp only [Option.some.injEq, Prod.mk.injEq, Except.ok.injEq] at h
    obtain ⟨h1, h2⟩ := h
    subst h1; subst h2
    exact ⟨.null, [], by simp, by simp, List.Forall₂.nil, by simp, fun _ _ => rfl, by simp, fun _ => rfl⟩
  | cons r rest ih =>
    unfold sweepLoop at h
    split at h
    · simp at h
    · rename_i data hset
      dsimp only at h
      obtain ⟨hs1, hs2⟩ := set_spec _ _ _ _ hset
      split at h
      · cases h
      · simp at h
      · rename_i u p2 hrun
        split at h
        · simp at h
        · rename_i nm hnm
          obtain ⟨lv, runs, h1, h2, h3, h4, h5, h6, h7⟩ := ih _ _ h
          rw [get_ok_iff] at hnm
          have hnm' : TopEntry base "lava_name" nm := (hs2 _ (by decide) _).mp hnm
          have hfresh : freshOutcome grid fuel env working folder [(env.canon working, data)] =
              freshOutcome grid fuel env working folder (writeFile p.json (env.canon working) data) := by
            apply freshOutcome_congr
            rw [writeFile, lookup_cons, lookup_cons, if_pos rfl, if_pos rfl]
          have hj := run_keeps_json _ _ _ _ _ _ _ _ hrun
          have hj' : p2.json = writeFile p.json (env.canon working) data := hj
          rw [C03_fresh_runner, Option.map_eq_some_iff] at hrun
          obtain ⟨⟨ro, lo, fo⟩, ho, he⟩ := hrun
          simp only [Prod.mk.injEq] at he
          obtain ⟨he1, he2⟩ := he
          rw [he1] at ho
          have hrun' : IsSweepRun grid fuel env base working folder r ⟨data, lo, fo⟩ := ⟨⟨hs1, hs2⟩, hfresh.trans ho⟩
          refine ⟨nm, ⟨data, lo, fo⟩ :: runs, fun _ => hnm', ?_, List.Forall₂.cons hrun' h3, ?_, ?_, ?_, by simp⟩
          · rw [h2, List.map_cons, List.append_assoc]
            congr 1
            by_cases hr : rest = []
            · rw [hr]; rfl
            · rw [topEntry_unique (h1 hr) hnm']; rfl
          · rw [h4, ← he2, List.reverse_cons, List.flatMap_append]
            simp
          · intro x hx
            rw [h5 x hx, hj', writeFile, lookup_cons, if_neg hx]
          · intro o ho
            cases runs with
            | nil =>
              have hr : rest = [] := by cases h3; rfl
              simp only [List.getLast?_singleton, Option.mem_def, Option.some.injEq] at ho
              subst ho
              rw [h7 hr]
              constructor
              · rw [hj', writeFile, lookup_cons, if_pos rfl]
              · rw [← he2]
            | cons a b => exact h6 o (by simpa using ho)

/-- **C57**. A sweep that ends normally is one fresh run per rate, independent of each other and of everything the
    process did before: each on the template with that rate and no other change. The names it returns are those of
    the rates, in order; the files it leaves are those the runs wrote, newest first, before the older files. -/
theorem C57_sweep_is_fresh_runs (grid : List α) (fuel : Nat) (env : Env α) (jsonFile folder : String)
    (first last step : Int) (p p' : Proc α) (names : List String)
    (h : sweep grid fuel env jsonFile folder first last step p = some (.ok names, p')) :
    ∃ (template : Json α) (rates : List Int) (lava : Json α) (runs : List (SweepRun α)),
      lookup p.json (env.canon jsonFile) = some template ∧ sweepRates first last step = .ok rates ∧
      (rates ≠ [] → TopEntry template "lava_name" lava) ∧
      names = rates.map (fun r => resultFileName folder (lava.show env) (toString r)) ∧
      List.Forall₂ (IsSweepRun grid fuel env template (workingFile jsonFile folder) folder) rates runs ∧
      p'.results = runs.reverse.flatMap (·.files) ++ p.results := by
  unfold sweep at h
  split at h
  · simp at h
  · rename_i base hbase
    split at h
    · simp at h
    · rename_i rates hr
      obtain ⟨lv, runs, h1, h2, h3, h4, _⟩ := sweepLoop_ok _ _ _ _ _ _ _ _ _ _ _ h
      exact ⟨base, rates, lv, runs, hbase, hr, h1, by simpa using h2, h3, h4⟩

/-- **C57**. Each run of the sweep that logged anything wrote exactly one file, under the name the sweep returns
    for its rate; a run that logged nothing wrote none. -/
theorem C57_sweep_run_file (grid : List α) (fuel : Nat) (env : Env α) (template : Json α) (working folder : String)
    (r : Int) (o : SweepRun α) (lava : Json α) (hl : TopEntry template "lava_name" lava)
    (h : IsSweepRun grid fuel env template working folder r o) :
    (o.log = [] ∧ o.files = []) ∨ (o.log ≠ [] ∧ ∃ t, writeValues o.log = .ok (some t) ∧
      o.files = [(env.canon (resultFileName folder (lava.show env) (toString r)), t)]) := by
  obtain ⟨⟨h1, h2⟩, h3⟩ := h
  unfold freshOutcome at h3
  rw [Option.map_eq_some_iff] at h3
  obtain ⟨⟨ro, p'⟩, h4, h5⟩ := h3
  simp only [Prod.mk.injEq] at h5
  obtain ⟨h5, h6, h7⟩ := h5
  subst h5
  obtain ⟨_, data, rate, lv, h8, h9, h10, h11⟩ := run_wrote _ _ _ _ _ _ _ h4
  rw [lookup_cons, if_pos rfl] at h8
  injection h8 with h8
  subst h8
  have hr := topEntry_unique h9 h1
  have hlv := topEntry_unique ((h2 _ (by decide) _).mp h10) hl
  rw [hr, hlv] at h11
  rw [← h6, ← h7]
  exact h11

/-- **C57**. The names a sweep returns are pairwise different. -/
theorem C57_sweep_names (grid : List α) (fuel : Nat) (env : Env α) (jsonFile folder : String)
    (first last step : Int) (p p' : Proc α) (names : List String)
    (h : sweep grid fuel env jsonFile folder first last step p = some (.ok names, p')) : names.Nodup := by
  obtain ⟨_, rates, lava, _, _, hr, _, hn, _⟩ := C57_sweep_is_fresh_runs _ _ _ _ _ _ _ _ _ _ _ h
  rw [hn]
  refine List.Nodup.map (fun a b hab => C57_names_distinct _ _ a b hab) ?_
  have hp := pyRange_pairwise hr
  by_cases hs : 0 < step
  · exact (hp.1 hs).imp (fun h => ne_of_lt h)
  · have hne : step ≠ 0 := by
      intro e
      rw [(C56_zero_step first last step).mpr e] at hr
      cases hr
    exact (hp.2 (by omega)).imp (fun h => ne_of_gt h)

/-! ### C58: the template -/

theorem sweepLoop_json (grid : List α) (fuel : Nat) (env : Env α) (base : Json α) (working folder : String)
    (rates : List Int) (names : List String) (p p' : Proc α) (r : Except Err (List String))
    (h : sweepLoop grid fuel env base working folder rates names p = some (r, p')) :
    ∀ x, x ≠ env.canon working → lookup p'.json x = lookup p.json x := by
  induction rates generalizing names p with
  | nil =>
    unfold sweepLoop at h
    simp only [Option.some.injEq, Prod.mk.injEq] at h
    rw [← h.2]; intro _ _; rfl
  | cons q rest ih =>
    unfold sweepLoop at h
    split at h
    · simp only [Option.some.injEq, Prod.mk.injEq] at h
      rw [← h.2]; intro _ _; rfl
    · rename_i data hset
      dsimp only at h
      have key : ∀ p2 : Proc α, p2.json = writeFile p.json (env.canon working) data →
          ∀ x, x ≠ env.canon working → lookup p2.json x = lookup p.json x := by
        intro p2 hp x hx
        rw [hp, writeFile, lookup_cons, if_neg hx]
      split at h
      · cases h
      · rename_i e p2 hrun
        simp only [Option.some.injEq, Prod.mk.injEq] at h
        rw [← h.2]
        exact key p2 (run_keeps_json _ _ _ _ _ _ _ _ hrun)
      · rename_i u p2 hrun
        have hk := key p2 (run_keeps_json _ _ _ _ _ _ _ _ hrun)
        split at h
        · simp only [Option.some.injEq, Prod.mk.injEq] at h
          rw [← h.2]
          exact hk
        · intro x hx
          rw [ih _ _ h x hx, hk x hx]

/-- **C58**. Whether or not the sweep ends normally, it changes at most one configuration file, its working copy:
    the template keeps its contents unless the working copy is the same file. -/
theorem C58_only_the_working_copy (grid : List α) (fuel : Nat) (env : Env α) (jsonFile folder : String)
    (first last step : Int) (p p' : Proc α) (r : Except Err (List String))
    (h : sweep grid fuel env jsonFile folder first last step p = some (r, p')) (file : String)
    (hfile : env.canon file ≠ env.canon (workingFile jsonFile folder)) :
    lookup p'.json (env.canon file) = lookup p.json (env.canon file) := by
  unfold sweep at h
  split at h
  · simp only [Option.some.injEq, Prod.mk.injEq] at h; rw [← h.2]
  · split at h
    · simp only [Option.some.injEq, Prod.mk.injEq] at h; rw [← h.2]
    · exact sweepLoop_json _ _ _ _ _ _ _ _ _ _ _ h _ hfile

/-- **C58**. After a sweep that ended normally the working copy holds the template with the last rate run; an
    empty sweep changes nothing at all. -/
theorem C58_working_copy (grid : List α) (fuel : Nat) (env : Env α) (jsonFile folder : String)
    (first last step : Int) (p p' : Proc α) (names : List String)
    (h : sweep grid fuel env jsonFile folder first last step p = some (.ok names, p')) :
    ∃ template rates, lookup p.json (env.canon jsonFile) = some template ∧ sweepRates first last step = .ok rates ∧
      (rates = [] → p' = p) ∧
      ∀ r ∈ rates.getLast?, ∃ data, lookup p'.json (env.canon (workingFile jsonFile folder)) = some data ∧
        WithRate template data r := by
  unfold sweep at h
  split at h
  · simp at h
  · rename_i base hbase
    split at h
    · simp at h
    · rename_i rates hr
      obtain ⟨lv, runs, h1, h2, h3, h4, h5, h6, h7⟩ := sweepLoop_ok _ _ _ _ _ _ _ _ _ _ _ h
      refine ⟨base, rates, hbase, hr, h7, fun r hlast => ?_⟩
      have hF : ∃ o ∈ runs.getLast?, IsSweepRun grid fuel env base (workingFile jsonFile folder) folder r o := by
        clear h6 h4 h2 h1 h hr h7
        induction h3 with
        | nil => simp at hlast
        | @cons a b l1 l2 hab htail ih =>
          cases htail with
          | nil =>
            simp only [List.getLast?_singleton, Option.mem_def, Option.some.injEq] at hlast
            subst hlast
            exact ⟨b, by simp, hab⟩
          | @cons a' b' l1' l2' hab' htail' =>
            obtain ⟨o, ho, hi⟩ := ih (by simpa using hlast)
            exact ⟨o, by simpa using ho, hi⟩
      obtain ⟨o, ho, hi⟩ := hF
      exact ⟨o.config, (h6 o ho).1, hi.1⟩

/-- **C58** (what users do not expect). With the results folder set to the template's own folder, the working copy
    is the template file itself. -/
theorem C58_same_folder (folder name : String) (hn : '/' ∉ name.toList) :
    workingFile (pathJoin folder name) folder = pathJoin folder name := by
  have hhead : name.toList.head? ≠ some '/' := by
    intro h
    exact hn (List.mem_of_mem_head? h)
  unfold workingFile
  congr 1
  unfold baseName
  rw [pathJoin_rel _ _ hhead]
  apply String.toList_injective
  rw [String.toList_ofList, String.toList_append, List.reverse_append]
  have hall : ∀ c ∈ name.toList.reverse, (c != '/') = true := by
    intro c hc
    rw [bne_iff_ne]
    intro e
    exact hn (e ▸ List.mem_reverse.mp hc)
  rw [List.takeWhile_append_of_pos hall]
  have hrest : ∀ l : List Char, (l = [] ∨ l.getLast? = some '/') → l.reverse.takeWhile (fun x => x != '/') = [] := by
    rintro l (rfl | hl)
    · rfl
    · rw [← List.head?_reverse] at hl
      cases hr : l.reverse with
      | nil => rfl
      | cons a b => rw [hr] at hl; simp only [List.head?_cons, Option.some.injEq] at hl; rw [hl]; simp
  rw [hrest]
  · simp
  · split
    · rename_i hc
      rw [Bool.or_eq_true] at hc
      rcases hc with hc | hc
      · left
        rw [String.isEmpty_iff] at hc
        rw [hc]; rfl
      · right
        simpa using hc
    · right
      rw [String.toList_append]
      simp

end PyFlowGo
