import Verif.Props.SweepOrderText
import Verif.Props.SweepOrderExample
import Verif.Props.SweepFullTextExample
import Verif.Props.RunOutsDiskExample
import Verif.Props.SweepRange
/-
  A concrete case for C123 on the texts of the files: the shipped template with rain as its only heat loss, swept over two rates from text to text.
-/
set_option linter.unusedSectionVars false
namespace PyFlowGo
open Spec

/-! ### A number format with ten decimals -/

/-- A number format: multiples of 1e-10, `1500e-10`. -/
noncomputable def fineText (x : ℝ) : List Char := dumpInt ⌊10000000000 * x⌋ ++ ['e', '-', '1', '0']

/-- … and how `float` reads it. -/
noncomputable def fineFloat (t : List Char) : Option ℝ := if t.isEmpty then none else some (intValue (t.take (t.length - 4)) / 10000000000)

/-- Rounding down to ten decimals. -/
noncomputable def fineRound (x : ℝ) : ℝ := ⌊10000000000 * x⌋ / 10000000000

theorem ten_reads (x : ℝ) : fineFloat (fineText x) = some (fineRound x) := by
  have := (scanInt_complete (r := []) (dumpInt_text ⌊10000000000 * x⌋) (fun c hc => by simp at hc)).2
  simp [fineFloat, fineText, fineRound, this]

theorem ten_literal (x : ℝ) : RealText (fineText x) :=
  ⟨dumpInt ⌊10000000000 * x⌋, _, [], ['e', '-', '1', '0'], by simp [fineText], dumpInt_text _, Or.inl rfl,
    Or.inr (by
      refine ⟨'e', ['-'], '1', ['0'], ?_, ?_, ?_, ?_, ?_⟩ <;> simp [IsDigit]), Or.inr (by simp)⟩

theorem ten_readable (x : ℝ) (h : fineRound x = x) : Readable fineFloat fineText x :=
  ⟨Or.inl (ten_literal x), by rw [ten_reads, h]⟩

/-- Numbers with at most ten decimals are kept. -/
theorem ten_kept (n : ℤ) (x : ℝ) (h : x = n / 10000000000) : fineRound x = x := by
  unfold fineRound
  rw [h, mul_div_cancel₀ _ (by norm_num), Int.floor_intCast]

theorem ten_int (n : ℤ) : fineRound n = n := ten_kept (n * 10000000000) _ (by push_cast; ring)

theorem fineRound_mono : Monotone fineRound := by
  intro x y h
  unfold fineRound
  have : ⌊10000000000 * x⌋ ≤ ⌊10000000000 * y⌋ := Int.floor_le_floor (by linarith)
  have : ((⌊10000000000 * x⌋ : ℤ) : ℝ) ≤ ((⌊10000000000 * y⌋ : ℤ) : ℝ) := by exact_mod_cast this
  linarith

theorem ten_chars (x : ℝ) : ∀ c ∈ fineText x, IsDigit c ∨ c = '-' ∨ c = 'e' := by
  have hint : ∀ n : ℤ, ∀ c ∈ dumpInt n, IsDigit c ∨ c = '-' := by
    intro n c hc
    cases n with
    | ofNat n => exact Or.inl ((natDigits_spec n).2.1 c hc)
    | negSucc n =>
      rcases List.mem_cons.mp hc with h | h
      · exact Or.inr h
      · exact Or.inl ((natDigits_spec (n + 1)).2.1 c h)
  intro c hc
  rcases List.mem_append.mp hc with h | h
  · rcases hint _ c h with h | h
    · exact Or.inl h
    · exact Or.inr (Or.inl h)
  · simp only [List.mem_cons, List.not_mem_nil, or_false] at h
    rcases h with rfl | rfl | rfl | rfl
    · exact Or.inr (Or.inr rfl)
    · exact Or.inr (Or.inl rfl)
    · exact Or.inl (by simp [IsDigit])
    · exact Or.inl (by simp [IsDigit])

theorem ten_clean (x : ℝ) (c : Char) (hc : c = '\r' ∨ c = '\n' ∨ c = '\t') : c ∉ fineText x := by
  intro h
  rcases hc with rfl | rfl | rfl <;> rcases ten_chars x _ h with h | h | h <;> simp [IsDigit] at h

/-- The platform of the example. -/
noncomputable def fineFormat (windows : Bool) : TextFormat ℝ :=
  { float := fineFloat, str := fun c => fineText c.value, showOther := fun _ => "", canon := id, windows := windows }

/-- The slope profile of the example as a text. -/
noncomputable def fineProfile : List Char :=
  tabFile .lf true ['h'] [[fineText 0, fineText 0, fineText 0, fineText 0, fineText 12],
    [fineText 0, fineText 0, fineText 0, fineText 15000, fineText 3]]

/-- … and its samples. -/
noncomputable def fineRows : List (SlopeLine ℝ) := [⟨0, 0, 0, 0, 12⟩, ⟨0, 0, 0, 15000, 3⟩]

theorem ten_zero : fineFloat (fineText 0) = some 0 := by rw [ten_reads]; simpa using ten_int 0
theorem ten_far : fineFloat (fineText 15000) = some 15000 := by rw [ten_reads]; simpa using ten_int 15000

theorem ten_lines : dataLines fineProfile = [[fineText 0, fineText 0, fineText 0, fineText 0, fineText 12],
    [fineText 0, fineText 0, fineText 0, fineText 15000, fineText 3]] := by
  have hone : ∀ x, '\t' ∉ fineText x ∧ OneLine (fineText x) := fun x =>
    ⟨ten_clean x _ (by simp), ten_clean x _ (by simp), ten_clean x _ (by simp)⟩
  refine dataLines_tabFile .lf true ['h'] (by simp [OneLine]) _ ?_ (Or.inl rfl)
  intro r hr
  simp only [List.mem_cons, List.not_mem_nil, or_false] at hr
  rcases hr with rfl | rfl
  · exact ⟨by simp, by simp [hone]⟩
  · exact ⟨by simp, by simp [hone]⟩

theorem ten_profile : slopeRows fineFloat (dataLines fineProfile) = .ok fineRows := by
  have h0 := ten_zero
  have h1 : fineFloat (fineText 12) = some 12 := by rw [ten_reads]; simpa using ten_int 12
  have h3 : fineFloat (fineText 3) = some 3 := by rw [ten_reads]; simpa using ten_int 3
  have h2 := ten_far
  have hone : ∀ x, '\t' ∉ fineText x ∧ OneLine (fineText x) := fun x =>
    ⟨ten_clean x _ (by simp), ten_clean x _ (by simp), ten_clean x _ (by simp)⟩
  have hk : keepSlopeLines fineRows = fineRows := by
    unfold keepSlopeLines fineRows
    have a : leB (12 : ℝ) 0.1 = false := by
      rw [Bool.eq_false_iff]; simp only [ne_eq, leB_real]; norm_num
    have b : leB (3 : ℝ) 0.1 = false := by
      rw [Bool.eq_false_iff]; simp only [ne_eq, leB_real]; norm_num
    simp [a, b]
  rw [← hk]
  refine (C73_same_samples fineFloat .lf ['h'] (by simp [OneLine]) _ _ ?_ ?_ 0).2.2
  · intro r hr
    simp only [List.mem_cons, List.not_mem_nil, or_false] at hr
    rcases hr with rfl | rfl
    · exact ⟨by simp, by simp [hone]⟩
    · exact ⟨by simp, by simp [hone]⟩
  · refine .cons ?_ (.cons ?_ .nil) <;> simp [RowIs, h0, h1, h2, h3]

/-- The samples within a distance. -/
theorem ten_samples (limit : ℝ) (h0 : 0 ≤ limit) : ∃ samples, samples ≠ [] ∧ SamplesUpTo fineFloat limit (dataLines fineProfile) samples := by
  rw [ten_lines]
  rcases lt_or_ge limit 15000 with h | h
  · exact ⟨_, by simp, .near h0 ⟨_, rfl, ten_zero⟩ ⟨_, rfl, ten_zero⟩ ⟨_, rfl, ten_zero⟩ ⟨_, rfl, ten_zero⟩ (.far h ⟨_, rfl, ten_far⟩ .nil)⟩
  · exact ⟨_, by simp, .near h0 ⟨_, rfl, ten_zero⟩ ⟨_, rfl, ten_zero⟩ ⟨_, rfl, ten_zero⟩ ⟨_, rfl, ten_zero⟩
      (.near h ⟨_, rfl, ten_zero⟩ ⟨_, rfl, ten_zero⟩ ⟨_, rfl, ten_zero⟩ ⟨_, rfl, ten_far⟩ .nil)⟩

theorem ten_usable : usableRows fineRows = [⟨0, 0, 0, 0, 12⟩, ⟨0, 0, 0, 15000, 3⟩] := by
  unfold usableRows fineRows
  norm_num

/-- The template's numbers have at most ten decimals. -/
theorem template_fine (a b : String) : fineRound (templateNum a b) = templateNum a b := by
  unfold templateNum
  split
  · exact ten_kept 100000000000 _ (by norm_num)
  · exact ten_kept 45000000000 _ (by norm_num)
  · exact ten_kept 14000000000 _ (by norm_num)
  · exact ten_kept 98100000000 _ (by norm_num)
  · exact ten_kept 300000000000000 _ (by norm_num)
  · exact ten_kept 13871500000000 _ (by norm_num)
  · exact ten_kept 10000000000000 _ (by norm_num)
  · exact ten_kept 0 _ (by norm_num)
  · exact ten_kept 10000000000 _ (by norm_num)
  · exact ten_kept 1040000000 _ (by norm_num)
  · exact ten_kept 29700000000000 _ (by norm_num)
  · exact ten_kept 6400000000 _ (by norm_num)
  · exact ten_kept 0 _ (by norm_num)
  · exact ten_kept 567 _ (by norm_num)
  · exact ten_kept 9500000000 _ (by norm_num)
  · exact ten_kept 7731500000000 _ (by norm_num)
  · exact ten_kept 190000000000 _ (by norm_num)
  · exact ten_kept 793 _ (by norm_num)
  · exact ten_kept 9580000000000 _ (by norm_num)
  · exact ten_kept 28000000000000000 _ (by norm_num)
  · exact ten_kept 50000000000 _ (by norm_num)
  · exact ten_kept 36000000 _ (by norm_num)
  · exact ten_kept 2931500000000 _ (by norm_num)
  · exact ten_kept 4412000000 _ (by norm_num)
  · exact ten_kept 10990000000000 _ (by norm_num)
  · exact ten_kept 1400000000000 _ (by norm_num)
  · exact ten_kept 10000000000 _ (by norm_num)
  · exact ten_kept (-75600000) _ (by norm_num)
  · exact ten_kept 7731500000000 _ (by norm_num)
  · exact ten_kept 23600000000 _ (by norm_num)
  · exact ten_kept (-45200000000) _ (by norm_num)
  · exact ten_kept 55580000000000 _ (by norm_num)
  · exact ten_kept 5829000000000 _ (by norm_num)
  · exact ten_kept 8960000000 _ (by norm_num)
  · exact ten_kept 12371500000000 _ (by norm_num)
  · exact ten_kept 3500000000000000 _ (by norm_num)
  · exact ten_kept 6410000000 _ (by norm_num)
  · exact ten_kept 32700000000 _ (by norm_num)
  · exact ten_kept 10000000000 _ (by norm_num)
  · exact ten_kept 10000000000 _ (by norm_num)

/-- The disk of the example: the template and the slope profile. -/
noncomputable def fineDisk (R : Int) : List (String × List Char) :=
  [("lava.json", jsonDump fineText (rainConfig (.int R))), ("slope.txt", fineProfile)]

theorem ten_load (windows : Bool) (r : Int) :
    jsonLoad (fineFormat windows).float (stored windows (jsonDump fineText (rainConfig (.int r)))) = .ok (rainConfig (.int r)) :=
  C79_round_trip fineFloat fineText (rainConfig (.int r)) (still_distinct _ _ _)
    (still_nums _ _ (fun a b => ten_readable _ (template_fine a b)) _ _) windows

theorem ten_prepared (rate : Json ℝ) (e : ℝ) : rainPrepared rate e fineRows = rainPrepared rate e templateRows := by
  have : profileFor (templateTerrain e none) fineRows = profileFor (templateTerrain e none) templateRows := by
    unfold profileFor
    rw [if_neg (by simp [templateTerrain]), if_neg (by simp [templateTerrain])]
    unfold rawProfile
    rw [template_usable, ten_usable]
  unfold rainPrepared templatePrepared
  rw [this]

/-- One run of the template on any disk with the slope profile and the configuration for the rate `R`. -/
theorem ten_run : ∃ r0 : ℝ, 0 < r0 ∧ ∀ R : Int, r0 ≤ (R : ℝ) →
    Sensible (rainPrepared (.int R) R templateRows).integrator (rainPrepared (.int R) R templateRows).world.terrain 0 ∧
    AtVent (rainPrepared (.int R) R templateRows).integrator (rainPrepared (.int R) R templateRows).world ∧
    ∃ log t, writeValues log = .ok (some t) ∧
      (∀ R', Flowed (rainPrepared (.int R') R' templateRows) (0.896 / (1387.15 - 1237.15)) log) ∧
      (∀ windows round, ∃ line, runOutOfText round fineFloat (stored windows (t.text fun c => fineText c.value)) (some fineProfile) = .ok line) ∧
      ∀ windows disk, lookup disk "slope.txt" = some fineProfile →
        prepare (textEnv (fineFormat windows) disk) (rainConfig (.int R)) [] = .ok (rainPrepared (.int R) R templateRows) ∧
        ∀ working folder p, lookup p.json working = some (rainConfig (.int R)) →
        runOn depthGrid 3000 (textEnv (fineFormat windows) disk) working folder (newRunner p) = some (.ok (),
          { json := p.json, results := (resultFileName folder "example" (toString R), t) :: p.results, log := log }) := by
  obtain ⟨r0, h0, h⟩ := rain_run_at
  refine ⟨r0, h0, fun R hR => ?_⟩
  obtain ⟨a1, a2, a3, w', D, b1, b2, b3, b4, b5, b6, b7⟩ := h (.int R) R rfl hR
  refine ⟨a2, a3, ?_⟩
  obtain ⟨t0, ht0, hnone⟩ := C04_write_never_fails (fun c => beq_self_eq_true c) depthGrid 3000 _ _ w' rfl b1
  obtain ⟨t, rfl⟩ : ∃ t, t0 = some t := by
    cases t0 with
    | some t => exact ⟨t, rfl⟩
    | none =>
      rw [hnone.mp rfl] at b2
      cases b2
  have hpre : ∀ windows disk, lookup disk "slope.txt" = some fineProfile →
      prepare (textEnv (fineFormat windows) disk) (rainConfig (.int R)) [] = .ok (rainPrepared (.int R) R templateRows) := by
    intro windows disk hslope
    have hs : (textEnv (fineFormat windows) disk).slopeFile "slope.txt" = some fineRows := by
      show (lookup disk "slope.txt").bind (fun t => (slopeRows fineFloat (dataLines t)).toOption) = _
      rw [hslope, Option.bind_some, ten_profile]
      rfl
    rw [← ten_prepared]
    exact rain_prepare _ _ _ rfl fineRows hs (by rw [ten_usable]; simp) (by rw [ten_usable]; simp)
  refine ⟨w'.log, t, ht0, fun R' => ⟨D, b2, b5, b6, b7⟩, fun windows round => ?_, fun windows disk hslope => ⟨hpre windows disk hslope, fun working folder p hp => ?_⟩⟩
  swap
  · exact (runOn_of (env := textEnv (fineFormat windows) disk) (p := newRunner p) (jsonFile := working) (folder := folder) hp (hpre windows disk hslope) b1).1 t ht0
  have hrun := (runOn_of (env := rainEnv) (p := newRunner ⟨[("lava.json", rainConfig (.int R))], [], []⟩) (jsonFile := "lava.json") (folder := "out")
    (by rw [show (newRunner (⟨[("lava.json", rainConfig (.int R))], [], []⟩ : Proc ℝ)).json = [("lava.json", rainConfig (.int R))] from rfl, lookup_cons_eq]; exact if_pos rfl) a1 b1).1 t ht0
  have hdata : lookup (⟨[("lava.json", rainConfig (.int R))], [], []⟩ : Proc ℝ).json (rainEnv.canon "lava.json") = some (rainConfig (.int R)) := by
    rw [lookup_cons_eq]; exact if_pos rfl
  -- the positions
  obtain ⟨W, l1, l2, l3⟩ : ∃ W1, W1.log = [] ∧ W1.st.pos = 0 ∧ runLoop (rainPrepared (.int R) R templateRows).integrator 3000 W1 = some (.ok (), w') := by
    have hsim := b1
    unfold simulateOn at hsim
    have k0 := initEffusion_keeps (rainPrepared (.int R) R templateRows).integrator.models.lava depthGrid (rainPrepared (.int R) R templateRows).world
    cases hi : initEffusionRateOn depthGrid (rainPrepared (.int R) R templateRows).integrator.models.lava (rainPrepared (.int R) R templateRows).world with
    | mk o W1 =>
      rw [hi] at hsim k0
      obtain ⟨k1, k2, _⟩ := k0
      cases o with
      | error e => cases hsim
      | ok _ => exact ⟨W1, k1, k2, hsim⟩
  have hcol := run_positions_column _ a2.step 3000 W w' l1 l3
  have hkeys := run_positions _ a2.step 3000 W w' l1 l3
  obtain ⟨k, c1, c2⟩ := C124_complete_rows rainEnv "lava.json" "out" _ _ (rainConfig (.int R)) _ hdata rfl a1 a2 a3 3000 hrun
  have hk : w'.log.length = k := by
    rcases c2 with c2 | ⟨_, y, hy, hy0⟩
    · exact c2
    · exact absurd (b7 _ _ hy) (not_lt.mpr hy0)
  have hk2 : 2 ≤ k := by
    obtain ⟨i, hi, e⟩ := (c1 10).mp b4
    have e : (10 : ℝ) = 0 + i * 10 := e
    have : (i : ℝ) = 1 := by linarith
    have : i = 1 := by exact_mod_cast this
    omega
  have hn2 : 2 ≤ w'.log.length := hk.ge.trans' hk2
  have hpost := C124_post_processing rainEnv "lava.json" "out" _ _ (rainConfig (.int R)) _ hdata rfl a1 a2 a3 (fun h => by cases h) 3000 hrun round t ht0 fineRows
  obtain ⟨ro, hro⟩ := hpost.mpr ⟨hn2, by
    show ∃ y, loggedNum w'.log (0 + ((w'.log.length : ℝ) - 1) * 10) "heat_budget" = some y ∧ 0 < y
    have hc : CompleteRow w'.log (0 + ((w'.log.length : ℝ) - 1) * 10) := by
      refine (c1 _).mpr ⟨k - 1, by omega, ?_⟩
      show _ = (0 : ℝ) + ((k - 1 : ℕ) : ℝ) * 10
      rw [hk, Nat.cast_sub (by omega), Nat.cast_one]
    obtain ⟨_, _, hp, _⟩ := C119_run rainEnv "lava.json" "out" _ _ (rainConfig (.int R)) _ hdata a1 a2 a3 (fun h => by cases h) 3000 hrun
    exact (hp _ hc).heat_budget, by
    refine ⟨⟨0, 0, 0, 0, 12⟩, List.mem_cons_self, ?_⟩
    show (0 : ℝ) ≤ 2 * 0 + (w'.log.length : ℝ) * 10
    positivity⟩
  obtain ⟨hcols, _⟩ := (C59_run_out_line round _ t ht0 fineRows ro).mp hro
  have hx : ∀ i : ℕ, (fun i : ℕ => W.st.pos + (i : ℝ) * (rainPrepared (.int R) R templateRows).integrator.dx) i = ((i * 10 : ℤ) : ℝ) := by
    intro i
    show W.st.pos + (i : ℝ) * 10 = _
    rw [l2]; push_cast; ring
  obtain ⟨samples, hs1, hs2⟩ := ten_samples (fineRound (((w'.log.length - 1 : ℕ) * 10 : ℤ) : ℝ) + fineRound (((1 : ℕ) * 10 : ℤ) : ℝ)) (by
    rw [ten_int, ten_int]
    push_cast
    have : (0 : ℝ) ≤ ((w'.log.length - 1 : ℕ) : ℝ) := Nat.cast_nonneg _
    linarith)
  refine C90_complete_result_is_reported (fineFormat windows) fineRound fineRound_mono (fun c => ten_reads _)
    (fun c => ten_clean _ _ (by simp)) w'.log t ht0 ?_ hcols _ hcol _ _ (List.mem_map.mpr ⟨w'.log.length - 1, List.mem_range.mpr (by omega), hx _⟩) ?_
    (by rw [List.getElem?_map, List.getElem?_range (by omega)]; exact congrArg some (hx 1)) fineProfile samples hs1 hs2 round
  · obtain ⟨r0, rest, e0, e⟩ := writeValues_header ht0
    intro m hm
    rw [e] at hm
    exact noCr_columns _ m ((hkeys 0 r0 (by rw [e0]; rfl)).2 m hm)
  · intro x hx'
    obtain ⟨i, hi, rfl⟩ := List.mem_map.mp hx'
    have := List.mem_range.mp hi
    have hxi := hx i
    dsimp only at hxi
    rw [hxi]
    exact_mod_cast (by omega : (i : ℤ) * 10 ≤ ((w'.log.length - 1 : ℕ) : ℤ) * 10)

theorem rain_set (rate : Json ℝ) (r : Int) : (rainConfig rate).set "effusion_rate_init" (.int r) = .ok (rainConfig (.int r)) := rfl

theorem rain_with (rate : Json ℝ) (r : Int) : WithRate (rainConfig rate) (rainConfig (.int r)) r := by
  obtain ⟨a, b⟩ := set_spec _ _ _ _ (rain_set rate r)
  exact ⟨a, b⟩

/-- A run from text to text. -/
theorem ten_run_text (windows : Bool) (R : Int) (t : CsvTable (Cell ℝ)) (log : Log (Cell ℝ)) (disk : List (String × List Char))
    (hrun : ∀ working folder p, lookup p.json working = some (rainConfig (.int R)) →
        runOn depthGrid 3000 (textEnv (fineFormat windows) disk) working folder (newRunner p) = some (.ok (),
          { json := p.json, results := (resultFileName folder "example" (toString R), t) :: p.results, log := log }))
    (jsonFile folder : String) (hjson : lookup disk jsonFile = some (stored windows (jsonDump fineText (rainConfig (.int R))))) :
    runTextOn depthGrid 3000 (fineFormat windows) jsonFile folder disk =
        some (.ok (), (resultFileName folder "example" (toString R), stored windows (t.text fun c => fineText c.value)) :: disk) := by
  have h1 := hrun jsonFile folder ⟨[(jsonFile, rainConfig (.int R))], [], []⟩ (by rw [lookup_cons_eq]; exact if_pos rfl)
  unfold runTextOn
  rw [show (fineFormat windows).canon jsonFile = jsonFile from rfl, hjson]
  dsimp only
  rw [ten_load]
  dsimp only
  rw [h1]
  rfl

/-- The sweep over two rates, from text to text. -/
theorem ten_sweep (windows : Bool) (R : Int) (t0 t1 : CsvTable (Cell ℝ)) (log0 log1 : Log (Cell ℝ))
    (run0 : ∀ disk, lookup disk "slope.txt" = some fineProfile → ∀ working folder p, lookup p.json working = some (rainConfig (.int R)) →
        runOn depthGrid 3000 (textEnv (fineFormat windows) disk) working folder (newRunner p) = some (.ok (),
          { json := p.json, results := (resultFileName folder "example" (toString R), t0) :: p.results, log := log0 }))
    (run1 : ∀ disk, lookup disk "slope.txt" = some fineProfile → ∀ working folder p, lookup p.json working = some (rainConfig (.int (R + 1))) →
        runOn depthGrid 3000 (textEnv (fineFormat windows) disk) working folder (newRunner p) = some (.ok (),
          { json := p.json, results := (resultFileName folder "example" (toString (R + 1)), t1) :: p.results, log := log1 })) :
    sweepText depthGrid 3000 (fineFormat windows) fineText "lava.json" "out" R (R + 1) 1 (fineDisk R) =
      some (.ok [resultFileName "out" "example" (toString R), resultFileName "out" "example" (toString (R + 1))],
          (resultFileName "out" "example" (toString (R + 1)), stored windows (t1.text fun c => fineText c.value)) ::
          ("out/lava.json", stored windows (jsonDump fineText (rainConfig (.int (R + 1))))) ::
          (resultFileName "out" "example" (toString R), stored windows (t0.text fun c => fineText c.value)) ::
          ("out/lava.json", stored windows (jsonDump fineText (rainConfig (.int R)))) :: fineDisk R) := by
  have hl : lookup (fineDisk R) ((fineFormat windows).canon "lava.json") = some (jsonDump fineText (rainConfig (.int R))) := by
    show lookup (fineDisk R) "lava.json" = _
    unfold fineDisk; rw [lookup_cons_eq, if_pos rfl]
  have hload : jsonLoad (fineFormat windows).float (jsonDump fineText (rainConfig (.int R))) = .ok (rainConfig (.int R)) := by
    have := ten_load false R
    simp only [stored, Bool.false_eq_true, if_false] at this
    exact this
  have hslope : lookup (fineDisk R) "slope.txt" = some fineProfile := by
    unfold fineDisk; rw [lookup_cons_eq, if_neg (by simp), lookup_cons_eq, if_pos rfl]
  have hwork : workingFile "lava.json" "out" = "out/lava.json" := by decide
  have hname : ∀ r : Int, ∀ d, (rainConfig (.int r)).get "lava_name" = .ok (.str "example") ∧
      (Json.str "example" : Json ℝ).show (textEnv (fineFormat windows) d) = "example" := fun r d => ⟨rfl, rfl⟩
  unfold sweepText
  rw [hl]
  dsimp only
  rw [hload]
  dsimp only
  rw [rates_two]
  dsimp only
  rw [hwork]
  unfold sweepTextLoop
  rw [rain_set]
  dsimp only
  have s0 : lookup (writeFile (fineDisk R) ((fineFormat windows).canon "out/lava.json")
      (stored (fineFormat windows).windows (jsonDump fineText (rainConfig (.int R))))) "slope.txt" = some fineProfile := by
    rw [writeFile, lookup_cons_eq, if_neg (by show "out/lava.json" ≠ _; decide)]; exact hslope
  rw [ten_run_text windows R t0 log0 _ (run0 _ s0) "out/lava.json" "out" (by rw [writeFile, lookup_cons_eq]; exact if_pos rfl)]
  dsimp only
  rw [(hname R []).1]
  dsimp only
  rw [(hname R _).2]
  unfold sweepTextLoop
  rw [rain_set]
  dsimp only
  have s1 : lookup (writeFile ((resultFileName "out" "example" (toString R), stored windows (t0.text fun c => fineText c.value)) :: writeFile (fineDisk R) ((fineFormat windows).canon "out/lava.json")
      (stored (fineFormat windows).windows (jsonDump fineText (rainConfig (.int R)))))
      ((fineFormat windows).canon "out/lava.json")
      (stored (fineFormat windows).windows (jsonDump fineText (rainConfig (.int (R + 1)))))) "slope.txt" = some fineProfile := by
    rw [writeFile, lookup_cons_eq, if_neg (by show "out/lava.json" ≠ _; decide), lookup_cons_eq,
          if_neg (fun e => out_result_ne (toString R) "slope.txt" (by decide) e.symm)]
    exact s0
  rw [ten_run_text windows (R + 1) t1 log1 _ (run1 _ s1) "out/lava.json" "out" (by rw [writeFile, lookup_cons_eq]; exact if_pos rfl)]
  dsimp only
  rw [(hname (R + 1) []).1]
  dsimp only
  rw [(hname (R + 1) _).2]
  unfold sweepTextLoop
  rfl

theorem rain_mayRead (R : Int) (path : String) (h : MayRead (rainConfig (.int R)) path) :
    path = "slope.txt" ∨ path = "resources/crust_temperature_profile.txt" := by
  have hs : ∀ v, TopEntry (rainConfig (.int R)) "slope_file" v → v = .str "slope.txt" := by
    rintro v ⟨top, he, hv⟩
    unfold rainConfig exConfigR exConfigM at he
    rw [Json.obj.injEq] at he
    rw [← he, lookup_cons_eq, if_neg (by decide), lookup_cons_eq, if_pos rfl] at hv
    exact (Option.some.inj hv).symm
  rcases h with h | ⟨h, _⟩ | h
  · left
    have := hs _ h
    rw [Json.str.injEq] at this
    exact this
  · cases hs _ h
  · exact Or.inr h

theorem ten_apart (windows : Bool) (R : Int) : Apart (fineFormat windows) (rainConfig (.int R)) "example" "lava.json" "out" "slope.txt" := by
  have hwork : workingFile "lava.json" "out" = "out/lava.json" := by decide
  have htab : runOutsPath "out" "example" = "out/run_outs_example.csv" := by decide
  refine ⟨?_, ?_, ?_, ?_, ?_⟩
  · intro path hp
    have hp' : path = "slope.txt" ∨ path = "resources/crust_temperature_profile.txt" := by
      rcases hp with hp | hp
      · exact rain_mayRead R path hp
      · exact Or.inl hp
    rw [hwork]
    show path ≠ "out/lava.json" ∧ ∀ r : Int, path ≠ resultFileName "out" "example" (toString r)
    rcases hp' with rfl | rfl
    · exact ⟨by decide, fun r => out_result_ne _ _ (by decide)⟩
    · exact ⟨by decide, fun r => out_result_ne _ _ (by decide)⟩
  · intro a b h
    exact C57_names_distinct "out" "example" a b h
  · intro r
    rw [hwork]
    exact fun e => out_result_ne _ "out/lava.json" (by decide) e.symm
  · intro r
    exact out_result_ne _ "lava.json" (by decide)
  · rw [htab]
    refine ⟨by show "slope.txt" ≠ "out/run_outs_example.csv"; decide, fun r e => ?_⟩
    have e : resultFileName "out" "example" (toString r) = "out/run_outs_example.csv" := e
    have := congrArg String.toList e
    rw [out_result] at this
    have h6 := congrArg (fun l : List Char => l.take 6) this
    simp at h6

/-- **C123**, non-vacuity on texts: the sweep ends normally, the figure of run-outs has two points and the table two lines, and the second is neither shorter nor shallower than the first. -/
example (windows : Bool) (round : Nat → ℝ → ℝ) (hround : ∀ a b, a ≤ b → round 0 a ≤ round 0 b) :
    ∃ (R : Int) (names : List String) (disk1 disk' : List (String × List Char)) (fig : RunOutFigure ℝ) (a b : ℝ), 0 < R ∧
    sweepText depthGrid 3000 (fineFormat windows) fineText "lava.json" "out" R (R + 1) 1 (fineDisk R) = some (.ok names, disk1) ∧
    getRunOutsText round (fineFormat windows) "out" names "slope.txt" "example" disk1 = (.ok fig, disk') ∧
    fig.distance = [a, b] ∧ a ≤ b ∧
    ∃ table rows lines, lookup disk' "out/run_outs_example.csv" = some table ∧ dictRead ',' table = .ok rows ∧
      List.Forall₂ (RunOutShown fineFloat fineRound "example") lines rows ∧ lines.length = 2 ∧
      lines.Pairwise fun a b => a.runOut ≤ b.runOut ∧ a.depth ≤ b.depth := by
  obtain ⟨r0, h0, h⟩ := ten_run
  obtain ⟨R, hR⟩ := exists_int_gt r0
  obtain ⟨hg, hv, log0, t0, b1, b4, b5, run0⟩ := h R hR.le
  obtain ⟨_, _, log1, t1, c1, c4, c5, run1⟩ := h (R + 1) (by push_cast; linarith)
  have hR0 : 0 < R := by exact_mod_cast h0.trans hR
  have hsweep := ten_sweep windows R t0 t1 log0 log1 (fun disk hd => (run0 windows disk hd).2) (fun disk hd => (run1 windows disk hd).2)
  have hslope : lookup (fineDisk R) "slope.txt" = some fineProfile := by
    unfold fineDisk; rw [lookup_cons_eq, if_neg (by simp), lookup_cons_eq, if_pos rfl]
  have hl : lookup (fineDisk R) ((fineFormat windows).canon "lava.json") = some (jsonDump fineText (rainConfig (.int R))) := by
    show lookup (fineDisk R) "lava.json" = _
    unfold fineDisk; rw [lookup_cons_eq, if_pos rfl]
  have hload : JsonText (fineFormat windows).float (universal (jsonDump fineText (rainConfig (.int R)))) (rainConfig (.int R)) := by
    have := ten_load false R
    simp only [stored, Bool.false_eq_true, if_false] at this
    exact (jsonLoads_iff _ _ _).mp this
  have hne : resultFileName "out" "example" (toString R) ≠ resultFileName "out" "example" (toString (R + 1)) := fun he => by
    have := C57_names_distinct _ _ _ _ he; omega
  have hap := ten_apart windows R
  obtain ⟨l0, hl0⟩ := b5 windows round
  obtain ⟨l1, hl1⟩ := c5 windows round
  set disk1 := (resultFileName "out" "example" (toString (R + 1)), stored windows (t1.text fun c => fineText c.value)) ::
          ("out/lava.json", stored windows (jsonDump fineText (rainConfig (.int (R + 1))))) ::
          (resultFileName "out" "example" (toString R), stored windows (t0.text fun c => fineText c.value)) ::
          ("out/lava.json", stored windows (jsonDump fineText (rainConfig (.int R)))) :: fineDisk R with hdisk1
  have hs1 : lookup disk1 "slope.txt" = some fineProfile := by
    rw [hdisk1, lookup_cons_eq, if_neg (fun e => out_result_ne _ "slope.txt" (by decide) e.symm), lookup_cons_eq,
      if_neg (by show "out/lava.json" ≠ _; decide), lookup_cons_eq, if_neg (fun e => out_result_ne _ "slope.txt" (by decide) e.symm), lookup_cons_eq,
      if_neg (by show "out/lava.json" ≠ _; decide)]
    exact hslope
  obtain ⟨table, rows, g1, g2, g3⟩ := C90_get_run_outs round (fineFormat windows) fineRound (fun c => ten_reads _)
    (fun c => ten_clean _ _ (by simp)) "out" [resultFileName "out" "example" (toString R), resultFileName "out" "example" (toString (R + 1))] "slope.txt" "example" (by decide)
    disk1 [l0, l1] (by simp)
    (by
      intro name hn
      rcases List.mem_cons.mp hn with rfl | hn
      · exact hap.table.1
      · simp only [List.mem_cons, List.not_mem_nil, or_false] at hn
        rcases hn with rfl | rfl
        · exact hap.table.2 R
        · exact hap.table.2 (R + 1))
    (.cons ⟨_, fineProfile, by
        show lookup disk1 (resultFileName "out" "example" (toString R)) = _
        rw [hdisk1, lookup_cons_eq, if_neg (fun e => hne e.symm), lookup_cons_eq,
          if_neg (out_result_ne _ "out/lava.json" (by decide)), lookup_cons_eq]
        exact if_pos rfl, hs1, (C90_run_out_of_a_text _ _ _ _ _).mp hl0⟩
      (.cons ⟨_, fineProfile, by
        show lookup disk1 (resultFileName "out" "example" (toString (R + 1))) = _
        rw [hdisk1, lookup_cons_eq]
        exact if_pos rfl, hs1, (C90_run_out_of_a_text _ _ _ _ _).mp hl1⟩ .nil))
  have hev : Everyday (rainPrepared (.int R) R templateRows).integrator 0 (0.896 / (1387.15 - 1237.15)) :=
    template_everyday rainModels rfl (by
      intro f hf
      have hf : f ∈ [(Flux.rain 7.93e-8 958 2.8e6 : Flux ℝ)] := hf
      rw [List.mem_singleton.mp hf]
      show (0 : ℝ) ≤ 7.93e-8 * 958 * 2.8e6
      norm_num) false 10 0
  have hflow : ∀ r ∈ [R, R + 1], ∀ d q, WithRate (rainConfig (.int R)) d r →
      run 3000 (textEnv (fineFormat windows) (fineDisk R)) (workingFile "lava.json" "out") "out" ⟨[((fineFormat windows).canon (workingFile "lava.json" "out"), d)], [], []⟩ =
        some (.ok (), q) → Flowed (rainPrepared (.int R) R templateRows) (0.896 / (1387.15 - 1237.15)) q.log := by
    have key : ∀ (r : Int) (t : CsvTable (Cell ℝ)) (log : Log (Cell ℝ)),
        (∀ working folder p, lookup p.json working = some (rainConfig (.int r)) →
          runOn depthGrid 3000 (textEnv (fineFormat windows) (fineDisk R)) working folder (newRunner p) = some (.ok (),
          { json := p.json, results := (resultFileName folder "example" (toString r), t) :: p.results, log := log })) →
        ∀ d q, WithRate (rainConfig (.int R)) d r →
          run 3000 (textEnv (fineFormat windows) (fineDisk R)) (workingFile "lava.json" "out") "out" ⟨[((fineFormat windows).canon (workingFile "lava.json" "out"), d)], [], []⟩ =
            some (.ok (), q) → q.log = log := by
      intro r t log hr d q hd hq
      have hview := sameView_rate (fun _ _ _ => Iff.rfl) hd (rain_with (.int R) r)
      obtain ⟨o, e1, e2⟩ := view_run depthGrid 3000 (textEnv (fineFormat windows) (fineDisk R)) (workingFile "lava.json" "out") "out"
        ⟨[((fineFormat windows).canon (workingFile "lava.json" "out"), d)], [], []⟩
        ⟨[((fineFormat windows).canon (workingFile "lava.json" "out"), rainConfig (.int r))], [], []⟩ d (rainConfig (.int r))
        (by rw [lookup_cons_eq]; exact if_pos rfl) (by rw [lookup_cons_eq]; exact if_pos rfl) rfl rfl hview
      have e3 := hr (workingFile "lava.json" "out") "out" ⟨[((fineFormat windows).canon (workingFile "lava.json" "out"), rainConfig (.int r))], [], []⟩
        (by rw [lookup_cons_eq]; exact if_pos rfl)
      have e2' := e2.symm.trans e3
      have e1' := e1.symm.trans hq
      obtain ⟨x, rfl, hx⟩ := Option.map_eq_some_iff.mp e2'
      rw [Option.map_some, Option.some.injEq] at e1'
      have a := congrArg (fun z => z.2.log) e1'
      have b := congrArg (fun z => z.2.log) hx
      dsimp only at a b
      exact a.symm.trans b
    intro r hr d q hd hq
    simp only [List.mem_cons, List.not_mem_nil, or_false] at hr
    rcases hr with rfl | rfl
    · rw [key _ t0 log0 (run0 windows _ hslope).2 d q hd hq]; exact b4 _
    · rw [key _ t1 log1 (run1 windows _ hslope).2 d q hd hq]; exact c4 _
  obtain ⟨d1, d2, d3⟩ := C123_run_outs_texts 3000 round (fineFormat windows) fineText "lava.json" "out" "slope.txt" R (R + 1) 1 (fineDisk R) _ (rainConfig (.int R)) (.str "example")
    fineRound fineRound_mono (fun c => ten_reads _) (fun c => ten_clean _ _ (by simp)) hl hload
    (still_nums _ _ (fun a b => ten_readable _ (template_fine a b)) _ _) ⟨_, rfl, rfl⟩ (by show '\r' ∉ "example".toList; decide) hap hR0 (by decide)
    [R, R + 1] (rates_two R) rainChoice (exConfig_selects _ _) _ (run0 windows _ hslope).1 hg hv _ hev (fun h => by cases h) hflow hround fineProfile hslope
    (by
      rw [ten_lines]
      refine List.pairwise_cons.mpr ⟨fun y hy a b ha hb => ?_, List.pairwise_singleton _ _⟩
      rw [List.mem_singleton.mp hy] at hb
      obtain ⟨_, e1, e2⟩ := ha
      obtain ⟨_, e3, e4⟩ := hb
      cases Option.some.inj e1
      cases Option.some.inj e3
      have e2 := ten_zero.symm.trans e2
      have e4 := ten_far.symm.trans e4
      rw [← Option.some.inj e2, ← Option.some.inj e4]
      norm_num) _ disk1 _ _ hsweep g1
  refine ⟨R, _, disk1, _, _, fineRound l0.runOut, fineRound l1.runOut, hR0, hsweep, g1, rfl, ?_, ?_⟩
  · simpa using d2
  · obtain ⟨table', rows', lines', k1, k2, k3, k4, k5⟩ := d3
    have hshow : (Json.str "example" : Json ℝ).show (textEnv (fineFormat windows) (fineDisk R)) = "example" := rfl
    have htab' : runOutsPath "out" "example" = "out/run_outs_example.csv" := by decide
    rw [hshow, htab'] at k1
    exact ⟨table', rows', lines', k1, k2, k3, k4, k5⟩

end PyFlowGo
