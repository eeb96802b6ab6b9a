import Verif.Proofs.Footprint
/-
  What a sweep touches, and what is on the disk at every moment.
-/
set_option linter.unusedSectionVars false
namespace PyFlowGo
open Spec
variable {α : Type} [Add α] [Sub α] [Mul α] [Neg α] [OfScientific α] [PyNum α]

/-- The first rates of a sweep are a sweep. -/
theorem sweepRates_take {first last step : Int} {rates : List Int} (h : sweepRates first last step = .ok rates) (m : Nat) (hm : m ≤ rates.length) :
    sweepRates first (first + step * m - step) step = .ok (rates.take m) := by
  unfold sweepRates pyRange at h ⊢
  by_cases h0 : step = 0
  · rw [if_pos h0] at h; cases h
  rw [if_neg h0] at h ⊢
  by_cases hp : 0 < step
  · rw [if_pos hp] at h ⊢
    obtain rfl := (Except.ok.inj h).symm
    simp only [List.length_map, List.length_range] at hm
    rw [← List.map_take, List.take_range, Nat.min_eq_left hm]
    have : (first + step * m - step + step - first + step - 1) / step = m := by
      have e : first + step * m - step + step - first + step - 1 = (step - 1) + step * m := by omega
      rw [e, Int.add_mul_ediv_left _ _ h0, Int.ediv_eq_zero_of_lt (by omega) (by omega)]
      omega
    rw [this, Int.toNat_natCast]
  · rw [if_neg hp] at h ⊢
    obtain rfl := (Except.ok.inj h).symm
    simp only [List.length_map, List.length_range] at hm
    rw [← List.map_take, List.take_range, Nat.min_eq_left hm]
    have : (first - (first + step * m - step + step) + -step - 1) / -step = m := by
      have e : first - (first + step * m - step + step) + -step - 1 = (-step - 1) + (-step) * m := by
        have : (-step) * (m : Int) = -(step * m) := Int.neg_mul _ _
        omega
      rw [e, Int.add_mul_ediv_left _ _ (by omega), Int.ediv_eq_zero_of_lt (by omega) (by omega)]
      omega
    rw [this, Int.toNat_natCast]

/-- A sweep over rates and one more. -/
theorem sweepTextLoop_snoc (grid : List α) (fuel : Nat) (F : TextFormat α) (sn : α → List Char) (base : Json α) (working folder : String)
    (pre : List Int) (r : Int) : ∀ (names0 names : List String) (d dm dn : Files) (data nm : Json α),
    sweepTextLoop grid fuel F sn base working folder pre names0 d = some (.ok names, dm) →
    base.set "effusion_rate_init" (.int r) = .ok data →
    runTextOn grid fuel F working folder (writeFile dm (F.canon working) (stored F.windows (jsonDump sn data))) = some (.ok (), dn) →
    data.get "lava_name" = .ok nm →
    sweepTextLoop grid fuel F sn base working folder (pre ++ [r]) names0 d =
      some (.ok (names ++ [resultFileName folder (nm.show (textEnv F [])) (toString r)]), dn) := by
  induction pre with
  | nil =>
    intro names0 names d dm dn data nm h hset hrun hn
    unfold sweepTextLoop at h
    obtain ⟨h1, h2⟩ := Prod.mk.inj (Option.some.inj h)
    obtain rfl := Except.ok.inj h1
    subst h2
    rw [List.nil_append]
    unfold sweepTextLoop
    rw [hset]
    dsimp only
    rw [hrun]
    dsimp only
    rw [hn]
    dsimp only
    unfold sweepTextLoop
    have e : nm.show (textEnv F dn) = nm.show (textEnv F []) := by cases nm <;> rfl
    rw [e]
  | cons r0 pre ih =>
    intro names0 names d dm dn data nm h hset hrun hn
    rw [List.cons_append]
    unfold sweepTextLoop at h ⊢
    split at h
    · simp at h
    rename_i data0 hset0
    split at h
    · cases h
    · simp at h
    rename_i u disk2 hrun0
    split at h
    · simp at h
    exact ih _ _ _ _ _ _ _ h hset hrun hn

/-- What a sweep does at every moment. -/
structure SweepMoment (M : Machine α) (template : Json α) (jsonFile folder : String) (first last step : Int) (rates : List Int) (d : Files)
    (a : Action) (e : Files) : Prop where
  reads : ∀ q, a = .reads q → SweepReads M.F d jsonFile folder q
  writes : ∀ q, a = .writes q → SweepWrites M.F d jsonFile folder first last step q
  files : HalfDone M template jsonFile folder first step rates d e

theorem sweepLoop_along (M : Machine α) (template : Json α) (jsonFile folder : String) (first last step : Int) (rates : List Int) (d : Files)
    (text : List Char) (hl : lookup d (M.F.canon jsonFile) = some text) (ht : JsonText M.F.float (universal text) template)
    (hnums : NumsAll (Readable M.F.float M.numText) template) (hrates : sweepRates first last step = .ok rates) :
    ∀ (rest pre : List Int) (names : List String) (e dm : Files), rates = pre ++ rest → SameDisk e dm →
      sweepTextLoop M.grid M.fuel M.F M.numText template (workingFile jsonFile folder) folder pre [] d = some (.ok names, dm) →
      Along (SweepMoment M template jsonFile folder first last step rates d)
        (sweepLoopProg M.grid M.fuel M.F M.numText M.flush template (workingFile jsonFile folder) folder rest names) e := by
  have hj : jsonLoad M.F.float text = .ok template := (jsonLoads_iff M.F.float _ template).mpr ht
  have hdist := C79_loaded_keys_distinct M.F.float text template hj
  have hholds : Holds M.F d jsonFile template := ⟨text, hl, ht⟩
  intro rest
  induction rest with
  | nil =>
    intro pre names e dm hpre hsame hloop
    have hhalf : HalfDone M template jsonFile folder first step rates d e := by
      refine ⟨pre.length, first + step * pre.length - step, names, dm, ?_, ?_, Or.inl hsame⟩
      · exact sweepRates_take hrates _ (by rw [hpre]; simp)
      · unfold sweepText
        rw [hl]
        dsimp only
        rw [hj]
        dsimp only
        rw [sweepRates_take hrates pre.length (by rw [hpre]; simp)]
        dsimp only
        have : rates.take pre.length = pre := by rw [hpre]; simp
        rw [this]
        exact hloop
    exact ⟨(fun q h => by cases h), (fun q h => by cases h), hhalf⟩
  | cons r rest ih =>
    intro pre names e dm hpre hsame hloop
    have hsweep : ∃ last', sweepRates first last' step = .ok (rates.take pre.length) ∧
        sweepText M.grid M.fuel M.F M.numText jsonFile folder first last' step d = some (.ok names, dm) := by
      refine ⟨first + step * pre.length - step, sweepRates_take hrates _ (by rw [hpre]; simp), ?_⟩
      unfold sweepText
      rw [hl]
      dsimp only
      rw [hj]
      dsimp only
      rw [sweepRates_take hrates pre.length (by rw [hpre]; simp)]
      dsimp only
      have : rates.take pre.length = pre := by rw [hpre]; simp
      rw [this]
      exact hloop
    obtain ⟨last', hs1, hs2⟩ := hsweep
    have hr : rates[pre.length]? = some r := by rw [hpre]; simp
    have hmem : r ∈ rates := by rw [hpre]; simp
    have hbusy : ∀ e', Busy M template (workingFile jsonFile folder) folder dm r e' → HalfDone M template jsonFile folder first step rates d e' :=
      fun e' h => ⟨pre.length, last', names, dm, hs1, hs2, Or.inr ⟨r, hr, h⟩⟩
    have hquiet : ∀ e', SameDisk e' dm → HalfDone M template jsonFile folder first step rates d e' :=
      fun e' h => ⟨pre.length, last', names, dm, hs1, hs2, Or.inl h⟩
    unfold sweepLoopProg
    cases hset : template.set "effusion_rate_init" (.int r) with
    | error x => exact ⟨(fun q h => by cases h), (fun q h => by cases h), hquiet _ hsame⟩
    | ok data =>
      dsimp only
      obtain ⟨t1, t2⟩ := set_spec _ _ _ _ hset
      have hwith : WithRate template data r := ⟨t1, fun k hk x => t2 k hk x⟩
      have hload : JsonText M.F.float (universal (stored M.F.windows (jsonDump M.numText data))) data :=
        (jsonLoads_iff M.F.float _ data).mp (C79_round_trip M.F.float M.numText data (set_distinct hset hdist (by simp [DistinctKeys]))
          (set_nums hset hnums (by simp [NumsAll])) M.F.windows)
      have huniq : ∀ (e1 : Files) data', lookup e1 (M.F.canon (workingFile jsonFile folder)) = some (stored M.F.windows (jsonDump M.numText data)) →
          Holds M.F e1 (workingFile jsonFile folder) data' → data' = data := by
        rintro e1 data' h1 ⟨text', h2, h3⟩
        rw [h1] at h2
        obtain rfl := Option.some.inj h2
        have a := (jsonLoads_iff M.F.float _ _).mpr h3
        rw [(jsonLoads_iff M.F.float _ _).mpr hload] at a
        exact (Except.ok.inj a).symm
      generalize htx : stored M.F.windows (jsonDump M.numText data) = tx at *
      refine save_along M.flush _ tx _ e (fun e' he' => ⟨(fun q h => by cases h), (fun q h => ?_), hbusy e' ⟨data, hwith, by rw [htx]; exact hload, fun q => ?_⟩⟩) fun e1 he1 => ?_
      · cases h
        exact ⟨template, rates, r, hholds, hrates, hmem, Or.inl rfl⟩
      · rw [htx]
        by_cases hq : q = M.F.canon (workingFile jsonFile folder)
        · subst hq
          rcases he'.file with h | ⟨n, h⟩
          · exact Or.inl (by rw [h, hsame])
          · exact Or.inr (Or.inl ⟨rfl, n, h⟩)
        · exact Or.inl (by rw [he'.others q hq, hsame])
      have he1d : SameDisk e1 (writeFile dm (M.F.canon (workingFile jsonFile folder)) tx) := he1.trans (hsame.write _ _)
      have hlk : lookup e1 (M.F.canon (workingFile jsonFile folder)) = some tx := by rw [he1d, lookup_writeFile, if_pos rfl]
      -- what the run may write
      have hwr : ∀ q, RunWrites M.F e1 (workingFile jsonFile folder) folder q →
          ∃ lava, TopEntry template "lava_name" lava ∧ q = M.F.canon (resultFileName folder (lava.show (textEnv M.F [])) (toString r)) := by
        rintro q ⟨data', rate, lava, h1, h2, h3, rfl⟩
        obtain rfl := huniq e1 data' hlk h1
        have : rate = .int r := topEntry_unique h2 t1
        subst this
        exact ⟨lava, (t2 _ (by decide) _).mp h3, rfl⟩
      -- the disk while the run is going on
      have hfiles : ∀ e', (∀ q, lookup e' q = lookup e1 q ∨ RunWrites M.F e1 (workingFile jsonFile folder) folder q ∧
          ∃ out n, runTextOn M.grid M.fuel M.F (workingFile jsonFile folder) folder e1 = some (.ok (), (q, out) :: e1) ∧
            lookup e' q = some (out.take n)) → HalfDone M template jsonFile folder first step rates d e' := by
        intro e' h
        refine hbusy e' ⟨data, hwith, by rw [htx]; exact hload, fun q => ?_⟩
        rw [htx]
        rcases h q with h | ⟨hw, out, n, h1, h3⟩
        · rw [h, he1d, lookup_writeFile]
          split
          · rename_i hq
            exact Or.inr (Or.inl ⟨hq.symm, tx.length, by rw [List.take_length]⟩)
          · exact Or.inl rfl
        · obtain ⟨lava, w1, w2⟩ := hwr q hw
          refine Or.inr (Or.inr ⟨lava, out, n, w1, w2, ?_, h3⟩)
          obtain ⟨outcome, a, b, _⟩ := C82_inputs_determine_result M.F M.grid M.fuel (workingFile jsonFile folder) folder e1
            (writeFile dm (M.F.canon (workingFile jsonFile folder)) tx) tx tx data hlk (by rw [lookup_writeFile, if_pos rfl]) hload hload
            (fun path _ => by rw [he1d])
          have b : runTextOn M.grid M.fuel M.F (workingFile jsonFile folder) folder ((M.F.canon (workingFile jsonFile folder), tx) :: dm) = _ := b
          rw [b]
          rw [h1] at a
          cases outcome with
          | none => cases a
          | some o =>
            obtain ⟨a1, a2⟩ := Prod.mk.inj (Option.some.inj a)
            have a3 : o.2 = [(q, out)] := List.append_cancel_right (as := o.2) (bs := e1) (cs := [(q, out)]) a2.symm
            simp only [Option.map_some, ← a1, a3]
            rfl
      have hrun := run_along M.grid M.fuel M.F M.flush (workingFile jsonFile folder) folder e1
      have hrun2 : ∀ a e', RunMoment M.grid M.fuel M.F (workingFile jsonFile folder) folder e1 a e' →
          SweepMoment M template jsonFile folder first last step rates d a e' := by
       intro a e' h
       refine ⟨fun q hq => ?_, fun q hq => ?_, hfiles e' h.files⟩
       · rcases h.reads q hq with h | ⟨data', path, h1, h2, h3⟩
         · exact Or.inr ⟨template, hholds, Or.inl h⟩
         · obtain rfl := huniq e1 data' hlk h1
           exact Or.inr ⟨template, hholds, Or.inr ⟨path, (mayRead_withRate hwith path).mp h2, h3⟩⟩
       · obtain ⟨lava, w1, w2⟩ := hwr q (h.writes q hq)
         exact ⟨template, rates, r, hholds, hrates, hmem, Or.inr ⟨lava, w1, w2⟩⟩
      refine Along.bind (hrun.mono hrun2).weaken ?_
      -- after the run
      have hend : HalfDone M template jsonFile folder first step rates d
          ((runProg M.grid M.fuel M.F M.flush (workingFile jsonFile folder) folder).run e1).2 := by
        obtain ⟨N, hN⟩ := alone_ends (runProg M.grid M.fuel M.F M.flush (workingFile jsonFile folder) folder) e1
        have h := hfiles _ (hrun.at N).files
        rw [hN N le_rfl] at h
        exact h
      obtain ⟨d', g1, g2⟩ := run_solo M.grid M.fuel M.F M.flush (workingFile jsonFile folder) folder e1
      cases ho : ((runProg M.grid M.fuel M.F M.flush (workingFile jsonFile folder) folder).run e1).1 with
      | none => exact ⟨(fun q h => by cases h), (fun q h => by cases h), hend⟩
      | some o =>
        cases o with
        | error x => exact ⟨(fun q h => by cases h), (fun q h => by cases h), hend⟩
        | ok u =>
          dsimp only
          cases hn : data.get "lava_name" with
          | error x => exact ⟨(fun q h => by cases h), (fun q h => by cases h), hend⟩
          | ok nm =>
            dsimp only
            rw [ho] at g2
            rcases runTextOn_same M.grid M.fuel M.F (workingFile jsonFile folder) folder he1d with ⟨a, _⟩ | ⟨o, x, y, a, b, c⟩
            · rw [a] at g2; cases g2
            · rw [a] at g2
              obtain ⟨k1, k2⟩ := Prod.mk.inj (Option.some.inj g2)
              subst k1 k2
              refine ih (pre ++ [r]) _ _ y (by rw [hpre]; simp) (g1.trans c) ?_
              exact sweepTextLoop_snoc _ _ _ _ _ _ _ pre r _ _ _ _ _ _ _ hloop hset (by rw [htx]; exact b) hn

theorem sweep_along (M : Machine α) (jsonFile folder : String) (first last step : Int) (d : Files) {template : Json α}
    (hh : Holds M.F d jsonFile template) (hnums : NumsAll (Readable M.F.float M.numText) template) {rates : List Int}
    (hrates : sweepRates first last step = .ok rates) :
    Along (SweepMoment M template jsonFile folder first last step rates d)
      (sweepProg M.grid M.fuel M.F M.numText M.flush jsonFile folder first last step) d := by
  obtain ⟨text, hl, ht⟩ := hh
  have hj : jsonLoad M.F.float text = .ok template := (jsonLoads_iff M.F.float _ template).mpr ht
  have h0 := sweepLoop_along M template jsonFile folder first last step rates d text hl ht hnums hrates rates [] [] d d rfl (SameDisk.refl d)
    (by unfold sweepTextLoop; rfl)
  refine ⟨⟨fun q h => ?_, (fun q h => by cases h), ?_⟩, ?_⟩
  · cases h; exact Or.inl rfl
  · exact (h0.now).files
  · rw [hl]
    dsimp only
    rw [hj]
    dsimp only
    rw [hrates]
    exact h0

/-- A sweep that does not get as far as its first rate touches nothing but the template. -/
theorem sweep_refused (M : Machine α) (jsonFile folder : String) (first last step : Int) (d : Files)
    (h : (∀ template : Json α, ¬ Holds M.F d jsonFile template) ∨ ∃ x, sweepRates first last step = .error x) :
    Along (fun a e => e = d ∧ (∀ q, a = .reads q → q = M.F.canon jsonFile) ∧ ∀ q, a ≠ .writes q)
      (sweepProg M.grid M.fuel M.F M.numText M.flush jsonFile folder first last step) d := by
  refine ⟨⟨rfl, (fun q h => by cases h; rfl), (fun q h => by cases h)⟩, ?_⟩
  have hret : ∀ r : Option (Except Err (List String)), Along (fun a e => e = d ∧ (∀ q, a = .reads q → q = M.F.canon jsonFile) ∧ ∀ q, a ≠ .writes q) (.ret r) d :=
    fun r => ⟨rfl, (fun q h => by cases h), (fun q h => by cases h)⟩
  cases hl : lookup d (M.F.canon jsonFile) with
  | none => exact hret _
  | some text =>
    dsimp only
    cases hj : jsonLoad M.F.float text with
    | error x => exact hret _
    | ok template =>
      dsimp only
      rcases h with h | ⟨x, h⟩
      · exact absurd ⟨text, hl, (jsonLoads_iff M.F.float _ template).mp hj⟩ (h template)
      · rw [h]
        exact hret _

end PyFlowGo
