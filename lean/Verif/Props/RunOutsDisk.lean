import Verif.Model.RunOutsDisk
import Verif.Spec.RunOutsDisk
import Verif.Props.RunOuts
import Verif.Props.Plot
import Verif.Props.RunOutText
import Verif.Props.SlopeText
import Verif.Props.RunTextMore
/-
  C90: run-outs from the texts of the result files.
-/
set_option linter.unusedSectionVars false
namespace PyFlowGo
open Spec

theorem floatField_iff (pf : List Char → Option ℝ) (fs : List (List Char)) (i : Nat) (x : ℝ) :
    floatField pf fs i = .ok x ↔ FieldIs pf fs i x := by
  unfold floatField FieldIs
  cases fs[i]? with
  | none => simp
  | some f =>
    dsimp only
    cases h : pf f <;> simp [h]

theorem runOutRows_iff (pf : List Char → Option ℝ) (limit : ℝ) (rows : List (List (List Char))) (kept : List (ℝ × ℝ × ℝ × ℝ)) :
    runOutRows pf limit rows = .ok kept ↔ SamplesUpTo pf limit rows kept := by
  induction rows generalizing kept with
  | nil =>
    rw [runOutRows]
    constructor
    · intro h; cases h; exact .nil
    · intro h; cases h; rfl
  | cons fs rest ih =>
    rw [runOutRows]
    constructor
    · intro h
      obtain ⟨d, hd, h⟩ := bind_ok_iff.mp h
      rw [floatField_iff] at hd
      split at h
      · rename_i hle
        rw [leB_real] at hle
        obtain ⟨a, ha, h⟩ := bind_ok_iff.mp h
        obtain ⟨o, ho, h⟩ := bind_ok_iff.mp h
        obtain ⟨e, he, h⟩ := bind_ok_iff.mp h
        obtain ⟨ks, hk, h⟩ := bind_ok_iff.mp h
        rw [pure_ok_iff] at h
        subst h
        rw [floatField_iff] at ha ho he
        exact .near hle ha ho he hd ((ih ks).mp hk)
      · rename_i hle
        rw [leB_real, not_le] at hle
        exact .far hle hd ((ih kept).mp h)
    · intro h
      cases h with
      | near hle ha ho he hd hr =>
        rw [(floatField_iff _ _ _ _).mpr hd, ok_bind, if_pos (by rw [leB_real]; exact hle), (floatField_iff _ _ _ _).mpr ha, ok_bind,
          (floatField_iff _ _ _ _).mpr ho, ok_bind, (floatField_iff _ _ _ _).mpr he, ok_bind, (ih _).mpr hr, ok_bind]
        rfl
      | far hlt hd hr =>
        rw [(floatField_iff _ _ _ _).mpr hd, ok_bind, if_neg (by rw [leB_real, not_le]; exact hlt), (ih _).mpr hr]

theorem readRunOutRow_iff (pf : List Char → Option ℝ) (row : List (List Char × Option (List Char))) (v : RunOutRow ℝ) :
    readRunOutRow pf row = .ok v ↔ (∀ c ∈ runOutColumns, ∃ x, dictFloat pf row c = .ok x) ∧
      dictFloat pf row "position" = .ok v.position ∧ dictFloat pf row "channel_width" = .ok v.width ∧
      dictFloat pf row "channel_depth" = .ok v.depth ∧ dictFloat pf row "effusion_rate" = .ok v.rate := by
  unfold readRunOutRow
  simp only [bind_ok_iff, pure_ok_iff, runOutColumns, List.forall_mem_cons, List.not_mem_nil, false_implies, implies_true, and_true]
  constructor
  · rintro ⟨a, ha, b, hb, c, hc, d, hd, e, he, f, hf, g, hg, h, hh, i, hi, j, hj, rfl⟩
    exact ⟨⟨⟨a, ha⟩, ⟨b, hb⟩, ⟨c, hc⟩, ⟨d, hd⟩, ⟨e, he⟩, ⟨f, hf⟩, ⟨g, hg⟩, ⟨h, hh⟩, ⟨i, hi⟩, ⟨j, hj⟩⟩, ha, hg, hh, hi⟩
  · rintro ⟨⟨_, ⟨b, hb⟩, ⟨c, hc⟩, ⟨d, hd⟩, ⟨e, he⟩, ⟨f, hf⟩, _, _, _, ⟨j, hj⟩⟩, ha, hg, hh, hi⟩
    exact ⟨_, ha, b, hb, c, hc, d, hd, e, he, f, hf, _, hg, _, hh, _, hi, j, hj, rfl⟩

theorem mapM_exists {β γ : Type} (f : β → Except Err γ) (l : List β) : (∃ ys, l.mapM f = .ok ys) ↔ ∀ x ∈ l, ∃ y, f x = .ok y := by
  constructor
  · rintro ⟨ys, h⟩ x hx
    obtain ⟨i, hi, rfl⟩ := List.getElem_of_mem hx
    obtain ⟨hl, hg⟩ := List.forall₂_iff_get.mp ((mapM_ok_iff _ _ _).mp h)
    exact ⟨_, hg i hi (by omega)⟩
  · intro h
    induction l with
    | nil => exact ⟨[], rfl⟩
    | cons a l ih =>
      obtain ⟨y, hy⟩ := h a (by simp)
      obtain ⟨ys, hys⟩ := ih (fun x hx => h x (by simp [hx]))
      exact ⟨y :: ys, by rw [List.mapM_cons, hy, ok_bind, hys, ok_bind]; rfl⟩

theorem readRows_iff (pf : List Char → Option ℝ) (dicts : List (List (List Char × Option (List Char)))) (vs : List (RunOutRow ℝ)) :
    dicts.mapM (readRunOutRow pf) = .ok vs ↔ (∀ c ∈ runOutColumns, ∃ xs, dicts.mapM (fun r => dictFloat pf r c) = .ok xs) ∧
      dicts.mapM (fun r => dictFloat pf r "position") = .ok (vs.map (·.position)) ∧
      dicts.mapM (fun r => dictFloat pf r "channel_width") = .ok (vs.map (·.width)) ∧
      dicts.mapM (fun r => dictFloat pf r "channel_depth") = .ok (vs.map (·.depth)) ∧
      dicts.mapM (fun r => dictFloat pf r "effusion_rate") = .ok (vs.map (·.rate)) := by
  simp only [mapM_exists]
  simp only [mapM_ok_iff, List.forall₂_map_right_iff, readRunOutRow_iff]
  constructor
  · intro h
    refine ⟨?_, h.imp fun _ _ h => h.2.1, h.imp fun _ _ h => h.2.2.1, h.imp fun _ _ h => h.2.2.2.1, h.imp fun _ _ h => h.2.2.2.2⟩
    intro c hc x hx
    obtain ⟨i, hi, rfl⟩ := List.getElem_of_mem hx
    obtain ⟨hl, hg⟩ := List.forall₂_iff_get.mp h
    exact (hg i hi (by omega)).1 c hc
  · rintro ⟨h0, h1, h2, h3, h4⟩
    obtain ⟨hl, g1⟩ := List.forall₂_iff_get.mp h1
    obtain ⟨_, g2⟩ := List.forall₂_iff_get.mp h2
    obtain ⟨_, g3⟩ := List.forall₂_iff_get.mp h3
    obtain ⟨_, g4⟩ := List.forall₂_iff_get.mp h4
    refine List.forall₂_iff_get.mpr ⟨hl, fun i hi hi' => ⟨fun c hc => h0 c hc _ (List.getElem_mem _), g1 i hi hi', g2 i hi hi', g3 i hi hi',
      g4 i hi hi'⟩⟩

/-- **C90**. The line of the run-out table for a result file: what is reported is read off the text of the file and of the slope
    profile as `RunOutLine` says, and nothing is reported exactly when there is no such reading. -/
theorem C90_run_out_of_a_text (round : Nat → ℝ → ℝ) (pf : List Char → Option ℝ) (text profile : List Char) (line : RunOut ℝ) :
    runOutOfText round pf text (some profile) = .ok line ↔
      ∃ far second q0 samples, RunOutLine round pf text profile line far second q0 samples := by
  unfold runOutOfText
  simp only [bind_ok_iff, pure_ok_iff, maxList_iff, listGet_ok_iff, lastOf_ok_iff, runOutRows_iff, readRows_iff,
    ← List.head?_eq_getElem?, List.head?_map, List.getLast?_map, Option.map_eq_some_iff]
  constructor
  · rintro ⟨dicts, hd, vs, ⟨h0, h1, h2, h3, h4⟩, q0, hq0, far, hfar, d1, hd1, w1, hw1, x1, hx1, samples, hs,
      _, ⟨f, hf, rfl⟩, _, ⟨f2, hf2, rfl⟩, _, ⟨f3, hf3, rfl⟩, _, ⟨l, hl, rfl⟩, _, ⟨l2, hl2, rfl⟩,
      _, ⟨l3, hl3, rfl⟩, _, ⟨l4, hl4, rfl⟩, rfl⟩
    rw [hf] at hf2 hf3
    rw [hl] at hl2 hl3 hl4
    obtain rfl := Option.some.inj hf2
    obtain rfl := Option.some.inj hf3
    obtain rfl := Option.some.inj hl2
    obtain rfl := Option.some.inj hl3
    obtain rfl := Option.some.inj hl4
    have col : ∀ c xs, dicts.mapM (fun r => dictFloat pf r c) = .ok xs → textColumn pf text c = .ok xs := by
      intro c xs h
      unfold textColumn
      rw [hd, ok_bind, h]
    refine ⟨far, x1, q0, samples, fun c hc => ?_, ⟨_, col _ _ h1, hfar.1, hfar.2, hx1⟩, ⟨_, col _ _ h4, ?_⟩, ⟨_, col _ _ h3, hd1⟩,
      ⟨_, col _ _ h2, hw1⟩, hs, rfl, ⟨_, hf, rfl, rfl, rfl⟩, ⟨_, hl, rfl, rfl, rfl, rfl⟩⟩
    · obtain ⟨xs, hxs⟩ := h0 c hc
      exact ⟨xs, col _ _ hxs⟩
    · rw [← List.head?_eq_getElem?, List.head?_map, Option.map_eq_some_iff]
      exact hq0
  · rintro ⟨far, x1, q0, samples, hread, ⟨xs, hx, hfar, hmax, hx1⟩, ⟨qs, hq, hq0⟩, ⟨ds, hd, hd1⟩, ⟨ws, hw, hw1⟩, hs, hr, ⟨f, hf, e1, e2, e3⟩,
      ⟨l, hl, e4, e5, e6, e7⟩⟩
    have col : ∀ c xs, textColumn pf text c = .ok xs → ∃ dicts, dictRead ',' text = .ok dicts ∧
        dicts.mapM (fun r => dictFloat pf r c) = .ok xs := by
      intro c xs h
      unfold textColumn at h
      exact bind_ok_iff.mp h
    obtain ⟨dicts, hdict, hx⟩ := col _ _ hx
    have col : ∀ c xs, textColumn pf text c = .ok xs → dicts.mapM (fun r => dictFloat pf r c) = .ok xs := by
      intro c xs h
      obtain ⟨d', h', h⟩ := col _ _ h
      rw [hdict] at h'
      cases h'
      exact h
    replace hq := col _ _ hq
    replace hd := col _ _ hd
    replace hw := col _ _ hw
    have hex : ∃ vs, dicts.mapM (readRunOutRow pf) = .ok vs := by
      rw [mapM_exists]
      intro row hrow
      have : ∀ c ∈ runOutColumns, ∃ x, dictFloat pf row c = .ok x := by
        intro c hc
        obtain ⟨ys, hys⟩ := hread c hc
        exact (mapM_exists _ _).mp ⟨ys, col _ _ hys⟩ row hrow
      obtain ⟨a, ha⟩ := this "position" (by decide)
      obtain ⟨b, hb⟩ := this "channel_width" (by decide)
      obtain ⟨c, hc⟩ := this "channel_depth" (by decide)
      obtain ⟨d, hd⟩ := this "effusion_rate" (by decide)
      exact ⟨⟨a, b, c, d⟩, (readRunOutRow_iff pf row _).mpr ⟨this, ha, hb, hc, hd⟩⟩
    obtain ⟨vs, hvs⟩ := hex
    have hvs' := (readRows_iff pf dicts vs).mp hvs
    obtain ⟨_, i1, i2, i3, i4⟩ := hvs'
    rw [hx] at i1
    rw [hw] at i2
    rw [hd] at i3
    rw [hq] at i4
    cases i1
    cases i2
    cases i3
    cases i4
    refine ⟨dicts, hdict, vs, (readRows_iff pf dicts vs).mp hvs, q0, ?_, far, ⟨hfar, hmax⟩, _, hd1, _, hw1, x1, hx1, samples, hs,
      _, ⟨f, hf, rfl⟩, _, ⟨f, hf, rfl⟩, _, ⟨f, hf, rfl⟩, _, ⟨l, hl, rfl⟩, _, ⟨l, hl, rfl⟩, _, ⟨l, hl, rfl⟩, _, ⟨l, hl, rfl⟩, ?_⟩
    · rw [← List.head?_eq_getElem?, List.head?_map, Option.map_eq_some_iff] at hq0
      exact hq0
    · cases line
      simp only at e1 e2 e3 e4 e5 e6 e7 hr
      rw [e1, e2, e3, e4, e5, e6, e7, hr]

/-- What is needed to report on a result file: the file, the slope profile and a reading of both. -/
def Reports (round : Nat → ℝ → ℝ) (F : TextFormat ℝ) (disk : List (String × List Char)) (slopeFile name : String) (line : RunOut ℝ) : Prop :=
  ∃ text profile, lookup disk (F.canon name) = some text ∧ lookup disk (F.canon slopeFile) = some profile ∧
    ∃ far second q0 samples, RunOutLine round F.float text profile line far second q0 samples

theorem runOutTexts_cons (round : Nat → ℝ → ℝ) (F : TextFormat ℝ) (disk : List (String × List Char)) (slopeFile name : String)
    (rest : List String) :
    (∀ line, Reports round F disk slopeFile name line → runOutTexts round F disk slopeFile (name :: rest) =
      ((runOutTexts round F disk slopeFile rest).1, line :: (runOutTexts round F disk slopeFile rest).2)) ∧
    ((¬ ∃ line, Reports round F disk slopeFile name line) → ∃ e, runOutTexts round F disk slopeFile (name :: rest) = (.error e, [])) := by
  constructor
  · rintro line ⟨text, profile, h1, h2, h3⟩
    rw [runOutTexts, h1]
    dsimp only
    rw [h2, (C90_run_out_of_a_text round F.float text profile line).mpr h3]
  · intro h
    rw [runOutTexts]
    cases h1 : lookup disk (F.canon name) with
    | none => exact ⟨_, rfl⟩
    | some text =>
      dsimp only
      cases h3 : runOutOfText round F.float text (lookup disk (F.canon slopeFile)) with
      | error e => exact ⟨e, rfl⟩
      | ok line =>
        exfalso
        cases h2 : lookup disk (F.canon slopeFile) with
        | none =>
          rw [h2] at h3
          unfold runOutOfText at h3
          simp [bind_ok_iff] at h3
        | some profile =>
          rw [h2] at h3
          exact h ⟨line, text, profile, h1, h2, (C90_run_out_of_a_text round F.float text profile line).mp h3⟩

theorem runOutTexts_ok (round : Nat → ℝ → ℝ) (F : TextFormat ℝ) (disk : List (String × List Char)) (slopeFile : String)
    (names : List String) (lines : List (RunOut ℝ)) :
    runOutTexts round F disk slopeFile names = (.ok (), lines) ↔ List.Forall₂ (Reports round F disk slopeFile) names lines := by
  induction names generalizing lines with
  | nil =>
    rw [runOutTexts]
    constructor
    · intro h; cases h; exact .nil
    · intro h; cases h; rfl
  | cons name rest ih =>
    obtain ⟨c1, c2⟩ := runOutTexts_cons round F disk slopeFile name rest
    constructor
    · intro h
      by_cases he : ∃ line, Reports round F disk slopeFile name line
      · obtain ⟨line, hl⟩ := he
        rw [c1 line hl, Prod.mk.injEq] at h
        rw [← h.2]
        exact .cons hl ((ih _).mp (Prod.ext h.1 rfl))
      · obtain ⟨e, he⟩ := c2 he
        rw [he] at h
        cases h
    · intro h
      cases h with
      | cons hl hr =>
        rw [c1 _ hl, (ih _).mpr hr]

theorem figureLoop_rounded (pf : List Char → Option ℝ) (render : ℝ → List Char) (rd : ℝ → ℝ) (hpf : ∀ x, pf (render x) = some (rd x))
    (flowId : String) (ls : List (RunOut ℝ)) (id : Option (List Char)) :
    runOutFigureLoop pf (ls.map fun l => dictZip (runOutHeads.map String.toList) (runOutFields render flowId l)) id =
      .ok (if ls = [] then id else some flowId.toList, ls.map fun l => (rd l.runOut, rd l.effusionRate)) := by
  induction ls generalizing id with
  | nil => rfl
  | cons l ls ih =>
    rw [List.map_cons, runOutFigureLoop]
    have h1 : dictField (dictZip (runOutHeads.map String.toList) (runOutFields render flowId l)) "flow_id" =
        .ok (some flowId.toList) := rfl
    have h2 : dictField (dictZip (runOutHeads.map String.toList) (runOutFields render flowId l)) "Effusion_rate" =
        .ok (some (render l.effusionRate)) := rfl
    have h3 : dictField (dictZip (runOutHeads.map String.toList) (runOutFields render flowId l)) "Distance_run_out" =
        .ok (some (render l.runOut)) := rfl
    unfold dictFloat
    rw [h1, h2, h3]
    simp only [ok_bind, hpf, ih]
    cases ls <;> rfl

/-- The line of the run-out file shows these numbers, rounded the way numbers are printed. -/
def RunOutShown (pf : List Char → Option ℝ) (rd : ℝ → ℝ) (lavaName : String) (l : RunOut ℝ)
    (row : List (List Char × Option (List Char))) : Prop :=
  dictField row "flow_id" = .ok (some lavaName.toList) ∧
  ∀ name x, (name, x) ∈ [("Effusion_rate", l.effusionRate), ("Depth", l.depth), ("Width_init", l.widthInit), ("X_init", l.xInit),
      ("Y_init", l.yInit), ("Elevation_init", l.altInit), ("X_run_out", l.x), ("Y_run_out", l.y),
      ("Elevation_run_out", l.alt), ("Distance_run_out", l.runOut)] → dictFloat pf row name = .ok (rd x)

theorem runOut_shown (pf : List Char → Option ℝ) (render : ℝ → List Char) (rd : ℝ → ℝ) (hpf : ∀ x, pf (render x) = some (rd x))
    (f : RunOutFile ℝ) (hid : '\r' ∉ f.flowId.toList) (hcr : ∀ x, '\r' ∉ render x) (windows : Bool) :
    ∃ rows, dictRead ',' (stored windows (f.text render)) = .ok rows ∧ List.Forall₂ (RunOutShown pf rd f.flowId) f.lines rows := by
  obtain ⟨rows, h1, h2⟩ := C75_run_out_table render f hid hcr windows
  refine ⟨rows, h1, h2.imp fun l row h => ⟨h _ _ (by simp), ?_⟩⟩
  intro name x hx
  have : dictField row name = .ok (some (render x)) := by
    apply h
    simp only [List.mem_cons, Prod.mk.injEq, List.not_mem_nil, or_false] at hx ⊢
    rcases hx with h | h | h | h | h | h | h | h | h | h <;> obtain ⟨rfl, rfl⟩ := h <;> simp
  unfold dictFloat
  rw [this, ok_bind]
  dsimp only
  rw [hpf]

theorem reports_other (round : Nat → ℝ → ℝ) (F : TextFormat ℝ) (disk : List (String × List Char)) (slopeFile name : String)
    (line : RunOut ℝ) (path : String) (t : List Char) (hn : F.canon name ≠ path) (hs : F.canon slopeFile ≠ path) :
    Reports round F (writeFile disk path t) slopeFile name line ↔ Reports round F disk slopeFile name line := by
  unfold Reports
  rw [writeFile, lookup_cons_eq, if_neg (fun e => hn e.symm), lookup_cons_eq, if_neg (fun e => hs e.symm)]

/-- **C90**. `get_run_outs` on a disk of texts, when every result file can be reported on (and there is one): one file is added,
    the table, with one line per result file, in order; the figure shows run-out distance and effusion rate of all of
    them. -/
theorem C90_get_run_outs (round : Nat → ℝ → ℝ) (F : TextFormat ℝ) (rd : ℝ → ℝ) (hstr : ∀ c, F.float (F.str c) = some (rd c.value))
    (hcr : ∀ c, '\r' ∉ F.str c) (folder : String) (names : List String) (slopeFile lavaName : String)
    (hid : '\r' ∉ lavaName.toList) (disk : List (String × List Char)) (lines : List (RunOut ℝ)) (hne : names ≠ [])
    (hpath : ∀ name ∈ slopeFile :: names, F.canon name ≠ F.canon (pathJoin folder ("run_outs_" ++ lavaName ++ ".csv")))
    (h : List.Forall₂ (Reports round F disk slopeFile) names lines) :
    ∃ out rows, getRunOutsText round F folder names slopeFile lavaName disk =
        (.ok { title := lavaName.toList, distance := lines.map fun l => rd l.runOut, effusionRate := lines.map fun l => rd l.effusionRate },
          (F.canon (pathJoin folder ("run_outs_" ++ lavaName ++ ".csv")), out) :: disk) ∧
      dictRead ',' out = .ok rows ∧ List.Forall₂ (RunOutShown F.float rd lavaName) lines rows := by
  have hloop : runOutTexts round F (writeFile disk (F.canon (pathJoin folder ("run_outs_" ++ lavaName ++ ".csv"))) []) slopeFile names =
      (.ok (), lines) := by
    rw [runOutTexts_ok]
    have : List.Forall₂ (fun name line => (F.canon name ≠ F.canon (pathJoin folder ("run_outs_" ++ lavaName ++ ".csv"))) ∧
        Reports round F disk slopeFile name line) names lines :=
      (List.forall₂_and_left _ _).mpr ⟨fun name hn => hpath name (by simp [hn]), h⟩
    exact this.imp fun name line hx => (reports_other _ _ _ _ _ _ _ _ hx.1 (hpath slopeFile (by simp))).mpr hx.2
  obtain ⟨rows, h1, h2⟩ := runOut_shown F.float (fun x => F.str (.num x)) rd (fun x => hstr _)
    { path := pathJoin folder ("run_outs_" ++ lavaName ++ ".csv"), flowId := lavaName, lines := lines } hid (fun x => hcr _) F.windows
  have hln : lines ≠ [] := by
    intro e
    rw [e] at h
    cases h
    exact hne rfl
  refine ⟨_, rows, ?_, h1, h2⟩
  unfold getRunOutsText
  dsimp only
  rw [hloop]
  dsimp only
  rw [writeFile]
  congr 1
  unfold runOutFigure
  rw [runOut_dicts _ _ hid (fun x => hcr _) F.windows, ok_bind]
  dsimp only
  rw [figureLoop_rounded F.float (fun x => F.str (.num x)) rd (fun x => hstr _), ok_bind]
  simp [hln, pure_eq_ok, Function.comp]

/-- **C90**, the converse: `get_run_outs` ends normally only if there is a result file and every one can be reported on. -/
theorem C90_only_if (round : Nat → ℝ → ℝ) (F : TextFormat ℝ) (hcr : ∀ c, '\r' ∉ F.str c) (folder : String) (names : List String)
    (slopeFile lavaName : String) (hid : '\r' ∉ lavaName.toList)
    (disk disk' : List (String × List Char)) (fig : RunOutFigure ℝ)
    (hpath : ∀ name ∈ slopeFile :: names, F.canon name ≠ F.canon (pathJoin folder ("run_outs_" ++ lavaName ++ ".csv")))
    (h : getRunOutsText round F folder names slopeFile lavaName disk = (.ok fig, disk')) :
    names ≠ [] ∧ ∃ lines, List.Forall₂ (Reports round F disk slopeFile) names lines := by
  unfold getRunOutsText at h
  dsimp only at h
  cases hloop : runOutTexts round F (writeFile disk (F.canon (pathJoin folder ("run_outs_" ++ lavaName ++ ".csv"))) []) slopeFile names with
  | mk e ls =>
  rw [hloop] at h
  dsimp only at h
  cases e with
  | error e => simp at h
  | ok u =>
    cases u
    have hF := (runOutTexts_ok _ _ _ _ _ _).mp hloop
    constructor
    · rintro rfl
      cases hF
      dsimp only at h
      rw [C75_no_lines_no_figure F.float _ _ F.windows hid (fun x => hcr _) rfl] at h
      simp at h
    · refine ⟨ls, ?_⟩
      have : List.Forall₂ (fun name line => (F.canon name ≠ F.canon (pathJoin folder ("run_outs_" ++ lavaName ++ ".csv"))) ∧
        Reports round F _ slopeFile name line) names ls :=
        (List.forall₂_and_left _ _).mpr ⟨fun name hn => hpath name (by simp [hn]), hF⟩
      exact this.imp fun name line hx => (reports_other _ _ _ _ _ _ _ _ hx.1 (hpath slopeFile (by simp))).mp hx.2

/-- **C90**: at the first result file that cannot be reported on `get_run_outs` raises; the table then has the lines of the
    files before it, and there is no figure. -/
theorem C90_stops_at_first_failure (round : Nat → ℝ → ℝ) (F : TextFormat ℝ) (rd : ℝ → ℝ) (hstr : ∀ c, F.float (F.str c) = some (rd c.value))
    (hcr : ∀ c, '\r' ∉ F.str c) (folder : String) (before after : List String) (bad slopeFile lavaName : String)
    (hid : '\r' ∉ lavaName.toList) (disk : List (String × List Char)) (lines : List (RunOut ℝ))
    (hpath : ∀ name ∈ slopeFile :: bad :: before, F.canon name ≠ F.canon (pathJoin folder ("run_outs_" ++ lavaName ++ ".csv")))
    (h : List.Forall₂ (Reports round F disk slopeFile) before lines) (hbad : ¬ ∃ line, Reports round F disk slopeFile bad line) :
    ∃ e out rows, getRunOutsText round F folder (before ++ bad :: after) slopeFile lavaName disk =
        (.error e, (F.canon (pathJoin folder ("run_outs_" ++ lavaName ++ ".csv")), out) :: disk) ∧
      dictRead ',' out = .ok rows ∧ List.Forall₂ (RunOutShown F.float rd lavaName) lines rows := by
  let disk0 := writeFile disk (F.canon (pathJoin folder ("run_outs_" ++ lavaName ++ ".csv"))) []
  have hbad0 : ¬ ∃ line, Reports round F disk0 slopeFile bad line := by
    rintro ⟨line, hl⟩
    exact hbad ⟨line, (reports_other _ _ _ _ _ _ _ _ (hpath bad (by simp)) (hpath slopeFile (by simp))).mp hl⟩
  obtain ⟨e, he⟩ := (runOutTexts_cons round F disk0 slopeFile bad after).2 hbad0
  have hloop : runOutTexts round F disk0 slopeFile (before ++ bad :: after) = (.error e, lines) := by
    have hb : ∀ name ∈ before, F.canon name ≠ F.canon (pathJoin folder ("run_outs_" ++ lavaName ++ ".csv")) := fun name hn =>
      hpath name (by simp [hn])
    have hs : F.canon slopeFile ≠ F.canon (pathJoin folder ("run_outs_" ++ lavaName ++ ".csv")) := hpath slopeFile (by simp)
    clear hpath
    induction h with
    | nil => exact he
    | @cons name line rest ls hl _ ih =>
      rw [List.cons_append, (runOutTexts_cons round F disk0 slopeFile name _).1 line
        ((reports_other _ _ _ _ _ _ _ _ (hb name (by simp)) hs).mpr hl), ih (fun n hn => hb n (by simp [hn]))]
  obtain ⟨rows, h1, h2⟩ := runOut_shown F.float (fun x => F.str (.num x)) rd (fun x => hstr _)
    { path := pathJoin folder ("run_outs_" ++ lavaName ++ ".csv"), flowId := lavaName, lines := lines } hid (fun x => hcr _) F.windows
  refine ⟨e, _, rows, ?_, h1, h2⟩
  unfold getRunOutsText
  dsimp only
  rw [show writeFile disk (F.canon (pathJoin folder ("run_outs_" ++ lavaName ++ ".csv"))) [] = disk0 from rfl, hloop]
  rfl

theorem textColumn_get {pf : List Char → Option ℝ} {text : List Char} {dicts : List (List (List Char × Option (List Char)))} {c : String}
    {xs : List ℝ} (hd : dictRead ',' text = .ok dicts) (h : textColumn pf text c = .ok xs) :
    xs.length = dicts.length ∧ ∀ (i : ℕ) line x, dicts[i]? = some line → xs[i]? = some x → dictFloat pf line c = .ok x := by
  unfold textColumn at h
  rw [hd, ok_bind, mapM_ok_iff] at h
  obtain ⟨hl, hg⟩ := List.forall₂_iff_get.mp h
  refine ⟨hl.symm, fun i line x h1 h2 => ?_⟩
  obtain ⟨i1, rfl⟩ := List.getElem?_eq_some_iff.mp h1
  obtain ⟨i2, rfl⟩ := List.getElem?_eq_some_iff.mp h2
  exact hg i i1 i2

/-- **C90**, for the result of a run. Where the run started at `x0` and stepped by `dx`, the reported run-out is the distance
    (rounded) of the last profile sample at most (last position + second position) away -- the sum is the position one step
    beyond the end when the run starts at 0 --, the reported effusion rate the rounded first one; positions and rates
    being those printed in the file. -/
theorem C90_run_out_of_a_run (F : TextFormat ℝ) (rd : ℝ → ℝ) (hrd : Monotone rd) (hstr : ∀ c, F.float (F.str c) = some (rd c.value))
    (hcr : ∀ c, '\r' ∉ F.str c) (grid : List ℝ) (fuel : Nat) (jsonFile folder name : String) (disk : List (String × List Char))
    (out : List Char) (h : runTextOn grid fuel F jsonFile folder disk = some (.ok (), (name, out) :: disk))
    (round : Nat → ℝ → ℝ) (profile : List Char) (line : RunOut ℝ) (hl : runOutOfText round F.float out (some profile) = .ok line) :
    ∃ text data x0 dx size, lookup disk (F.canon jsonFile) = some text ∧ JsonText F.float (universal text) data ∧
      NumberAt (textEnv F disk) data "lava_state" "position" x0 ∧ TopEntry data "step_size" size ∧
      size.toFloat (textEnv F disk) = .ok dx ∧
      (0 < dx → ∃ (m : ℕ) (samples : List (ℝ × ℝ × ℝ × ℝ)) (r0 : ProfileRow), 2 ≤ m ∧
        (∃ dicts, dictRead ',' out = .ok dicts ∧ dicts.length = m ∧ ∃ first, dicts[0]? = some first ∧
          LineShows F.float rd first x0 r0) ∧
        line.effusionRate = round 0 (rd r0.effusionRate) ∧
        SamplesUpTo F.float (rd (x0 + ((m - 1 : ℕ) : ℝ) * dx) + rd (x0 + dx)) (dataLines profile) samples ∧
        ∃ s, samples.getLast? = some s ∧ line.x = round 2 s.1 ∧ line.y = round 2 s.2.1 ∧ line.alt = round 1 s.2.2.1 ∧
          line.runOut = round 0 s.2.2.2) := by
  obtain ⟨text, data, h1, h2, x0, _, _, dx, _, _, _, _, size, _, h3, _, _, _, _, h4, h5, _, _, _, h6⟩ :=
    C81_run_on_texts F rd hstr hcr grid fuel jsonFile folder disk _ h
  refine ⟨text, data, x0, dx, size, h1, h2, h3, h4, h5, fun hdx => ?_⟩
  rcases h6 hdx with e | ⟨out', dicts, k, r, _, _, e, hd, hk, hpos, hshow, _⟩
  · exact absurd (congrArg List.length e) (by simp)
  rw [List.cons.injEq, Prod.mk.injEq] at e
  obtain ⟨⟨_, rfl⟩, _⟩ := e
  obtain ⟨far, second, q0, samples, hline⟩ := (C90_run_out_of_a_text round F.float out profile line).mp hl
  obtain ⟨xs, hx, hfar, hmax, hsec⟩ := hline.positions
  obtain ⟨hlen, hget⟩ := textColumn_get hd hx
  have hm : 2 ≤ dicts.length := by
    obtain ⟨hi, _⟩ := List.getElem?_eq_some_iff.mp hsec
    omega
  have hval : ∀ (i : ℕ) x, xs[i]? = some x → x = rd (x0 + i * dx) := by
    intro i x hi
    obtain ⟨hlt, _⟩ := List.getElem?_eq_some_iff.mp hi
    have hdi : dicts[i]? = some dicts[i] := List.getElem?_eq_getElem (by omega)
    have a := hget i _ x hdi hi
    rw [hpos i _ hdi] at a
    cases a
    rfl
  have hsecond : second = rd (x0 + dx) := by
    have := hval 1 second hsec
    rw [this]
    norm_num
  have hlastpos : far = rd (x0 + ((dicts.length - 1 : ℕ) : ℝ) * dx) := by
    have hi : xs[dicts.length - 1]? = some (xs[dicts.length - 1]'(by omega)) := List.getElem?_eq_getElem _
    have hle := hmax _ (List.getElem_mem (l := xs) (n := dicts.length - 1) (by omega))
    rw [hval _ _ hi] at hle
    refine le_antisymm ?_ hle
    obtain ⟨j, hj, rfl⟩ := List.getElem_of_mem hfar
    rw [hval j _ (List.getElem?_eq_getElem hj)]
    apply hrd
    have : (j : ℝ) ≤ ((dicts.length - 1 : ℕ) : ℝ) := by exact_mod_cast (by omega : j ≤ dicts.length - 1)
    nlinarith
  have hfirst : dicts[0]? = some dicts[0] := List.getElem?_eq_getElem (by omega)
  have hshow0 := hshow 0 _ (by omega) hfirst
  rw [Nat.cast_zero, zero_mul, add_zero] at hshow0
  obtain ⟨qs, hq, hq0⟩ := hline.rates
  have hrate : q0 = rd (r 0).effusionRate := by
    have a := (textColumn_get hd hq).2 0 _ q0 hfirst hq0
    rw [hshow0.effusionRate] at a
    cases a
    rfl
  refine ⟨dicts.length, samples, r 0, hm, ⟨dicts, hd, rfl, _, hfirst, hshow0⟩, by rw [hline.rate, hrate], ?_, hline.stop⟩
  rw [← hlastpos, ← hsecond]
  exact hline.profile

/-- A column of the text of a result, when no line lacks it. -/
theorem textColumn_of (F : TextFormat ℝ) (rd : ℝ → ℝ) (hstr : ∀ c, F.float (F.str c) = some (rd c.value))
    (hcr : ∀ c, '\r' ∉ F.str c) (log : Log (Cell ℝ)) (t : CsvTable (Cell ℝ)) (ht : writeValues log = .ok (some t))
    (hh : t.header ≠ []) (hn : ∀ n ∈ t.header, '\r' ∉ n.toList) (c : String) (xs : List ℝ) (hc : ColumnIs log c xs) :
    textColumn F.float (stored F.windows (t.text F.str)) c = .ok (xs.map rd) := by
  obtain ⟨cells, h1, rfl⟩ := hc
  unfold textColumn
  rw [C74_result_file log t ht F.str hh hn hcr F.windows, ok_bind, mapM_ok_iff, List.forall₂_map_left_iff]
  unfold Log.getValues at h1
  have hl : log.length = cells.length := by simpa using congrArg List.length h1
  refine List.forall₂_iff_get.mpr ⟨by simpa using hl, fun i hi hi' => ?_⟩
  have hci : i < cells.length := by omega
  have hrow : (log[i]).get? c = some cells[i] := by
    have := congrArg (fun l => l[i]?) h1
    simp only [List.getElem?_map] at this
    rw [List.getElem?_eq_getElem hi, List.getElem?_eq_getElem hci] at this
    simpa using this
  rw [List.get_eq_getElem, List.get_eq_getElem, line_float ht F rd hstr (List.getElem_mem hi) hrow]
  simp only [List.getElem_map]
  rw [value_eq]

/-- **C90**: a result of at least two lines, none of them lacking a column that is read, can be reported on if the profile has
    a sample at most (last position + second position) away. -/
theorem C90_complete_result_is_reported (F : TextFormat ℝ) (rd : ℝ → ℝ) (hrd : Monotone rd) (hstr : ∀ c, F.float (F.str c) = some (rd c.value))
    (hcr : ∀ c, '\r' ∉ F.str c) (log : Log (Cell ℝ)) (t : CsvTable (Cell ℝ)) (ht : writeValues log = .ok (some t))
    (hn : ∀ n ∈ t.header, '\r' ∉ n.toList) (hcols : ∀ c ∈ runOutColumns, ∀ r ∈ log, c ∈ r.keys)
    (xs : List ℝ) (hxs : ColumnIs log "position" xs) (m second : ℝ) (hm : m ∈ xs) (hmax : ∀ x ∈ xs, x ≤ m) (hsec : xs[1]? = some second)
    (profile : List Char) (samples : List (ℝ × ℝ × ℝ × ℝ)) (hne : samples ≠ [])
    (hs : SamplesUpTo F.float (rd m + rd second) (dataLines profile) samples) (round : Nat → ℝ → ℝ) :
    ∃ line, runOutOfText round F.float (stored F.windows (t.text F.str)) (some profile) = .ok line := by
  have hlen := columnIs_length hxs
  have h2 : 2 ≤ log.length := by
    obtain ⟨hi, _⟩ := List.getElem?_eq_some_iff.mp hsec
    omega
  have hh : t.header ≠ [] := by
    obtain ⟨r0, rest, rfl, e⟩ := writeValues_header ht
    rw [e]
    exact List.ne_nil_of_mem (hcols "position" (by decide) r0 (by simp))
  have col : ∀ c ∈ runOutColumns, ∃ ys, ColumnIs log c ys ∧ ys.length = log.length ∧
      textColumn F.float (stored F.windows (t.text F.str)) c = .ok (ys.map rd) := by
    intro c hc
    obtain ⟨ys, hys⟩ := (columnIs_iff log c).mpr (hcols c hc)
    exact ⟨ys, hys, columnIs_length hys, textColumn_of F rd hstr hcr log t ht hh hn c ys hys⟩
  obtain ⟨ds, _, ld, hd⟩ := col "channel_depth" (by decide)
  obtain ⟨ws, _, lw, hw⟩ := col "channel_width" (by decide)
  obtain ⟨qs, _, lq, hq⟩ := col "effusion_rate" (by decide)
  have hx := textColumn_of F rd hstr hcr log t ht hh hn "position" xs hxs
  refine ⟨⟨round 0 ((qs.map rd)[0]'(by simp; omega)), (ds.map rd)[1]'(by simp; omega), (ws.map rd)[1]'(by simp; omega),
    round 2 (samples.head hne).1, round 2 (samples.head hne).2.1, round 1 (samples.head hne).2.2.1,
    round 2 (samples.getLast hne).1, round 2 (samples.getLast hne).2.1, round 1 (samples.getLast hne).2.2.1,
    round 0 (samples.getLast hne).2.2.2⟩, (C90_run_out_of_a_text round F.float _ profile _).mpr
    ⟨rd m, rd second, (qs.map rd)[0]'(by simp; omega), samples, ?_⟩⟩
  exact
    { readable := fun c hc => by obtain ⟨ys, _, _, h⟩ := col c hc; exact ⟨_, h⟩
      positions := ⟨_, hx, List.mem_map_of_mem hm, by
        intro x hx
        obtain ⟨y, hy, rfl⟩ := List.mem_map.mp hx
        exact hrd (hmax y hy), by rw [List.getElem?_map, hsec]; rfl⟩
      rates := ⟨_, hq, List.getElem?_eq_getElem _⟩
      depth := ⟨_, hd, List.getElem?_eq_getElem _⟩
      width := ⟨_, hw, List.getElem?_eq_getElem _⟩
      profile := hs
      rate := rfl
      start := ⟨_, List.head?_eq_some_head hne, rfl, rfl, rfl⟩
      stop := ⟨_, List.getLast?_eq_some_getLast hne, rfl, rfl, rfl, rfl⟩ }

end PyFlowGo
