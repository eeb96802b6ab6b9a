import Verif.Props.CutSafe
import Verif.Props.SupplyConfig
import Verif.Props.PlotTextExample
/-
  C101: result files of runs that were cut off.
-/
set_option linter.unusedSectionVars false
namespace PyFlowGo
open Spec

section
variable {ν : Type}

theorem Row.nodup_set (r : Row ν) (k : String) (v : ν) (h : r.keys.Nodup) : (r.set k v).keys.Nodup := by
  rw [Row.keys_set]
  split
  · exact h
  · rename_i hk
    rw [List.nodup_append]
    refine ⟨h, by simp, ?_⟩
    intro a ha b hb e
    rw [List.mem_singleton] at hb
    exact hk (by rw [← hb, ← e]; exact ha)

theorem Row.nodup_setAll (es : List (String × ν)) (r : Row ν) (h : r.keys.Nodup) : (r.setAll es).keys.Nodup := by
  induction es generalizing r with
  | nil => exact h
  | cons e es ih => exact ih (r.set e.1 e.2) (Row.nodup_set r _ _ h)

theorem Row.setAll_append (es es' : List (String × ν)) (r : Row ν) : r.setAll (es ++ es') = (r.setAll es).setAll es' := by
  unfold Row.setAll; rw [List.foldl_append]

/-- New columns are put behind the others, in order. -/
theorem Row.keys_setAll_new (es : List (String × ν)) (r : Row ν) (hnd : (es.map Prod.fst).Nodup)
    (hnew : ∀ n ∈ es.map Prod.fst, n ∉ r.keys) : (r.setAll es).keys = r.keys ++ es.map Prod.fst := by
  induction es generalizing r with
  | nil => simp [Row.setAll]
  | cons e es ih =>
    rw [List.map_cons, List.nodup_cons] at hnd
    have hk : (r.set e.1 e.2).keys = r.keys ++ [e.1] := by
      rw [Row.keys_set, if_neg (hnew e.1 (by simp))]
    show ((r.set e.1 e.2).setAll es).keys = _
    rw [ih (r.set e.1 e.2) hnd.2 ?_, hk]
    · simp
    · intro n hn
      rw [hk, List.mem_append, not_or]
      refine ⟨hnew n (by simp [hn]), ?_⟩
      rw [List.mem_singleton]
      rintro rfl
      exact hnd.1 hn

variable [BEq ν]

/-- Assignments to columns that are already there keep the columns of the first row. -/
theorem addAll_head (es : List (String × ν)) (p : ν) (log : Log ν) (r0 : Row ν) (rest : Log ν) (h : log = r0 :: rest)
    (hsub : ∀ e ∈ es, e.1 ∈ r0.keys) : ∃ r1 rest', log.addAll p es = r1 :: rest' ∧ r1.keys = r0.keys := by
  induction es generalizing log r0 rest with
  | nil => exact ⟨r0, rest, h, rfl⟩
  | cons e es ih =>
    have : ∃ r1 rest', log.addVariable e.1 p e.2 = r1 :: rest' ∧ r1.keys = r0.keys := by
      rcases addVariable_shape log e.1 p e.2 with ⟨pre, r, post, h2, _, _, h4⟩ | ⟨_, h4⟩
      · cases pre with
        | nil =>
          rw [h] at h2
          simp only [List.nil_append, List.cons.injEq] at h2
          refine ⟨_, _, h4, ?_⟩
          rw [← h2.1, Row.keys_set, if_pos (hsub e (by simp))]
        | cons a pre =>
          rw [h] at h2
          simp only [List.cons_append, List.cons.injEq] at h2
          exact ⟨_, _, h4, by rw [h2.1]⟩
      · rw [h] at h4
        exact ⟨_, _, by rw [h, h4]; rfl, rfl⟩
    obtain ⟨r1, rest', e1, e2⟩ := this
    obtain ⟨r2, rest2, e3, e4⟩ := ih (log.addVariable e.1 p e.2) r1 rest' e1 (fun x hx => by rw [e2]; exact hsub x (by simp [hx]))
    exact ⟨r2, rest2, e3, by rw [e4, e2]⟩
end

section
variable {α : Type} [Add α] [Sub α] [Mul α] [Neg α] [OfScientific α] [PyNum α]

theorem flux_names (fs : List (Flux α)) (P : String → Prop) (h : ∀ f : Flux α, (∀ n ∈ f.columns, P n) ∧ P f.logName) :
    ∀ n ∈ fluxColumns fs, P n := by
  induction fs with
  | nil => intro n hn; simp [fluxColumns] at hn
  | cons f fs ih =>
    intro n hn
    rw [fluxColumns] at hn
    rcases List.mem_append.mp hn with h' | h'
    · exact (h f).1 n h'
    · rcases List.mem_append.mp h' with h' | h'
      · exact (h f).1 n h'
      · rcases List.mem_cons.mp h' with rfl | h'
        · exact (h f).2
        · exact ih n h'

theorem plain_columns (g : Integrator α) : ∀ n ∈ runColumns g, PlainText ',' n.toList := by
  intro n hn
  unfold runColumns at hn
  rcases List.mem_cons.mp hn with rfl | hn
  · unfold PlainText; decide
  · rcases List.mem_append.mp hn with hn | hn
    · rcases List.mem_append.mp hn with hn | hn
      · refine flux_names _ (fun n => PlainText ',' n.toList) (fun f => ?_) n hn
        unfold PlainText
        cases f <;> simp only [Flux.columns, Flux.logName, List.forall_mem_cons, List.not_mem_nil, false_implies, implies_true, and_true] <;> decide
      · rw [List.mem_singleton.mp hn]; unfold PlainText; decide
    · have : ∀ n ∈ stepColumns, PlainText ',' n.toList := by unfold PlainText; decide
      exact this n hn

theorem stress_not_flux (fs : List (Flux α)) : ∀ n ∈ fluxColumns fs, n ≠ "tho_0" ∧ n ≠ "tho_b" := by
  refine flux_names fs _ fun f => ?_
  cases f <;> simp [Flux.columns, Flux.logName]

/-- The columns of the first row, once the first step is accepted: they stay as they are. -/
theorem first_row_columns (hrefl : ∀ c : Cell α, (c == c) = true) {g : Integrator α} {w w1 : World α} (hw : w.log = [])
    (h : AcceptedStep g w w1) :
    ∃ r, w1.log = [r] ∧ StressLast r.keys ∧ ∀ n, n ∈ r.keys ↔ n ∈ runColumns g := by
  obtain ⟨es, hn, hp, hl⟩ := accepted_log h
  have hne : es ≠ [] := by rintro rfl; simp at hn
  rw [hw, addAll_new hrefl [] es hp hne _ (by simp)] at hl
  have hmem : ∀ n, n ∈ (Row.setAll [("position", Cell.num w.st.pos)] es).keys ↔ n ∈ runColumns g := by
    intro n
    rw [Row.mem_keys_setAll, hn]
    unfold runColumns
    rw [List.mem_cons]
    simp [Row.keys]
  refine ⟨_, hl, ⟨Row.nodup_setAll _ _ (by simp [Row.keys]), ?_⟩, hmem⟩
  -- the last two entries
  have hsplit : es = es.take (es.length - 2) ++ es.drop (es.length - 2) := (List.take_append_drop _ _).symm
  have hlen : 19 ≤ es.length := by
    have := congrArg List.length hn
    rw [List.length_map, List.length_append] at this
    have h2 : stepColumns.length = 19 := by decide
    omega
  have hlast : (es.drop (es.length - 2)).map Prod.fst = ["tho_0", "tho_b"] := by
    have hl2 : es.length = (fluxColumns g.models.fluxes ++ ["heat_budget"]).length + 19 := by
      have := congrArg List.length hn
      rw [List.length_map, List.length_append] at this
      exact this
    rw [List.map_drop, hn, hl2, show (fluxColumns g.models.fluxes ++ ["heat_budget"]).length + 19 - 2 =
      (fluxColumns g.models.fluxes ++ ["heat_budget"]).length + 17 from rfl, List.drop_length_add_append]
    rfl
  have hfirst : (es.take (es.length - 2)).map Prod.fst = (fluxColumns g.models.fluxes ++ ["heat_budget"]) ++ stepColumns.take 17 := by
    have hl2 : es.length = (fluxColumns g.models.fluxes ++ ["heat_budget"]).length + 19 := by
      have := congrArg List.length hn
      rw [List.length_map, List.length_append] at this
      exact this
    rw [List.map_take, hn, hl2, show (fluxColumns g.models.fluxes ++ ["heat_budget"]).length + 19 - 2 =
      (fluxColumns g.models.fluxes ++ ["heat_budget"]).length + 17 from rfl, List.take_length_add_append]
  refine ⟨(Row.setAll [("position", Cell.num w.st.pos)] (es.take (es.length - 2))).keys, ?_⟩
  conv_lhs => rw [hsplit, Row.setAll_append]
  rw [Row.keys_setAll_new _ _ (by rw [hlast]; decide) ?_, hlast]
  intro n hn' hk
  rw [hlast] at hn'
  rw [Row.mem_keys_setAll, hfirst] at hk
  have hf := stress_not_flux g.models.fluxes
  have hs : ∀ n ∈ stepColumns.take 17, n ≠ "tho_0" ∧ n ≠ "tho_b" := by decide
  have key : n ≠ "tho_0" ∧ n ≠ "tho_b" := by
    rcases hk with hk | hk
    · simp only [Row.keys, List.map_cons, List.map_nil, List.mem_singleton] at hk
      rw [hk]; decide
    · rcases List.mem_append.mp hk with hk | hk
      · rcases List.mem_append.mp hk with hk | hk
        · exact hf n hk
        · rw [List.mem_singleton.mp hk]; decide
      · exact hs n hk
  simp only [List.mem_cons, List.not_mem_nil, or_false] at hn'
  rcases hn' with e | e
  · exact key.1 e
  · exact key.2 e

/-- The header of the result of a run, or a run of one incomplete row. -/
theorem run_header (hrefl : ∀ c : Cell α, (c == c) = true) {g : Integrator α} {n : ℕ} {w w' : World α} (hw : w.log = [])
    (h : runLoop g n w = some (.ok (), w')) (r0 : Row (Cell α)) (rest : Log (Cell α)) (hlog : w'.log = r0 :: rest) :
    (∀ n ∈ r0.keys, n ∈ runColumns g) ∧ 2 ≤ r0.keys.length ∧ (StressLast r0.keys ∨ rest = []) := by
  obtain ⟨_, k, ws, h0, hacc, _, hlast⟩ := runLoop_ok h
  have hpart : ∀ {v v' : World α}, RejectedStep g v v' → v'.log = v.log ∨ ∃ es, (∀ e ∈ es, e.1 ∈ runColumns g) ∧ es ≠ [] ∧
      (∃ e ∈ es, e.1 = "heat_budget") ∧ (∀ e ∈ es, e.1 ≠ "position") ∧ v'.log = v.log.addAll (.num v.st.pos) es := by
    intro v v' hr
    rcases rejected_log hr with h | ⟨es, hn, hp, hl⟩
    · exact Or.inl h
    · refine Or.inr ⟨es, ?_, ?_, ?_, hp, hl⟩
      · intro e he
        unfold runColumns
        rw [List.mem_cons, List.mem_append]
        right; left
        rw [← hn]; exact List.mem_map_of_mem he
      · rintro rfl; simp at hn
      · have : "heat_budget" ∈ es.map Prod.fst := by rw [hn]; simp
        obtain ⟨e, he, h⟩ := List.mem_map.mp this
        exact ⟨e, he, h⟩
  cases k with
  | zero =>
    -- no step was accepted
    have hl0 : (ws 0).log = [] := by rw [h0]; exact hw
    rcases hlast with e | ⟨_, hr⟩
    · rw [e, hl0] at hlog; cases hlog
    · rcases hpart hr with e | ⟨es, hsub, hne, ⟨e, he, hb⟩, hp, hl⟩
      · rw [e, hl0] at hlog; cases hlog
      · rw [hl0, addAll_new hrefl [] es hp hne _ (by simp), List.nil_append] at hl
        rw [hl] at hlog
        simp only [List.cons.injEq] at hlog
        obtain ⟨rfl, hrest⟩ := hlog
        refine ⟨?_, ?_, Or.inr hrest.symm⟩
        · intro n hn
          rw [Row.mem_keys_setAll] at hn
          rcases hn with hn | hn
          · simp only [Row.keys, List.map_cons, List.map_nil, List.mem_singleton] at hn
            rw [hn]; unfold runColumns; simp
          · obtain ⟨x, hx, rfl⟩ := List.mem_map.mp hn
            exact hsub x hx
        · have h1 : "position" ∈ (Row.setAll [("position", Cell.num (ws 0).st.pos)] es).keys := by
            rw [Row.mem_keys_setAll]; left; simp [Row.keys]
          have h2 : "heat_budget" ∈ (Row.setAll [("position", Cell.num (ws 0).st.pos)] es).keys := by
            rw [Row.mem_keys_setAll]; right; rw [← hb]; exact List.mem_map_of_mem he
          have hsub2 : ["position", "heat_budget"] ⊆ (Row.setAll [("position", Cell.num (ws 0).st.pos)] es).keys := by
            intro x hx
            simp only [List.mem_cons, List.not_mem_nil, or_false] at hx
            rcases hx with rfl | rfl <;> assumption
          have := (List.subperm_of_subset (by decide) hsub2).length_le
          simpa using this
  | succ k =>
    obtain ⟨r, hr1, hst, hk⟩ := first_row_columns hrefl (by rw [h0]; exact hw) (hacc 0 (by omega))
    have hall : ∀ i, i ≤ k → ∃ r' rest', (ws (i + 1)).log = r' :: rest' ∧ r'.keys = r.keys := by
      intro i
      induction i with
      | zero => intro _; exact ⟨r, [], hr1, rfl⟩
      | succ i ih =>
        intro hi
        obtain ⟨r', rest', e1, e2⟩ := ih (by omega)
        obtain ⟨es, hn, _, hl⟩ := accepted_log (hacc (i + 1) (by omega))
        rw [hl]
        obtain ⟨r2, rest2, e3, e4⟩ := addAll_head es (.num (ws (i + 1)).st.pos) _ r' rest' e1 (by
          intro e he
          rw [e2, hk]
          unfold runColumns
          rw [List.mem_cons]; right
          rw [← hn]; exact List.mem_map_of_mem he)
        exact ⟨r2, rest2, e3, by rw [e4, e2]⟩
    obtain ⟨r', rest', e1, e2⟩ := hall k le_rfl
    have hkeys : r0.keys = r.keys := by
      rcases hlast with e | ⟨_, hr⟩
      · rw [e, e1] at hlog
        rw [List.cons.injEq] at hlog
        rw [← hlog.1, e2]
      · rcases hpart hr with e | ⟨es, hsub, _, _, _, hl⟩
        · rw [e, e1] at hlog
          rw [List.cons.injEq] at hlog
          rw [← hlog.1, e2]
        · obtain ⟨r2, rest2, e3, e4⟩ := addAll_head es (.num (ws (k + 1)).st.pos) _ r' rest' e1 (by
            intro e he; rw [e2, hk]; exact hsub e he)
          rw [hl, e3, List.cons.injEq] at hlog
          rw [← hlog.1, e4, e2]
    rw [hkeys]
    refine ⟨fun n hn => (hk n).mp hn, ?_, Or.inl hst⟩
    obtain ⟨before, e⟩ := hst.last
    rw [e]; simp
end

section
variable {α : Type} [Add α] [Sub α] [Mul α] [Neg α] [OfScientific α] [PyNum α]

theorem maxList_nil : maxList ([] : List α) = .error .valueError := rfl

/-- With at most one row nothing is drawn or tabulated. -/
theorem tools_need_rows (pf : List Char → Option α) (text : List Char) (rows : List (List (List Char × Option (List Char))))
    (h : dictRead ',' text = .ok rows) (hlen : rows.length ≤ 1) :
    (∀ q res, plotFileText pf q text ≠ .ok res) ∧ (∀ round slope res, runOutOfText round pf text slope ≠ .ok res) ∧
      (∀ res, fieldResult pf text ≠ .ok res) := by
  have key : ∀ {β γ : Type} (f : β → γ) (ys : List β) (y : γ), ys.length ≤ 1 → listGet (ys.map f) 1 ≠ .ok y := by
    intro β γ f ys y hl e
    rw [listGet_ok_iff] at e
    have := (List.getElem?_eq_some_iff.mp e).1
    rw [List.length_map] at this
    omega
  refine ⟨fun q res e => ?_, fun round slope res e => ?_, fun res e => ?_⟩
  · unfold plotFileText at e
    rw [h, ok_bind] at e
    cases rows with
    | nil => cases e
    | cons first rest =>
      cases rest with
      | cons _ _ => simp at hlen
      | nil =>
        dsimp only at e
        obtain ⟨_, _, e⟩ := bind_ok_iff.mp e
        obtain ⟨ys, hys, e⟩ := bind_ok_iff.mp e
        obtain ⟨_, hm, e⟩ := bind_ok_iff.mp e
        rw [List.mapM_nil, pure_ok_iff] at hys
        subst hys
        rw [List.map_nil, maxList_nil] at hm
        cases hm
  · unfold runOutOfText at e
    rw [h, ok_bind] at e
    obtain ⟨ys, hys, e⟩ := bind_ok_iff.mp e
    have hl : ys.length ≤ 1 := by rw [← ((mapM_ok_iff _ _ _).mp hys).length_eq]; exact hlen
    obtain ⟨_, _, e⟩ := bind_ok_iff.mp e
    obtain ⟨_, _, e⟩ := bind_ok_iff.mp e
    obtain ⟨_, h1, e⟩ := bind_ok_iff.mp e
    exact key _ _ _ hl h1
  · unfold fieldResult at e
    rw [h, ok_bind] at e
    obtain ⟨ys, hys, e⟩ := bind_ok_iff.mp e
    have hl : ys.length ≤ 1 := by rw [← ((mapM_ok_iff _ _ _).mp hys).length_eq]; exact hlen
    dsimp only at e
    obtain ⟨_, _, e⟩ := bind_ok_iff.mp e
    obtain ⟨_, h1, e⟩ := bind_ok_iff.mp e
    exact key _ _ _ hl h1

end

/-- What the tools make of the first `n` characters of a result file. -/
def Spec.SafeCut (F : TextFormat ℝ) (log : Log (Cell ℝ)) (t : CsvTable (Cell ℝ)) (n : ℕ) : Prop :=
  ∃ m, m ≤ log.length ∧
    (∀ q res, plotFileText F.float q ((stored F.windows (t.text F.str)).take n) = .ok res →
      plotFileText F.float q (stored F.windows (CsvTable.text F.str { t with rows := t.rows.take m })) = .ok res) ∧
    (∀ round slope res, runOutOfText round F.float ((stored F.windows (t.text F.str)).take n) slope = .ok res →
      runOutOfText round F.float (stored F.windows (CsvTable.text F.str { t with rows := t.rows.take m })) slope = .ok res) ∧
    (∀ res, fieldResult F.float ((stored F.windows (t.text F.str)).take n) = .ok res →
      fieldResult F.float (stored F.windows (CsvTable.text F.str { t with rows := t.rows.take m })) = .ok res)

theorem cut_run (F : TextFormat ℝ) (hstr : ∀ c, ∃ x, F.float (F.str c) = some x) (hempty : F.float [] = none)
    (hplain : ∀ c, PlainText ',' (F.str c)) {g : Integrator ℝ} {k : ℕ} {w w' : World ℝ} (hw : w.log = [])
    (h : runLoop g k w = some (.ok (), w')) (t : CsvTable (Cell ℝ)) (ht : writeValues w'.log = .ok (some t)) (n : ℕ) :
    SafeCut F w'.log t n := by
  obtain ⟨r0, rest, hlog, hh⟩ := writeValues_header ht
  obtain ⟨hsub, hcols, hcase⟩ := run_header (fun c => beq_self_eq_true c) hw h r0 rest hlog
  have hnames : ∀ n ∈ t.header, PlainText ',' n.toList := fun n hn => plain_columns g n (hsub n (by rw [← hh]; exact hn))
  rcases hcase with hst | hrest
  · exact C101_cut_results_are_safe w'.log t ht F.str F.float hstr hempty (by rw [hh]; exact ⟨hst.nodup, hst.last⟩) hnames hplain F.windows n
  · obtain ⟨rows, hread, ⟨m, hm, hshape⟩, _⟩ := C100_cut_result w'.log t ht F.str (by rw [hh]; exact hcols) hnames hplain F.windows n
    have hl1 : w'.log.length = 1 := by rw [hlog, hrest]; rfl
    have hlen : rows.length ≤ 1 := by
      rcases hshape with rfl | ⟨r, j, name, f, g', hr, _, _, rfl⟩
      · simp [hl1]
      · have := (List.getElem?_eq_some_iff.mp hr).1
        simp only [List.length_append, List.length_map, List.length_take, List.length_singleton]
        omega
    obtain ⟨a, b, c⟩ := tools_need_rows F.float _ rows hread hlen
    exact ⟨0, Nat.zero_le _, fun q res e => absurd e (a q res), fun rd sl res e => absurd e (b rd sl res), fun res e => absurd e (c res)⟩

/-- **C101**, runs. The result file of any completed run -- whatever the configuration, the profile, the platform -- of which
    only the first `n` characters reached the disk: `plot_all_results`, the run-out table and the field-data plots either
    raise an exception or show exactly what they show for the first rows of the result. (Numbers are written as plain texts
    that `float` accepts; the empty text is no number.) -/
theorem C101_killed_run (F : TextFormat ℝ) (hstr : ∀ c, ∃ x, F.float (F.str c) = some x) (hempty : F.float [] = none)
    (hplain : ∀ c, PlainText ',' (F.str c)) (grid : List ℝ) (fuel : Nat) (jsonFile folder : String)
    (disk : List (String × List Char)) (name : String) (out : List Char)
    (h : runTextOn grid fuel F jsonFile folder disk = some (.ok (), (name, out) :: disk)) :
    ∃ log t, writeValues log = .ok (some t) ∧ out = stored F.windows (t.text F.str) ∧ ∀ n, SafeCut F log t n := by
  unfold runTextOn at h
  split at h
  · cases h
  split at h
  · cases h
  rename_i text htext data hload
  cases hrun : runOn grid fuel (textEnv F disk) jsonFile folder (newRunner ⟨[(F.canon jsonFile, data)], [], []⟩) with
  | none => rw [hrun] at h; cases h
  | some q =>
  obtain ⟨res, p⟩ := q
  rw [hrun] at h
  dsimp only at h
  rw [Option.some.injEq, Prod.mk.injEq] at h
  obtain ⟨rfl, hdisk⟩ := h
  unfold runOn newRunner at hrun
  have hl : lookup [(F.canon jsonFile, data)] ((textEnv F disk).canon jsonFile) = some data := by
    rw [lookup_cons_eq]; exact if_pos rfl
  dsimp only at hrun
  rw [hl] at hrun
  dsimp only [Log.clear] at hrun
  cases hprep : prepare (textEnv F disk) data [] with
  | error e => rw [hprep] at hrun; cases hrun
  | ok pr =>
  rw [hprep] at hrun
  dsimp only at hrun
  obtain ⟨_, _, _, hlog, _⟩ := prepared_facts hprep
  cases hsim : simulateOn grid fuel pr.integrator pr.world with
  | none => rw [hsim] at hrun; cases hrun
  | some o =>
  obtain ⟨r, w'⟩ := o
  rw [hsim] at hrun
  cases r with
  | error e => cases hrun
  | ok u =>
  dsimp only at hrun
  unfold simulateOn at hsim
  cases hi : initEffusionRateOn grid pr.integrator.models.lava pr.world with
  | mk r1 w1 =>
  rw [hi] at hsim
  cases r1 with
  | error e => cases hsim
  | ok u1 =>
  dsimp only at hsim
  have hw1 : w1.log = [] := by
    have := initEffusion_log pr.integrator.models.lava grid pr.world
    rw [hi] at this
    rw [this, hlog]
  cases hwr : writeValues w'.log with
  | error e => rw [hwr] at hrun; cases hrun
  | ok ot =>
  rw [hwr] at hrun
  cases ot with
  | none =>
    cases hrun
    exact absurd (congrArg List.length hdisk) (by simp)
  | some t =>
    cases hrun
    simp only [writeFile, List.cons.injEq, Prod.mk.injEq] at hdisk
    exact ⟨w'.log, t, hwr, hdisk.1.2.symm, fun n => cut_run F hstr hempty hplain hw1 hsim t hwr n⟩

theorem milli_plain (x : ℝ) : PlainText ',' (milliText x) := by
  intro c hc
  rcases milli_chars x c hc with h | h | h
  · refine ⟨?_, ?_, ?_, ?_⟩ <;> rintro rfl <;> simp [IsDigit] at h
  all_goals
    refine ⟨?_, ?_, ?_, ?_⟩ <;> rintro rfl <;> simp at h

/-- **C101**, non-vacuity: a run of three rows whose result can be drawn; any beginning of its file is safe. -/
example (windows q : Bool) : ∃ (out : List Char) (log : Log (Cell ℝ)) (t : CsvTable (Cell ℝ)),
    runTextOn [1] 3 (milliFormat windows) "still.json" "out" (("still.json", stored windows (jsonDump milliText (stillConfig 3 ((3 : ℕ) : ℝ) (.int 1)))) :: milliDisk 3) =
      some (.ok (), (resultFileName "out" "example" "1", out) ::
        ("still.json", stored windows (jsonDump milliText (stillConfig 3 ((3 : ℕ) : ℝ) (.int 1)))) :: milliDisk 3) ∧
    writeValues log = .ok (some t) ∧ out = stored windows (t.text fun c => milliText c.value) ∧
    (∃ c, plotFileText milliFloat q (out.take out.length) = .ok (c, true)) ∧ ∀ n, SafeCut (milliFormat windows) log t n := by
  obtain ⟨log, t, hlog, ht, hrun⟩ := milli_run_table windows 3 (by omega) (by omega) 1 (Or.inr rfl) "still.json" "out"
    (("still.json", stored windows (jsonDump milliText (stillConfig 3 ((3 : ℕ) : ℝ) (.int 1)))) :: milliDisk 3)
    (by rw [lookup_cons_eq, if_neg (by simp)]; unfold milliDisk; rw [lookup_cons_eq, if_neg (by simp), lookup_cons_eq, if_pos rfl])
    (by rw [lookup_cons_eq, if_pos rfl])
  obtain ⟨log', t', ht', hout, hsafe⟩ := C101_killed_run (milliFormat windows) (fun c => ⟨_, milli_reads _⟩) rfl (fun c => milli_plain _)
    _ _ _ _ _ _ _ hrun
  refine ⟨_, log', t', hrun, ht', hout, ?_, hsafe⟩
  obtain ⟨c, hc, _⟩ := milli_drawn windows q log t hlog ht
  exact ⟨c, by rw [List.take_length]; exact hc⟩

end PyFlowGo
