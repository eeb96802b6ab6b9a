import Verif.Spec.PlotErrorSpec
import Verif.Props.Plot
/-
  C67: how `plot_all_results` fails on a result file.
-/
set_option linter.unusedSectionVars false
namespace PyFlowGo
open Spec

section
variable {h : List String} {r : Row (Cell ℝ)}

theorem rowFloat_error (hsub : ∀ k ∈ r.keys, k ∈ h) (name : String) (e : Err) :
    rowFloat (asDict h r) name = .error e ↔
      name ∉ r.keys ∧ (name ∈ h ∧ e = .valueError ∨ name ∉ h ∧ e = .keyError) := by
  unfold rowFloat
  by_cases hn : name ∈ h
  · rw [lookup_asDict h r name hn]
    cases hg : r.get? name with
    | none =>
      have : name ∉ r.keys := by
        intro hk
        have := (Row.get?_isSome r name).mpr hk
        rw [hg] at this; cases this
      simp [hn, this, eq_comm]
    | some c => simp [get?_some_mem hg]
  · rw [lookup_asDict_none h r name hn]
    have : name ∉ r.keys := fun hk => hn (hsub _ hk)
    simp [hn, this, eq_comm]

theorem rowFloat_okay (hsub : ∀ k ∈ r.keys, k ∈ h) (name : String) :
    (∃ x, rowFloat (asDict h r) name = .ok x) ↔ name ∈ r.keys := by
  constructor
  · rintro ⟨x, hx⟩
    obtain ⟨c, hc, _⟩ := (rowFloat_iff hsub name x).mp hx
    exact get?_some_mem hc
  · intro hk
    obtain ⟨x, hx⟩ := shows_of_mem hk
    exact ⟨x, (rowFloat_iff hsub name x).mpr hx⟩

theorem firstMissing_cons (c : String) (cs : List String) (e : Err) :
    FirstMissing h r (c :: cs) e ↔
      (c ∉ r.keys ∧ (c ∈ h ∧ e = .valueError ∨ c ∉ h ∧ e = .keyError)) ∨ (c ∈ r.keys ∧ FirstMissing h r cs e) := by
  constructor
  · rintro ⟨pre, d, post, h1, h2, h3, h4⟩
    cases pre with
    | nil =>
      rw [List.nil_append, List.cons.injEq] at h1
      obtain ⟨rfl, rfl⟩ := h1
      exact Or.inl ⟨h3, h4⟩
    | cons p pre =>
      rw [List.cons_append, List.cons.injEq] at h1
      obtain ⟨rfl, rfl⟩ := h1
      exact Or.inr ⟨h2 _ (by simp), pre, d, post, rfl, fun k hk => h2 k (List.mem_cons_of_mem _ hk), h3, h4⟩
  · rintro (⟨h3, h4⟩ | ⟨hc, pre, d, post, h1, h2, h3, h4⟩)
    · exact ⟨[], c, cs, rfl, by simp, h3, h4⟩
    · refine ⟨c :: pre, d, post, by rw [h1]; rfl, ?_, h3, h4⟩
      intro k hk
      rcases List.mem_cons.mp hk with rfl | hk
      · exact hc
      · exact h2 k hk

theorem firstMissing_nil (e : Err) : ¬ FirstMissing h r [] e := by
  rintro ⟨pre, d, post, h1, _⟩
  cases pre <;> cases h1

theorem firstMissing_step (hsub : ∀ k ∈ r.keys, k ∈ h) {β : Type} (c : String) (cs : List String) (f : ℝ → Except Err β) (e : Err)
    (hf : ∀ x, f x = .error e ↔ FirstMissing h r cs e) :
    (rowFloat (asDict h r) c >>= f) = .error e ↔ FirstMissing h r (c :: cs) e := by
  rw [bind_error_iff, firstMissing_cons, rowFloat_error hsub]
  refine or_congr Iff.rfl ?_
  constructor
  · rintro ⟨x, h1, h2⟩
    exact ⟨(rowFloat_okay hsub c).mp ⟨x, h1⟩, (hf x).mp h2⟩
  · rintro ⟨h1, h2⟩
    obtain ⟨x, hx⟩ := (rowFloat_okay hsub c).mpr h1
    exact ⟨x, hx, (hf x).mpr h2⟩

theorem readPlotRow_error (hsub : ∀ k ∈ r.keys, k ∈ h) (e : Err) :
    readPlotRow (asDict h r) = .error e ↔ FirstMissing h r readColumns e := by
  unfold readPlotRow readColumns
  iterate 17 refine firstMissing_step hsub _ _ _ e fun _ => ?_
  constructor
  · intro h; cases h
  · intro h; exact absurd h (firstMissing_nil e)

theorem no_missing {cols : List String} (hall : ∀ c ∈ cols, c ∈ r.keys) (e : Err) : ¬ FirstMissing h r cols e := by
  rintro ⟨pre, d, post, h1, _, h3, _⟩
  exact h3 (hall d (by rw [h1]; simp))

theorem some_missing (cols : List String) (hall : ¬ ∀ c ∈ cols, c ∈ r.keys) : ∃ e, FirstMissing h r cols e := by
  induction cols with
  | nil => exact absurd (by simp) hall
  | cons c cs ih =>
    by_cases hc : c ∈ r.keys
    · obtain ⟨e, he⟩ := ih fun hcs => hall fun d hd => by
        rcases List.mem_cons.mp hd with rfl | hd
        · exact hc
        · exact hcs d hd
      exact ⟨e, (firstMissing_cons c cs e).mpr (Or.inr ⟨hc, he⟩)⟩
    · by_cases hh : c ∈ h
      · exact ⟨_, (firstMissing_cons c cs _).mpr (Or.inl ⟨hc, Or.inl ⟨hh, rfl⟩⟩)⟩
      · exact ⟨_, (firstMissing_cons c cs _).mpr (Or.inl ⟨hc, Or.inr ⟨hh, rfl⟩⟩)⟩

theorem readPlotRow_okay (hsub : ∀ k ∈ r.keys, k ∈ h) :
    (∃ p, readPlotRow (asDict h r) = .ok p) ↔ ∀ c ∈ readColumns, c ∈ r.keys := by
  cases hp : readPlotRow (asDict h r) with
  | ok p =>
    refine ⟨fun _ => ?_, fun _ => ⟨p, rfl⟩⟩
    by_contra hn
    obtain ⟨e, he⟩ := some_missing readColumns hn
    rw [(readPlotRow_error hsub e).mpr he] at hp
    cases hp
  | error e =>
    refine ⟨(fun ⟨p, h⟩ => by cases h), fun hall => ?_⟩
    exact absurd ((readPlotRow_error hsub e).mp hp) (no_missing hall e)
end

theorem mapM_error_iff {β γ : Type} (f : β → Except Err γ) (l : List β) (e : Err) :
    l.mapM f = .error e ↔ ∃ pre a post, l = pre ++ a :: post ∧ (∀ x ∈ pre, ∃ y, f x = .ok y) ∧ f a = .error e := by
  induction l with
  | nil =>
    refine ⟨(fun h => by cases h), ?_⟩
    rintro ⟨pre, a, post, h, _⟩
    cases pre <;> cases h
  | cons b l ih =>
    rw [List.mapM_cons, bind_error_iff]
    constructor
    · rintro (h | ⟨y, hy, h⟩)
      · exact ⟨[], b, l, rfl, by simp, h⟩
      · rw [bind_error_iff] at h
        rcases h with h | ⟨_, _, h⟩
        · obtain ⟨pre, a, post, rfl, h2, h3⟩ := ih.mp h
          refine ⟨b :: pre, a, post, rfl, ?_, h3⟩
          intro x hx
          rcases List.mem_cons.mp hx with rfl | hx
          · exact ⟨y, hy⟩
          · exact h2 x hx
        · cases h
    · rintro ⟨pre, a, post, h1, h2, h3⟩
      cases pre with
      | nil =>
        rw [List.nil_append, List.cons.injEq] at h1
        rw [h1.1]; exact Or.inl h3
      | cons p pre =>
        rw [List.cons_append, List.cons.injEq] at h1
        obtain ⟨rfl, rfl⟩ := h1
        obtain ⟨y, hy⟩ := h2 b (by simp)
        refine Or.inr ⟨y, hy, ?_⟩
        rw [bind_error_iff]
        exact Or.inl (ih.mpr ⟨pre, a, post, rfl, fun x hx => h2 x (List.mem_cons_of_mem _ hx), h3⟩)

/-- **C67**, the failures. Drawing a written result file fails exactly as `DrawFails` says: without an effusion rate in
    the first row (KeyError), at the first later row that lacks a column (ValueError if the file has the column, KeyError
    if not), with fewer than three rows (ValueError, IndexError), or for want of the Snyder column (NameError, or
    ValueError when an earlier file or another row has it). -/
theorem C67_failures (q : Bool) (r0 : Row (Cell ℝ)) (rest : List (Row (Cell ℝ))) (t : CsvTable (Cell ℝ))
    (ht : writeValues (r0 :: rest) = .ok (some t)) (e : Err) :
    plotFile q t = .error e ↔ DrawFails q r0 rest e := by
  obtain ⟨r0', rest', e0, hsub, hd⟩ := dicts_of_log ht
  rw [List.cons.injEq] at e0
  obtain ⟨rfl, rfl⟩ := e0
  have hrowsub : ∀ r ∈ rest, ∀ k ∈ r.keys, k ∈ r0.keys := fun r hr => hsub r (List.mem_cons_of_mem _ hr)
  unfold plotFile
  rw [hd, List.map_cons]
  dsimp only
  by_cases hrate : "effusion_rate" ∈ r0.keys
  swap
  · have h1 : rowFloat (asDict r0.keys r0) "effusion_rate" = .error .keyError :=
      (rowFloat_error (hsub r0 (by simp)) _ _).mpr ⟨hrate, Or.inr ⟨hrate, rfl⟩⟩
    rw [h1, error_bind]
    constructor
    · intro h; cases h; exact .noRate hrate
    · rintro h
      cases h with
      | noRate => rfl
      | _ => contradiction
  obtain ⟨x0, hx0⟩ := (rowFloat_okay (hsub r0 (by simp)) "effusion_rate").mpr hrate
  rw [hx0, ok_bind]
  by_cases hcols : ∀ x ∈ rest, ∀ c ∈ readColumns, c ∈ x.keys
  swap
  · rw [bind_error_iff]
    have herr : ∀ e, (rest.map (asDict r0.keys)).mapM readPlotRow = .error e ↔ ∃ pre r post, rest = pre ++ r :: post ∧
        (∀ x ∈ pre, ∀ c ∈ readColumns, c ∈ x.keys) ∧ FirstMissing r0.keys r readColumns e := by
      intro e
      rw [mapM_error_iff]
      constructor
      · rintro ⟨pre, a, post, h1, h2, h3⟩
        obtain ⟨pre', tl, rfl, rfl, h4⟩ := List.map_eq_append_iff.mp h1
        obtain ⟨r, post', rfl, rfl, rfl⟩ := List.map_eq_cons_iff.mp h4
        refine ⟨pre', r, post', rfl, fun x hx => ?_, ?_⟩
        · exact (readPlotRow_okay (hrowsub x (by simp [hx]))).mp (h2 _ (List.mem_map_of_mem hx))
        · exact (readPlotRow_error (hrowsub r (by simp)) e).mp h3
      · rintro ⟨pre, r, post, rfl, h2, h3⟩
        refine ⟨pre.map (asDict r0.keys), asDict r0.keys r, post.map (asDict r0.keys), by simp, ?_, ?_⟩
        · intro x hx
          obtain ⟨y, hy, rfl⟩ := List.mem_map.mp hx
          exact (readPlotRow_okay (hrowsub y (by simp [hy]))).mpr (h2 y hy)
        · exact (readPlotRow_error (hrowsub r (by simp)) e).mpr h3
    constructor
    · rintro (h | ⟨rows, h, _⟩)
      · obtain ⟨pre, r, post, h1, h2, h3⟩ := (herr e).mp h
        exact .badRow hrate pre r post h1 h2 e h3
      · exfalso
        rw [mapM_ok_iff, List.forall₂_map_left_iff] at h
        refine hcols fun x hx => (readPlotRow_okay (hrowsub x hx)).mp ?_
        obtain ⟨i, hi, rfl⟩ := List.mem_iff_getElem.mp hx
        have := (List.forall₂_iff_get.mp h).2 i hi (by rw [← h.length_eq]; exact hi)
        exact ⟨_, this⟩
    · intro h
      left
      cases h with
      | noRate h => contradiction
      | badRow _ pre r post h1 h2 _ h3 => exact (herr e).mpr ⟨pre, r, post, h1, h2, h3⟩
      | noRows _ h => exfalso; apply hcols; rw [h]; simp
      | _ => contradiction
  have hnobad : ∀ pre r post e, rest = pre ++ r :: post → ¬ FirstMissing r0.keys r readColumns e := by
    intro pre r post e h1 h2
    exact no_missing (hcols r (by rw [h1]; simp)) e h2
  obtain ⟨rows, hrows⟩ : ∃ rows, List.Forall₂ (fun r p => readPlotRow (asDict r0.keys r) = .ok p) rest rows := by
    clear hd ht hsub hnobad
    induction rest with
    | nil => exact ⟨[], List.Forall₂.nil⟩
    | cons r rest ih =>
      obtain ⟨rows, hrows⟩ := ih (fun r hr => hrowsub r (List.mem_cons_of_mem _ hr)) fun x hx => hcols x (List.mem_cons_of_mem _ hx)
      obtain ⟨p, hp⟩ := (readPlotRow_okay (hrowsub r (by simp))).mpr (hcols r (by simp))
      exact ⟨p :: rows, List.Forall₂.cons hp hrows⟩
  rw [(mapM_ok_iff readPlotRow _ rows).mpr (List.forall₂_map_left_iff.mpr hrows), ok_bind]
  have hlen := hrows.length_eq
  have hsn : rows.map (·.snyder) = rest.map fun r => (r.get? "flowgofluxsnyderheat").map cellNumber := by
    clear hd ht hsub hlen hnobad
    induction hrows with
    | nil => rfl
    | cons hab _ ih =>
      rw [List.map_cons, List.map_cons, ih (fun r hr => hrowsub r (List.mem_cons_of_mem _ hr))
        (fun x hx => hcols x (List.mem_cons_of_mem _ hx)), (readPlotRow_of (hrowsub _ (by simp)) _ hab).snyder]
  rcases Nat.lt_or_ge rest.length 2 with hl | hl
  · -- one or two rows
    rcases rest with _ | ⟨r1, _ | ⟨r2, tl⟩⟩
    · cases hrows
      constructor
      · intro h
        have h : (Except.error Err.valueError : Except Err (PlotCurves ℝ × Bool)) = .error e := h
        cases h
        exact .noRows hrate rfl
      · intro h
        cases h with
        | noRate h => contradiction
        | badRow _ pre r post h1 _ _ h3 => exact absurd h3 (hnobad _ _ _ _ h1)
        | noRows => rfl
        | oneRow _ _ h => cases h
        | noSnyder _ _ h => simp at h
        | someSnyder _ _ h => simp at h
    · obtain ⟨p, rows', hp, hr', rfl⟩ := List.forall₂_cons_left_iff.mp hrows
      cases hr'
      constructor
      · intro h
        have h : (Except.error Err.indexError : Except Err (PlotCurves ℝ × Bool)) = .error e := h
        cases h
        exact .oneRow hrate hcols rfl
      · intro h
        cases h with
        | noRate h => contradiction
        | badRow _ pre r post h1 _ _ h3 => exact absurd h3 (hnobad _ _ _ _ h1)
        | noRows _ h => cases h
        | oneRow => rfl
        | noSnyder _ _ h => simp at h
        | someSnyder _ _ h => simp at h
    · simp at hl
  · have hdist : 2 ≤ (rows.map (·.distance)).length := by rw [List.length_map]; omega
    have hmax : ∃ m, maxList (rows.map (·.distance)) = .ok m := by
      unfold maxList
      cases hr : rows.map (·.distance) with
      | nil => rw [hr] at hdist; simp at hdist
      | cons a l => exact ⟨_, rfl⟩
    obtain ⟨m, hm⟩ := hmax
    have hget : listGet (rows.map (·.distance)) 1 = .ok ((rows.map (·.distance))[1]'(by omega)) := by
      rw [listGet_ok_iff]; exact List.getElem?_eq_getElem (by omega)
    rw [hm, ok_bind, hget, ok_bind,
      mapM_eq_map (fun r : PlotRow ℝ => degrees r.slope) (fun r => inDegrees r.slope) rows (fun r _ => degrees_real r.slope),
      ok_bind]
    have hfm : rows.filterMap (·.snyder) = rest.filterMap fun r => (r.get? "flowgofluxsnyderheat").map cellNumber := by
      have e1 : rows.filterMap (·.snyder) = (rows.map (·.snyder)).filterMap id := by rw [List.filterMap_map]; rfl
      have e2 : (rest.filterMap fun r => (r.get? "flowgofluxsnyderheat").map cellNumber) =
        (rest.map fun r => (r.get? "flowgofluxsnyderheat").map cellNumber).filterMap id := by rw [List.filterMap_map]; rfl
      rw [e1, e2, hsn]
    have hempty : (rows.filterMap (·.snyder)).isEmpty = true ↔ ∀ x ∈ rest, "flowgofluxsnyderheat" ∉ x.keys := by
      rw [hfm, List.isEmpty_iff, List.filterMap_eq_nil_iff]
      refine forall₂_congr fun x _ => ?_
      rw [Option.map_eq_none_iff, ← Row.get?_isSome, Option.not_isSome_iff_eq_none]
    have hlength : (rows.filterMap (·.snyder)).length = rest.length ↔ ∀ x ∈ rest, "flowgofluxsnyderheat" ∈ x.keys := by
      rw [hfm, List.filterMap_length_eq_length]
      refine forall₂_congr fun x _ => ?_
      rw [Option.isSome_map, Row.get?_isSome]
    have hdl : (rows.map (·.distance)).length = rest.length := by rw [List.length_map]; omega
    rw [hdl]
    by_cases hq : (q || !(rows.filterMap (·.snyder)).isEmpty) = true
    · rw [hq]
      simp only [Bool.not_true, Bool.false_eq_true, if_false]
      have hq' : q = true ∨ ∃ x ∈ rest, "flowgofluxsnyderheat" ∈ x.keys := by
        rw [Bool.or_eq_true] at hq
        refine hq.imp id fun h => ?_
        by_contra hn
        push Not at hn
        rw [hempty.mpr hn] at h
        cases h
      by_cases hs : ∀ x ∈ rest, "flowgofluxsnyderheat" ∈ x.keys
      · rw [hlength.mpr hs]
        simp only [bne_self_eq_false, Bool.false_eq_true, if_false]
        refine ⟨(fun h => by cases h), fun h => ?_⟩
        cases h with
        | noRate h => contradiction
        | badRow _ pre r post h1 _ _ h3 => exact absurd h3 (hnobad _ _ _ _ h1)
        | noRows _ h => rw [h] at hl; simp at hl
        | oneRow _ _ h => omega
        | noSnyder _ _ _ h => 
          exfalso
          rcases rest with _ | ⟨r1, tl⟩
          · simp at hl
          · exact h r1 (by simp) (hs r1 (by simp))
        | someSnyder _ _ _ h => obtain ⟨x, h1, h2⟩ := h; exact absurd (hs x h1) h2
      · have hb : ((rows.filterMap (·.snyder)).length != rest.length) = true := by
          rw [bne_iff_ne]; exact fun h => hs (hlength.mp h)
        rw [hb, if_pos rfl]
        have hs' : ∃ x ∈ rest, "flowgofluxsnyderheat" ∉ x.keys := by push Not at hs; exact hs
        constructor
        · intro h; cases h; exact .someSnyder hrate hcols hl hs' hq'
        · intro h
          cases h with
          | noRate h => contradiction
          | badRow _ pre r post h1 _ _ h3 => exact absurd h3 (hnobad _ _ _ _ h1)
          | noRows => rfl
          | oneRow _ _ h => omega
          | noSnyder _ _ _ h hqf =>
            exfalso
            rcases hq' with hq' | ⟨x, h1, h2⟩
            · rw [hqf] at hq'; cases hq'
            · exact h x h1 h2
          | someSnyder => rfl
    · have hq2 : (q || !(rows.filterMap (·.snyder)).isEmpty) = false := by simpa using hq
      rw [hq2]
      rw [Bool.or_eq_false_iff] at hq2
      obtain ⟨hqf, hem⟩ := hq2
      have hno := hempty.mp (by simpa using hem)
      simp only [Bool.not_false, if_true]
      constructor
      · intro h; cases h; exact .noSnyder hrate hcols hl hno hqf
      · intro h
        cases h with
        | noRate h => contradiction
        | badRow _ pre r post h1 _ _ h3 => exact absurd h3 (hnobad _ _ _ _ h1)
        | noRows _ h => rw [h] at hl; simp at hl
        | oneRow _ _ h => omega
        | noSnyder => rfl
        | someSnyder _ _ _ _ h =>
          exfalso
          rcases h with h | ⟨x, h1, h2⟩
          · rw [hqf] at h; cases h
          · exact hno x h1 h2

theorem rate_not_flux (fs : List (Flux ℝ)) : "effusion_rate" ∉ fluxColumns fs := by
  induction fs with
  | nil => simp [fluxColumns]
  | cons f rest ih =>
    simp only [fluxColumns, List.mem_append, List.mem_cons, not_or]
    cases f <;> simp [Flux.columns, Flux.logName, ih]

/-- The columns read for every row, save the surface temperature, are in the complete rows of every run. -/
theorem read_columns (g : Integrator ℝ) : ∀ c ∈ readColumns.take 16, c ∈ runColumns g := by
  intro c hc
  unfold runColumns
  rw [List.mem_cons, List.mem_append, List.mem_append]
  simp only [readColumns, List.take_succ_cons, List.take_zero, List.mem_cons, List.not_mem_nil, or_false] at hc
  rcases hc with rfl | rfl | rfl | rfl | rfl | rfl | rfl | rfl | rfl | rfl | rfl | rfl | rfl | rfl | rfl | rfl
  · exact Or.inl rfl
  all_goals first
    | (right; right; decide)
    | (right; left; right; decide)

/-- **C67**, the failures for a completed run. With one row drawing fails by a KeyError if the row is incomplete and by a
    ValueError if it is complete; with more rows, where neither forced convection nor the Snyder flux was on, by a KeyError
    (by a ValueError if there are just two rows and the second is incomplete); where one of them was on, by a ValueError if
    the last row is incomplete and by an IndexError if there are just two complete rows. -/
theorem C67_run_failures (q : Bool) (g : Integrator ℝ) (hdx : 0 < g.dx) (n : Nat) (w w' : World ℝ) (hw : w.log = [])
    (h : runLoop g n w = some (.ok (), w')) (t : CsvTable (Cell ℝ)) (ht : writeValues w'.log = .ok (some t)) (e : Err)
    (len : ℕ) (hlen : len = w'.log.length) (complete surface : Prop)
    (hcomplete : complete ↔ ∀ r ∈ w'.log.getLast?, "slope" ∈ r.keys)
    (hsurface : surface ↔ (.convection ∈ g.models.fluxes ∨ .snyder ∈ g.models.fluxes)) :
    plotFile q t = .error e ↔
      (e = .keyError ∧ (len = 1 ∧ ¬ complete ∨ len = 2 ∧ complete ∧ ¬ surface ∨ 3 ≤ len ∧ ¬ surface)) ∨
      (e = .valueError ∧ (len = 1 ∧ complete ∨ len = 2 ∧ ¬ complete ∨ 3 ≤ len ∧ ¬ complete ∧ surface)) ∨
      (e = .indexError ∧ (len = 2 ∧ complete ∧ surface)) := by
  have hdrawn := C67_run_can_be_drawn q g hdx n w w' hw h t ht
  rw [← hlen, ← hcomplete, ← hsurface] at hdrawn
  obtain ⟨k, ws, row, _, _, _, h1, _, h3⟩ := C63_rows g hdx n w w' hw h
  have hslope : "slope" ∉ partColumns g := by
    unfold partColumns
    rw [List.mem_cons, List.mem_append]
    rintro (e | e | e)
    · revert e; decide
    · exact absurd e (slope_not_flux _)
    · revert e; decide
  have hrate : "effusion_rate" ∉ partColumns g := by
    unfold partColumns
    rw [List.mem_cons, List.mem_append]
    rintro (e | e | e)
    · revert e; decide
    · exact absurd e (rate_not_flux _)
    · revert e; decide
  have hsurf : "characteristic_surface_temperature" ∈ runColumns g ↔ surface := by
    rw [hsurface, ← surface_column]
    unfold runColumns
    rw [List.mem_cons, List.mem_append, List.mem_append]
    constructor
    · rintro (e | (e | e) | e)
      · exact absurd e (by decide)
      · exact e
      · exact absurd e (by decide)
      · exact absurd e (by decide)
    · intro e; exact Or.inr (Or.inl (Or.inl e))
  have htake := read_columns g
  have hposin : "position" ∈ runColumns g := htake _ (by decide)
  have hslin : "slope" ∈ runColumns g := htake _ (by decide)
  have hratein : "effusion_rate" ∈ runColumns g := htake _ (by decide)
  have hsplit : readColumns = readColumns.take 16 ++ "characteristic_surface_temperature" :: [] := rfl
  have hread : surface → ∀ c ∈ readColumns, c ∈ runColumns g := by
    intro hs c hc
    rw [hsplit, List.mem_append, List.mem_singleton] at hc
    rcases hc with hc | rfl
    · exact htake c hc
    · exact hsurf.mpr hs
  -- the error of the first complete row when there is no surface temperature
  have hkey : ∀ (r0 : Row (Cell ℝ)) (r1 : Row (Cell ℝ)) (tl : List (Row (Cell ℝ))), (∀ c, c ∈ r0.keys ↔ c ∈ runColumns g) →
      (∀ c, c ∈ r1.keys ↔ c ∈ runColumns g) → ¬ surface → DrawFails q r0 (r1 :: tl) .keyError := by
    intro r0 r1 tl h0 h1 hs
    refine .badRow ((h0 _).mpr hratein) [] r1 tl rfl (by simp) _ ⟨_, _, _, hsplit, ?_, ?_, Or.inr ⟨?_, rfl⟩⟩
    · intro k hk; exact (h1 k).mpr (htake k hk)
    · rw [h1, hsurf]; exact hs
    · rw [h0, hsurf]; exact hs
  have fin : ∀ r0 rest e0, w'.log = r0 :: rest → DrawFails q r0 rest e0 → plotFile q t = .error e0 := by
    intro r0 rest e0 hl hd
    rw [hl] at ht
    exact (C67_failures q r0 rest t ht e0).mpr hd
  rcases h3 with h3 | ⟨r, h3, _, h5⟩
  · have hall : ∀ r ∈ w'.log, ∀ c, c ∈ r.keys ↔ c ∈ runColumns g := by
      intro r hr
      rw [h3] at hr
      obtain ⟨i, hi, rfl⟩ := List.mem_map.mp hr
      exact (h1 i (List.mem_range.mp hi)).2
    have hc : complete := by
      rw [hcomplete]
      intro r hr
      exact (hall r (List.mem_of_mem_getLast? hr) _).mpr hslin
    cases hlog : w'.log with
    | nil => rw [hlog] at ht; cases ht
    | cons r0 rest =>
      have h0 := hall r0 (by rw [hlog]; simp)
      rw [hlog, List.length_cons] at hlen
      rcases rest with _ | ⟨r1, tl⟩
      · have hf := fin _ _ _ hlog (.noRows ((h0 _).mpr hratein) rfl)
        rw [hf]
        grind
      · have hr1 := hall r1 (by rw [hlog]; simp)
        rw [List.length_cons] at hlen
        by_cases hs : surface
        swap
        · rw [fin _ _ _ hlog (hkey r0 r1 tl h0 hr1 hs)]
          grind
        rcases tl with _ | ⟨r2, tl⟩
        · rw [fin _ _ _ hlog (.oneRow ((h0 _).mpr hratein) (by
            intro x hx c hc
            rw [hall x (by rw [hlog]; exact List.mem_cons_of_mem _ hx)]
            exact hread hs c hc) rfl)]
          grind
        · rw [List.length_cons] at hlen
          obtain ⟨c, q', hd⟩ := hdrawn.mpr ⟨by omega, hc, hs⟩
          rw [hd]
          grind
  · have hc : ¬ complete := by
      rw [hcomplete]
      intro hlast
      exact hslope ((h5 _).mp (hlast r (by rw [h3]; simp)))
    have hlen' : len = k + 1 := by rw [hlen, h3]; simp
    rcases k with _ | _ | k
    · rw [fin r [] _ h3 (.noRate (by rw [h5]; exact hrate))]
      grind
    · have h0 := (h1 0 (by omega)).2
      rw [fin (row 0) [r] _ h3 (.badRow ((h0 _).mpr hratein) [] r [] rfl (by simp) _
        ⟨["position"], "slope", _, rfl, ?_, ?_, Or.inl ⟨(h0 _).mpr hslin, rfl⟩⟩)]
      · grind
      · intro k hk
        rw [List.mem_singleton.mp hk, h5]
        exact List.mem_cons_self
      · rw [h5]; exact hslope
    · have h0 := (h1 0 (by omega)).2
      have hl : w'.log = row 0 :: (row 1 :: ((List.range k).map fun i => row (i + 2)) ++ [r]) := by
        rw [h3, List.range_succ_eq_map, List.range_succ_eq_map]
        simp [Function.comp_def]
      by_cases hs : surface
      swap
      · rw [fin _ _ _ hl (hkey (row 0) (row 1) _ h0 (h1 1 (by omega)).2 hs)]
        grind
      · rw [fin _ _ _ hl (.badRow ((h0 _).mpr hratein) (row 1 :: ((List.range k).map fun i => row (i + 2))) r [] rfl ?_ _
          ⟨["position"], "slope", _, rfl, ?_, ?_, Or.inl ⟨(h0 _).mpr hslin, rfl⟩⟩)]
        · grind
        · intro x hx c hc
          have : ∀ c, c ∈ x.keys ↔ c ∈ runColumns g := by
            rcases List.mem_cons.mp hx with rfl | hx
            · exact (h1 1 (by omega)).2
            · obtain ⟨i, hi, rfl⟩ := List.mem_map.mp hx
              exact (h1 (i + 2) (by rw [List.mem_range] at hi; omega)).2
          rw [this]; exact hread hs c hc
        · intro k hk
          rw [List.mem_singleton.mp hk, h5]
          exact List.mem_cons_self
        · rw [h5]; exact hslope

end PyFlowGo
