import Verif.Proofs.CsvLemmas
import Verif.Props.CsvText
import Verif.Props.Sweep
import Verif.Model.Vents
/-
  C78: the list of vents and the configuration made for each of them.
-/
set_option linter.unusedSectionVars false
namespace PyFlowGo
open Spec
variable {α : Type} [Add α] [Sub α] [Mul α] [Neg α] [OfScientific α] [PyNum α]

/-- **C78**. The vent list of a semicolon-separated table: one name per row, in order, an underscore followed by the text
    of the column `flow_id`, wherever that column stands and whatever the other columns contain. -/
theorem C78_vent_list (header : List String) (rows : List (List (List Char))) (windows : Bool) (hn : header.Nodup)
    (hch : ∀ n ∈ header, '\r' ∉ n.toList) (hcr : ∀ r ∈ rows, ∀ f ∈ r, '\r' ∉ f)
    (hlen : ∀ r ∈ rows, r.length = header.length) (i : ℕ) (hi : header[i]? = some "flow_id") :
    makeVentList (stored windows (csvWrite ';' (header.map String.toList :: rows))) =
      .ok (rows.map fun r => '_' :: r.getD i []) := by
  have hh : header ≠ [] := by rintro rfl; simp at hi
  have hd : Delim ';' := by unfold Delim; decide
  unfold makeVentList
  rw [dictRead_write hd _ _ (by simpa using hh) (fun r hr h0 => hh (List.length_eq_zero_iff.mp (by rw [← hlen r hr, h0]; rfl)))
    (by intro f hf; obtain ⟨n, h1, rfl⟩ := List.mem_map.mp hf; exact hch n h1) hcr, ok_bind, List.mapM_map]
  refine mapM_eq_map _ _ _ fun r hr => ?_
  simp only [Function.comp, ventName]
  rw [dictField_zip header r i _ hn (hlen r hr) hi, ok_bind]
  have : i < r.length := by
    rw [hlen r hr]
    exact (List.getElem?_eq_some_iff.mp hi).1
  rw [List.getElem?_eq_getElem this]
  simp [List.getD, this, pure_eq_ok]

theorem dictField_any (hs : List String) (r : List (List Char)) (k : ℕ) (n : String) (hnd : hs.Nodup) (hk : hs[k]? = some n) :
    dictField (dictZip (hs.map String.toList) r) n = .ok r[k]? := by
  have hz : ∀ (hs : List String) (r : List (List Char)) (k : ℕ), hs.Nodup → hs[k]? = some n →
      (dictZip (hs.map String.toList) r).reverse.lookup n.toList = some r[k]? := by
    clear hk hnd
    intro hs
    induction hs with
    | nil => intro r k _ hk; simp at hk
    | cons m hs ih =>
      intro r k hnd hk
      obtain ⟨h1, h2⟩ := List.nodup_cons.mp hnd
      have hmiss : ∀ r', (dictZip (hs.map String.toList) r').reverse.lookup m.toList = none := by
        intro r'
        rw [List.lookup_eq_none_iff]
        intro p hp
        rw [List.mem_reverse] at hp
        obtain ⟨n', hn', e⟩ := dictZip_names hs r' p hp
        rw [e]
        have : m.toList ≠ n'.toList := fun h => h1 (String.toList_inj.mp h ▸ hn')
        simpa using this
      cases r with
      | nil =>
        rw [List.map_cons, dictZip, List.reverse_cons, List.lookup_append]
        cases k with
        | succ k =>
          rw [ih [] k h2 (by simpa using hk)]
          simp
        | zero =>
          simp only [List.getElem?_cons_zero, Option.some.injEq] at hk
          subst hk
          rw [hmiss]
          simp
      | cons f r =>
        rw [List.map_cons, dictZip, List.reverse_cons, List.lookup_append]
        cases k with
        | succ k =>
          rw [ih r k h2 (by simpa using hk)]
          simp
        | zero =>
          simp only [List.getElem?_cons_zero, Option.some.injEq] at hk
          subst hk
          rw [hmiss]
          simp
  unfold dictField
  rw [hz hs r k hnd hk]

/-- **C78**. Lines may be longer or shorter than the header: further fields are ignored, and a line that stops before the
    `flow_id` column stands for a vent called `_None`. -/
theorem C78_ragged_lines (header : List String) (rows : List (List (List Char))) (windows : Bool) (hn : header.Nodup)
    (hch : ∀ n ∈ header, '\r' ∉ n.toList) (hcr : ∀ r ∈ rows, ∀ f ∈ r, '\r' ∉ f)
    (hne : ∀ r ∈ rows, r ≠ []) (i : ℕ) (hi : header[i]? = some "flow_id") :
    makeVentList (stored windows (csvWrite ';' (header.map String.toList :: rows))) =
      .ok (rows.map fun r => '_' :: (r[i]?).getD "None".toList) := by
  have hh : header ≠ [] := by rintro rfl; simp at hi
  have hd : Delim ';' := by unfold Delim; decide
  unfold makeVentList
  rw [dictRead_write hd _ _ (by simpa using hh) hne
    (by intro f hf; obtain ⟨n, h1, rfl⟩ := List.mem_map.mp hf; exact hch n h1) hcr, ok_bind, List.mapM_map]
  refine mapM_eq_map _ _ _ fun r hr => ?_
  simp only [Function.comp, ventName]
  rw [dictField_any header r i _ hn hi, ok_bind]
  cases r[i]? with
  | none => simp [pure_eq_ok]
  | some f => simp [pure_eq_ok]

example : makeVentList (stored false (csvWrite ';' [["x".toList, "flow_id".toList], ["1".toList], ["2".toList, "north".toList, "!".toList]])) =
    .ok ["_None".toList, "_north".toList] :=
  C78_ragged_lines ["x", "flow_id"] [["1".toList], ["2".toList, "north".toList, "!".toList]] false (by decide) (by decide) (by decide) (by decide) 1 rfl

/-- **C78**: without the column there is no list, unless the table has no rows at all. -/
theorem C78_no_flow_id (header : List String) (r : List (List Char)) (rows : List (List (List Char))) (windows : Bool)
    (hh : header ≠ []) (hch : ∀ n ∈ header, '\r' ∉ n.toList) (hcr : ∀ x ∈ r :: rows, ∀ f ∈ x, '\r' ∉ f)
    (hlen : ∀ x ∈ r :: rows, x.length = header.length) (hi : "flow_id" ∉ header) :
    makeVentList (stored windows (csvWrite ';' (header.map String.toList :: r :: rows))) = .error .keyError := by
  have hd : Delim ';' := by unfold Delim; decide
  unfold makeVentList
  rw [dictRead_write hd _ _ (by simpa using hh) (fun r hr h0 => hh (List.length_eq_zero_iff.mp (by rw [← hlen r hr, h0]; rfl)))
    (by intro f hf; obtain ⟨n, h1, rfl⟩ := List.mem_map.mp hf; exact hch n h1) hcr, ok_bind, List.map_cons, List.mapM_cons]
  have : ventName (dictZip (header.map String.toList) r) = .error .keyError := by
    unfold ventName dictField
    have h0 : (dictZip (header.map String.toList) r).reverse.lookup "flow_id".toList = none := by
      rw [List.lookup_eq_none_iff]
      intro p hp
      obtain ⟨n, hn, e⟩ := dictZip_names header r p (List.mem_reverse.mp hp)
      rw [e]
      have : "flow_id".toList ≠ n.toList := fun h => hi (String.toList_inj.mp h ▸ hn)
      simpa using this
    rw [h0]
    rfl
  rw [this]
  rfl

/-- **C78**. The new configuration has the given name and slope file and is otherwise the template; the template keeps its
    content unless it is the output file, and no other file changes. -/
theorem C78_new_json (env : Env α) (template name slope output : String) (p p' : Proc α) (data : Json α)
    (hd : lookup p.json (env.canon template) = some data)
    (h : makeNewJson env template name slope output p = (.ok (), p')) :
    ∃ d, lookup p'.json (env.canon output) = some d ∧ TopEntry d "lava_name" (.str name) ∧
      TopEntry d "slope_file" (.str slope) ∧
      (∀ k, k ≠ "lava_name" → k ≠ "slope_file" → ∀ v, TopEntry d k v ↔ TopEntry data k v) ∧
      (∀ f, f ≠ env.canon output → lookup p'.json f = lookup p.json f) ∧ p'.results = p.results ∧ p'.log = p.log := by
  unfold makeNewJson at h
  rw [hd] at h
  dsimp only at h
  cases h1 : data.set "lava_name" (.str name) with
  | error e => rw [h1] at h; simp at h
  | ok d1 =>
    rw [h1, ok_bind] at h
    cases h2 : d1.set "slope_file" (.str slope) with
    | error e => rw [h2] at h; simp at h
    | ok d2 =>
      rw [h2] at h
      simp only [Prod.mk.injEq, true_and] at h
      subst h
      obtain ⟨a1, a2⟩ := set_spec _ _ _ _ h1
      obtain ⟨b1, b2⟩ := set_spec _ _ _ _ h2
      refine ⟨d2, ?_, (b2 _ (by decide) _).mpr a1, b1, fun k k1 k2 v => (b2 k k2 v).trans (a2 k k1 v), fun f hf => ?_, rfl, rfl⟩
      · dsimp only
        rw [writeFile, lookup_cons]; exact if_pos rfl
      · dsimp only
        rw [writeFile, lookup_cons, if_neg (by simpa using fun h => hf h)]

/-- **C78**: the call succeeds exactly on a template that is a JSON object. -/
theorem C78_new_json_ok (env : Env α) (template name slope output : String) (p : Proc α) :
    (∃ p', makeNewJson env template name slope output p = (.ok (), p')) ↔
      ∃ l, lookup p.json (env.canon template) = some (.obj l) := by
  have hset : ∀ (l : List (String × Json α)) k v, ∃ l', (Json.obj l).set k v = .ok (.obj l') := by
    intro l k v
    unfold Json.set
    dsimp only
    split
    · exact ⟨_, rfl⟩
    · exact ⟨_, rfl⟩
  unfold makeNewJson
  cases hl : lookup p.json (env.canon template) with
  | none => simp
  | some data =>
    cases data with
    | obj l =>
      obtain ⟨l1, h1⟩ := hset l "lava_name" (.str name)
      obtain ⟨l2, h2⟩ := hset l1 "slope_file" (.str slope)
      dsimp only
      rw [h1, ok_bind, h2]
      simp
    | _ => simp [Json.set, bind, Except.bind]

/-- **C78**. The result file of a run of the new configuration is named after the vent. -/
theorem C78_result_named_after_vent (env : Env α) (template name slope output folder : String) (p p' : Proc α) (data rate : Json α)
    (hd : lookup p.json (env.canon template) = some data) (hr : TopEntry data "effusion_rate_init" rate)
    (h : makeNewJson env template name slope output p = (.ok (), p')) :
    getFileNameResults env folder output p' = .ok (resultFileName folder name (rate.show env)) := by
  obtain ⟨d, h1, h2, h3, h4, _⟩ := C78_new_json env template name slope output p p' data hd h
  have hr' := (h4 "effusion_rate_init" (by decide) (by decide) rate).mpr hr
  obtain ⟨l, rfl, hl⟩ := h2
  obtain ⟨l', hl', hr'⟩ := hr'
  cases hl'
  unfold getFileNameResults
  rw [h1]
  dsimp only
  have e1 : (Json.obj l).get "effusion_rate_init" = .ok rate := by unfold Json.get; dsimp only; rw [hr']
  have e2 : requireTop (Json.obj l) "lava_name" = .ok (.str name) := by
    unfold requireTop Json.has Json.get
    simp [hl, ok_bind]
  rw [e1, ok_bind, e2]
  rfl

/-- **C78**: two vents, the names in the second column, one of them with a semicolon. -/
example : makeVentList (stored true (csvWrite ';' [["x".toList, "flow_id".toList], ["1".toList, "a".toList], [[], "b;c".toList]])) =
    .ok ["_a".toList, "_b;c".toList] :=
  C78_vent_list ["x", "flow_id"] [["1".toList, "a".toList], [[], "b;c".toList]] true (by decide) (by decide) (by decide)
    (by decide) 1 rfl

example (env : Env ℝ) : ∃ p p' : Proc ℝ, makeNewJson env "t" "_a" "s.txt" "o" p = (.ok (), p') := by
  obtain ⟨p', h⟩ := (C78_new_json_ok env "t" "_a" "s.txt" "o"
    { json := [(env.canon "t", .obj [("lava_name", .str "x")])], results := [], log := [] }).mpr
      ⟨_, by rw [lookup_cons]; exact if_pos rfl⟩
  exact ⟨_, p', h⟩

end PyFlowGo
