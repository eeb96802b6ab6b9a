import Verif.Spec.EditSpec
import Verif.Proofs.ConfigLemmas
/-
  C61: the configuration editor.
-/
set_option linter.unusedSectionVars false
namespace PyFlowGo
open Spec
variable {α : Type}

/-! ### Paths and display keys -/

theorem pathKey_ne (p : List String) (hp : ∀ k ∈ p, CleanKey k) (hne : p ≠ []) : pathKey p ≠ "" := by
  match p with
  | [] => exact absurd rfl hne
  | [k] => exact (hp k (by simp)).1
  | k :: k' :: rest =>
    unfold pathKey
    intro h
    have := congrArg String.toList h
    simp at this

theorem pathKey_snoc (p : List String) (k : String) (hp : ∀ k ∈ p, CleanKey k) :
    displayKey (pathKey p) k = pathKey (p ++ [k]) := by
  unfold displayKey
  by_cases hne : p = []
  · subst hne; simp [pathKey]
  · rw [if_neg (pathKey_ne p hp hne)]
    clear hp
    match p, hne with
    | [a], _ => simp [pathKey]
    | a :: b :: rest, _ =>
      have ih : pathKey (b :: rest) ++ "." ++ k = pathKey (b :: rest ++ [k]) := by
        induction rest generalizing b with
        | nil => simp [pathKey]
        | cons c rest ih =>
          have := ih c (by simp)
          simp only [List.cons_append] at this ⊢
          rw [pathKey, pathKey, ← this]
          simp only [String.append_assoc]
      simp only [List.cons_append] at ih ⊢
      rw [pathKey, pathKey, ← ih]
      simp only [String.append_assoc]

theorem splitDots_key (k : List Char) (hk : '.' ∉ k) : splitDots k = [k] := by
  induction k with
  | nil => rfl
  | cons c cs ih =>
    rw [List.mem_cons, not_or] at hk
    unfold splitDots
    rw [if_neg (fun h => hk.1 h.symm), ih hk.2]

theorem splitDots_append (k rest : List Char) (hk : '.' ∉ k) : splitDots (k ++ '.' :: rest) = k :: splitDots rest := by
  induction k with
  | nil => rfl
  | cons c cs ih =>
    rw [List.mem_cons, not_or] at hk
    rw [List.cons_append]
    conv_lhs => unfold splitDots
    rw [if_neg (fun h => hk.1 h.symm), ih hk.2]

/-- Splitting a shown name at the dots gives the path back. -/
theorem sectionPath_pathKey (p : List String) (hp : ∀ k ∈ p, CleanKey k) (hne : p ≠ []) : sectionPath (pathKey p) = p := by
  unfold sectionPath
  rw [if_neg (pathKey_ne p hp hne)]
  match p with
  | [] => exact absurd rfl hne
  | [k] =>
    show (splitDots k.toList).map String.ofList = _
    rw [splitDots_key _ (hp k (by simp)).2]; simp
  | k :: k' :: rest =>
    have ih : ∀ (rest : List String) (k' : String), (∀ x ∈ k' :: rest, CleanKey x) →
        (splitDots (pathKey (k' :: rest)).toList).map String.ofList = k' :: rest := by
      intro rest
      induction rest with
      | nil => intro k' h; show (splitDots k'.toList).map String.ofList = _; rw [splitDots_key _ (h k' (by simp)).2]; simp
      | cons a rest ih =>
        intro k' h
        have := ih a (fun x hx => h x (List.mem_cons_of_mem _ hx))
        rw [pathKey]
        have e : (k' ++ "." ++ pathKey (a :: rest)).toList = k'.toList ++ '.' :: (pathKey (a :: rest)).toList := by simp
        rw [e, splitDots_append _ _ (h k' (by simp)).2, List.map_cons, this]; simp
    exact ih (k' :: rest) k hp

theorem pathKey_inj (p q : List String) (hp : ∀ k ∈ p, CleanKey k) (hq : ∀ k ∈ q, CleanKey k) (h : pathKey p = pathKey q) :
    p = q := by
  by_cases hpe : p = []
  · by_cases hqe : q = []
    · rw [hpe, hqe]
    · rw [hpe] at h; exact absurd h.symm (pathKey_ne q hq hqe)
  · by_cases hqe : q = []
    · rw [hqe] at h; exact absurd h (pathKey_ne p hp hpe)
    · rw [← sectionPath_pathKey p hp hpe, h, sectionPath_pathKey q hq hqe]

/-! ### Fields -/

theorem lookup_of_unique {ν : Type} (l : List (String × ν)) (k : String) (v : ν) (h : (k, v) ∈ l)
    (hu : ∀ v', (k, v') ∈ l → v' = v) : lookup l k = some v := by
  unfold lookup
  cases hf : l.find? (fun kv => kv.1 == k) with
  | none =>
    rw [List.find?_eq_none] at hf
    exact absurd (by simp) (hf (k, v) h)
  | some x =>
    have h1 := List.find?_some hf
    have h2 := List.mem_of_find?_eq_some hf
    obtain ⟨a, b⟩ := x
    simp only [beq_iff_eq] at h1
    subst h1
    rw [Option.map_some, hu b h2]

theorem lookup_none_iff {ν : Type} (l : List (String × ν)) (k : String) : lookup l k = none ↔ k ∉ l.map Prod.fst := by
  unfold lookup
  rw [Option.map_eq_none_iff, List.find?_eq_none, List.mem_map]
  constructor
  · rintro h ⟨x, hx, rfl⟩; exact h x hx (by simp)
  · intro h x hx e; exact h ⟨x, hx, by simpa using e⟩

theorem lookup_mem {ν : Type} {l : List (String × ν)} {k : String} {v : ν} (h : lookup l k = some v) : (k, v) ∈ l := by
  unfold lookup at h
  rw [Option.map_eq_some_iff] at h
  obtain ⟨⟨a, b⟩, h1, rfl⟩ := h
  have := List.find?_some h1
  simp only [beq_iff_eq] at this
  subst this
  exact List.mem_of_find?_eq_some h1

theorem lookup_nodup {ν : Type} {l : List (String × ν)} {k : String} {v : ν} (hn : (l.map Prod.fst).Nodup)
    (h : (k, v) ∈ l) : lookup l k = some v := by
  refine lookup_of_unique l k v h fun v' h' => ?_
  have := List.inj_on_of_nodup_map hn h' h rfl
  exact (Prod.mk.inj this).2

mutual
/-- The paths of the fields are extensions of the path of the dictionary by clean keys. -/
theorem fieldsValue_path (q : List String) (hq : ∀ k ∈ q, CleanKey k) (v : Json α) (hv : CleanValue v) :
    ∀ x ∈ fieldsValue q v, (∀ k ∈ x.1, CleanKey k) ∧ ∃ r, x.1 = q ++ r ∧ valueAt v r = some x.2 ∧
      ∀ l, x.2 ≠ .obj l := by
  cases v with
  | obj l =>
    intro x hx
    rw [fieldsValue] at hx
    rw [CleanValue] at hv
    obtain ⟨h1, k, v, r, h2, h3, h4, h5⟩ := fieldsPairs_path q hq l hv.1 x hx
    refine ⟨h1, k :: r, h2, ?_, h5⟩
    rw [valueAt, lookup_nodup hv.2 h3]
    exact h4
  | _ =>
    intro x hx
    rw [fieldsValue, List.mem_singleton] at hx
    · rw [hx]; exact ⟨hq, [], by simp, rfl, by simp⟩
    · simp
theorem fieldsPairs_path (q : List String) (hq : ∀ k ∈ q, CleanKey k) (l : List (String × Json α)) (hl : CleanPairs l) :
    ∀ x ∈ fieldsPairs q l, (∀ k ∈ x.1, CleanKey k) ∧ ∃ k v r, x.1 = q ++ k :: r ∧ (k, v) ∈ l ∧
      valueAt v r = some x.2 ∧ ∀ l, x.2 ≠ .obj l := by
  match l with
  | [] => intro x hx; rw [fieldsPairs] at hx; simp at hx
  | (k, v) :: rest =>
    intro x hx
    rw [CleanPairs] at hl
    rw [fieldsPairs, List.mem_append] at hx
    rcases hx with hx | hx
    · obtain ⟨h1, r, h2, h3, h4⟩ := fieldsValue_path (q ++ [k]) (by
        intro x hx
        rcases List.mem_append.mp hx with h | h
        · exact hq x h
        · rw [List.mem_singleton.mp h]; exact hl.1) v hl.2.1 x hx
      exact ⟨h1, k, v, r, by simpa using h2, by simp, h3, h4⟩
    · obtain ⟨h1, k', v', r, h2, h3, h4⟩ := fieldsPairs_path q hq rest hl.2.2 x hx
      exact ⟨h1, k', v', r, h2, List.mem_cons_of_mem _ h3, h4⟩
end

/-- A path denotes at most one field. -/
theorem fields_unique (l : List (String × Json α)) (hl : CleanValue (.obj l)) (p : List String) (a b : Json α)
    (ha : (p, a) ∈ fieldsPairs [] l) (hb : (p, b) ∈ fieldsPairs [] l) : a = b := by
  obtain ⟨_, r, h1, h2, _⟩ := fieldsValue_path [] (by simp) (.obj l) hl (p, a) (by rw [fieldsValue]; exact ha)
  obtain ⟨_, r', h3, h4, _⟩ := fieldsValue_path [] (by simp) (.obj l) hl (p, b) (by rw [fieldsValue]; exact hb)
  simp only [List.nil_append] at h1 h3
  rw [← h1] at h2
  rw [← h3, h2] at h4
  exact Option.some.inj h4

mutual
theorem renderValue_eq (c : TextCodec α) (q : List String) (hq : ∀ k ∈ q, CleanKey k) (v : Json α) (hv : CleanValue v) :
    renderValue c (pathKey q) v = (fieldsValue q v).map fun x => (pathKey x.1, c.str x.2) := by
  cases v with
  | obj l =>
    rw [CleanValue] at hv
    rw [renderValue, fieldsValue]
    exact renderPairs_eq c q hq l hv.1
  | _ =>
    rw [renderValue, fieldsValue]
    · rfl
    · simp
theorem renderPairs_eq (c : TextCodec α) (q : List String) (hq : ∀ k ∈ q, CleanKey k) (l : List (String × Json α))
    (hl : CleanPairs l) :
    renderPairs c (pathKey q) l = (fieldsPairs q l).map fun x => (pathKey x.1, c.str x.2) := by
  match l with
  | [] => rw [renderPairs, fieldsPairs]; rfl
  | (k, v) :: rest =>
    rw [CleanPairs] at hl
    rw [renderPairs, fieldsPairs, List.map_append, pathKey_snoc q k hq,
      renderValue_eq c (q ++ [k]) (by
        intro x hx
        rcases List.mem_append.mp hx with h | h
        · exact hq x h
        · rw [List.mem_singleton.mp h]; exact hl.1) v hl.2.1, renderPairs_eq c q hq rest hl.2.2]
end

/-- The text shown for a field. -/
theorem openedTexts_field (c : TextCodec α) (l : List (String × Json α)) (hl : CleanValue (.obj l)) (p : List String)
    (v : Json α) (h : (p, v) ∈ fieldsPairs [] l) : openedTexts c l (pathKey p) = some (c.str v) := by
  have hl' := hl
  rw [CleanValue] at hl'
  have hr : renderPairs c "" l = (fieldsPairs [] l).map fun x => (pathKey x.1, c.str x.2) :=
    renderPairs_eq c [] (by simp) l hl'.1
  unfold openedTexts labelOf
  rw [hr]
  refine lookup_of_unique _ _ _ ?_ ?_
  · rw [List.mem_reverse]
    exact List.mem_map.mpr ⟨(p, v), h, rfl⟩
  · intro t ht
    rw [List.mem_reverse] at ht
    obtain ⟨⟨p', v'⟩, hm, he⟩ := List.mem_map.mp ht
    rw [Prod.mk.injEq] at he
    have hc := (fieldsPairs_path [] (by simp) l hl'.1 (p, v) h).1
    have hc' := (fieldsPairs_path [] (by simp) l hl'.1 (p', v') hm).1
    have hpp := pathKey_inj p' p hc' hc he.1
    rw [hpp] at hm
    rw [← he.2, fields_unique l hl p v' v hm h]

/-! ### Saving -/

theorem mapFieldsPairs_keys (f : List String → Json α → Json α) (q : List String) (l : List (String × Json α)) :
    (mapFieldsPairs f q l).map Prod.fst = l.map Prod.fst := by
  induction l with
  | nil => rw [mapFieldsPairs]
  | cons kv rest ih =>
    obtain ⟨k, v⟩ := kv
    rw [mapFieldsPairs, List.map_cons, List.map_cons, ih]

/-- New entries whose section does not start in this dictionary leave it alone. -/
theorem addEntries_quiet (c : TextCodec α) (entries : List NewEntry) (l : List (String × Json α))
    (h : ∀ e ∈ entries, e.key ≠ "" → ∃ a r, sectionPath e.sectionKey = a :: r ∧ a ∉ l.map Prod.fst) :
    addEntries c entries (.obj l) = .ok (.obj l) := by
  induction entries with
  | nil => rfl
  | cons e rest ih =>
    have ih := ih fun x hx => h x (List.mem_cons_of_mem _ hx)
    rw [addEntries]
    by_cases he : e.key = ""
    · rw [if_pos he, pure_bind]; exact ih
    · obtain ⟨a, r, h1, h2⟩ := h e (by simp) he
      rw [if_neg he, h1, addEntry, (lookup_none_iff l a).mpr h2]
      exact ih

mutual
theorem rebuildValue_eq (c : TextCodec α) (labels : String → Option String) (entries : List NewEntry)
    (t : List String → Json α → String) (q : List String) (hq : ∀ k ∈ q, CleanKey k) (v : Json α) (hv : CleanValue v)
    (hlab : ∀ x ∈ fieldsValue q v, labels (pathKey x.1) = some (t x.1 x.2))
    (hquiet : ∀ e ∈ entries, e.key ≠ "" → ∃ a r, sectionPath e.sectionKey = a :: r ∧ a ∉ keysValue v) :
    rebuildValue c labels entries (pathKey q) v =
      .ok (some (mapFieldsValue (fun p v => parseField c (t p v)) q v)) := by
  cases v with
  | obj l =>
    rw [CleanValue] at hv
    rw [rebuildValue, rebuildPairs_eq c labels entries t q hq l hv.1 (by rw [fieldsValue] at hlab; exact hlab)
      (fun e he hk => by
        obtain ⟨a, r, h1, h2⟩ := hquiet e he hk
        rw [keysValue, List.mem_append, not_or] at h2
        exact ⟨a, r, h1, h2.2⟩), ok_bind,
      addEntries_quiet c entries _ (fun e he hk => by
        obtain ⟨a, r, h1, h2⟩ := hquiet e he hk
        rw [keysValue, List.mem_append, not_or] at h2
        rw [mapFieldsPairs_keys]
        exact ⟨a, r, h1, h2.1⟩), ok_bind, mapFieldsValue]
    rfl
  | _ =>
    rw [rebuildValue, mapFieldsValue]
    · rw [fieldsValue] at hlab
      · rw [hlab _ (List.mem_singleton_self _)]; rfl
      · simp
    · simp
    · simp
theorem rebuildPairs_eq (c : TextCodec α) (labels : String → Option String) (entries : List NewEntry)
    (t : List String → Json α → String) (q : List String) (hq : ∀ k ∈ q, CleanKey k) (l : List (String × Json α))
    (hl : CleanPairs l) (hlab : ∀ x ∈ fieldsPairs q l, labels (pathKey x.1) = some (t x.1 x.2))
    (hquiet : ∀ e ∈ entries, e.key ≠ "" → ∃ a r, sectionPath e.sectionKey = a :: r ∧ a ∉ innerKeys l) :
    rebuildPairs c labels entries (pathKey q) l = .ok (mapFieldsPairs (fun p v => parseField c (t p v)) q l) := by
  match l with
  | [] => rw [rebuildPairs, mapFieldsPairs]
  | (k, v) :: rest =>
    rw [CleanPairs] at hl
    rw [fieldsPairs] at hlab
    rw [rebuildPairs, pathKey_snoc q k hq, rebuildValue_eq c labels entries t (q ++ [k]) (by
        intro x hx
        rcases List.mem_append.mp hx with h | h
        · exact hq x h
        · rw [List.mem_singleton.mp h]; exact hl.1) v hl.2.1 (fun x hx => hlab x (List.mem_append_left _ hx))
        (fun e he hk => by
          obtain ⟨a, r, h1, h2⟩ := hquiet e he hk
          rw [innerKeys, List.mem_append, not_or] at h2
          exact ⟨a, r, h1, h2.1⟩), ok_bind,
      rebuildPairs_eq c labels entries t q hq rest hl.2.2 (fun x hx => hlab x (List.mem_append_right _ hx))
        (fun e he hk => by
          obtain ⟨a, r, h1, h2⟩ := hquiet e he hk
          rw [innerKeys, List.mem_append, not_or] at h2
          exact ⟨a, r, h1, h2.2⟩), ok_bind, mapFieldsPairs]
    rfl
end

/-- The general saving theorem: the fields are parsed from their texts, then the new entries are added at the top. -/
theorem rebuildDict_eq (c : TextCodec α) (labels : String → Option String) (entries : List NewEntry)
    (t : List String → Json α → String) (l : List (String × Json α)) (hl : CleanValue (.obj l))
    (hlab : ∀ x ∈ fieldsPairs [] l, labels (pathKey x.1) = some (t x.1 x.2))
    (hquiet : ∀ e ∈ entries, e.key ≠ "" → ∃ a r, sectionPath e.sectionKey = a :: r ∧ a ∉ innerKeys l) :
    rebuildDict c labels entries l =
      addEntries c entries (mapFieldsValue (fun p v => parseField c (t p v)) [] (.obj l)) := by
  have hl' := hl
  rw [CleanValue] at hl'
  unfold rebuildDict
  have := rebuildPairs_eq c labels entries t [] (by simp) l hl'.1 hlab hquiet
  rw [show pathKey [] = "" from rfl] at this
  rw [this, ok_bind, mapFieldsValue]

/-- **C61**. Opening and saving without editing never fails, keeps every section and key in order, and replaces every
    field by what its text is parsed to (provided keys are non-empty and free of dots). -/
theorem C61_unedited (c : TextCodec α) (l : List (String × Json α)) (hl : CleanValue (.obj l)) :
    openAndSave c l = .ok (mapFieldsValue (fun _ v => parseField c (c.str v)) [] (.obj l)) := by
  unfold openAndSave
  rw [rebuildDict_eq c _ [] (fun _ v => c.str v) l hl (fun x hx => openedTexts_field c l hl x.1 x.2 hx) (by simp)]
  rfl

mutual
theorem mapFieldsValue_id (f : List String → Json α → Json α) (q : List String) (v : Json α) :
    mapFieldsValue f q v = v ↔ ∀ x ∈ fieldsValue q v, f x.1 x.2 = x.2 := by
  cases v with
  | obj l =>
    rw [mapFieldsValue, fieldsValue, Json.obj.injEq]
    exact mapFieldsPairs_id f q l
  | _ =>
    rw [mapFieldsValue, fieldsValue]
    · simp
    · simp
    · simp
theorem mapFieldsPairs_id (f : List String → Json α → Json α) (q : List String) (l : List (String × Json α)) :
    mapFieldsPairs f q l = l ↔ ∀ x ∈ fieldsPairs q l, f x.1 x.2 = x.2 := by
  match l with
  | [] => rw [mapFieldsPairs, fieldsPairs]; simp
  | (k, v) :: rest =>
    rw [mapFieldsPairs, fieldsPairs, List.cons.injEq, Prod.mk.injEq, mapFieldsPairs_id f q rest,
      mapFieldsValue_id f (q ++ [k]) v]
    simp only [true_and, List.mem_append]
    constructor
    · rintro ⟨h1, h2⟩ x (hx | hx)
      · exact h1 x hx
      · exact h2 x hx
    · intro h
      exact ⟨fun x hx => h x (Or.inl hx), fun x hx => h x (Or.inr hx)⟩
end

/-- **C61**. Saving unedited changes nothing exactly when every field is read back from its own text. -/
theorem C61_unchanged_iff (c : TextCodec α) (l : List (String × Json α)) (hl : CleanValue (.obj l)) :
    openAndSave c l = .ok (.obj l) ↔ ∀ x ∈ fieldsPairs [] l, parseField c (c.str x.2) = x.2 := by
  rw [C61_unedited c l hl, Except.ok.injEq, mapFieldsValue_id, fieldsValue]

/-- **C61**. Which fields survive: integers, readable numbers and texts that are not themselves JSON do; booleans and
    null never do: they come back as the texts "True", "False", "None"; a text that is JSON comes back as what it
    denotes. -/
theorem C61_which_fields_survive (c : TextCodec α) (readable : α → Prop) (hc : PythonText c readable) :
    (∀ n, parseField c (c.str (.int n)) = .int n) ∧
    (∀ x, readable x → parseField c (c.str (.num x)) = .num x) ∧
    (∀ s, c.loads s = none → parseField c (c.str (.str s)) = .str s) ∧
    (∀ s j, c.loads s = some j → parseField c (c.str (.str s)) = j) ∧
    parseField c (c.str (.bool true)) = .str "True" ∧
    parseField c (c.str (.bool false)) = .str "False" ∧
    parseField c (c.str .null) = .str "None" := by
  refine ⟨fun n => ?_, fun x hx => ?_, fun s hs => ?_, fun s j hs => ?_, ?_, ?_, ?_⟩ <;> unfold parseField
  · rw [hc.loads_int]; rfl
  · rw [hc.loads_num x hx]; rfl
  · rw [hc.str_str, hs]; rfl
  · rw [hc.str_str, hs]; rfl
  · rw [hc.str_true, hc.loads_True]; rfl
  · rw [hc.str_false, hc.loads_False]; rfl
  · rw [hc.str_null, hc.loads_None]; rfl

end PyFlowGo
