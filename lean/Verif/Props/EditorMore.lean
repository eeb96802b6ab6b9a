import Verif.Props.Editor
import Verif.Props.RunConfig
/-
  C61 (consequences for a run) and C65 (new entries in the editor).
-/
set_option linter.unusedSectionVars false
namespace PyFlowGo
open Spec
variable {α : Type}

/-! ### Values at paths -/

theorem lookup_mapFields (f : List String → Json α → Json α) (q : List String) (l : List (String × Json α)) (k : String) :
    lookup (mapFieldsPairs f q l) k = (lookup l k).map (mapFieldsValue f (q ++ [k])) := by
  induction l with
  | nil => rw [mapFieldsPairs]; rfl
  | cons kv rest ih =>
    obtain ⟨a, v⟩ := kv
    rw [mapFieldsPairs]
    unfold lookup at ih ⊢
    rw [List.find?_cons, List.find?_cons]
    by_cases h : a = k
    · subst h; simp
    · have : (a == k) = false := by simpa using h
      simp only [this]
      exact ih

theorem valueAt_mapFields (f : List String → Json α → Json α) (p : List String) :
    ∀ (q : List String) (j : Json α) (v : Json α), valueAt j p = some v →
      valueAt (mapFieldsValue f q j) p = some (mapFieldsValue f (q ++ p) v) := by
  induction p with
  | nil =>
    intro q j v h
    rw [valueAt, Option.some.injEq] at h
    rw [valueAt, h, List.append_nil]
  | cons k r ih =>
    intro q j v h
    cases j with
    | obj l =>
      rw [valueAt, Option.bind_eq_some_iff] at h
      obtain ⟨w, h1, h2⟩ := h
      rw [mapFieldsValue, valueAt, lookup_mapFields, h1, Option.map_some, Option.bind_some, ih (q ++ [k]) w v h2]
      simp
    | _ => simp [valueAt] at h

/-- A value at a path that is not a dictionary is a field. -/
theorem mem_fields (p : List String) : ∀ (q : List String) (j v : Json α), valueAt j p = some v → (∀ l, v ≠ .obj l) →
    (q ++ p, v) ∈ fieldsValue q j := by
  induction p with
  | nil =>
    intro q j v h hv
    rw [valueAt, Option.some.injEq] at h
    subst h
    cases j with
    | obj l => exact absurd rfl (hv l)
    | _ => rw [fieldsValue] <;> simp
  | cons k r ih =>
    intro q j v h hv
    cases j with
    | obj l =>
      rw [valueAt, Option.bind_eq_some_iff] at h
      obtain ⟨w, h1, h2⟩ := h
      have h3 := ih (q ++ [k]) w v h2 hv
      have h4 := lookup_mem h1
      rw [fieldsValue]
      clear h1 hv h2 ih
      induction l with
      | nil => simp at h4
      | cons kv rest ih =>
        obtain ⟨a, b⟩ := kv
        rw [fieldsPairs, List.mem_append]
        rcases List.mem_cons.mp h4 with h | h
        · rw [Prod.mk.injEq] at h
          obtain ⟨rfl, rfl⟩ := h
          left; simpa using h3
        · exact Or.inr (ih h)
    | _ => simp [valueAt] at h

theorem mapFields_field (f : List String → Json α → Json α) (q : List String) (v : Json α) (hv : ∀ l, v ≠ .obj l) :
    mapFieldsValue f q v = f q v := by
  cases v with
  | obj l => exact absurd rfl (hv l)
  | _ => rw [mapFieldsValue]; simp

/-- **C61**. Every field of the file is still there after an unedited save, at the same path, as what its text is
    parsed to. -/
theorem C61_field_after_save (c : TextCodec α) (l : List (String × Json α)) (hl : CleanValue (.obj l)) :
    ∃ j, openAndSave c l = .ok j ∧ ∀ p v, valueAt (.obj l) p = some v → (∀ s, v ≠ .obj s) →
      valueAt j p = some (parseField c (c.str v)) := by
  refine ⟨_, C61_unedited c l hl, fun p v h hv => ?_⟩
  rw [valueAt_mapFields _ p [] _ v h, mapFields_field _ _ v hv]

theorem entryAt_valueAt (data : Json α) (sec key : String) (v : Json α) :
    EntryAt data sec key v ↔ valueAt data [sec, key] = some v := by
  constructor
  · rintro ⟨top, inner, rfl, h1, h2⟩
    simp [valueAt, h1, h2]
  · intro h
    cases data with
    | obj l =>
      rw [valueAt, Option.bind_eq_some_iff] at h
      obtain ⟨w, h1, h2⟩ := h
      cases w with
      | obj s =>
        rw [valueAt, Option.bind_eq_some_iff] at h2
        obtain ⟨u, h3, h4⟩ := h2
        rw [valueAt, Option.some.injEq] at h4
        exact ⟨l, s, rfl, h1, by rw [h3, h4]⟩
      | _ => simp [valueAt] at h2
    | _ => simp [valueAt] at h

/-- **C61**. What that does to a run: a configuration with slope smoothing on comes back from an unedited save with
    slope smoothing off. -/
theorem C61_smoothing_switched_off (c : TextCodec ℝ) (readable : ℝ → Prop) (hc : PythonText c readable) (env : Env ℝ)
    (l : List (String × Json ℝ)) (hl : CleanValue (.obj l))
    (hon : EntryAt (.obj l) "terrain_conditions" "slope_smoothing_active" (.bool true)) :
    (∀ t, buildTerrain env (.obj l) = .ok t → t.smoothing = true) ∧
    ∃ j, openAndSave c l = .ok j ∧ EntryAt j "terrain_conditions" "slope_smoothing_active" (.str "True") ∧
      ∀ t, buildTerrain env j = .ok t → t.smoothing = false := by
  have key : ∀ (d : Json ℝ) (v : Json ℝ), EntryAt d "terrain_conditions" "slope_smoothing_active" v →
      ∀ t, buildTerrain env d = .ok t → t.smoothing = isTrue v := by
    intro d v hv t ht
    unfold buildTerrain at ht
    simp only [bind_ok_iff] at ht
    obtain ⟨_, _, _, _, _, _, _, _, _, _, _, _, act, hact, _, _, _, _, heq⟩ := ht
    cases heq
    unfold getJ at hact
    simp only [bind_ok_iff, get_ok_iff] at hact
    obtain ⟨s, ⟨top, h1, h2⟩, inner, h3, h4⟩ := hact
    obtain ⟨top', inner', h5, h6, h7⟩ := hv
    rw [h1] at h5; cases h5
    rw [h2, h3] at h6; cases h6
    rw [h4] at h7; cases h7
    rfl
  refine ⟨fun t ht => key _ _ hon t ht, ?_⟩
  obtain ⟨j, h1, h2⟩ := C61_field_after_save c l hl
  have h3 := h2 _ _ ((entryAt_valueAt _ _ _ _).mp hon) (by simp)
  rw [(C61_which_fields_survive c readable hc).2.2.2.2.1] at h3
  exact ⟨j, h1, (entryAt_valueAt _ _ _ _).mpr h3, fun t ht => key j _ ((entryAt_valueAt _ _ _ _).mpr h3) t ht⟩

/-- **C61**. The mass-conservation switch, in contrast, means the same after an unedited save when it was true, false
    or an integer. -/
theorem C61_mass_conservation_kept (c : TextCodec ℝ) (readable : ℝ → Prop) (hc : PythonText c readable)
    (l : List (String × Json ℝ)) (hl : CleanValue (.obj l)) (v : Json ℝ)
    (hv : (∃ b, v = .bool b) ∨ ∃ n, v = .int n)
    (hon : EntryAt (.obj l) "terrain_conditions" "mass_conservation" v) :
    ∃ j raw, openAndSave c l = .ok j ∧ rawMassConservation j = .ok raw ∧
      massConservationOf raw = massConservationOf v := by
  obtain ⟨j, h1, h2⟩ := C61_field_after_save c l hl
  have h3 := h2 _ _ ((entryAt_valueAt _ _ _ _).mp hon) (by rcases hv with ⟨b, rfl⟩ | ⟨n, rfl⟩ <;> simp)
  obtain ⟨top, inner, rfl, h5, h6⟩ := (entryAt_valueAt _ _ _ _).mpr h3
  refine ⟨_, _, h1, (C54_in_configuration _ _).mpr ⟨inner, ⟨top, rfl, h5⟩, rfl⟩, ?_⟩
  rw [h6, Option.getD_some]
  have hs := C61_which_fields_survive c readable hc
  rcases hv with ⟨b, rfl⟩ | ⟨n, rfl⟩
  · cases b
    · rw [hs.2.2.2.2.2.1]; decide +kernel
    · rw [hs.2.2.2.2.1]; decide +kernel
  · rw [hs.1]

/-! ### Editing one field -/

/-- **C61**. Typing a text in one field and saving changes that field to what the text is parsed to; every other field
    is as after an unedited save. -/
theorem C61_edit_one_field (c : TextCodec α) (l : List (String × Json α)) (hl : CleanValue (.obj l)) (p : List String)
    (old : Json α) (text : String) (hp : valueAt (.obj l) p = some old) (hold : ∀ s, old ≠ .obj s) :
    ∃ j, rebuildDict c (typeText (openedTexts c l) (pathKey p) text) [] l = .ok j ∧
      valueAt j p = some (parseField c text) ∧
      ∀ p' v, p' ≠ p → valueAt (.obj l) p' = some v → (∀ s, v ≠ .obj s) →
        valueAt j p' = some (parseField c (c.str v)) := by
  classical
  have hf : (p, old) ∈ fieldsPairs [] l := by
    have := mem_fields p [] (.obj l) old hp hold
    rwa [fieldsValue, List.nil_append] at this
  have hl' := hl
  rw [CleanValue] at hl'
  have hpc := (fieldsPairs_path [] (by simp) l hl'.1 (p, old) hf).1
  have hr := rebuildDict_eq c (typeText (openedTexts c l) (pathKey p) text) []
    (fun p' v => if p' = p then text else c.str v) l hl (by
      rintro ⟨p', v⟩ hx
      have h1 := openedTexts_field c l hl p' v hx
      have hc' := (fieldsPairs_path [] (by simp) l hl'.1 (p', v) hx).1
      unfold typeText
      by_cases he : p' = p
      · subst he
        simp only [if_true, h1, Option.map_some]
      · rw [if_neg (fun h => he (pathKey_inj p' p hc' hpc h)), if_neg he, h1]) (by simp)
  refine ⟨_, hr, ?_, ?_⟩
  · show valueAt (mapFieldsValue _ [] (.obj l)) p = _
    rw [valueAt_mapFields _ p [] _ old hp, mapFields_field _ _ old hold, List.nil_append, if_pos rfl]
  · intro p' v hne h hv
    show valueAt (mapFieldsValue _ [] (.obj l)) p' = _
    rw [valueAt_mapFields _ p' [] _ v h, mapFields_field _ _ v hv, List.nil_append, if_neg hne]

/-! ### New entries -/

theorem lookup_assign {ν : Type} (l : List (String × ν)) (k : String) (v : ν) (k' : String) :
    lookup (assign l k v) k' = if k' = k then some v else lookup l k' := by
  induction l with
  | nil =>
    unfold assign lookup
    by_cases h : k' = k
    · simp [h]
    · simp [h, Ne.symm h]
  | cons a rest ih =>
    obtain ⟨ka, va⟩ := a
    unfold assign
    by_cases hk : ka = k
    · subst hk
      rw [if_pos rfl]
      by_cases h : k' = ka
      · subst h; simp [lookup]
      · simp [lookup, h, Ne.symm h]
    · rw [if_neg hk]
      by_cases h : k' = ka
      · subst h; simp [lookup, hk]
      · unfold lookup at ih ⊢
        rw [List.find?_cons, List.find?_cons]
        have : (ka == k') = false := by simpa using Ne.symm h
        simp only [this]
        exact ih

/-- Storing an entry in a section that exists. -/
theorem addEntry_section (k : String) (v : Json α) : ∀ (p : List String) (j : Json α) (s : List (String × Json α)),
    valueAt j p = some (.obj s) → ∃ j', addEntry k v p j = .ok j' ∧ valueAt j' (p ++ [k]) = some v ∧
      ∀ p', ¬ (p ++ [k]) <+: p' → ¬ p' <+: (p ++ [k]) → valueAt j' p' = valueAt j p' := by
  intro p
  induction p with
  | nil =>
    intro j s h
    rw [valueAt, Option.some.injEq] at h
    subst h
    refine ⟨_, rfl, ?_, ?_⟩
    · rw [List.nil_append, valueAt, lookup_assign, if_pos rfl]; rfl
    · intro p' h1 h2
      cases p' with
      | nil => exact absurd List.nil_prefix h2
      | cons a r =>
        rw [valueAt, valueAt, lookup_assign, if_neg]
        rintro rfl
        exact h1 (by simp)
  | cons a r ih =>
    intro j s h
    cases j with
    | obj l =>
      rw [valueAt, Option.bind_eq_some_iff] at h
      obtain ⟨w, h1, h2⟩ := h
      obtain ⟨w', h3, h4, h5⟩ := ih w s h2
      refine ⟨.obj (assign l a w'), ?_, ?_, ?_⟩
      · rw [addEntry, h1]
        show (addEntry k v r w >>= _) = _
        rw [h3]; rfl
      · rw [List.cons_append, valueAt, lookup_assign, if_pos rfl, Option.bind_some, h4]
      · intro p' hp1 hp2
        cases p' with
        | nil => exact absurd List.nil_prefix hp2
        | cons b r' =>
          rw [valueAt, valueAt, lookup_assign]
          by_cases hb : b = a
          · subst hb
            rw [if_pos rfl, h1, Option.bind_some, Option.bind_some]
            refine h5 r' (fun h => hp1 ?_) (fun h => hp2 ?_)
            · rw [List.cons_append]; exact List.prefix_cons_inj b |>.mpr h
            · rw [List.cons_append]; exact List.prefix_cons_inj b |>.mpr h
          · rw [if_neg hb]
    | _ => simp [valueAt] at h

/-- **C65**. A new entry put in a section is saved in that section under the typed name, as what its text is parsed to,
    and nothing else differs from an unedited save — provided no key of the file has a dot and the outermost section
    name on the way is used nowhere deeper in the file. -/
theorem C65_new_entry (c : TextCodec α) (l : List (String × Json α)) (hl : CleanValue (.obj l)) (a : String)
    (r : List String) (s : List (String × Json α)) (k text : String) (hk : k ≠ "")
    (hp : valueAt (.obj l) (a :: r) = some (.obj s)) (ha : a ∉ innerKeys l) :
    ∃ j j0, openAndSave c l = .ok j0 ∧ rebuildDict c (openedTexts c l) [⟨pathKey (a :: r), k, text⟩] l = .ok j ∧
      valueAt j (a :: r ++ [k]) = some (parseField c text) ∧
      ∀ p', ¬ (a :: r ++ [k]) <+: p' → ¬ p' <+: (a :: r ++ [k]) → valueAt j p' = valueAt j0 p' := by
  have hclean : ∀ (p : List String) (j : Json α) (v : Json α), CleanValue j → valueAt j p = some v →
      ∀ x ∈ p, CleanKey x := by
    intro p
    induction p with
    | nil => intro _ _ _ _ x hx; simp at hx
    | cons b t ih =>
      intro j v hj h
      cases j with
      | obj m =>
        rw [valueAt, Option.bind_eq_some_iff] at h
        obtain ⟨w, h1, h2⟩ := h
        rw [CleanValue] at hj
        have hm : CleanKey b ∧ CleanValue w := by
          have := lookup_mem h1
          have hcp := hj.1
          clear h1 hj
          induction m with
          | nil => simp at this
          | cons kv rest ihm =>
            obtain ⟨x, y⟩ := kv
            rw [CleanPairs] at hcp
            rcases List.mem_cons.mp this with h | h
            · cases h; exact ⟨hcp.1, hcp.2.1⟩
            · exact ihm h hcp.2.2
        intro x hx
        rcases List.mem_cons.mp hx with rfl | hx
        · exact hm.1
        · exact ih w v hm.2 h2 x hx
      | _ => simp [valueAt] at h
  have hpc := hclean _ _ _ hl hp
  have hsp := sectionPath_pathKey (a :: r) hpc (by simp)
  have hr := rebuildDict_eq c (openedTexts c l) [⟨pathKey (a :: r), k, text⟩] (fun _ v => c.str v) l hl
    (fun x hx => openedTexts_field c l hl x.1 x.2 hx) (by
      intro e he _
      rw [List.mem_singleton] at he
      subst he
      exact ⟨a, r, hsp, ha⟩)
  have hp' := valueAt_mapFields (fun _ v => parseField c (c.str v)) (a :: r) [] (.obj l) _ hp
  rw [mapFieldsValue] at hp'
  obtain ⟨j', h1, h2, h3⟩ := addEntry_section k (parseField c text) (a :: r) _ _ hp'
  refine ⟨j', _, C61_unedited c l hl, ?_, h2, h3⟩
  rw [hr, addEntries, if_neg hk]
  show (addEntry k _ (sectionPath (pathKey (a :: r))) _ >>= _) = _
  rw [hsp, mapFieldsValue]
  rw [h1]
  rfl

end PyFlowGo
