import Verif.Proofs.EditText
import Verif.Props.EditorMore
/-
  C80: what an unedited save in the editor does to a configuration file, text by text.
-/
set_option linter.unusedSectionVars false
namespace PyFlowGo
open Spec
variable {α : Type}

theorem jsonLoads_valueText (pf : List Char → Option α) {t : List Char} {j : Json α} (h : ValueText pf t j) :
    jsonLoads pf t = .ok j :=
  (jsonLoads_iff pf t j).mpr ⟨[], t, [], by simp, by simp [Ws], h, by simp [Ws]⟩

theorem skipWs_cons {c : Char} {s : List Char} (h : isJsonWs c = false) : skipWs (c :: s) = c :: s := by
  simp [skipWs, List.dropWhile, h]

theorem jsonLoads_refused (pf : List Char → Option α) (ss : α → List Char) (pr : Char → Bool)
    (od : List (String × Json α) → List Char) (hss : FloatFormat pf ss) (v : Json α) (h : ¬ ElementKept pf ss pr v) :
    (jsonLoads pf (pyRepr ss pr od v)).toOption = none := by
  obtain ⟨c, s, e, h1, _⟩ := pyRepr_head pf ss pr od hss v
  have hs : skipWs (pyRepr ss pr od v) = pyRepr ss pr od v := by rw [e]; exact skipWs_cons h1
  have := pyRepr_refused pf ss pr od hss v h (2 * (pyRepr ss pr od v).length + 1) [] (by omega)
  rw [List.append_nil] at this
  unfold jsonLoads
  rw [hs, this]
  rfl

theorem chars_length {t s : List Char} (h : Chars t s) : s.length ≤ t.length := by
  induction h with
  | nil => simp
  | cons t c ts s h hs ih =>
    obtain ⟨a, r, rfl, _⟩ := charText_head h
    simp; omega

/-- No text is a JSON text of itself. -/
theorem not_own_text (pf : List Char → Option α) (s : String) : ¬ JsonText pf s.toList (.str s) := by
  rintro ⟨w₁, t, w₂, e, _, h, _⟩
  cases h with
  | str t s h =>
    obtain ⟨b, rfl, hb⟩ := h
    have := chars_length hb
    rw [e] at this
    simp at this
    omega

theorem parseField_text (pf : List Char → Option α) (ss : α → List Char) (pr : Char → Bool)
    (od : List (String × Json α) → List Char) (t : List Char) :
    parseField (pyCodec pf ss pr od) (String.ofList t) = (jsonLoads pf t).toOption.getD (.str (String.ofList t)) := by
  unfold parseField pyCodec
  simp

theorem pyCodec_str (pf : List Char → Option α) (ss : α → List Char) (pr : Char → Bool)
    (od : List (String × Json α) → List Char) (v : Json α) : (pyCodec pf ss pr od).str v = String.ofList (pyStr ss pr od v) := rfl

/-- **C80**. Which fields an unedited save keeps: integers, finite numbers, texts that are not themselves JSON, and lists
    made of these (texts within lists only when Python puts them in double quotes); no others. -/
theorem C80_which_fields_are_kept (pf : List Char → Option α) (ss : α → List Char) (pr : Char → Bool)
    (od : List (String × Json α) → List Char) (hss : FloatFormat pf ss) (v : Json α) (hv : ∀ l, v ≠ .obj l) :
    parseField (pyCodec pf ss pr od) ((pyCodec pf ss pr od).str v) = v ↔ FieldKept pf ss pr v := by
  rw [pyCodec_str, parseField_text]
  have other : (∀ s, v ≠ .str s) → ((jsonLoads pf (pyRepr ss pr od v)).toOption.getD
      (.str (String.ofList (pyRepr ss pr od v))) = v ↔ ElementKept pf ss pr v) := by
    intro hs
    constructor
    · intro h
      by_contra hk
      rw [jsonLoads_refused pf ss pr od hss v hk] at h
      exact hs _ h.symm
    · intro hk
      rw [jsonLoads_valueText pf (pyRepr_text pf ss pr od v hk)]
      rfl
  cases v with
  | str s =>
    rw [pyStr, FieldKept, String.ofList_toList]
    constructor
    · rintro h ⟨j, hj⟩
      rw [(jsonLoads_iff pf _ _).mpr hj] at h
      have h' : j = .str s := h
      exact not_own_text pf s (h' ▸ hj)
    · intro h
      cases hl : jsonLoads pf s.toList with
      | ok j => exact absurd ⟨j, (jsonLoads_iff pf _ _).mp hl⟩ h
      | error e => rfl
  | obj l => exact absurd rfl (hv l)
  | _ => exact other (by simp)

/-- **C80**. A field that is not kept comes back as a text, the one shown (`None`, `True`, `nan`, `['a', 'b']`, …), unless
    it was a text that is JSON: then it comes back as the value it denotes. -/
theorem C80_what_becomes_of_the_others (pf : List Char → Option α) (ss : α → List Char) (pr : Char → Bool)
    (od : List (String × Json α) → List Char) (hss : FloatFormat pf ss) (v : Json α) (hv : ∀ l, v ≠ .obj l)
    (hk : ¬ FieldKept pf ss pr v) :
    ((∀ s, v ≠ .str s) → parseField (pyCodec pf ss pr od) ((pyCodec pf ss pr od).str v) =
      .str (String.ofList (pyRepr ss pr od v))) ∧
    (∀ s j, v = .str s → JsonText pf s.toList j → parseField (pyCodec pf ss pr od) ((pyCodec pf ss pr od).str v) = j) := by
  constructor
  · intro hs
    rw [pyCodec_str, parseField_text]
    cases v with
    | str s => exact absurd rfl (hs s)
    | obj l => exact absurd rfl (hv l)
    | _ =>
      rw [FieldKept] at hk
      · rw [pyStr, jsonLoads_refused pf ss pr od hss _ hk]
        · rfl
        · simp
      · simp
  · rintro s j rfl hj
    rw [pyCodec_str, parseField_text, pyStr, (jsonLoads_iff pf _ _).mpr hj]
    rfl

theorem none_not_json (pf : List Char → Option α) (c d : Char) (r : List Char) (hw : isJsonWs c = false)
    (h : (c, d) ∈ [('N', 'o'), ('n', 'a'), ('-', 'i')]) : (jsonLoads pf (c :: d :: r)).toOption = none := by
  unfold jsonLoads
  rw [skipWs_cons hw, scanValue_word_none pf _ c d r h]
  rfl

theorem head_not_json (pf : List Char → Option α) (c : Char) (r : List Char) (hw : isJsonWs c = false)
    (h : c ∈ ['T', 'F', 'i', '\'', 'O']) : (jsonLoads pf (c :: r)).toOption = none := by
  unfold jsonLoads
  rw [skipWs_cons hw, scanValue_head_none pf _ c r h]
  rfl

/-- **C80**. The text functions of Python satisfy what C61 and C65 ask of them: these theorems hold of the editor with the
    real `str` and `json.loads`. -/
theorem C80_codec_is_python (pf : List Char → Option α) (ss : α → List Char) (pr : Char → Bool)
    (od : List (String × Json α) → List Char) : PythonText (pyCodec pf ss pr od) (FiniteText pf ss) where
  str_null := by rw [pyCodec_str, pyStr, pyRepr]; simp
  str_true := by rw [pyCodec_str, pyStr, pyRepr]; simp
  str_false := by rw [pyCodec_str, pyStr, pyRepr]; simp
  str_str s := by rw [pyCodec_str, pyStr, String.ofList_toList]
  loads_None := none_not_json pf 'N' 'o' ['n', 'e'] (by decide) (by simp)
  loads_True := head_not_json pf 'T' ['r', 'u', 'e'] (by decide) (by simp)
  loads_False := head_not_json pf 'F' ['a', 'l', 's', 'e'] (by decide) (by simp)
  loads_int n := by
    rw [pyCodec_str]
    unfold pyCodec
    simp only [String.toList_ofList]
    rw [pyStr, pyRepr, jsonLoads_valueText pf (.int _ _ (dumpInt_text n))]
    · rfl
    · simp
  loads_num x hx := by
    rw [pyCodec_str]
    unfold pyCodec
    simp only [String.toList_ofList]
    rw [pyStr, pyRepr, jsonLoads_valueText pf (.num _ _ (Or.inl hx.1) hx.2)]
    · rfl
    · simp

/-! ### The file -/

mutual
theorem distinct_mapFields (f : List String → Json α → Json α) (hf : ∀ p v, DistinctKeys v → DistinctKeys (f p v)) :
    (q : List String) → (v : Json α) → DistinctKeys v → DistinctKeys (mapFieldsValue f q v)
  | q, .obj l, h => by
    rw [DistinctKeys] at h
    rw [mapFieldsValue, DistinctKeys, mapFieldsPairs_keys]
    exact ⟨h.1, distinct_mapMembers f hf q l h.2⟩
  | q, .null, h => by rw [mapFieldsValue]; exact hf _ _ h; simp
  | q, .bool _, h => by rw [mapFieldsValue]; exact hf _ _ h; simp
  | q, .int _, h => by rw [mapFieldsValue]; exact hf _ _ h; simp
  | q, .num _, h => by rw [mapFieldsValue]; exact hf _ _ h; simp
  | q, .str _, h => by rw [mapFieldsValue]; exact hf _ _ h; simp
  | q, .arr _, h => by rw [mapFieldsValue]; exact hf _ _ h; simp
theorem distinct_mapMembers (f : List String → Json α → Json α) (hf : ∀ p v, DistinctKeys v → DistinctKeys (f p v)) :
    (q : List String) → (l : List (String × Json α)) → DistinctMembers l → DistinctMembers (mapFieldsPairs f q l)
  | _, [], _ => by rw [mapFieldsPairs, DistinctMembers]; trivial
  | q, (k, v) :: rest, h => by
    rw [DistinctMembers] at h
    rw [mapFieldsPairs, DistinctMembers]
    exact ⟨distinct_mapFields f hf _ v h.1, distinct_mapMembers f hf q rest h.2⟩
end

theorem leafFields (q : List String) (v : Json α) (hv : ∀ l, v ≠ .obj l) : fieldsValue q v = [(q, v)] := by
  cases v with
  | obj l => exact absurd rfl (hv l)
  | _ => rw [fieldsValue]; simp

mutual
theorem fields_not_obj : (q : List String) → (v : Json α) → ∀ x ∈ fieldsValue q v, ∀ l, x.2 ≠ .obj l
  | q, .obj l => by rw [fieldsValue]; exact members_not_obj q l
  | q, .null => by rw [leafFields q _ (by simp)]; simp
  | q, .bool _ => by rw [leafFields q _ (by simp)]; simp
  | q, .int _ => by rw [leafFields q _ (by simp)]; simp
  | q, .num _ => by rw [leafFields q _ (by simp)]; simp
  | q, .str _ => by rw [leafFields q _ (by simp)]; simp
  | q, .arr _ => by rw [leafFields q _ (by simp)]; simp
theorem members_not_obj : (q : List String) → (l : List (String × Json α)) → ∀ x ∈ fieldsPairs q l, ∀ l', x.2 ≠ .obj l'
  | _, [] => by rw [fieldsPairs]; simp
  | q, (k, v) :: rest => by
    rw [fieldsPairs]
    intro x hx
    rcases List.mem_append.mp hx with hx | hx
    · exact fields_not_obj _ v x hx
    · exact members_not_obj q rest x hx
end

theorem leafMap (f : List String → Json α → Json α) (q : List String) (v : Json α)
    (hv : ∀ l, v ≠ .obj l) (hf : ∀ x ∈ fieldsValue q v, ∀ l, f x.1 x.2 ≠ .obj l) :
    fieldsValue q (mapFieldsValue f q v) = (fieldsValue q v).map (fun x => (x.1, f x.1 x.2)) ∧
      (CleanValue v → CleanValue (mapFieldsValue f q v)) := by
  rw [leafFields q v hv] at hf
  have h := hf (q, v) (by simp)
  rw [mapFields_field f q v hv, leafFields q v hv, leafFields q _ h]
  refine ⟨rfl, fun _ => ?_⟩
  generalize f q v = w at h
  cases w with
  | obj l => exact absurd rfl (h l)
  | _ => rw [CleanValue]; · trivial
         · simp

mutual
theorem fields_mapFields (f : List String → Json α → Json α) :
    (q : List String) → (v : Json α) → (∀ x ∈ fieldsValue q v, ∀ l, f x.1 x.2 ≠ .obj l) →
      fieldsValue q (mapFieldsValue f q v) = (fieldsValue q v).map (fun x => (x.1, f x.1 x.2)) ∧
      (CleanValue v → CleanValue (mapFieldsValue f q v))
  | q, .obj l, hf => by
    rw [fieldsValue] at hf
    rw [mapFieldsValue, fieldsValue, fieldsValue, CleanValue, CleanValue, mapFieldsPairs_keys]
    have := fields_mapMembers f q l hf
    exact ⟨this.1, fun h => ⟨this.2 h.1, h.2⟩⟩
  | q, .null, hf => leafMap f q .null (by simp) hf
  | q, .bool b, hf => leafMap f q (.bool b) (by simp) hf
  | q, .int n, hf => leafMap f q (.int n) (by simp) hf
  | q, .num x, hf => leafMap f q (.num x) (by simp) hf
  | q, .str s, hf => leafMap f q (.str s) (by simp) hf
  | q, .arr l, hf => leafMap f q (.arr l) (by simp) hf
theorem fields_mapMembers (f : List String → Json α → Json α) :
    (q : List String) → (l : List (String × Json α)) → (∀ x ∈ fieldsPairs q l, ∀ l, f x.1 x.2 ≠ .obj l) →
      fieldsPairs q (mapFieldsPairs f q l) = (fieldsPairs q l).map (fun x => (x.1, f x.1 x.2)) ∧
      (CleanPairs l → CleanPairs (mapFieldsPairs f q l))
  | _, [], _ => by rw [mapFieldsPairs, fieldsPairs]; exact ⟨rfl, id⟩
  | q, (k, v) :: rest, hf => by
    rw [fieldsPairs] at hf
    have h1 := fields_mapFields f (q ++ [k]) v (fun x hx => hf x (List.mem_append_left _ hx))
    have h2 := fields_mapMembers f q rest (fun x hx => hf x (List.mem_append_right _ hx))
    rw [mapFieldsPairs, fieldsPairs, fieldsPairs, List.map_append, h1.1, h2.1, CleanPairs, CleanPairs]
    exact ⟨rfl, fun h => ⟨h.1, h1.2 h.2.1, h2.2 h.2.2⟩⟩
end

theorem parseField_distinct (pf : List Char → Option α) (ss : α → List Char) (pr : Char → Bool)
    (od : List (String × Json α) → List Char) (t : String) : DistinctKeys (parseField (pyCodec pf ss pr od) t) := by
  rw [show t = String.ofList t.toList by simp, parseField_text]
  cases h : jsonLoads pf t.toList with
  | ok j =>
    obtain ⟨_, u, _, _, _, hu, _⟩ := (jsonLoads_iff pf _ j).mp h
    exact valueText_distinct pf hu
  | error e => simp [Except.toOption, DistinctKeys]

/-- What an unedited save makes of a value: every field replaced by what its text is read as. -/
abbrev saved (pf : List Char → Option α) (ss : α → List Char) (pr : Char → Bool) (od : List (String × Json α) → List Char)
    (j : Json α) : Json α :=
  mapFieldsValue (fun _ v => parseField (pyCodec pf ss pr od) ((pyCodec pf ss pr od).str v)) [] j

theorem editFile_eq (pf : List Char → Option α) (ss sn : α → List Char) (pr : Char → Bool)
    (od : List (String × Json α) → List Char) (text : List Char) (l : List (String × Json α))
    (hl : jsonLoad pf text = .ok (.obj l)) (hc : CleanValue (.obj l)) :
    editFile pf ss sn pr od text = .ok (jsonDump sn (saved pf ss pr od (.obj l))) := by
  unfold editFile
  rw [hl, ok_bind]
  dsimp only
  rw [C61_unedited _ _ hc]
  rfl

theorem saved_load (pf : List Char → Option α) (ss sn : α → List Char) (pr : Char → Bool)
    (od : List (String × Json α) → List Char) (hsn : ∀ x, Readable pf sn x) (text : List Char) (l : List (String × Json α))
    (hl : jsonLoad pf text = .ok (.obj l)) (windows : Bool) :
    jsonLoad pf (stored windows (jsonDump sn (saved pf ss pr od (.obj l)))) = .ok (saved pf ss pr od (.obj l)) :=
  C79_round_trip pf sn _ (distinct_mapFields _ (fun _ _ _ => parseField_distinct pf ss pr od _) [] _
    (C79_loaded_keys_distinct pf text _ hl)) (numsAll_of hsn _) windows

/-- **C80**. Opening a configuration file in the editor and saving it unedited never fails, and the new file is read as the
    old configuration with every field that is kept unchanged and every other field as described above; it is read as the
    same configuration exactly when every field is kept. -/
theorem C80_saved_file (pf : List Char → Option α) (ss sn : α → List Char) (pr : Char → Bool)
    (od : List (String × Json α) → List Char) (hss : FloatFormat pf ss) (hsn : ∀ x, Readable pf sn x) (text : List Char)
    (l : List (String × Json α)) (hl : jsonLoad pf text = .ok (.obj l)) (hc : CleanValue (.obj l)) (windows : Bool) :
    ∃ out j, editFile pf ss sn pr od text = .ok out ∧ jsonLoad pf (stored windows out) = .ok j ∧
      (∀ p v, valueAt (.obj l) p = some v → (∀ s, v ≠ .obj s) →
        (FieldKept pf ss pr v → valueAt j p = some v) ∧
        (¬ FieldKept pf ss pr v → (∀ s, v ≠ .str s) → valueAt j p = some (.str (String.ofList (pyRepr ss pr od v)))) ∧
        (∀ s w, v = .str s → JsonText pf s.toList w → valueAt j p = some w)) ∧
      (j = .obj l ↔ ∀ x ∈ fieldsPairs [] l, FieldKept pf ss pr x.2) := by
  refine ⟨_, _, editFile_eq pf ss sn pr od text l hl hc, saved_load pf ss sn pr od hsn text l hl windows, ?_, ?_⟩
  · intro p v hp hv
    have h : valueAt (saved pf ss pr od (.obj l)) p = some (parseField (pyCodec pf ss pr od) ((pyCodec pf ss pr od).str v)) := by
      unfold saved
      rw [valueAt_mapFields _ p [] _ v hp, mapFields_field _ _ v hv]
    rw [h]
    refine ⟨fun hk => ?_, fun hk hs => ?_, fun s w e hw => ?_⟩
    · rw [(C80_which_fields_are_kept pf ss pr od hss v hv).mpr hk]
    · rw [(C80_what_becomes_of_the_others pf ss pr od hss v hv hk).1 hs]
    · have hk : ¬ FieldKept pf ss pr v := by subst e; rw [FieldKept, not_not]; exact ⟨w, hw⟩
      rw [(C80_what_becomes_of_the_others pf ss pr od hss v hv hk).2 s w e hw]
  · have hno := fields_not_obj [] (.obj l)
    rw [fieldsValue] at hno
    unfold saved
    rw [mapFieldsValue_id, fieldsValue]
    constructor
    · intro h x hx
      exact (C80_which_fields_are_kept pf ss pr od hss x.2 (hno x hx)).mp (h x hx)
    · intro h x hx
      exact (C80_which_fields_are_kept pf ss pr od hss x.2 (hno x hx)).mpr (h x hx)

theorem saved_field_kept (pf : List Char → Option α) (ss : α → List Char) (pr : Char → Bool)
    (od : List (String × Json α) → List Char) (hss : FloatFormat pf ss) (v : Json α) (hv : ∀ l, v ≠ .obj l)
    (ht : ∀ s, v = .str s → ¬ ∃ j, JsonText pf s.toList j) :
    FieldKept pf ss pr (parseField (pyCodec pf ss pr od) ((pyCodec pf ss pr od).str v)) ∧
      ∀ l, parseField (pyCodec pf ss pr od) ((pyCodec pf ss pr od).str v) ≠ .obj l := by
  by_cases hk : FieldKept pf ss pr v
  · rw [(C80_which_fields_are_kept pf ss pr od hss v hv).mpr hk]
    exact ⟨hk, hv⟩
  · have hs : ∀ s, v ≠ .str s := by
      rintro s rfl
      exact hk (ht s rfl)
    rw [(C80_what_becomes_of_the_others pf ss pr od hss v hv hk).1 hs]
    refine ⟨?_, by simp⟩
    rw [FieldKept, String.toList_ofList]
    rintro ⟨j, hj⟩
    have hk' : ¬ ElementKept pf ss pr v := by
      cases v with
      | str s => exact absurd rfl (hs s)
      | _ => rw [FieldKept] at hk; · exact hk
             · simp
    have := jsonLoads_refused pf ss pr od hss v hk'
    rw [(jsonLoads_iff pf _ _).mpr hj] at this
    simp [Except.toOption] at this

/-- **C80**. Damage is done once: when no text of the configuration is JSON, a second unedited save reads the same as the
    first. -/
theorem C80_second_save_changes_nothing (pf : List Char → Option α) (ss sn : α → List Char) (pr : Char → Bool)
    (od : List (String × Json α) → List Char) (hss : FloatFormat pf ss) (hsn : ∀ x, Readable pf sn x) (text : List Char)
    (l : List (String × Json α)) (hl : jsonLoad pf text = .ok (.obj l)) (hc : CleanValue (.obj l))
    (ht : ∀ x ∈ fieldsPairs [] l, ∀ s, x.2 = .str s → ¬ ∃ j, JsonText pf s.toList j) (windows : Bool) :
    ∃ out, editFile pf ss sn pr od text = .ok out ∧ editFile pf ss sn pr od (stored windows out) = .ok out := by
  have hno := fields_not_obj [] (.obj l)
  rw [fieldsValue] at hno
  have hobj : ∀ x ∈ fieldsValue [] (.obj l), ∀ l', parseField (pyCodec pf ss pr od) ((pyCodec pf ss pr od).str x.2) ≠ .obj l' := by
    intro x hx
    rw [fieldsValue] at hx
    exact (saved_field_kept pf ss pr od hss x.2 (hno x hx) (ht x hx)).2
  obtain ⟨hf, hcl⟩ := fields_mapFields (fun _ v => parseField (pyCodec pf ss pr od) ((pyCodec pf ss pr od).str v)) [] (.obj l) hobj
  have h1 := editFile_eq pf ss sn pr od text l hl hc
  have h2 := saved_load pf ss sn pr od hsn text l hl windows
  refine ⟨_, h1, ?_⟩
  have e : saved pf ss pr od (.obj l) = .obj (mapFieldsPairs (fun _ v => parseField (pyCodec pf ss pr od)
      ((pyCodec pf ss pr od).str v)) [] l) := by unfold saved; rw [mapFieldsValue]
  have hfix : saved pf ss pr od (saved pf ss pr od (.obj l)) = saved pf ss pr od (.obj l) := by
    have : ∀ j, (∀ x ∈ fieldsValue [] j, parseField (pyCodec pf ss pr od) ((pyCodec pf ss pr od).str x.2) = x.2) →
        saved pf ss pr od j = j := fun j h => (mapFieldsValue_id _ [] j).mpr h
    refine this _ fun x hx => ?_
    have hx' : x ∈ (fieldsValue [] (.obj l)).map (fun x => (x.1, parseField (pyCodec pf ss pr od)
        ((pyCodec pf ss pr od).str x.2))) := hf ▸ hx
    obtain ⟨y, hy, rfl⟩ := List.mem_map.mp hx'
    rw [fieldsValue] at hy
    have hk := saved_field_kept pf ss pr od hss y.2 (hno y hy) (ht y hy)
    exact (C80_which_fields_are_kept pf ss pr od hss _ hk.2).mpr hk.1
  have hcl' := hcl hc
  change CleanValue (saved pf ss pr od (.obj l)) at hcl'
  rw [e] at h2 hcl' hfix ⊢
  rw [editFile_eq pf ss sn pr od _ _ h2 hcl', hfix]

/-! ### The hypotheses can be met -/

theorem finite_int (n : ℤ) :
    FiniteText (fun t => some (intValue (t.take (t.length - 2)))) (fun n : ℤ => dumpInt n ++ ['.', '0']) n := by
  refine ⟨⟨dumpInt n, n, ['.', '0'], [], by simp, dumpInt_text n, Or.inr ⟨'0', [], rfl, by unfold IsDigit; decide, by simp⟩,
    Or.inl rfl, Or.inl (by simp)⟩, (readable_int n).2⟩

/-- **C80**: numbers `n.0`, no printable characters outside ASCII, any version of Python. -/
theorem intFormat : FloatFormat (fun t => some (intValue (t.take (t.length - 2)))) (fun n : ℤ => dumpInt n ++ ['.', '0']) :=
  fun n => Or.inl (finite_int n)

/-- **C80**: of the fields of a list of numbers, `["a"]`, `["it's"]`, `true`, `"slope.txt"` and `"true"`, the list of numbers,
    the list of one text with an apostrophe and the plain text are kept. -/
example (x n : ℤ) (pr : Char → Bool) :
    let pf := fun t : List Char => some (intValue (t.take (t.length - 2)))
    let ss := fun n : ℤ => dumpInt n ++ ['.', '0']
    FieldKept pf ss pr (.arr [.num x, .int n, .arr []]) ∧ ¬ FieldKept pf ss pr (.arr [.str (String.ofList ['a'])]) ∧
    FieldKept pf ss pr (.arr [.str (String.ofList ['i', 't', '\'', 's'])]) ∧ ¬ FieldKept pf ss pr (.bool true) ∧
    FieldKept pf ss pr (.str (String.ofList ['s', 'l', 'o', 'p', 'e'])) ∧
    ¬ FieldKept pf ss pr (.str (String.ofList ['t', 'r', 'u', 'e'])) := by
  intro pf ss
  refine ⟨?_, ?_, ?_, ?_, ?_, ?_⟩
  · simp [FieldKept, ElementKept, ElementsKept, pf, ss, finite_int]
  · simp [FieldKept, ElementKept, ElementsKept, SameText]
  · simp [FieldKept, ElementKept, ElementsKept, SameText, SameInJson]
  · simp [FieldKept, ElementKept]
  · rw [FieldKept, String.toList_ofList]
    rintro ⟨j, hj⟩
    have h := (jsonLoads_iff pf _ j).mpr hj
    revert h
    have : jsonLoads pf ['s', 'l', 'o', 'p', 'e'] = .error .valueError := by
      unfold jsonLoads
      rw [skipWs_cons (by decide)]
      simp [scanValue, scanAtom, scanWord, scanInt, scanInt.digits, List.isPrefixOf, isDec]
    rw [this]; simp
  · rw [FieldKept, String.toList_ofList, not_not]
    exact ⟨_, [], _, [], rfl, by simp [Ws], .true, by simp [Ws]⟩

/-- **C80**: a file whose boolean is damaged by the first save and left alone by the second. -/
example (pr : Char → Bool) (od : List (String × Json ℤ) → List Char) (n : ℤ) (windows : Bool) :
    let pf := fun t : List Char => some (intValue (t.take (t.length - 2)))
    let ss := fun n : ℤ => dumpInt n ++ ['.', '0']
    let l : List (String × Json ℤ) := [("terrain", .obj [("slope_smoothing_active", .bool true), ("width", .num n)])]
    ∃ out, editFile pf ss ss pr od (jsonDump ss (.obj l)) = .ok out ∧ editFile pf ss ss pr od (stored windows out) = .ok out := by
  intro pf ss l
  refine C80_second_save_changes_nothing pf ss ss pr od intFormat readable_int _ l
    (C79_round_trip pf ss _ (by simp [l, DistinctKeys, DistinctMembers]) (numsAll_of readable_int _) false) ?_ ?_ windows
  · simp only [l, CleanValue, CleanPairs, CleanKey]
    simp
  · intro x hx s hs
    simp only [l, fieldsPairs, fieldsValue, List.append_nil, List.cons_append, List.nil_append, List.mem_cons, List.not_mem_nil,
      or_false] at hx
    rcases hx with rfl | rfl <;> simp at hs

end PyFlowGo
