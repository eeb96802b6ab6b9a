import Verif.Props.EditorMore
import Verif.Props.Sweep
/-
  C61, C65: a concrete codec, files that meet the hypotheses, and what happens outside them.
-/
set_option linter.unusedSectionVars false
namespace PyFlowGo
open Spec

/-- A codec that reads integers only. -/
noncomputable def intCodec : TextCodec ℝ where
  str
    | .null => "None"
    | .bool true => "True"
    | .bool false => "False"
    | .int n => toString n
    | .str s => s
    | _ => "?"
  loads s := by
    classical
    exact if h : ∃ n : Int, s = toString n then some (.int h.choose) else none

theorem toString_int_chars (n : Int) : ∀ ch ∈ (toString n).toList, ch = '-' ∨ ch.isDigit = true := by
  have nat : ∀ m : Nat, ∀ ch ∈ (Nat.repr m).toList, ch.isDigit = true := by
    intro m ch h
    rw [Nat.toList_repr] at h
    exact Nat.isDigit_of_mem_toDigits (by omega) (by omega) h
  have e : ∀ x : Int, toString x = Int.repr x := fun _ => rfl
  rw [e]
  cases n with
  | ofNat m => intro ch h; exact Or.inr (nat m ch h)
  | negSucc m =>
    intro ch h
    have e2 : Int.repr (Int.negSucc m) = "-" ++ Nat.repr (m + 1) := rfl
    rw [e2, String.toList_append, List.mem_append] at h
    rcases h with h | h
    · left; simpa using h
    · exact Or.inr (nat _ ch h)

theorem intCodec_none (s : String) (ch : Char) (h : ch ∈ s.toList) (h1 : ch ≠ '-') (h2 : ch.isDigit = false) :
    intCodec.loads s = none := by
  unfold intCodec
  dsimp only
  rw [dif_neg]
  rintro ⟨n, rfl⟩
  rcases toString_int_chars n ch h with h3 | h3
  · exact h1 h3
  · rw [h3] at h2; cases h2

theorem intCodec_int (n : Int) : intCodec.loads (toString n) = some (.int n) := by
  unfold intCodec
  dsimp only
  have h : ∃ m : Int, toString n = toString m := ⟨n, rfl⟩
  rw [dif_pos h]
  exact congrArg _ (congrArg _ (toString_int_inj h.choose_spec).symm)

/-- The laws of the codec are satisfiable. -/
theorem intCodec_python : PythonText intCodec (fun _ => False) where
  str_null := rfl
  str_true := rfl
  str_false := rfl
  str_str _ := rfl
  loads_None := intCodec_none _ 'N' (by decide) (by decide) (by decide)
  loads_True := intCodec_none _ 'T' (by decide) (by decide) (by decide)
  loads_False := intCodec_none _ 'F' (by decide) (by decide) (by decide)
  loads_int n := intCodec_int n
  loads_num _ h := h.elim

theorem int_field (n : Int) : parseField intCodec (intCodec.str (.int n)) = .int n :=
  (C61_which_fields_survive intCodec _ intCodec_python).1 n

/-- A file with a nested section. -/
def exFile : List (String × Json ℝ) :=
  [("lava_name", .str "Mauna"), ("terrain_conditions", .obj [("slope_smoothing_active", .bool true), ("depth", .int 2),
    ("mass_conservation", .bool true), ("extra", .obj [("deep", .int 4)])])]

theorem exFile_clean : CleanValue (.obj exFile) := by
  simp [exFile, CleanValue, CleanPairs, CleanKey]

/-- **C61**: the hypotheses are met by a file with a nested section; only the texts and numbers survive. -/
example : ∃ j, openAndSave intCodec exFile = .ok j ∧ valueAt j ["lava_name"] = some (.str "Mauna") ∧
    valueAt j ["terrain_conditions", "depth"] = some (.int 2) ∧
    valueAt j ["terrain_conditions", "extra", "deep"] = some (.int 4) ∧
    valueAt j ["terrain_conditions", "slope_smoothing_active"] = some (.str "True") := by
  obtain ⟨j, h1, h2⟩ := C61_field_after_save intCodec exFile exFile_clean
  have hs := C61_which_fields_survive intCodec _ intCodec_python
  refine ⟨j, h1, ?_, ?_, ?_, ?_⟩
  · rw [h2 _ (.str "Mauna") (by simp [exFile, valueAt, lookup]) (by simp)]
    rw [hs.2.2.1 _ (intCodec_none _ 'M' (by decide) (by decide) (by decide))]
  · rw [h2 _ (.int 2) (by simp [exFile, valueAt, lookup]) (by simp), hs.1]
  · rw [h2 _ (.int 4) (by simp [exFile, valueAt, lookup]) (by simp), hs.1]
  · rw [h2 _ (.bool true) (by simp [exFile, valueAt, lookup]) (by simp), hs.2.2.2.2.1]

/-- A configuration with slope smoothing on and complete enough for the terrain to be read. -/
def smoothFile : List (String × Json ℝ) :=
  [("effusion_rate_init", .int 0), ("terrain_conditions", .obj [("depth", .int 1), ("width", .int 5), ("gravity", .int 9),
    ("max_channel_length", .int 1000), ("slope_smoothing_active", .bool true),
    ("slope_smoothing_number_of_points", .int 10)])]

/-- **C61**: the smoothing theorem is not vacuous: the terrain of this file is read both before and after the save,
    with smoothing on and off respectively. -/
theorem C61_smoothing_example (env : Env ℝ) : ∃ t j t', buildTerrain env (.obj smoothFile) = .ok t ∧ t.smoothing = true ∧
    openAndSave intCodec smoothFile = .ok j ∧ buildTerrain env j = .ok t' ∧ t'.smoothing = false := by
  have hclean : CleanValue (.obj smoothFile) := by simp [smoothFile, CleanValue, CleanPairs, CleanKey]
  have hrad : ∃ d, radians (2.657414 : ℝ) = .ok d := by
    unfold radians
    simp only [PyNum.div]
    rw [if_neg (by norm_num)]
    exact ⟨_, rfl⟩
  obtain ⟨d, hd⟩ := hrad
  have hj : openAndSave intCodec smoothFile = .ok (.obj
      [("effusion_rate_init", .int 0), ("terrain_conditions", .obj [("depth", .int 1), ("width", .int 5),
        ("gravity", .int 9), ("max_channel_length", .int 1000), ("slope_smoothing_active", .str "True"),
        ("slope_smoothing_number_of_points", .int 10)])]) := by
    rw [C61_unedited _ _ hclean]
    simp only [smoothFile, mapFieldsValue, mapFieldsPairs, int_field,
      (C61_which_fields_survive intCodec _ intCodec_python).2.2.2.2.1]
  have h1 : ∃ t, buildTerrain env (.obj smoothFile) = .ok t ∧ t.smoothing = true := by
    unfold buildTerrain; rw [hd]; exact ⟨_, rfl, rfl⟩
  obtain ⟨t, ht, hs⟩ := h1
  have h : ∃ t', buildTerrain env (.obj
      [("effusion_rate_init", .int 0), ("terrain_conditions", .obj [("depth", .int 1), ("width", .int 5),
        ("gravity", .int 9), ("max_channel_length", .int 1000), ("slope_smoothing_active", .str "True"),
        ("slope_smoothing_number_of_points", .int 10)])]) = .ok t' ∧ t'.smoothing = false := by
    unfold buildTerrain; rw [hd]; exact ⟨_, rfl, rfl⟩
  obtain ⟨t', h1, h2⟩ := h
  exact ⟨t, _, t', ht, hs, hj, h1, h2⟩

/-- **C61** (outside the hypotheses). Two fields that are shown under the same name are confused: here the section `a`
    with a key `b` and the top-level key `a.b`. Saving unedited overwrites the first with the second. -/
theorem C61_colliding_names : openAndSave intCodec [("a", .obj [("b", .int 1)]), ("a.b", .int 2)] =
    .ok (.obj [("a", .obj [("b", .int 2)]), ("a.b", .int 2)]) := by
  have h2 := int_field 2
  simp [openAndSave, rebuildDict, rebuildPairs, rebuildValue, addEntries, openedTexts, labelOf, renderPairs, renderValue,
    displayKey, lookup, ok_bind, Pure.pure, Except.pure, h2]

/-- **C65**: the hypotheses are met: a new entry in a nested section. -/
example : ∃ j, rebuildDict intCodec (openedTexts intCodec exFile)
      [⟨"terrain_conditions.extra", "width", "5"⟩] exFile = .ok j ∧
    valueAt j ["terrain_conditions", "extra", "width"] = some (.int 5) ∧
    valueAt j ["terrain_conditions", "depth"] = some (.int 2) := by
  obtain ⟨j, j0, h1, h2, h3, h4⟩ := C65_new_entry intCodec exFile exFile_clean "terrain_conditions" ["extra"]
    [("deep", .int 4)] "width" "5" (by decide) (by simp [exFile, valueAt, lookup])
    (by simp [exFile, innerKeys, keysValue])
  have h5 : parseField intCodec "5" = .int 5 := int_field 5
  refine ⟨j, h2, by rw [← h5]; exact h3, ?_⟩
  rw [h4 _ (by simp) (by simp)]
  obtain ⟨j', h6, h7⟩ := C61_field_after_save intCodec exFile exFile_clean
  rw [h6] at h1
  cases h1
  rw [h7 _ (.int 2) (by simp [exFile, valueAt, lookup]) (by simp), int_field]

/-- **C65** (what users do not expect). An entry added to a section whose name has a dot is silently lost. -/
theorem C65_dotted_section_loses_entry :
    rebuildDict intCodec (openedTexts intCodec [("a.b", .obj [("x", .int 1)])]) [⟨"a.b", "y", "2"⟩]
      [("a.b", .obj [("x", .int 1)])] = .ok (.obj [("a.b", .obj [("x", .int 1)])]) := by
  have hp : sectionPath "a.b" = ["a", "b"] := by decide
  have h1 := int_field 1
  simp [rebuildDict, rebuildPairs, rebuildValue, addEntries, addEntry, hp, openedTexts, labelOf, renderPairs, renderValue,
    displayKey, lookup, ok_bind, Pure.pure, Except.pure, h1]

/-- **C65** (what users do not expect). When a deeper section has the same name, the entry goes there as well. -/
theorem C65_repeated_section_gets_entry_too :
    rebuildDict intCodec (openedTexts intCodec [("a", .obj [("a", .obj [])])]) [⟨"a", "y", "2"⟩]
      [("a", .obj [("a", .obj [])])] = .ok (.obj [("a", .obj [("a", .obj [("y", .int 2)]), ("y", .int 2)])]) := by
  have hp : sectionPath "a" = ["a"] := by decide
  have h1 : parseField intCodec "2" = .int 2 := int_field 2
  simp [rebuildDict, rebuildPairs, rebuildValue, addEntries, addEntry, assign, hp, openedTexts, labelOf, renderPairs,
    renderValue, displayKey, lookup, ok_bind, Pure.pure, Except.pure, h1]

/-- **C65** (what users do not expect). When the outermost section name is also the name of a number elsewhere, saving an
    entry of a nested section fails and the file is not written. -/
theorem C65_save_fails :
    rebuildDict intCodec (openedTexts intCodec [("a", .obj [("c", .obj [])]), ("b", .obj [("a", .int 3)])])
      [⟨"a.c", "y", "2"⟩] [("a", .obj [("c", .obj [])]), ("b", .obj [("a", .int 3)])] = .error .typeError := by
  have hp : sectionPath "a.c" = ["a", "c"] := by decide
  have h1 := int_field 3
  simp [rebuildDict, rebuildPairs, rebuildValue, addEntries, addEntry, hp, openedTexts, labelOf, renderPairs, renderValue,
    displayKey, lookup, Bind.bind, Except.bind, Pure.pure, Except.pure, h1]

end PyFlowGo
