import Verif.Proofs.JsonNesting
import Verif.Props.RunTextMore
import Verif.Model.SweepFullText
import Verif.Model.FieldPlot
import Verif.Model.EditText
import Verif.Proofs.CutLemmas
/-
  C102: configuration files that were cut off while being written.
-/
set_option linter.unusedSectionVars false
namespace PyFlowGo
open Spec

section
variable {α : Type}

/-- `json.load` fails with a ValueError only. -/
theorem jsonLoad_error (pf : List Char → Option α) (text : List Char) (e : Err) (hj : jsonLoad pf text = .error e) :
    e = .valueError := by
  unfold jsonLoad jsonLoads at hj
  split at hj
  · simpa using hj.symm
  · split at hj
    · simp at hj
    · simpa using hj.symm

/-- Universal newlines work from left to right. -/
theorem universalFrom_append (b : Bool) (x y : List Char) : ∃ b', universalFrom b (x ++ y) = universalFrom b x ++ universalFrom b' y := by
  induction x generalizing b with
  | nil => exact ⟨b, rfl⟩
  | cons c x ih =>
    rw [List.cons_append, universalFrom, universalFrom]
    split
    · obtain ⟨b', h⟩ := ih true
      exact ⟨b', by rw [h]; rfl⟩
    · split
      · exact ih false
      · obtain ⟨b', h⟩ := ih false
        exact ⟨b', by rw [h]; rfl⟩

theorem universal_take (text : List Char) (n : ℕ) : universal (text.take n) <+: universal text := by
  obtain ⟨b, h⟩ := universalFrom_append false (text.take n) (text.drop n)
  rw [List.take_append_drop] at h
  exact ⟨_, h.symm⟩

theorem universalFrom_last (b : Bool) (t : List Char) (c : Char) (hc : c ≠ '\r' ∧ c ≠ '\n') (h : t.getLast? = some c) :
    (universalFrom b t).getLast? = some c := by
  obtain ⟨ini, rfl⟩ := List.getLast?_eq_some_iff.mp h
  obtain ⟨b', e⟩ := universalFrom_append b ini [c]
  have : universalFrom b' [c] = [c] := by
    rw [universalFrom, if_neg hc.1, if_neg (fun x => hc.2 x.1)]; rfl
  rw [e, this, List.getLast?_concat]

/-- **C102**. A configuration file -- any text of a JSON object, with any line ends -- of which only the first `n` characters
    are left: it is refused with a ValueError, or nothing but white space behind the object was lost and it is read as the
    same object. -/
theorem C102_cut_configuration (pf : List Char → Option α) (text : List Char) (l : List (String × Json α))
    (h : jsonLoad pf text = .ok (.obj l)) (n : ℕ) :
    jsonLoad pf (text.take n) = .error .valueError ∨ jsonLoad pf (text.take n) = .ok (.obj l) := by
  obtain ⟨w₁, t, w₂, e, hw₁, ht, hw₂⟩ := (jsonLoad_iff pf text _).mp h
  have hp := universal_take text n
  rw [e] at hp
  by_cases hl : (universal (text.take n)).length < (w₁ ++ t).length
  · left
    have hp' : universal (text.take n) <+: w₁ ++ t :=
      List.prefix_of_prefix_length_le hp (List.prefix_append _ _) hl.le
    cases hj : jsonLoad pf (text.take n) with
    | ok j => exact absurd ((jsonLoad_iff pf _ j).mp hj) (cut_object pf hw₁ ht _ hp' hl j)
    | error e => rw [jsonLoad_error pf _ e hj]
  · right
    rw [jsonLoad_iff]
    rcases prefix_append hp with h' | ⟨q, eq, hq⟩
    · exact ⟨w₁, t, [], by rw [List.append_nil]; exact h'.eq_of_length_le (by omega), hw₁, ht, by simp [Ws]⟩
    · exact ⟨w₁, t, q, eq, hw₁, ht, fun c hc => hw₂ c (hq.subset hc)⟩

/-- **C102**, written files. A file that ends with its closing brace, as all files that `json.dump` writes, is refused after
    the loss of a single character or more. -/
theorem C102_cut_written_file (pf : List Char → Option α) (text : List Char) (l : List (String × Json α))
    (h : jsonLoad pf text = .ok (.obj l)) (hend : text.getLast? = some '}') (n : ℕ) (hn : n < text.length) :
    jsonLoad pf (text.take n) = .error .valueError := by
  obtain ⟨w₁, t, w₂, e, hw₁, ht, hw₂⟩ := (jsonLoad_iff pf text _).mp h
  have hlast : (universal text).getLast? = some '}' := universalFrom_last false text '}' (by decide) hend
  have hw : w₂ = [] := by
    rw [e] at hlast
    by_contra hne
    rw [List.getLast?_append_of_ne_nil _ hne] at hlast
    have := hw₂ '}' (List.mem_of_getLast? hlast)
    revert this; decide
  subst hw
  rw [List.append_nil] at e
  have hl : (universal (text.take n)).length < (w₁ ++ t).length := by
    rw [← e]
    obtain ⟨b, hb⟩ := universalFrom_append false (text.take n) (text.drop n)
    rw [List.take_append_drop] at hb
    have hd : (text.drop n).getLast? = some '}' := by
      rw [List.getLast?_drop, if_neg (by omega), hend]
    have := universalFrom_last b (text.drop n) '}' (by decide) hd
    have hne : universalFrom b (text.drop n) ≠ [] := by intro h; rw [h] at this; cases this
    have hlen := List.length_pos_iff.mpr hne
    unfold universal
    rw [hb, List.length_append]
    omega
  have hp := universal_take text n
  rw [e] at hp
  cases hj : jsonLoad pf (text.take n) with
  | ok j => exact absurd ((jsonLoad_iff pf _ j).mp hj) (cut_object pf hw₁ ht _ hp hl j)
  | error e => rw [jsonLoad_error pf _ e hj]

/-- What `json.dump` writes of an object ends with the closing brace, on both platforms. -/
theorem dump_last (sn : α → List Char) (l : List (String × Json α)) (windows : Bool) :
    (stored windows (jsonDump sn (.obj l))).getLast? = some '}' := by
  have h : ∃ t, jsonDump sn (.obj l) = t ++ ['}'] := by
    unfold jsonDump
    cases l with
    | nil => rw [dumpValue]; exact ⟨['{'], rfl⟩
    | cons p ps =>
      obtain ⟨k, v⟩ := p
      rw [dumpValue]
      exact ⟨_, by rw [← List.cons_append]⟩
  obtain ⟨t, h⟩ := h
  rw [h, stored_app, show stored windows ['}'] = ['}'] by cases windows <;> decide, List.getLast?_concat]

/-- **C102**, the files of the package: a configuration written by the editor, a vent loop or a sweep, cut anywhere. -/
theorem C102_cut_dump (pf : List Char → Option α) (sn : α → List Char) (l : List (String × Json α))
    (hd : DistinctKeys (.obj l)) (hn : NumsAll (Readable pf sn) (.obj l)) (windows : Bool) (n : ℕ)
    (hlt : n < (stored windows (jsonDump sn (.obj l))).length) :
    jsonLoad pf ((stored windows (jsonDump sn (.obj l))).take n) = .error .valueError :=
  C102_cut_written_file pf _ l (C79_round_trip pf sn _ hd hn windows) (dump_last sn l windows) n hlt
end

section
variable {α : Type} [Add α] [Sub α] [Mul α] [Neg α] [OfScientific α] [PyNum α]

/-- **C102**, programs. With a cut configuration on the disk every program stops with a ValueError before it runs, draws or
    writes anything: the run, the sweep, the plots, the field-data plots, the rewriting of a configuration and the editor. -/
theorem C102_nothing_happens (F : TextFormat α) (text : List Char) (l : List (String × Json α))
    (h : jsonLoad F.float text = .ok (.obj l)) (hend : text.getLast? = some '}') (n : ℕ) (hn : n < text.length)
    (disk : List (String × List Char)) (jsonFile : String) (hdisk : lookup disk (F.canon jsonFile) = some (text.take n)) :
    (∀ grid fuel folder, runTextOn grid fuel F jsonFile folder disk = some (.error .valueError, disk)) ∧
    (∀ grid fuel sn folder a b c, sweepText grid fuel F sn jsonFile folder a b c disk = some (.error .valueError, disk)) ∧
    (∀ grid fuel round sn folder slope a b c,
      sweepFullText grid fuel round F sn jsonFile folder slope a b c disk = some (.error .valueError, disk)) ∧
    (∀ folder names, plotAllText F folder names jsonFile disk = .error .valueError) ∧
    (∀ names slope t c w, fieldPlot F names jsonFile slope t c w disk = .error .valueError) ∧
    (∀ sn us, rewriteText F.float sn us (text.take n) = .error .valueError) ∧
    (∀ ss sn pr od, editFile F.float ss sn pr od (text.take n) = .error .valueError) := by
  have hj := C102_cut_written_file F.float text l h hend n hn
  have hsweep : ∀ grid fuel sn folder a b c, sweepText grid fuel F sn jsonFile folder a b c disk = some (.error .valueError, disk) := by
    intro grid fuel sn folder a b c
    unfold sweepText; rw [hdisk]; dsimp only; rw [hj]
  refine ⟨fun grid fuel folder => ?_, hsweep, fun grid fuel round sn folder slope a b c => ?_, fun folder names => ?_,
    fun names slope t c w => ?_, fun sn us => ?_, fun ss sn pr od => ?_⟩
  · unfold runTextOn; rw [hdisk]; dsimp only; rw [hj]
  · unfold sweepFullText; rw [hsweep]
  · unfold plotAllText; rw [hdisk]; dsimp only; rw [hj]; rfl
  · unfold fieldPlot withFile; rw [hdisk]; dsimp only; rw [hj]; rfl
  · unfold rewriteText; rw [hj]; rfl
  · unfold editFile; rw [hj]; rfl
end

/-- The example configuration is an object, read back from its file. -/
theorem still_loads (windows : Bool) : ∃ l, stillConfig 3 3 (.int 1) = .obj l ∧
    jsonLoad milliFloat (stored windows (jsonDump milliText (stillConfig 3 3 (.int 1)))) = .ok (.obj l) ∧
    (stored windows (jsonDump milliText (stillConfig 3 3 (.int 1)))).getLast? = some '}' := by
  have h := C79_round_trip milliFloat milliText (stillConfig 3 3 (.int 1)) (still_distinct _ _ _)
    (still_nums _ _ (fun a b => milli_readable _ (by exact_mod_cast still_milli 3 a b)) _ _) windows
  obtain ⟨l, e⟩ : ∃ l, stillConfig 3 3 (.int 1) = .obj l := ⟨_, rfl⟩
  rw [e] at h ⊢
  exact ⟨l, rfl, h, dump_last milliText l windows⟩

/-- Non-vacuity: the example configuration runs, and every proper beginning of its file is refused. -/
example (windows : Bool) (folder : String) (n : ℕ) (hn : n < (jsonDump milliText (stillConfig 3 3 (.int 1))).length) :
    runTextOn [1] 3 (milliFormat windows) "still.json" folder
        [("still.json", (jsonDump milliText (stillConfig 3 3 (.int 1))).take n), ("slope.txt", milliProfile)] =
      some (.error .valueError,
        [("still.json", (jsonDump milliText (stillConfig 3 3 (.int 1))).take n), ("slope.txt", milliProfile)]) ∧
    ∃ out, runTextOn [1] 3 (milliFormat windows) "still.json" folder (milliDisk 3) = some (.ok (), out) := by
  obtain ⟨l, _, h, hend⟩ := still_loads false
  obtain ⟨out, hr⟩ := milli_run windows 3 (by norm_num) (by norm_num) folder
  refine ⟨(C102_nothing_happens (milliFormat windows) _ l h hend n hn _ "still.json" ?_).1 _ _ _, ⟨_, hr⟩⟩
  show lookup _ "still.json" = _
  rw [lookup_cons_eq, if_pos rfl]; rfl

end PyFlowGo
