import Verif.Model.TextFile
import Verif.Spec.TextSpec
import Verif.Proofs.Base
/-
  Reading back a text file line by line, field by field.
-/
set_option linter.unusedSectionVars false
namespace PyFlowGo
open Spec

theorem universal_clean (a b : List Char) (ha : '\r' ∉ a) : universal (a ++ b) = a ++ universal b := by
  unfold universal
  induction a with
  | nil => rfl
  | cons c a ih =>
    have hc : c ≠ '\r' := fun h => ha (by simp [h])
    rw [List.cons_append, universalFrom, if_neg hc, if_neg (by simp), ih (fun h => ha (by simp [h])), List.cons_append]

theorem universalFrom_true (b : List Char) (hb : b.head? ≠ some '\n') : universalFrom true b = universal b := by
  unfold universal
  cases b with
  | nil => rfl
  | cons d b =>
    have hd : d ≠ '\n' := fun h => hb (by simp [h])
    simp [universalFrom, hd]

theorem universal_lf (b : List Char) : universal ('\n' :: b) = '\n' :: universal b := by
  unfold universal; simp [universalFrom]

theorem universal_crlf (b : List Char) : universal ('\r' :: '\n' :: b) = '\n' :: universal b := by
  unfold universal; simp [universalFrom]

theorem universal_eol (e : Eol) (b : List Char) (hb : b.head? ≠ some '\n') :
    universal (e.chars ++ b) = '\n' :: universal b := by
  cases e with
  | lf => exact universal_lf b
  | crlf => exact universal_crlf b
  | cr =>
    rw [← universalFrom_true b hb]
    simp [Eol.chars, universal, universalFrom]

theorem fileLines_line (a b : List Char) (ha : '\n' ∉ a) : fileLines (a ++ '\n' :: b) = (a ++ ['\n']) :: fileLines b := by
  induction a with
  | nil => simp [fileLines]
  | cons c a ih =>
    have hc : c ≠ '\n' := fun h => ha (by simp [h])
    rw [List.cons_append, fileLines, if_neg hc, ih (fun h => ha (by simp [h]))]
    rfl

theorem fileLines_last (a : List Char) (ha : '\n' ∉ a) (hne : a ≠ []) : fileLines a = [a] := by
  induction a with
  | nil => exact absurd rfl hne
  | cons c a ih =>
    have hc : c ≠ '\n' := fun h => ha (by simp [h])
    rw [fileLines, if_neg hc]
    cases a with
    | nil => rfl
    | cons d a => rw [ih (fun h => ha (by simp [h])) (by simp)]

theorem dropWhile_none (a : List Char) (ha : '\n' ∉ a) : a.dropWhile (· == '\n') = a := by
  cases a with
  | nil => rfl
  | cons c a =>
    have hc : (c == '\n') = false := by
      rw [beq_eq_false_iff_ne]; exact fun h => ha (by simp [h])
    rw [List.dropWhile_cons, hc]; rfl

theorem strip_clean (a : List Char) (ha : '\n' ∉ a) : stripNewlines a = a := by
  unfold stripNewlines
  rw [dropWhile_none a ha, dropWhile_none _ (by simpa using ha), List.reverse_reverse]

theorem strip_line (a : List Char) (ha : '\n' ∉ a) : stripNewlines (a ++ ['\n']) = a := by
  unfold stripNewlines
  cases a with
  | nil => rfl
  | cons c a =>
    have hc : (c == '\n') = false := by
      rw [beq_eq_false_iff_ne]; exact fun h => ha (by simp [h])
    rw [List.cons_append, List.dropWhile_cons, hc]
    simp only [Bool.false_eq_true, if_false]
    rw [show (c :: (a ++ ['\n'])).reverse = '\n' :: (c :: a).reverse by simp, List.dropWhile_cons]
    simp only [beq_self_eq_true, if_true]
    rw [dropWhile_none _ (by rw [List.mem_reverse]; exact ha), List.reverse_reverse]

theorem split_field (f : List Char) (hf : '\t' ∉ f) : splitTabs f = [f] := by
  induction f with
  | nil => rfl
  | cons c f ih =>
    have hc : c ≠ '\t' := fun h => hf (by simp [h])
    rw [splitTabs, if_neg hc, ih (fun h => hf (by simp [h]))]

theorem split_cons (f r : List Char) (hf : '\t' ∉ f) : splitTabs (f ++ '\t' :: r) = f :: splitTabs r := by
  induction f with
  | nil => simp [splitTabs]
  | cons c f ih =>
    have hc : c ≠ '\t' := fun h => hf (by simp [h])
    rw [List.cons_append, splitTabs, if_neg hc, ih (fun h => hf (by simp [h]))]

theorem split_tabLine (r : List (List Char)) (hne : r ≠ []) (hr : ∀ f ∈ r, '\t' ∉ f) : splitTabs (tabLine r) = r := by
  induction r with
  | nil => exact absurd rfl hne
  | cons f fs ih =>
    cases fs with
    | nil => exact split_field f (hr f (by simp))
    | cons g fs =>
      rw [tabLine, split_cons _ _ (hr f (by simp)), ih (by simp) (fun x hx => hr x (List.mem_cons_of_mem _ hx))]

theorem tabLine_mem (r : List (List Char)) (c : Char) (h : c ∈ tabLine r) : c = '\t' ∨ ∃ f ∈ r, c ∈ f := by
  induction r with
  | nil => cases h
  | cons f fs ih =>
    cases fs with
    | nil => exact Or.inr ⟨f, by simp, h⟩
    | cons g fs =>
      rw [tabLine, List.mem_append, List.mem_cons] at h
      rcases h with h | h | h
      · exact Or.inr ⟨f, by simp, h⟩
      · exact Or.inl h
      · rcases ih h with h | ⟨x, hx, hc⟩
        · exact Or.inl h
        · exact Or.inr ⟨x, List.mem_cons_of_mem _ hx, hc⟩

theorem tabLine_oneLine (r : List (List Char)) (hr : CleanRow r) : OneLine (tabLine r) := by
  constructor <;> intro h <;> rcases tabLine_mem r _ h with h | ⟨f, hf, hc⟩
  · revert h; decide
  · exact (hr.2 f hf).2.1 hc
  · revert h; decide
  · exact (hr.2 f hf).2.2 hc

theorem tabFile_head (e : Eol) (final : Bool) (header : List Char) (hh : OneLine header) (rows : List (List (List Char))) :
    (tabFile e final header rows).head? ≠ some '\n' ∨ (header = [] ∧ e ≠ .cr) := by
  cases header with
  | cons c h =>
    left
    have hc : c ≠ '\n' := fun h' => hh.1 (by simp [h'])
    cases rows <;> simp [tabFile, hc]
  | nil =>
    cases e with
    | cr => left; cases rows <;> cases final <;> simp [tabFile, Eol.chars]
    | lf => right; exact ⟨rfl, by simp⟩
    | crlf => right; exact ⟨rfl, by simp⟩

theorem universal_eol' (e : Eol) (b : List Char) (hb : b.head? ≠ some '\n' ∨ e ≠ .cr) :
    universal (e.chars ++ b) = '\n' :: universal b := by
  rcases hb with hb | hb
  · exact universal_eol e b hb
  · cases e with
    | lf => exact universal_lf b
    | crlf => exact universal_crlf b
    | cr => exact absurd rfl hb

/-- The lines of a file are its header and its rows. -/
theorem fileLines_tabFile (e : Eol) (final : Bool) (header : List Char) (hh : OneLine header) (rows : List (List (List Char)))
    (hr : ∀ r ∈ rows, CleanRow r) (hlast : final = true ∨ ∀ l ∈ (header :: rows.map tabLine).getLast?, l ≠ []) :
    (fileLines (universal (tabFile e final header rows))).map stripNewlines = header :: rows.map tabLine := by
  induction rows generalizing header with
  | nil =>
    rw [tabFile]
    cases final with
    | true =>
      rw [if_pos rfl, universal_clean _ _ hh.2]
      have : universal e.chars = ['\n'] := by
        have := universal_eol e [] (by simp)
        rwa [List.append_nil] at this
      rw [this, fileLines_line _ _ hh.1]
      simp [fileLines, strip_line _ hh.1]
    | false =>
      have hne : header ≠ [] := by simpa using hlast
      rw [if_neg (by simp), universal_clean _ _ hh.2]
      rw [show universal [] = [] from rfl, List.append_nil]
      rw [fileLines_last _ hh.1 hne]
      simp [strip_clean _ hh.1]
  | cons r rows ih =>
    have hr1 := tabLine_oneLine r (hr r (by simp))
    rw [tabFile, List.append_assoc, universal_clean _ _ hh.2, universal_eol', fileLines_line _ _ hh.1, List.map_cons,
      strip_line _ hh.1, ih (tabLine r) hr1 (fun x hx => hr x (List.mem_cons_of_mem _ hx))]
    · rfl
    · rcases hlast with h | h
      · exact Or.inl h
      · right; intro l hl; refine h l ?_
        rw [List.map_cons]
        simpa using hl
    · rcases tabFile_head e final (tabLine r) hr1 rows with h | h
      · exact Or.inl h
      · exact Or.inr h.2

theorem dataLines_tabFile (e : Eol) (final : Bool) (header : List Char) (hh : OneLine header) (rows : List (List (List Char)))
    (hr : ∀ r ∈ rows, CleanRow r) (hlast : final = true ∨ ∀ l ∈ (header :: rows.map tabLine).getLast?, l ≠ []) :
    dataLines (tabFile e final header rows) = rows := by
  unfold dataLines
  have h := fileLines_tabFile e final header hh rows hr hlast
  have h2 : (fileLines (universal (tabFile e final header rows))).tail.map stripNewlines = rows.map tabLine := by
    rw [List.map_tail, h]; rfl
  have : (fun l => splitTabs (stripNewlines l)) = splitTabs ∘ stripNewlines := rfl
  rw [this, ← List.map_map, h2, List.map_map]
  conv_rhs => rw [← List.map_id rows]
  exact List.map_congr_left fun r hr' => split_tabLine r (hr r hr').1 fun f hf => ((hr r hr').2 f hf).1

end PyFlowGo
