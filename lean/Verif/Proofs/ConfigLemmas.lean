import Verif.Proofs.Base
import Verif.Spec.ConfigSpec
import Verif.Model.Run
/-
  Reading configuration entries, in terms of the specification's `EntryAt` / `NumberAt`.
-/
set_option linter.unusedSectionVars false
namespace PyFlowGo
open Spec
variable {α : Type}

theorem get_ok_iff (j : Json α) (k : String) (v : Json α) : j.get k = .ok v ↔ TopEntry j k v := by
  unfold Json.get TopEntry
  cases j with
  | obj l =>
    simp only [Json.obj.injEq, exists_eq_left']
    cases h : lookup l k <;> simp
  | _ => simp

theorem getJ_ok_iff (data : Json α) (sec key : String) (v : Json α) :
    getJ data sec key = .ok v ↔ EntryAt data sec key v := by
  unfold getJ EntryAt
  simp only [bind_ok_iff, get_ok_iff]
  constructor
  · rintro ⟨s, ⟨top, h1, h2⟩, ⟨inner, h3, h4⟩⟩
    exact ⟨top, inner, h1, h3 ▸ h2, h4⟩
  · rintro ⟨top, inner, h1, h2, h3⟩
    exact ⟨_, ⟨top, h1, h2⟩, inner, rfl, h3⟩

/-- A value that is not an object but in which `in` finds the text: a list or a text. -/
def Mentions (s : Json α) (key : String) : Prop := (∀ l, s ≠ .obj l) ∧ s.has key = .ok true

theorem has_true_cases (data : Json α) (key : String) : data.has key = .ok true ↔ (∃ v, TopEntry data key v) ∨ Mentions data key := by
  unfold Mentions TopEntry
  cases data with
  | obj l => simp [Option.isSome_iff_exists, Json.has]
  | _ => simp

theorem has_true_of {data v : Json α} {key : String} (h : TopEntry data key v) : data.has key = .ok true :=
  (has_true_cases data key).mpr (.inl ⟨v, h⟩)

/-- A section that is not an object but in which `in` finds the text. -/
def OddSection (data : Json α) (sec key : String) : Prop := ∃ s, TopEntry data sec s ∧ Mentions s key

theorem requireKey_ok_iff (data : Json α) (sec key : String) (u : Unit) :
    requireKey data sec key = .ok u ↔ (∃ v, EntryAt data sec key v) ∨ OddSection data sec key := by
  unfold requireKey OddSection
  simp only [bind_ok_iff, get_ok_iff]
  constructor
  · rintro ⟨s, hs, b, hb, h⟩
    cases b with
    | false => simp at h
    | true =>
      rcases (has_true_cases s key).mp hb with ⟨v, l, rfl, hl⟩ | hm
      · obtain ⟨top, h1, h2⟩ := hs
        exact .inl ⟨v, top, l, h1, h2, hl⟩
      · exact .inr ⟨s, hs, hm⟩
  · rintro (⟨v, top, inner, h1, h2, h3⟩ | ⟨s, hs, hm⟩)
    · exact ⟨_, ⟨top, h1, h2⟩, true, has_true_of ⟨inner, rfl, h3⟩, by simp⟩
    · exact ⟨s, hs, true, hm.2, by simp⟩

theorem EntryAt.not_odd {data v : Json α} {sec k key : String} (h : EntryAt data sec k v) : ¬ OddSection data sec key := by
  rintro ⟨s, ⟨top, h1, h2⟩, hm⟩
  obtain ⟨top', inner, h3, h4, _⟩ := h
  rw [h1] at h3
  cases h3
  rw [h2] at h4
  exact hm.1 inner (Option.some.inj h4)

variable [OfScientific α] [PyNum α]

theorem getF_ok_iff (env : Env α) (data : Json α) (sec key : String) (x : α) :
    getF env data sec key = .ok x ↔ NumberAt env data sec key x := by
  unfold getF NumberAt
  have : (do let s ← data.get sec; let v ← s.get key; v.toFloat env) =
      (getJ data sec key >>= fun v => v.toFloat env) := by
    unfold getJ
    cases data.get sec <;> rfl
  rw [this]
  simp only [bind_ok_iff, getJ_ok_iff]

theorem NumberAt.entry {env : Env α} {data : Json α} {sec key : String} {x : α} (h : NumberAt env data sec key x) :
    ∃ v, EntryAt data sec key v := ⟨h.choose, h.choose_spec.1⟩

theorem NumberAt.not_odd {env : Env α} {data : Json α} {sec k key : String} {x : α} (h : NumberAt env data sec k x) :
    ¬ OddSection data sec key := EntryAt.not_odd h.choose_spec.1

/-- A number of a section: the section is an object. -/
theorem NumberAt.not_mentions {env : Env α} {data : Json α} {sec k key : String} {x : α} (h : NumberAt env data sec k x) :
    ¬ Mentions data key := by
  obtain ⟨v, ⟨top, inner, h1, _⟩, _⟩ := h
  exact fun hm => hm.1 top h1

omit [OfScientific α] [PyNum α] in
theorem entry_unique {data : Json α} {sec key : String} {v v' : Json α} (h : EntryAt data sec key v)
    (h' : EntryAt data sec key v') : v = v' := by
  rw [← getJ_ok_iff] at h h'
  rw [h] at h'
  injection h'

theorem number_unique {env : Env α} {data : Json α} {sec key : String} {x x' : α} (h : NumberAt env data sec key x)
    (h' : NumberAt env data sec key x') : x = x' := by
  rw [← getF_ok_iff] at h h'
  rw [h] at h'
  injection h'

omit [OfScientific α] [PyNum α] in
theorem isStr_iff (j : Json α) (t : String) : j.isStr t = true ↔ j = .str t := by
  unfold Json.isStr
  cases j <;> simp

omit [OfScientific α] [PyNum α] in
/-- Reading an entry never raises NameError. -/
theorem get_ne_name (j : Json α) (k : String) : j.get k ≠ .error .nameError := by
  unfold Json.get
  cases j with
  | obj l => dsimp only; cases lookup l k <;> simp
  | _ => simp

theorem toFloat_ne_name (env : Env α) (j : Json α) : j.toFloat env ≠ .error .nameError := by
  unfold Json.toFloat
  cases j with
  | str s => dsimp only; cases env.parseFloat s <;> simp
  | _ => simp

theorem getF_ne_name (env : Env α) (data : Json α) (sec key : String) : getF env data sec key ≠ .error .nameError := by
  unfold getF
  intro h
  simp only [bind_error_iff] at h
  rcases h with h | ⟨_, _, h | ⟨_, _, h⟩⟩
  · exact get_ne_name _ _ h
  · exact get_ne_name _ _ h
  · exact toFloat_ne_name _ _ h

omit [OfScientific α] [PyNum α] in
theorem requireKey_ne_name (data : Json α) (sec key : String) : requireKey data sec key ≠ .error .nameError := by
  unfold requireKey
  intro h
  simp only [bind_error_iff] at h
  rcases h with h | ⟨s, _, h | ⟨b, _, h⟩⟩
  · exact get_ne_name _ _ h
  · unfold Json.has at h; cases s <;> simp at h
  · cases b <;> simp at h

end PyFlowGo
