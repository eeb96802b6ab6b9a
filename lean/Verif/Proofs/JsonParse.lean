import Verif.Proofs.JsonNumber
/-
  The scanner of the model reads exactly the texts of the JSON grammar.
-/
set_option linter.unusedSectionVars false
namespace PyFlowGo
open Spec
variable {α : Type}

theorem lookup_cons_eq {ν : Type} (q : String × ν) (l : List (String × ν)) (x : String) :
    lookup (q :: l) x = if q.1 = x then some q.2 else lookup l x := by
  unfold lookup; rw [List.find?_cons]; split <;> simp_all

theorem lookup_append_or {ν : Type} (a b : List (String × ν)) (k : String) :
    lookup (a ++ b) k = (lookup a k).or (lookup b k) := by
  unfold lookup
  rw [List.find?_append]
  cases a.find? (fun kv => kv.1 == k) <;> simp

theorem lookup_isSome_iff {ν : Type} (d : List (String × ν)) (k : String) : (lookup d k).isSome = true ↔ k ∈ d.map Prod.fst := by
  unfold lookup
  rw [Option.isSome_map, List.find?_isSome]
  simp [List.mem_map]

theorem lookup_replace {ν : Type} (d : List (String × ν)) (k k' : String) (v : ν) :
    lookup (d.map fun p => if p.1 == k then (p.1, v) else p) k' =
      if k' = k then (lookup d k).map fun _ => v else lookup d k' := by
  induction d with
  | nil => simp [lookup]
  | cons p d ih =>
    have e : ∀ (q : String × ν) (l : List (String × ν)) x, lookup (q :: l) x = if q.1 = x then some q.2 else lookup l x := by
      intro q l x; unfold lookup; rw [List.find?_cons]; split <;> simp_all
    rw [List.map_cons, e, ih, e, e]
    by_cases h1 : p.1 = k
    · by_cases h2 : k' = k
      · simp [h1, h2]
      · simp [h1, h2, Ne.symm h2]
    · by_cases h2 : k' = k
      · simp [h1, h2]
      · simp [h1, h2]

/-- `dict(pairs)` is the object of the specification. -/
theorem dictOf_members (ps : List (String × Json α)) : Members ps (dictOf ps) := by
  induction ps using List.reverseRecOn with
  | nil => exact ⟨rfl, fun k => rfl⟩
  | append_singleton ps kv ih =>
    obtain ⟨h1, h2⟩ := ih
    obtain ⟨k, v⟩ := kv
    have hu : dictOf (ps ++ [(k, v)]) = upsert (dictOf ps) (k, v) := by unfold dictOf; rw [List.foldl_append]; rfl
    have hmem : (lookup (dictOf ps) k).isSome = true ↔ k ∈ ps.map Prod.fst := by
      rw [lookup_isSome_iff, h1]; simp
    rw [hu]
    unfold upsert
    by_cases hk : k ∈ ps.map Prod.fst
    · rw [if_pos (hmem.mpr hk)]
      constructor
      · rw [List.map_map, List.map_append, List.eraseDups_append]
        have e1 : ((fun p : String × Json α => p.1) ∘ fun p => if (p.1 == k) = true then (p.1, v) else p) = Prod.fst := by
          funext p; simp only [Function.comp]; split <;> rfl
        have e2 : ([(k, v)].map Prod.fst : List String).removeAll (ps.map Prod.fst) = [] := by
          simp only [List.map_cons, List.map_nil, List.removeAll, List.filter_cons, List.filter_nil]
          rw [if_neg]
          simpa using hk
        rw [show (Prod.fst ∘ fun p : String × Json α => if (p.1 == (k, v).1) = true then (p.1, (k, v).2) else p) = Prod.fst from e1,
          h1, e2]
        simp
      · intro k'
        rw [lookup_replace, List.reverse_append, List.reverse_singleton, List.singleton_append, lookup_cons_eq]
        by_cases e : k' = k
        · subst e
          obtain ⟨x, hx⟩ := Option.isSome_iff_exists.mp (hmem.mpr hk)
          simp [hx]
        · rw [if_neg e, if_neg (by simpa using fun h => e h.symm), h2]
    · rw [if_neg (by rw [hmem]; exact hk)]
      constructor
      · rw [List.map_append, List.map_append, List.eraseDups_append, h1]
        have e2 : ([(k, v)].map Prod.fst : List String).removeAll (ps.map Prod.fst) = [k] := by
          simp only [List.map_cons, List.map_nil, List.removeAll, List.filter_cons, List.filter_nil]
          rw [if_pos]
          simpa using hk
        rw [e2]
        rfl
      · intro k'
        rw [lookup_append_or, List.reverse_append, List.reverse_singleton, List.singleton_append, lookup_cons_eq, lookup_cons_eq]
        have hn : lookup (dictOf ps) k = none := by
          rw [← Option.not_isSome_iff_eq_none, hmem]; exact hk
        by_cases e : k = k'
        · subst e
          simp [hn]
        · rw [if_neg e, if_neg e, ← h2]
          simp [lookup]

theorem eraseDups_nodup {β : Type} [BEq β] [LawfulBEq β] (l : List β) : l.eraseDups.Nodup := by
  induction h : l.length using Nat.strong_induction_on generalizing l with
  | _ n ih =>
    cases l with
    | nil => simp
    | cons a l =>
      rw [List.eraseDups_cons, List.nodup_cons]
      constructor
      · rw [List.mem_eraseDups]; simp
      · refine ih _ ?_ _ rfl
        subst h
        exact lt_of_le_of_lt (List.length_filter_le _ _) (by simp)

theorem members_nodup {ps d : List (String × Json α)} (h : Members ps d) : (d.map Prod.fst).Nodup := by
  rw [h.1]; exact eraseDups_nodup _

/-- A list of members with distinct keys is determined by its keys and its lookups. -/
theorem assoc_ext {ν : Type} (d e : List (String × ν)) (hk : d.map Prod.fst = e.map Prod.fst) (hn : (d.map Prod.fst).Nodup)
    (hl : ∀ k, lookup d k = lookup e k) : d = e := by
  induction d generalizing e with
  | nil => simpa using hk.symm
  | cons p d ih =>
    cases e with
    | nil => simp at hk
    | cons q e =>
      obtain ⟨k, v⟩ := p
      obtain ⟨k', v'⟩ := q
      simp only [List.map_cons, List.cons.injEq] at hk
      obtain ⟨rfl, hk⟩ := hk
      rw [List.map_cons, List.nodup_cons] at hn
      have hv := hl k
      have hc : ∀ (v : ν) (l : List (String × ν)) x, lookup ((k, v) :: l) x = if k = x then some v else lookup l x := by
        intro v l x; unfold lookup; rw [List.find?_cons]; split <;> simp_all
      rw [hc, hc, if_pos rfl, if_pos rfl] at hv
      have hv : v = v' := by simpa using hv
      subst hv
      congr 1
      refine ih e hk hn.2 fun x => ?_
      by_cases hx : k = x
      · subst hx
        have h1 : lookup d k = none := by
          rw [← Option.not_isSome_iff_eq_none, lookup_isSome_iff]; exact hn.1
        have h2 : lookup e k = none := by
          rw [← Option.not_isSome_iff_eq_none, lookup_isSome_iff, ← hk]; exact hn.1
        rw [h1, h2]
      · have := hl x
        rw [hc, hc, if_neg hx, if_neg hx] at this
        exact this

theorem members_unique {ps d : List (String × Json α)} (h : Members ps d) : d = dictOf ps := by
  have h' := dictOf_members ps
  exact assoc_ext d _ (h.1.trans h'.1.symm) (members_nodup h) fun k => (h.2 k).trans (h'.2 k).symm

theorem members_self {ps : List (String × Json α)} (h : (ps.map Prod.fst).Nodup) : Members ps ps := by
  constructor
  · have : ∀ l : List String, l.Nodup → l.eraseDups = l := by
      intro l hl
      induction l with
      | nil => rfl
      | cons a l ih =>
        rw [List.nodup_cons] at hl
        rw [List.eraseDups_cons]
        have : l.filter (fun b => !b == a) = l := by
          rw [List.filter_eq_self]
          intro b hb
          have : b ≠ a := fun e => hl.1 (e ▸ hb)
          simpa using this
        rw [this, ih hl.2]
    exact (this _ h).symm
  · intro k
    induction ps with
    | nil => rfl
    | cons p ps ih =>
      obtain ⟨k', v⟩ := p
      rw [List.map_cons, List.nodup_cons] at h
      rw [List.reverse_cons, lookup_append_or, ← ih h.2, lookup_cons_eq]
      by_cases e : k' = k
      · subst e
        have : lookup ps k' = none := by
          rw [← Option.not_isSome_iff_eq_none, lookup_isSome_iff]; exact h.1
        rw [this]
        simp [lookup]
      · have : lookup [(k', v)] k = none := by simp [lookup, e]
        rw [this]
        simp [e]

end PyFlowGo
