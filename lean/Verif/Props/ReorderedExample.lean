import Verif.Props.Reordered
import Verif.Props.RunText
/-
  A concrete case for C137: a configuration written backwards, its sections from last to first and the entries of every section from last to first.
-/
namespace PyFlowGo
open Spec

section
variable {α : Type}

/-- An object backwards; another value as it is. -/
def insideOut : Json α → Json α
  | .obj m => .obj m.reverse
  | v => v

/-- A configuration backwards. -/
def backwards : Json α → Json α
  | .obj l => .obj (l.map fun e => (e.1, insideOut e.2)).reverse
  | v => v

/-- A configuration without double keys whose four entries outside the sections are no objects, and the same backwards, are the same in another order. -/
theorem backwards_reordered (l : List (String × Json α)) (hd : DistinctKeys (.obj l)) (ht : ∀ e ∈ l, e.1 ∈ usedTop → insideOut e.2 = e.2) : Reordered (.obj l) (backwards (.obj l)) := by
  rw [DistinctKeys, distinctMembers_iff] at hd
  refine ⟨l, l.map fun e => (e.1, insideOut e.2), _, rfl, rfl, ⟨?_, List.reverse_perm _⟩, ?_⟩
  · rw [List.map_map]
    exact hd.1
  · rw [List.forall₂_map_right_iff, List.forall₂_same]
    intro e he
    refine ⟨rfl, fun hk => (ht e he hk).symm, ?_⟩
    obtain ⟨k, v⟩ := e
    have hv := hd.2 _ he
    cases v with
    | obj m =>
      rw [DistinctKeys] at hv
      exact .inr ⟨m, m.reverse, rfl, rfl, hv.1, List.reverse_perm m⟩
    | _ => exact .inl rfl
end

/-- The still example backwards: another value, a rearrangement of the same configuration. -/
theorem still_backwards (n : ℝ) : Reordered (stillConfig 3 n (.int 1)) (backwards (stillConfig 3 n (.int 1))) ∧ backwards (stillConfig 3 n (.int 1)) ≠ stillConfig 3 n (.int 1) := by
  constructor
  · obtain ⟨l, e⟩ : ∃ l, stillConfig 3 n (.int 1) = .obj l := ⟨_, rfl⟩
    rw [e]
    refine backwards_reordered l (by rw [← e]; exact still_distinct _ _ _) ?_
    have hl : Json.obj l = stillConfig 3 n (.int 1) := e.symm
    unfold stillConfig exConfigR exConfigM at hl
    injection hl with hl
    subst hl
    intro x hx hk
    simp only [List.mem_cons, List.not_mem_nil, or_false] at hx
    rcases hx with rfl | rfl | rfl | rfl | rfl | rfl | rfl | rfl | rfl | rfl | rfl | rfl | rfl | rfl | rfl | rfl | rfl | rfl
    all_goals first | rfl | (simp [usedTop] at hk)
  · intro h
    have h1 : (match backwards (stillConfig 3 n (.int 1)) with | .obj (e :: _) => e.1 | _ => "") = "terrain_conditions" := rfl
    rw [h] at h1
    have h2 : (match stillConfig 3 n (.int 1) with | .obj (e :: _) => e.1 | _ => "") = "lava_name" := rfl
    rw [h2] at h1
    revert h1
    decide

/-- The still example backwards gives the same complete run: the same log and the same result file. -/
example : ∃ log t, log ≠ [] ∧ ∀ d, d = stillConfig 3 3 (.int 1) ∨ d = backwards (stillConfig 3 3 (.int 1)) →
    runOn [1] 3 exEnv "still.json" "out" (newRunner ⟨[("still.json", d)], [], []⟩) =
      some (.ok (), ⟨[("still.json", d)], [(resultFileName "out" "example" (toString (1 : Int)), t)], log⟩) := by
  obtain ⟨log, t, hne, _, _, _, hrun⟩ := still_run 3 (by norm_num) (by norm_num) 1 (.inr rfl) (fun _ x => x)
  have r0 := hrun "still.json" "out" ⟨[("still.json", stillConfig 3 (3 : ℕ) (.int 1))], [], []⟩ (by rw [lookup_cons_eq, if_pos rfl])
  rw [show ((3 : ℕ) : ℝ) = 3 by norm_num] at r0
  have hl : ∀ d : Json ℝ, lookup (newRunner (⟨[("still.json", d)], [], []⟩ : Proc ℝ)).json (exEnv.canon "still.json") = some d := by
    intro d
    show lookup [("still.json", d)] "still.json" = some d
    rw [lookup_cons_eq, if_pos rfl]
  refine ⟨log, t, hne, ?_⟩
  rintro d (rfl | rfl)
  · exact r0
  · obtain ⟨o, r1, r2⟩ := C137_run [1] 3 exEnv "still.json" "out" (newRunner ⟨[("still.json", stillConfig 3 3 (.int 1))], [], []⟩)
      (newRunner ⟨[("still.json", backwards (stillConfig 3 3 (.int 1)))], [], []⟩) _ _ (hl _) (hl _) rfl rfl (still_backwards 3).1
    rw [r0] at r1
    cases o with
    | none => cases r1
    | some o =>
      rw [Option.map_some, Option.some.injEq, Prod.mk.injEq, Proc.mk.injEq] at r1
      obtain ⟨a, _, b, c⟩ := r1
      rw [r2, Option.map_some, ← a, ← b, ← c]
      rfl

end PyFlowGo
