import Verif.Spec.Compatible
import Verif.Proofs.Restart
/-
  Processes that may write the same file, if they write the same into it: every schedule.
-/
set_option linter.unusedSectionVars false
namespace PyFlowGo
open Spec
variable {ρ : Type}

/-- Within its first `n` steps the process writes the file. -/
def Wrote (p : Prog ρ) (d : Files) (n : Nat) (q : String) : Prop := ∃ m, m < n ∧ nextAction (alone p d m).1 = .writes q

theorem Wrote.alone {p : Prog ρ} {d : Files} {n : Nat} {q : String} (h : Wrote p d n q) : WritesAlone p d q := ⟨h.choose, h.choose_spec.2⟩

/-- The invariant of every schedule. -/
theorem compatible_schedule (ps : List (Prog ρ)) (d : Files) (hc : Compatible ps d) (σ : List Nat) :
    (∀ (i : Nat) (p : Prog ρ), ps[i]? = some p → ((⟨ps, d⟩ : Sys ρ).exec σ).procs[i]? = some (alone p d (σ.count i)).1 ∧
      ∀ q, ReadsAlone p d q → lookup ((⟨ps, d⟩ : Sys ρ).exec σ).disk q = lookup (alone p d (σ.count i)).2 q) ∧
    ∀ q, (∃ (i : Nat) (p : Prog ρ), ps[i]? = some p ∧ Wrote p d (σ.count i) q ∧
        lookup ((⟨ps, d⟩ : Sys ρ).exec σ).disk q = lookup (alone p d (σ.count i)).2 q) ∨
      lookup ((⟨ps, d⟩ : Sys ρ).exec σ).disk q = lookup d q ∧ ∀ (i : Nat) (p : Prog ρ), ps[i]? = some p → ¬ Wrote p d (σ.count i) q := by
  induction σ using List.reverseRecOn with
  | nil =>
    exact ⟨fun i p hp => ⟨hp, fun q _ => rfl⟩, fun q => Or.inr ⟨rfl, fun i p _ h => absurd h.choose_spec.1 (Nat.not_lt_zero _)⟩⟩
  | append_singleton σ j ih =>
    obtain ⟨ih1, ih2⟩ := ih
    rw [exec_snoc]
    have hlen := exec_length (⟨ps, d⟩ : Sys ρ) σ
    generalize (⟨ps, d⟩ : Sys ρ).exec σ = s at *
    have hne : ∀ {i : Nat}, i ≠ j → (σ ++ [j]).count i = σ.count i := fun {i} hij => by
      rw [List.count_append, List.count_singleton, if_neg (by simpa using fun h => hij h.symm), Nat.add_zero]
    have heq : (σ ++ [j]).count j = σ.count j + 1 := by
      rw [List.count_append, List.count_singleton, if_pos (by simp)]
    cases hj : ps[j]? with
    | none =>
      have hs : s.procs[j]? = none := by
        rw [List.getElem?_eq_none_iff] at hj ⊢
        exact hlen ▸ hj
      have hstep : s.step j = s := by unfold Sys.step; rw [hs]
      rw [hstep]
      have hij : ∀ {i : Nat} {p : Prog ρ}, ps[i]? = some p → i ≠ j := by
        rintro i p hp rfl
        rw [hj] at hp
        cases hp
      refine ⟨fun i p hp => ?_, fun q => ?_⟩
      · rw [hne (hij hp)]
        exact ih1 i p hp
      · rcases ih2 q with ⟨i, p, hp, h⟩ | ⟨h1, h2⟩
        · exact Or.inl ⟨i, p, hp, by rw [hne (hij hp)]; exact h⟩
        · exact Or.inr ⟨h1, fun i p hp => by rw [hne (hij hp)]; exact h2 i p hp⟩
    | some p0 =>
      obtain ⟨a1, a2⟩ := ih1 j p0 hj
      have hjlt : j < s.procs.length := by
        rw [hlen]
        exact (List.getElem?_eq_some_iff.mp hj).1
      have hal : alone p0 d (σ.count j + 1) = (alone p0 d (σ.count j)).1.step (alone p0 d (σ.count j)).2 := rfl
      have hstep : s.step j = ⟨s.procs.set j ((alone p0 d (σ.count j)).1.step s.disk).1, ((alone p0 d (σ.count j)).1.step s.disk).2⟩ := by
        unfold Sys.step
        rw [a1]
      rw [hstep]
      have hproc : ((alone p0 d (σ.count j)).1.step s.disk).1 = (alone p0 d (σ.count j + 1)).1 := by
        rw [hal]
        cases h : (alone p0 d (σ.count j)).1 with
        | ret r => rfl
        | read q k =>
          have := a2 q ⟨_, by rw [h]; rfl⟩
          show k (lookup s.disk q) = k (lookup (alone p0 d (σ.count j)).2 q)
          rw [this]
        | write q t k => rfl
      -- a file that is not written in this step
      have hkeep : ∀ q, nextAction (alone p0 d (σ.count j)).1 ≠ .writes q →
          lookup ((alone p0 d (σ.count j)).1.step s.disk).2 q = lookup s.disk q ∧
          lookup (alone p0 d (σ.count j + 1)).2 q = lookup (alone p0 d (σ.count j)).2 q := by
        intro q hq
        rw [hal]
        cases h : (alone p0 d (σ.count j)).1 with
        | ret r => exact ⟨rfl, rfl⟩
        | read q k => exact ⟨rfl, rfl⟩
        | write q' t k =>
          rw [h] at hq
          have hqq : q' ≠ q := by
            rintro rfl
            exact hq rfl
          constructor
          · show lookup (writeFile s.disk q' t) q = _
            rw [lookup_writeFile, if_neg hqq]
          · show lookup (writeFile _ q' t) q = _
            rw [lookup_writeFile, if_neg hqq]
      -- a file that is
      have hwrite : ∀ q, nextAction (alone p0 d (σ.count j)).1 = .writes q →
          lookup ((alone p0 d (σ.count j)).1.step s.disk).2 q = lookup (alone p0 d (σ.count j + 1)).2 q := by
        intro q hq
        rw [hal]
        cases h : (alone p0 d (σ.count j)).1 with
        | ret r => rw [h] at hq; cases hq
        | read q k => rw [h] at hq; cases hq
        | write q' t k =>
          rw [h] at hq
          have hqq : q' = q := by
            have hq : Action.writes q' = .writes q := hq
            cases hq
            rfl
          show lookup (writeFile s.disk q' t) q = lookup (writeFile _ q' t) q
          rw [lookup_writeFile, lookup_writeFile, if_pos hqq, if_pos hqq]
      refine ⟨fun i p hp => ?_, fun q => ?_⟩
      · by_cases hij : i = j
        · subst hij
          rw [hj] at hp
          obtain rfl := Option.some.inj hp
          rw [heq]
          refine ⟨?_, fun q hq => ?_⟩
          · dsimp only
            rw [List.getElem?_set_self hjlt, hproc]
          · by_cases hw : nextAction (alone p0 d (σ.count i)).1 = .writes q
            · exact hwrite q hw
            · obtain ⟨k1, k2⟩ := hkeep q hw
              dsimp only
              rw [k1, k2]
              exact a2 q hq
        · rw [hne hij]
          obtain ⟨b1, b2⟩ := ih1 i p hp
          refine ⟨?_, fun q hq => ?_⟩
          · dsimp only
            rw [List.getElem?_set_ne (fun h => hij h.symm)]
            exact b1
          · dsimp only
            rw [(hkeep q fun hw => ?_).1, b2 q hq]
            exact (hc j i p0 p (fun h => hij h.symm) hj hp q ⟨_, hw⟩).1 hq
      · by_cases hw : nextAction (alone p0 d (σ.count j)).1 = .writes q
        · left
          refine ⟨j, p0, hj, ?_, ?_⟩
          · rw [heq]
            exact ⟨_, Nat.lt_succ_self _, hw⟩
          · rw [heq]
            exact hwrite q hw
        · obtain ⟨k1, k2⟩ := hkeep q hw
          rcases ih2 q with ⟨i, p, hp, h1, h2⟩ | ⟨h1, h2⟩
          · left
            refine ⟨i, p, hp, ?_⟩
            by_cases hij : i = j
            · subst hij
              rw [hj] at hp
              obtain rfl := Option.some.inj hp
              rw [heq]
              dsimp only
              rw [k1, k2]
              obtain ⟨m, hm, hm'⟩ := h1
              exact ⟨⟨m, by omega, hm'⟩, h2⟩
            · rw [hne hij]
              dsimp only
              rw [k1]
              exact ⟨h1, h2⟩
          · right
            dsimp only
            rw [k1]
            refine ⟨h1, fun i p hp => ?_⟩
            by_cases hij : i = j
            · subst hij
              rw [hj] at hp
              obtain rfl := Option.some.inj hp
              rw [heq]
              rintro ⟨m, hm, hm'⟩
              rcases Nat.lt_succ_iff_lt_or_eq.mp hm with hm | rfl
              · exact h2 i _ hj ⟨m, hm, hm'⟩
              · exact hw hm'
            · rw [hne hij]
              exact h2 i p hp

/-- When all have ended: the outcomes are those of the processes on their own, every file a process writes is as it leaves it on
    its own, and every other file is as before. -/
theorem compatible_end (ps : List (Prog ρ)) (d : Files) (hc : Compatible ps d) (σ : List Nat)
    (hend : ∀ (i : Nat), i < ps.length → ∃ r, ((⟨ps, d⟩ : Sys ρ).exec σ).procs[i]? = some (.ret r)) :
    (∀ (i : Nat) (p : Prog ρ), ps[i]? = some p → ((⟨ps, d⟩ : Sys ρ).exec σ).procs[i]? = some (.ret (p.run d).1)) ∧
    (∀ q (i : Nat) (p : Prog ρ), ps[i]? = some p → WritesAlone p d q → lookup ((⟨ps, d⟩ : Sys ρ).exec σ).disk q = lookup (p.run d).2 q) ∧
    ∀ q, (∀ (i : Nat) (p : Prog ρ), ps[i]? = some p → ¬ WritesAlone p d q) → lookup ((⟨ps, d⟩ : Sys ρ).exec σ).disk q = lookup d q := by
  obtain ⟨h1, h2⟩ := compatible_schedule ps d hc σ
  have hdone : ∀ (i : Nat) (p : Prog ρ), ps[i]? = some p →
      (alone p d (σ.count i)).1 = .ret (p.run d).1 ∧ (alone p d (σ.count i)).2 = (p.run d).2 := by
    intro i p hp
    obtain ⟨r, hr⟩ := hend i (List.getElem?_eq_some_iff.mp hp).1
    rw [(h1 i p hp).1] at hr
    obtain ⟨g1, g2⟩ := alone_done p d _ r (Option.some.inj hr)
    rw [← g1]
    exact ⟨Option.some.inj hr, g2⟩
  refine ⟨fun i p hp => ?_, fun q i p hp hw => ?_, fun q hq => ?_⟩
  · rw [(h1 i p hp).1, (hdone i p hp).1]
  · rcases h2 q with ⟨j, p', hp', g1, g2⟩ | ⟨_, g2⟩
    · rw [g2, (hdone j p' hp').2]
      by_cases hij : i = j
      · subst hij
        rw [hp] at hp'
        obtain rfl := Option.some.inj hp'
        rfl
      · exact ((hc i j p p' hij hp hp' q hw).2 g1.alone).symm
    · exfalso
      obtain ⟨m, hm⟩ := hw
      refine g2 i p hp ⟨m, ?_, hm⟩
      by_contra hle
      have hle : σ.count i ≤ m := by omega
      obtain ⟨x, rfl⟩ : ∃ x, m = σ.count i + x := ⟨m - σ.count i, by omega⟩
      have hstay : ∀ x, (alone p d (σ.count i + x)).1 = .ret (p.run d).1 := by
        intro x
        induction x with
        | zero => exact (hdone i p hp).1
        | succ x ih =>
          show ((alone p d (σ.count i + x)).1.step (alone p d (σ.count i + x)).2).1 = _
          rw [ih]
          rfl
      rw [hstay] at hm
      cases hm
  · rcases h2 q with ⟨j, p', hp', g1, g2⟩ | ⟨g1, _⟩
    · exact absurd g1.alone (hq j p' hp')
    · exact g1

end PyFlowGo
