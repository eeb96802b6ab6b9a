import Verif.Proofs.Saving
/-
  Every schedule of a run and a program that saves its configuration.
-/
set_option linter.unusedSectionVars false
namespace PyFlowGo
open Spec
variable {α : Type} [Add α] [Sub α] [Mul α] [Neg α] [OfScientific α] [PyNum α]

/-- What is left of saving a file: at least one write, the last one of the whole text. -/
def Saver {ρ : Type} (c : String) (text : List Char) : Prog ρ → Prop
  | .ret _ => False
  | .read _ _ => False
  | .write q t k => q = c ∧ (∃ n, t = text.take n) ∧ (Saver c text k ∨ (∃ r, k = .ret r) ∧ t = text)

theorem saver_save {ρ : Type} (flush : List Char → List Nat) (c : String) (text : List Char) (r : ρ) :
    ∃ k, Prog.save flush c text (.ret r) = .write c [] k ∧ Saver c text k := by
  refine ⟨_, rfl, ?_⟩
  generalize flush text = ns
  induction ns with
  | nil => exact ⟨rfl, ⟨text.length, by simp⟩, Or.inr ⟨⟨r, rfl⟩, rfl⟩⟩
  | cons n ns ih => exact ⟨rfl, ⟨n, rfl⟩, Or.inl ih⟩

section
variable {ρ : Type} (F : TextFormat α) (c : String) (good : Json α → Prop) (bad : ρ) (d : Files) (text : List Char) (l : List (String × Json α))

/-- The state of the run. -/
def Phase (p : Prog ρ) (e : Files) : Prop := Strict F c good bad (fun _ => True) p ∧ SameBut c e d ∨ OnlyWrites c p

variable (hnew : jsonLoad F.float text = .ok (.obj l)) (hg : good (.obj l))
include hnew hg

/-- One step of the run while the file is being written, compared with the step on a disk where it has been written. -/
theorem saving_step {p : Prog ρ} {e b : Files} (hph : Phase F c good bad d p e) {k : Nat} (hk : lookup e c = some (text.take k)) (hb : SameBut c e b)
    (hbc : lookup b c = some text) :
    ((p.step e).1 = .ret bad ∧ (p.step e).2 = e ∧ SameBut c e d) ∨
    (p.step e).1 = (p.step b).1 ∧ SameBut c (p.step e).2 (p.step b).2 ∧ lookup (p.step e).2 c = some (text.take k) ∧ lookup (p.step b).2 c = some text ∧
      Phase F c good bad d (p.step e).1 (p.step e).2 := by
  cases p with
  | ret r => exact Or.inr ⟨rfl, hb, hk, hbc, hph⟩
  | read q kk =>
    obtain ⟨hs, hd⟩ : Strict F c good bad (fun _ => True) (.read q kk) ∧ SameBut c e d := by
      rcases hph with h | h
      · exact h
      · exact h.elim
    by_cases hq : q = c
    · subst hq
      rcases C102_cut_configuration F.float text l hnew k with hcut | hcut
      · left
        refine ⟨?_, rfl, hd⟩
        show kk (lookup e q) = _
        rw [hk]
        exact (hs.1 rfl).1 _ hcut
      · right
        have e1 : kk (lookup e q) = kk (lookup b q) := by
          rw [hk, hbc]
          exact (hs.1 rfl).2 _ _ (hcut.trans hnew.symm)
        refine ⟨e1, hb, hk, hbc, Or.inl ⟨hs.2 _ fun _ t data ht hdata => ?_, hd⟩⟩
        rw [hk] at ht
        obtain rfl := Option.some.inj ht
        rw [hcut] at hdata
        obtain rfl := Except.ok.inj hdata
        exact hg
    · right
      refine ⟨?_, hb, hk, hbc, Or.inl ⟨hs.2 _ fun h => absurd h hq, hd⟩⟩
      show kk (lookup e q) = kk (lookup b q)
      rw [hb q hq]
  | write q t kk =>
    right
    obtain ⟨hq, hw⟩ : q ≠ c ∧ OnlyWrites c kk := by
      rcases hph with h | h
      · exact h.1
      · exact h
    refine ⟨rfl, fun q' hq' => ?_, ?_, ?_, Or.inr hw⟩
    · show lookup (writeFile e q t) q' = lookup (writeFile b q t) q'
      rw [lookup_writeFile, lookup_writeFile, hb q' hq']
    · show lookup (writeFile e q t) c = _
      rw [lookup_writeFile, if_neg hq, hk]
    · show lookup (writeFile b q t) c = _
      rw [lookup_writeFile, if_neg hq, hbc]

/-- The invariant of every schedule of a process `p` and one that saves `text` in the file `c`. -/
theorem saving_schedule (p : Prog ρ) (hs : Strict F c good bad (fun _ => True) p)
    (hold : ∀ t data, lookup d c = some t → jsonLoad F.float t = .ok data → good data) (flush : List Char → List Nat) (r0 : ρ) (σ : List Nat) :
    (∃ n, (⟨[p, .save flush c text (.ret r0)], d⟩ : Sys ρ).exec σ = ⟨[(alone p d n).1, .save flush c text (.ret r0)], (alone p d n).2⟩ ∧
      (Strict F c good bad (fun _ => True) (alone p d n).1 ∧ (alone p d n).2 = d ∨ OnlyWrites c (alone p d n).1)) ∨
    ∃ p' S', ((⟨[p, .save flush c text (.ret r0)], d⟩ : Sys ρ).exec σ).procs = [p', S'] ∧
      (∃ k, lookup ((⟨[p, .save flush c text (.ret r0)], d⟩ : Sys ρ).exec σ).disk c = some (text.take k) ∧
        (Saver c text S' ∨ (∃ r, S' = .ret r) ∧ text.take k = text)) ∧
      (p' = .ret bad ∧ SameBut c ((⟨[p, .save flush c text (.ret r0)], d⟩ : Sys ρ).exec σ).disk d ∨
        ∃ n m, p' = (alone (alone p d n).1 (writeFile (alone p d n).2 c text) m).1 ∧
          SameBut c ((⟨[p, .save flush c text (.ret r0)], d⟩ : Sys ρ).exec σ).disk (alone (alone p d n).1 (writeFile (alone p d n).2 c text) m).2 ∧
          lookup (alone (alone p d n).1 (writeFile (alone p d n).2 c text) m).2 c = some text ∧
          Phase F c good bad d p' ((⟨[p, .save flush c text (.ret r0)], d⟩ : Sys ρ).exec σ).disk) := by
  obtain ⟨k0, hk0, hsav⟩ := saver_save flush c text r0
  induction σ using List.reverseRecOn with
  | nil => exact Or.inl ⟨0, rfl, Or.inl ⟨hs, rfl⟩⟩
  | append_singleton σ j ih =>
    rw [exec_snoc]
    rcases ih with ⟨n, he, hph⟩ | ⟨p', S', hprocs, ⟨k, hk, hS⟩, hrest⟩
    · rw [he]
      match j with
      | 0 =>
        left
        refine ⟨n + 1, rfl, ?_⟩
        show Strict F c good bad (fun _ => True) ((alone p d n).1.step (alone p d n).2).1 ∧ ((alone p d n).1.step (alone p d n).2).2 = d ∨
          OnlyWrites c ((alone p d n).1.step (alone p d n).2).1
        generalize alone p d n = a at hph
        obtain ⟨a1, a2⟩ := a
        cases a1 with
        | ret r => exact hph
        | read q kk =>
          rcases hph with ⟨h1, h2⟩ | h
          · have h2 : a2 = d := h2
            subst h2
            exact Or.inl ⟨h1.2 _ fun hq t data ht hdata => hold t data (hq ▸ ht) hdata, rfl⟩
          · exact h.elim
        | write q t kk =>
          rcases hph with ⟨h1, _⟩ | h
          · exact Or.inr h1.2
          · exact Or.inr h.2
      | 1 =>
        right
        have hstep : (⟨[(alone p d n).1, Prog.save flush c text (.ret r0)], (alone p d n).2⟩ : Sys ρ).step 1 =
            ⟨[(alone p d n).1, k0], writeFile (alone p d n).2 c []⟩ := by
          rw [hk0]
          rfl
        rw [hstep]
        refine ⟨(alone p d n).1, k0, rfl, ⟨0, ?_, Or.inl hsav⟩, Or.inr ⟨n, 0, rfl, fun q hq => ?_, ?_, ?_⟩⟩
        · show lookup (writeFile (alone p d n).2 c []) c = _
          rw [lookup_writeFile, if_pos rfl]
          rfl
        · show lookup (writeFile (alone p d n).2 c []) q = lookup (writeFile (alone p d n).2 c text) q
          rw [lookup_writeFile, lookup_writeFile, if_neg (fun h => hq h.symm), if_neg (fun h => hq h.symm)]
        · show lookup (writeFile (alone p d n).2 c text) c = _
          rw [lookup_writeFile, if_pos rfl]
        · rcases hph with ⟨h1, h2⟩ | h
          · refine Or.inl ⟨h1, fun q hq => ?_⟩
            show lookup (writeFile (alone p d n).2 c []) q = _
            rw [lookup_writeFile, if_neg (fun h => hq h.symm), h2]
          · exact Or.inr h
      | j + 2 => exact Or.inl ⟨n, rfl, hph⟩
    · right
      generalize (⟨[p, .save flush c text (.ret r0)], d⟩ : Sys ρ).exec σ = s at *
      obtain ⟨procs, disk⟩ := s
      have hprocs : procs = [p', S'] := hprocs
      subst hprocs
      match j with
      | 0 =>
        have hstep : (⟨[p', S'], disk⟩ : Sys ρ).step 0 = ⟨[(p'.step disk).1, S'], (p'.step disk).2⟩ := rfl
        rw [hstep]
        rcases hrest with ⟨rfl, hd⟩ | ⟨n, m, hp', hsame, hbc, hph⟩
        · exact ⟨.ret bad, S', rfl, ⟨k, hk, hS⟩, Or.inl ⟨rfl, hd⟩⟩
        · refine ⟨(p'.step disk).1, S', rfl, ?_⟩
          have hm : alone (alone p d n).1 (writeFile (alone p d n).2 c text) (m + 1) =
              p'.step (alone (alone p d n).1 (writeFile (alone p d n).2 c text) m).2 := by rw [hp']; rfl
          rcases saving_step F c good bad d text l hnew hg hph hk hsame hbc with ⟨h1, h2, h3⟩ | ⟨h1, h2, h3, h4, h5⟩
          · dsimp only
            rw [h1, h2]
            exact ⟨⟨k, hk, hS⟩, Or.inl ⟨rfl, h3⟩⟩
          · refine ⟨⟨k, h3, hS⟩, Or.inr ⟨n, m + 1, ?_, ?_, ?_, h5⟩⟩
            · rw [hm, h1]
            · rw [hm]; exact h2
            · rw [hm]; exact h4
      | 1 =>
        have hstep : (⟨[p', S'], disk⟩ : Sys ρ).step 1 = ⟨[p', (S'.step disk).1], (S'.step disk).2⟩ := rfl
        rw [hstep]
        cases S' with
        | ret r => exact ⟨p', .ret r, rfl, ⟨k, hk, hS⟩, hrest⟩
        | read q kk =>
          rcases hS with h | ⟨⟨r, h⟩, _⟩
          · exact h.elim
          · cases h
        | write q t kk =>
          obtain ⟨rfl, ⟨k', rfl⟩, hS'⟩ : Saver c text (.write q t kk) := by
            rcases hS with h | ⟨⟨r, h⟩, _⟩
            · exact h
            · cases h
          have hoff : SameBut q (writeFile disk q (text.take k')) disk := by
            intro q' hq'
            rw [lookup_writeFile, if_neg (fun h => hq' h.symm)]
          refine ⟨p', kk, rfl, ⟨k', ?_, hS'⟩, ?_⟩
          · show lookup (writeFile disk q (text.take k')) q = _
            rw [lookup_writeFile, if_pos rfl]
          · show p' = .ret bad ∧ SameBut q (writeFile disk q (text.take k')) d ∨ _
            rcases hrest with ⟨h1, h2⟩ | ⟨n, m, hp', hsame, hbc, hph⟩
            · exact Or.inl ⟨h1, fun q' hq' => (hoff q' hq').trans (h2 q' hq')⟩
            · refine Or.inr ⟨n, m, hp', fun q' hq' => (hoff q' hq').trans (hsame q' hq'), hbc, ?_⟩
              rcases hph with ⟨h1, h2⟩ | h
              · exact Or.inl ⟨h1, fun q' hq' => (hoff q' hq').trans (h2 q' hq')⟩
              · exact Or.inr h
      | j + 2 => exact ⟨p', S', rfl, ⟨k, hk, hS⟩, hrest⟩

end
end PyFlowGo
