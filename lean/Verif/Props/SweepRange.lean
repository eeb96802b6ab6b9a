import Verif.Props.Reordered
import Verif.Props.SweepText
/-
  C138: the result of a rate depends neither on the range and the step of the sweep it belongs to nor on the effusion rate in the template.
-/
set_option linter.unusedSectionVars false
namespace PyFlowGo
open Spec
variable {α : Type} [Add α] [Sub α] [Mul α] [Neg α] [OfScientific α] [PyNum α]

/-- Two templates that differ at most in the effusion rate and in the order of their entries, each with the rate `r`: the same to every reader. -/
theorem sameView_rate {t₁ t₂ d₁ d₂ : Json α} {r : Int} (ht : ∀ k, k ≠ "effusion_rate_init" → ∀ x, TopEntry t₁ k x ↔ TopEntry t₂ k x)
    (h₁ : WithRate t₁ d₁ r) (h₂ : WithRate t₂ d₂ r) : SameView d₁ d₂ := by
  obtain ⟨⟨l₁, e₁, a₁⟩, b₁⟩ := h₁
  obtain ⟨⟨l₂, e₂, a₂⟩, b₂⟩ := h₂
  subst e₁ e₂
  have top : ∀ (l : List (String × Json α)) k x, TopEntry (.obj l) k x ↔ lookup l k = some x := by
    intro l k x
    constructor
    · rintro ⟨m, h, hx⟩
      injection h with h
      rw [h]; exact hx
    · intro h; exact ⟨l, rfl, h⟩
  refine ⟨l₁, l₂, rfl, rfl, fun k => ?_⟩
  by_cases hk : k = "effusion_rate_init"
  · subst hk
    exact .inr ⟨_, _, a₁, a₂, fun _ => rfl, .inl rfl⟩
  · have e : ∀ x, lookup l₁ k = some x ↔ lookup l₂ k = some x := by
      intro x
      rw [← top, ← top, b₁ k hk, b₂ k hk, ht k hk]
    cases h : lookup l₁ k with
    | some x => exact .inr ⟨x, x, rfl, (e x).mp h, fun _ => rfl, .inl rfl⟩
    | none =>
      refine .inl ⟨rfl, ?_⟩
      cases h' : lookup l₂ k with
      | none => rfl
      | some x => rw [(e x).mpr h'] at h; cases h

theorem mayRead_rate {t d : Json α} {r : Int} (h : WithRate t d r) (path : String) : MayRead d path ↔ MayRead t path := by
  unfold MayRead
  rw [h.2 "slope_file" (by simp), h.2 "slope_file" (by simp)]

/-- Runs of two sweeps for the same rate write the same. -/
theorem standAlone_same (grid : List α) (fuel : Nat) (F : TextFormat α) (t₁ t₂ : Json α) (working folder : String) (disk₁ disk₂ : List (String × List Char)) (r : Int) (o₁ o₂ : TextRun α)
    (ht : ∀ k, k ≠ "effusion_rate_init" → ∀ x, TopEntry t₁ k x ↔ TopEntry t₂ k x)
    (hsafe : ∀ path, MayRead t₁ path → F.canon path ≠ F.canon working)
    (hp : ∀ path, MayRead t₁ path → (lookup disk₁ (F.canon path)).map dataLines = (lookup disk₂ (F.canon path)).map dataLines)
    (h₁ : StandAlone grid fuel F t₁ working folder disk₁ r o₁) (h₂ : StandAlone grid fuel F t₂ working folder disk₂ r o₂) : o₁.files = o₂.files := by
  have hm : ∀ path, MayRead t₂ path → MayRead t₁ path := by
    intro path h
    unfold MayRead at h ⊢
    rwa [ht "slope_file" (by simp), ht "slope_file" (by simp)]
  have keep : ∀ (disk : List (String × List Char)) (text : List Char) path, MayRead t₁ path →
      (lookup ((F.canon working, text) :: disk) (F.canon path)).map dataLines = (lookup disk (F.canon path)).map dataLines := by
    intro disk text path h
    rw [lookup_cons_eq, if_neg (fun e => hsafe path h e.symm)]
  have l : ∀ (disk : List (String × List Char)) (text : List Char), lookup ((F.canon working, text) :: disk) (F.canon working) = some text := by
    intro disk text
    rw [lookup_cons_eq, if_pos rfl]
  have r₁ := h₁.same ((F.canon working, o₁.configText) :: disk₁) o₁.configText (l _ _) h₁.text (fun path h => keep _ _ path h)
  have r₂ := h₂.same ((F.canon working, o₂.configText) :: disk₂) o₂.configText (l _ _) h₂.text (fun path h => keep _ _ path (hm path h))
  obtain ⟨o, q₁, q₂⟩ := view_text F grid fuel working folder ((F.canon working, o₁.configText) :: disk₁) ((F.canon working, o₂.configText) :: disk₂) o₁.configText o₂.configText
    o₁.config o₂.config (l _ _) (l _ _) h₁.text h₂.text
    (by
      intro path h
      have h := (mayRead_rate h₁.config path).mp h
      rw [keep _ _ path h, keep _ _ path h, hp path h])
    (sameView_rate ht h₁.config h₂.config)
  rw [r₁] at q₁
  rw [r₂] at q₂
  cases o with
  | none => cases q₁
  | some o =>
    rw [Option.map_some, Option.some.injEq, Prod.mk.injEq] at q₁ q₂
    rw [List.append_cancel_right q₁.2, List.append_cancel_right q₂.2]

theorem forall₂_map_mem {β γ δ : Type} {R : β → γ → Prop} {S : δ → γ → Prop} {f : β → δ} {l : List β} {u : List γ} (h : List.Forall₂ R l u) (h' : List.Forall₂ S (l.map f) u) (x : β) (hx : x ∈ l) :
    ∃ y, R x y ∧ S (f x) y := by
  induction h with
  | nil => cases hx
  | cons hab _ ih =>
    rw [List.map_cons] at h'
    obtain ⟨a, b⟩ := List.forall₂_cons.mp h'
    rcases List.mem_cons.mp hx with rfl | hx
    · exact ⟨_, hab, a⟩
    · exact ih b hx

/-- **C138**. Two sweeps that end normally, of two templates that differ at most in the effusion rate and in the order of their entries, on two disks with the same profiles, over ranges that have
    the rate `r` in common. Then for `r` either both write the same result, or neither writes one (and a result that was there before is kept). -/
theorem C138_rate (grid : List α) (fuel : Nat) (F : TextFormat α) (sn : α → List Char) (jsonFile folder : String)
    (first₁ last₁ step₁ first₂ last₂ step₂ : Int) (disk₁ disk₁' disk₂ disk₂' : List (String × List Char)) (text₁ text₂ : List Char) (t₁ t₂ : Json α)
    (hl₁ : lookup disk₁ (F.canon jsonFile) = some text₁) (hl₂ : lookup disk₂ (F.canon jsonFile) = some text₂)
    (ht₁ : JsonText F.float (universal text₁) t₁) (ht₂ : JsonText F.float (universal text₂) t₂)
    (hnums₁ : NumsAll (Readable F.float sn) t₁) (hnums₂ : NumsAll (Readable F.float sn) t₂)
    (ht : ∀ k, k ≠ "effusion_rate_init" → ∀ x, TopEntry t₁ k x ↔ TopEntry t₂ k x)
    (hp : ∀ path, MayRead t₁ path → (lookup disk₁ (F.canon path)).map dataLines = (lookup disk₂ (F.canon path)).map dataLines)
    (lava : Json α) (hlava : TopEntry t₁ "lava_name" lava)
    (hsafe : ∀ path, MayRead t₁ path → F.canon path ≠ F.canon (workingFile jsonFile folder) ∧
      ∀ r : Int, F.canon path ≠ F.canon (resultFileName folder (lava.show (textEnv F disk₁)) (toString r)))
    (hdistinct : DistinctFiles (textEnv F disk₁) folder (lava.show (textEnv F disk₁)))
    (hwork : ∀ r : Int, F.canon (resultFileName folder (lava.show (textEnv F disk₁)) (toString r)) ≠ F.canon (workingFile jsonFile folder))
    (names₁ names₂ : List String)
    (h₁ : sweepText grid fuel F sn jsonFile folder first₁ last₁ step₁ disk₁ = some (.ok names₁, disk₁'))
    (h₂ : sweepText grid fuel F sn jsonFile folder first₂ last₂ step₂ disk₂ = some (.ok names₂, disk₂'))
    (r : Int) (rates₁ rates₂ : List Int) (hr₁ : sweepRates first₁ last₁ step₁ = .ok rates₁) (hr₂ : sweepRates first₂ last₂ step₂ = .ok rates₂)
    (hm₁ : r ∈ rates₁) (hm₂ : r ∈ rates₂) (file : String) (hfile : file = F.canon (resultFileName folder (lava.show (textEnv F disk₁)) (toString r))) :
    (∃ result, lookup disk₁' file = some result ∧ lookup disk₂' file = some result) ∨
    (lookup disk₁' file = lookup disk₁ file ∧ lookup disk₂' file = lookup disk₂ file) := by
  have only : ∀ {t : Json α} {k : String} {a b : Json α}, TopEntry t k a → TopEntry t k b → a = b := by
    rintro t k a b ⟨m, e, h⟩ ⟨m', e', h'⟩
    subst e
    injection e' with e'
    subst e'
    exact Option.some.inj (h.symm.trans h')
  have hlava₂ : TopEntry t₂ "lava_name" lava := (ht "lava_name" (by simp) lava).mp hlava
  have hshow : lava.show (textEnv F disk₂) = lava.show (textEnv F disk₁) := rfl
  have hm : ∀ path, MayRead t₂ path → MayRead t₁ path := by
    intro path h
    unfold MayRead at h ⊢
    rwa [ht "slope_file" (by simp), ht "slope_file" (by simp)]
  have one : ∀ (disk disk' : List (String × List Char)) (text : List Char) (t : Json α) (first last step : Int) (names : List String) (rates : List Int),
      lookup disk (F.canon jsonFile) = some text → JsonText F.float (universal text) t → NumsAll (Readable F.float sn) t → TopEntry t "lava_name" lava → (∀ path, MayRead t path → MayRead t₁ path) →
      sweepText grid fuel F sn jsonFile folder first last step disk = some (.ok names, disk') → sweepRates first last step = .ok rates → r ∈ rates →
      ∃ o, StandAlone grid fuel F t (workingFile jsonFile folder) folder disk r o ∧
        ((o.files = [] ∧ lookup disk' file = lookup disk file) ∨ ∃ out, o.files = [(file, out)] ∧ lookup disk' file = some out) := by
    intro disk disk' text t first last step names rates hl ht hn hlv hmr h hr hmem
    have s : ∀ path, MayRead t path → F.canon path ≠ F.canon (workingFile jsonFile folder) ∧
        ∀ lava, TopEntry t "lava_name" lava → ∀ r : Int, F.canon path ≠ F.canon (resultFileName folder (lava.show (textEnv F disk)) (toString r)) := by
      intro path hpath
      obtain ⟨a, b⟩ := hsafe path (hmr path hpath)
      refine ⟨a, fun lv hlv' q => ?_⟩
      rw [only hlv' hlv]
      exact b q
    obtain ⟨rates', lava', _, e1, e2, e3, _, _, _⟩ := C89_sweep_on_texts grid fuel F sn jsonFile folder first last step disk disk' text t hl ht hn s names h
    rw [hr, Except.ok.injEq] at e1
    subst e1
    have hne : rates ≠ [] := List.ne_nil_of_mem hmem
    have elv : lava' = lava := only (e2 hne) hlv
    subst elv
    obtain ⟨rates'', runs, f1, f2, f3⟩ := C89_results_on_disk grid fuel F sn jsonFile folder first last step disk disk' text t hl ht hn s
      (fun lv hlv' => by rw [only hlv' hlv]; exact hdistinct) (fun lv hlv' q => by rw [only hlv' hlv]; exact hwork q) names h
    rw [hr, Except.ok.injEq] at f1
    subst f1
    rw [e3] at f3
    obtain ⟨o, g1, g2⟩ := forall₂_map_mem f2 f3 r hmem
    refine ⟨o, g1, ?_⟩
    rw [hfile]
    exact g2
  obtain ⟨o₁, a₁, b₁⟩ := one disk₁ disk₁' text₁ t₁ first₁ last₁ step₁ names₁ rates₁ hl₁ ht₁ hnums₁ hlava (fun _ h => h) h₁ hr₁ hm₁
  obtain ⟨o₂, a₂, b₂⟩ := one disk₂ disk₂' text₂ t₂ first₂ last₂ step₂ names₂ rates₂ hl₂ ht₂ hnums₂ hlava₂ hm h₂ hr₂ hm₂
  have e := standAlone_same grid fuel F t₁ t₂ (workingFile jsonFile folder) folder disk₁ disk₂ r o₁ o₂ ht (fun path h => (hsafe path h).1) hp a₁ a₂
  rcases b₁ with ⟨n₁, k₁⟩ | ⟨out₁, n₁, k₁⟩ <;> rcases b₂ with ⟨n₂, k₂⟩ | ⟨out₂, n₂, k₂⟩
  · exact .inr ⟨k₁, k₂⟩
  · rw [n₁, n₂] at e; cases e
  · rw [n₁, n₂] at e; cases e
  · rw [n₁, n₂] at e
    injection e with e _
    injection e with _ e
    exact .inl ⟨out₁, k₁, by rw [e]; exact k₂⟩

end PyFlowGo
