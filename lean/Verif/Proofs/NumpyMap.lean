import Verif.Proofs.NumpySame
/-
  Every process of the rounded arithmetic has its counterpart among the program's own numbers.
-/
namespace PyFlowGo
open Spec Classical

variable {α β : Type} {f : α → β} {g : β → α}

mutual
theorem mapJson_same (f : α → β) : (j : Json α) → SameJson (fun x a => a = f x) j (mapJson f j)
  | .null => .null
  | .bool b => .bool b
  | .int n => .int n
  | .num x => .num rfl
  | .str s => .str s
  | .arr l => .arr (mapArray_same f l)
  | .obj l => .obj (mapEntries_keys f l) (mapEntries_same f l)
theorem mapArray_same (f : α → β) : (l : List (Json α)) → List.Forall₂ (SameJson (fun x a => a = f x)) l (mapArray f l)
  | [] => .nil
  | j :: l => .cons (mapJson_same f j) (mapArray_same f l)
theorem mapEntries_keys (f : α → β) : (l : List (String × Json α)) → l.map Prod.fst = (mapEntries f l).map Prod.fst
  | [] => rfl
  | (k, j) :: l => congrArg (k :: ·) (mapEntries_keys f l)
theorem mapEntries_same (f : α → β) : (l : List (String × Json α)) →
    List.Forall₂ (SameJson (fun x a => a = f x)) (l.map Prod.snd) ((mapEntries f l).map Prod.snd)
  | [] => .nil
  | (k, j) :: l => .cons (mapJson_same f j) (mapEntries_same f l)
end

mutual
theorem mapJson_back (h : ∀ x, g (f x) = x) : (j : Json α) → mapJson g (mapJson f j) = j
  | .null => rfl
  | .bool b => rfl
  | .int n => rfl
  | .num x => by simp only [mapJson, h]
  | .str s => rfl
  | .arr l => by simp only [mapJson, mapArray_back h l]
  | .obj l => by simp only [mapJson, mapEntries_back h l]
theorem mapArray_back (h : ∀ x, g (f x) = x) : (l : List (Json α)) → mapArray g (mapArray f l) = l
  | [] => rfl
  | j :: l => by simp only [mapArray, mapJson_back h j, mapArray_back h l]
theorem mapEntries_back (h : ∀ x, g (f x) = x) : (l : List (String × Json α)) → mapEntries g (mapEntries f l) = l
  | [] => rfl
  | (k, j) :: l => by simp only [mapEntries, mapJson_back h j, mapEntries_back h l]
end

mutual
theorem mapJson_unique (f : α → β) : (j : Json α) → (j' : Json β) → SameJson (fun x a => a = f x) j j' → j' = mapJson f j
  | .null, _, h => by cases h; rfl
  | .bool b, _, h => by cases h; rfl
  | .int n, _, h => by cases h; rfl
  | .num x, _, h => by cases h with | num h => rw [h]; rfl
  | .str s, _, h => by cases h; rfl
  | .arr l, _, h => by cases h with | arr h => rw [mapJson, mapArray_unique f l _ h]
  | .obj l, _, h => by cases h with | obj hk h => rw [mapJson, mapEntries_unique f l _ hk h]
theorem mapArray_unique (f : α → β) : (l : List (Json α)) → (l' : List (Json β)) →
    List.Forall₂ (SameJson (fun x a => a = f x)) l l' → l' = mapArray f l
  | [], _, h => by cases h; rfl
  | j :: l, _, h => by cases h with | cons h1 h2 => rw [mapArray, mapJson_unique f j _ h1, mapArray_unique f l _ h2]
theorem mapEntries_unique (f : α → β) : (l : List (String × Json α)) → (l' : List (String × Json β)) →
    l.map Prod.fst = l'.map Prod.fst →
    List.Forall₂ (SameJson (fun x a => a = f x)) (l.map Prod.snd) (l'.map Prod.snd) → l' = mapEntries f l
  | [], [], _, _ => rfl
  | [], _ :: _, hk, _ => by cases hk
  | _ :: _, [], hk, _ => by cases hk
  | (k, j) :: l, (k', j') :: l', hk, h => by
    cases h with
    | cons h1 h2 =>
      obtain ⟨h3, h4⟩ := List.cons.inj hk
      dsimp only at h1 h3
      subst h3
      rw [mapEntries, mapJson_unique f j _ h1, mapEntries_unique f l _ h4 h2]
end

theorem sameOption_map {γ δ : Type} {S : γ → δ → Prop} {k : γ → δ} (h : ∀ x, S x (k x)) (o : Option γ) :
    SameOption S o (o.map k) := by
  cases o with
  | none => exact .none
  | some x => exact .some (h x)

theorem forall₂_map {γ δ : Type} {S : γ → δ → Prop} {k : γ → δ} (h : ∀ x, S x (k x)) (l : List γ) :
    List.Forall₂ S l (l.map k) := by
  induction l with
  | nil => exact .nil
  | cons x l ih => exact .cons (h x) ih

/-- The surroundings with each number replaced are the same surroundings. -/
theorem mapEnv_same (h : ∀ x, g (f x) = x) (e : Env α) : SameEnv (fun x a => a = f x) e (mapEnv f g e) where
  parse s := sameOption_map (S := fun x a => a = f x) (k := f) (fun _ => rfl) _
  show_ j j' hj := by
    rw [mapJson_unique f j j' hj]
    cases j with
    | num x => show e.showNum x = e.showNum (g (f x)); rw [h]
    | arr l => show e.showOther _ = e.showOther (mapJson g (mapJson f (.arr l))); rw [mapJson_back h]
    | obj l => show e.showOther _ = e.showOther (mapJson g (mapJson f (.obj l))); rw [mapJson_back h]
    | bool b => cases b <;> rfl
    | _ => rfl
  slope p := sameOption_map (fun l => forall₂_map (fun _ => ⟨rfl, rfl, rfl, rfl, rfl⟩) l) _
  crust p := sameOption_map (fun l => forall₂_map (fun _ => ⟨rfl, rfl⟩) l) _
  canon _ := rfl

theorem mapCell_same {R : α → β → Prop} (hR : ∀ x, R x (f x)) (c : Cell α) : SameCell R c (mapCell f c) := by
  cases c with
  | num x => exact .num (hR x)
  | text x => exact .text (hR x)

/-- The process with each number replaced is the same process. -/
theorem mapProc_same {R : α → β → Prop} (hR : ∀ x, R x (f x)) (p : Proc α) :
    SameProc R (fun x a => a = f x) p (mapProc f p) where
  json := forall₂_map (fun kv => ⟨rfl, mapJson_same f kv.2⟩) _
  results := forall₂_map (fun kv => ⟨rfl, rfl,
    forall₂_map (fun row => forall₂_map (fun o => sameOption_map (mapCell_same hR) o) row) _⟩) _
  log := forall₂_map (fun row => forall₂_map (fun kv => ⟨rfl, mapCell_same hR kv.2⟩) row) _

variable {rd : ℝ → ℝ}

theorem pyFloat_same (x : Rounded rd) : SameValue x (pyFloat x) := ⟨_, rfl⟩
theorem npFloat_same (x : Rounded rd) : SameValue x (npFloat x) := ⟨_, rfl⟩
theorem valueOf_pyFloat (x : Rounded rd) : valueOf (pyFloat x) = x := rfl
theorem valueOf_same {x : Rounded rd} {a : Scalar rd} (h : SameValue x a) : valueOf a = x := by
  obtain ⟨s, h⟩ := h
  unfold valueOf
  rw [h]
  rfl

/-! Reading the values back. -/

theorem sameCell_back {R : α → β → Prop} (hg : ∀ x a, R x a → g a = x) {c : Cell α} {d : Cell β} (h : SameCell R c d) :
    mapCell g d = c := by
  cases h with
  | num h => simp only [mapCell, hg _ _ h]
  | text h => simp only [mapCell, hg _ _ h]

theorem forall₂_back {γ δ : Type} {S : γ → δ → Prop} {k : δ → γ} {l : List γ} {l' : List δ} (h : List.Forall₂ S l l')
    (hk : ∀ x y, S x y → k y = x) : l'.map k = l := by
  induction h with
  | nil => rfl
  | cons h _ ih => rw [List.map_cons, hk _ _ h, ih]

theorem option_back {γ δ : Type} {S : γ → δ → Prop} {k : δ → γ} {o : Option γ} {o' : Option δ} (h : SameOption S o o')
    (hk : ∀ x y, S x y → k y = x) : o'.map k = o := by
  cases h with
  | none => rfl
  | some h => rw [Option.map_some, hk _ _ h]

theorem sameProc_back {R : α → β → Prop} (hg : ∀ x a, R x a → g a = x) (hgf : ∀ x, g (f x) = x) {p : Proc α}
    {p' : Proc β} (h : SameProc R (fun x a => a = f x) p p') : mapProc g p' = p := by
  obtain ⟨h1, h2, h3⟩ := h
  cases p with
  | mk json results log =>
    unfold mapProc
    congr 1
    · refine forall₂_back h1 ?_
      rintro ⟨k, j⟩ ⟨k', j'⟩ ⟨hk, hj⟩
      dsimp only at hk hj ⊢
      rw [hk, mapJson_unique f j j' hj, mapJson_back hgf]
    · refine forall₂_back h2 ?_
      rintro ⟨k, t⟩ ⟨k', t'⟩ ⟨hk, ht⟩
      dsimp only at hk ht ⊢
      obtain ⟨hh, hr⟩ := ht
      cases t with
      | mk hd rows =>
        dsimp only at hh hr
        rw [hk, ← hh]
        congr 2
        exact forall₂_back hr (fun row row' hrow => forall₂_back hrow (fun o o' ho =>
          option_back ho (fun c c' hc => sameCell_back hg hc)))
    · refine forall₂_back h3 (fun r r' hr => forall₂_back hr ?_)
      rintro ⟨k, c⟩ ⟨k', c'⟩ ⟨hk, hc⟩
      dsimp only at hk hc ⊢
      rw [hk, sameCell_back hg hc]

end PyFlowGo
