import Verif.Proofs.TransferRun
/-
  Reading the configuration, and the whole run.  `J` relates the numbers of configuration files, slope files and tables
  as they are read, `R` those of the simulation.
-/
set_option linter.unusedSectionVars false
namespace PyFlowGo
open Spec

section
variable {α β : Type} [Add α] [Sub α] [Mul α] [Neg α] [OfScientific α] [PyNum α]
  [Add β] [Sub β] [Mul β] [Neg β] [OfScientific β] [PyNum β] {R J : α → β → Prop} [NumRel R]

theorem lookup_same {γ δ : Type} {S : γ → δ → Prop} {l : List (String × γ)} {l' : List (String × δ)}
    (h : List.Forall₂ (fun kv kv' => kv.1 = kv'.1 ∧ S kv.2 kv'.2) l l') (k : String) :
    SameOption S (lookup l k) (lookup l' k) := by
  unfold lookup
  induction h with
  | nil => exact .none
  | @cons x y _ _ hxy h ih =>
    by_cases hk : (x.1 == k) = true
    · rw [List.find?_cons_of_pos (by exact hk), List.find?_cons_of_pos (by rw [← hxy.1]; exact hk)]
      exact .some hxy.2
    · rw [List.find?_cons_of_neg (by exact hk), List.find?_cons_of_neg (by rw [← hxy.1]; exact hk)]
      exact ih

theorem pairs_same {γ δ : Type} {S : γ → δ → Prop} {l : List (String × γ)} {l' : List (String × δ)}
    (hk : l.map Prod.fst = l'.map Prod.fst) (h : List.Forall₂ S (l.map Prod.snd) (l'.map Prod.snd)) :
    List.Forall₂ (fun kv kv' => kv.1 = kv'.1 ∧ S kv.2 kv'.2) l l' := by
  induction l generalizing l' with
  | nil => cases l' with
    | nil => exact .nil
    | cons y l' => cases hk
  | cons x l ih => cases l' with
    | nil => cases hk
    | cons y l' =>
      simp only [List.map_cons, List.cons.injEq] at hk
      cases h with
      | cons h1 h2 => exact .cons ⟨hk.1, h1⟩ (ih hk.2 h2)

theorem get_same {j : Json α} {j' : Json β} (h : SameJson J j j') (k : String) : RelE (SameJson J) (j.get k) (j'.get k) := by
  cases h with
  | obj hk h =>
    replace h := pairs_same hk h
    unfold Json.get
    dsimp only
    have := lookup_same h k
    revert this
    generalize lookup _ k = x
    generalize lookup _ k = y
    intro h
    cases h with
    | none => exact RelE.error
    | some h => exact RelE.ok h
  | _ => exact RelE.error

theorem isStr_same {j : Json α} {j' : Json β} (h : SameJson J j j') (t : String) : j.isStr t = j'.isStr t := by
  cases h <;> rfl

theorem has_same {j : Json α} {j' : Json β} (h : SameJson J j j') (k : String) : RelE Eq (j.has k) (j'.has k) := by
  cases h with
  | obj hk h =>
    replace h := pairs_same hk h
    unfold Json.has
    dsimp only
    have := lookup_same h k
    revert this
    generalize lookup _ k = x
    generalize lookup _ k = y
    intro h
    cases h with
    | none => exact RelE.ok rfl
    | some h => exact RelE.ok rfl
  | str s => exact RelE.ok rfl
  | arr h =>
    refine RelE.ok ?_
    induction h with
    | nil => rfl
    | cons h1 _ ih => simp only [List.any_cons, isStr_same h1, ih]
  | _ => exact RelE.error

theorem getJ_same {j : Json α} {j' : Json β} (h : SameJson J j j') (s k : String) :
    RelE (SameJson J) (getJ j s k) (getJ j' s k) :=
  RelE.bind (get_same h s) (fun _ _ h => get_same h k)

theorem requireKey_same {j : Json α} {j' : Json β} (h : SameJson J j j') (s k : String) :
    RelE (fun _ _ => True) (requireKey j s k) (requireKey j' s k) :=
  RelE.bind (get_same h s) (fun _ _ h => RelE.bind (has_same h k) (fun _ _ h => RelE.ite h (RelE.ok trivial) RelE.error))

theorem requireTop_same {j : Json α} {j' : Json β} (h : SameJson J j j') (k : String) :
    RelE (SameJson J) (requireTop j k) (requireTop j' k) :=
  RelE.bind (has_same h k) (fun _ _ h2 => RelE.ite h2 (get_same h k) RelE.error)

variable {env : Env α} {env' : Env β}

theorem toFloat_same (hj : ∀ x y, J x y → R x y) (hp : ∀ s, SameOption R (env.parseFloat s) (env'.parseFloat s))
    {j : Json α} {j' : Json β} (h : SameJson J j j') : RelE R (j.toFloat env) (j'.toFloat env') := by
  cases h with
  | null => exact RelE.error
  | bool b => exact RelE.ok (ite_same rfl (NumRel.lit _ _ _) (NumRel.lit _ _ _))
  | int n => exact RelE.ok (NumRel.ofInt n)
  | num h => exact RelE.ok (hj _ _ h)
  | str s =>
    unfold Json.toFloat
    dsimp only
    have := hp s
    revert this
    generalize env.parseFloat s = x
    generalize env'.parseFloat s = y
    intro h
    cases h with
    | none => exact RelE.error
    | some h => exact RelE.ok h
  | arr h => exact RelE.error
  | obj hk h => exact RelE.error

end

section
variable {α β : Type} [Add α] [Sub α] [Mul α] [Neg α] [OfScientific α] [PyNum α]
  [Add β] [Sub β] [Mul β] [Neg β] [OfScientific β] [PyNum β] {R J : α → β → Prop} [NumRel R]
variable {env : Env α} {env' : Env β} (hj : ∀ x y, J x y → R x y) (he : SameEnv J env env') {data : Json α} {data' : Json β} (hd : SameJson J data data')
include hj he hd

omit hd in
theorem parse_same (s : String) :
    SameOption R (env.parseFloat s) (env'.parseFloat s) := by
  have := he.parse s
  revert this
  generalize env.parseFloat s = x
  generalize env'.parseFloat s = y
  intro h
  cases h with
  | none => exact .none
  | some h => exact .some (hj _ _ h)

theorem getF_same (s k : String) : RelE R (getF env data s k) (getF env' data' s k) :=
  RelE.bind (get_same hd s) (fun _ _ h => RelE.bind (get_same h k) (fun _ _ h => toFloat_same hj (parse_same hj he) h))

/-- Reads the entries one after the other. -/
syntax "reads" : tactic
set_option hygiene false in
macro_rules | `(tactic| reads) => `(tactic| repeat' (first
  | exact RelE.error
  | (refine RelE.ite (isStr_same hn _) ?_ ?_)
  | (refine RelE.bind (getF_same hj he hd _ _) (fun _ _ _ => ?_))
  | (refine RelE.bind (requireKey_same hd _ _) (fun _ _ _ => ?_))
  | (refine RelE.ok ?_)
  | (refine RelE.pure ?_)))

variable {name : Json α} {name' : Json β} (hn : SameJson J name name')
include hn

theorem buildCryst_same : RelE (SameCryst R) (buildCryst env data name) (buildCryst env' data' name') := by
  unfold buildCryst
  reads
  · constructor <;> assumption
  · constructor <;> assumption
  · constructor <;> assumption
  · refine RelE.bind (has_same hd _) (fun _ _ h => RelE.ite h ?_ RelE.error)
    reads
    exact .melts (by assumption) (by assumption) .none

omit hn in
theorem buildAir_same : RelE (SameAir R) (buildAir env data) (buildAir env' data') := by
  unfold buildAir
  reads
  constructor <;> assumption

theorem buildVes_same : RelE (SameVesicles R) (buildVes env data name) (buildVes env' data' name') := by
  unfold buildVes
  reads <;> constructor <;> assumption

theorem buildMelt_same : RelE (SameMelt R) (buildMelt env data name) (buildMelt env' data' name') := by
  unfold buildMelt
  reads <;> constructor <;> assumption

theorem buildRel_same {v : VesicleModel α} {v' : VesicleModel β} {m : MeltModel α} {m' : MeltModel β}
    (hv : SameVesicles R v v') (hm : SameMelt R m m') :
    RelE (SameRel R) (buildRel env data name v m) (buildRel env' data' name' v' m') := by
  unfold buildRel
  dsimp only
  reads <;> constructor <;> assumption

theorem buildBub_same {v : VesicleModel α} {v' : VesicleModel β} {m : MeltModel α} {m' : MeltModel β} {r : RelModel α}
    {r' : RelModel β} (hv : SameVesicles R v v') (hm : SameMelt R m m') (hr : SameRel R r r') :
    RelE (SameBub R) (buildBub env data name v m r) (buildBub env' data' name' v' m' r') := by
  unfold buildBub
  reads <;> constructor <;> assumption

theorem buildYield_same : RelE (SameYield R) (buildYield env data name) (buildYield env' data' name') := by
  unfold buildYield
  reads
  · constructor; assumption
  · constructor; assumption
  · constructor; assumption
  · constructor
  · constructor
    exact .constant (NumRel.lit _ _ _)

omit hn in
theorem buildLava_same {v : VesicleModel α} {v' : VesicleModel β} {m : MeltModel α} {m' : MeltModel β} {r : RelModel α}
    {r' : RelModel β} {b : BubModel α} {b' : BubModel β} {y : YieldModel α} {y' : YieldModel β}
    (hv : SameVesicles R v v') (hm : SameMelt R m m') (hr : SameRel R r r') (hb : SameBub R b b') (hy : SameYield R y y') :
    RelE (SameLava R) (buildLava env data m r b y v) (buildLava env' data' m' r' b' y' v') := by
  unfold buildLava
  reads
  constructor <;> assumption

theorem buildCover_same : RelE (SameCover R) (buildCover env data name) (buildCover env' data' name') := by
  unfold buildCover
  reads <;> constructor <;> assumption

omit hj he hd hn in
theorem increasing_same {l : List (α × α)} {l' : List (β × β)}
    (h : List.Forall₂ (fun k k' => R k.1 k'.1 ∧ R k.2 k'.2) l l') : strictlyIncreasing l = strictlyIncreasing l' := by
  induction h with
  | nil => rfl
  | cons hp h ih =>
    cases h with
    | nil => rfl
    | cons hq h => rw [strictlyIncreasing, strictlyIncreasing, NumRel.lt hp.1 hq.1, ih]

omit hj he hd hn in
theorem zip_same {l m : List α} {l' m' : List β} (h : List.Forall₂ R l l') (h2 : List.Forall₂ R m m') :
    List.Forall₂ (fun k k' => R k.1 k'.1 ∧ R k.2 k'.2) (l.zip m) (l'.zip m') := by
  induction h generalizing m m' with
  | nil => exact .nil
  | cons hp h ih =>
    cases h2 with
    | nil => exact .nil
    | cons hq h2 => exact .cons ⟨hp, hq⟩ (ih h2)

omit hj he hd hn in
theorem make_same {l m : List α} {l' m' : List β} (h : List.Forall₂ R l l') (h2 : List.Forall₂ R m m') :
    RelE (SameSpline R) (Spline.make l m) (Spline.make l' m') := by
  unfold Spline.make
  have hz := zip_same h h2
  dsimp only
  rw [increasing_same hz, h.length_eq, h2.length_eq, hz.length_eq]
  exact RelE.ite rfl (RelE.ok hz) RelE.error

theorem buildCrust_same : RelE (SameCrust R) (buildCrust env data name) (buildCrust env' data' name') := by
  unfold buildCrust
  reads
  · constructor; assumption
  · constructor
  · constructor <;> assumption
  · have hc := he.crust "resources/crust_temperature_profile.txt"
    revert hc
    generalize env.crustFile "resources/crust_temperature_profile.txt" = x
    generalize env'.crustFile "resources/crust_temperature_profile.txt" = y
    intro hc
    cases hc with
    | none => exact RelE.error
    | some h =>
      dsimp only
      refine RelE.bind (S := SameSpline R) ?_ (fun _ _ hs => ?_)
      · unfold readCrustField
        refine make_same ?_ ?_
        · exact List.forall₂_map_left_iff.mpr (List.forall₂_map_right_iff.mpr (h.imp fun _ _ h => hj _ _ h.1))
        · exact List.forall₂_map_left_iff.mpr (List.forall₂_map_right_iff.mpr
            (h.imp fun _ _ h => NumRel.add (hj _ _ h.2) (NumRel.lit _ _ _)))
      · reads
        exact .field (by assumption) (.some hs)

omit hn in
theorem readFlux_same (k : FluxKind) : RelE (SameFlux R) (readFlux env data k) (readFlux env' data' k) := by
  cases k <;> unfold readFlux <;> dsimp only <;> reads <;> constructor <;> assumption

omit hn in
theorem readFluxes_same (ks : List FluxKind) :
    RelE (List.Forall₂ (SameFlux R)) (ks.mapM (readFlux env data)) (ks.mapM (readFlux env' data')) := by
  induction ks with
  | nil => exact RelE.ok .nil
  | cons k ks ih =>
    rw [List.mapM_cons, List.mapM_cons]
    refine RelE.bind (readFlux_same hj he hd k) (fun a b hab => ?_)
    exact RelE.bind ih (fun c d hcd => RelE.ok (.cons hab hcd))

/-- The same configured names. -/
structure SameNames (J : α → β → Prop) (n : Names α) (n' : Names β) : Prop where
  cryst : SameJson J n.cryst n'.cryst
  melt : SameJson J n.melt n'.melt
  rel : SameJson J n.rel n'.rel
  bub : SameJson J n.bub n'.bub
  yld : SameJson J n.yld n'.yld
  crust : SameJson J n.crust n'.crust
  cover : SameJson J n.cover n'.cover
  ves : SameJson J n.ves n'.ves
  radiation : SameJson J n.radiation n'.radiation
  snyder : SameJson J n.snyder n'.snyder
  conduction : SameJson J n.conduction n'.conduction
  convection : SameJson J n.convection n'.convection
  rain : SameJson J n.rain n'.rain
  viscous : SameJson J n.viscous n'.viscous

omit hj he hn [NumRel R] in
theorem readNames_same : RelE (SameNames J) (readNames data) (readNames data') := by
  unfold readNames
  iterate 14 refine RelE.bind (getJ_same hd _ _) (fun _ _ _ => ?_)
  refine RelE.pure ?_
  constructor <;> assumption

omit hj he hd hn [NumRel R] in
theorem selectFluxes_same {n : Names α} {n' : Names β} (h : SameNames J n n') : selectFluxes n = selectFluxes n' := by
  unfold selectFluxes selectRadiation selectSwitch selectSnyder
  simp only [isStr_same h.radiation, isStr_same h.conduction, isStr_same h.convection, isStr_same h.rain,
    isStr_same h.viscous, isStr_same h.snyder]

omit hn in
theorem factory_same : RelE (ModelsAgree R) (factory env data) (factory env' data') := by
  unfold factory
  refine RelE.bind (readNames_same hd) (fun n n' hn => ?_)
  refine RelE.bind (buildCryst_same hj he hd hn.cryst) (fun _ _ h1 => ?_)
  refine RelE.bind (buildAir_same hj he hd) (fun _ _ h2 => ?_)
  refine RelE.bind (buildVes_same hj he hd hn.ves) (fun _ _ h3 => ?_)
  refine RelE.bind (buildMelt_same hj he hd hn.melt) (fun _ _ h4 => ?_)
  refine RelE.bind (buildRel_same hj he hd hn.rel h3 h4) (fun _ _ h5 => ?_)
  refine RelE.bind (buildBub_same hj he hd hn.bub h3 h4 h5) (fun _ _ h6 => ?_)
  refine RelE.bind (buildYield_same hj he hd hn.yld) (fun _ _ h7 => ?_)
  refine RelE.bind (buildLava_same hj he hd h3 h4 h5 h6 h7) (fun _ _ h8 => ?_)
  refine RelE.bind (buildCover_same hj he hd hn.cover) (fun _ _ h9 => ?_)
  refine RelE.bind (buildCrust_same hj he hd hn.crust) (fun _ _ h10 => ?_)
  refine RelE.bind (S := Eq) (fun a ha => ⟨a, by rw [← selectFluxes_same hn]; exact ha, rfl⟩) (fun ks ks' hk => ?_)
  subst hk
  refine RelE.bind (readFluxes_same hj he hd ks) (fun _ _ h11 => RelE.pure ?_)
  exact ⟨h8, h2, h10, h9, h1, h11⟩

omit hn in
theorem buildTerrain_same : RelE (SameTerrain R) (buildTerrain env data) (buildTerrain env' data') := by
  unfold buildTerrain
  refine RelE.bind (get_same hd _) (fun _ _ h => ?_)
  refine RelE.bind (toFloat_same hj (parse_same hj he) h) (fun _ _ h1 => ?_)
  reads
  refine RelE.bind (getJ_same hd _ _) (fun x y hxy => ?_)
  have ht : isTrue x = isTrue y := by
    cases hxy with
    | bool b => cases b <;> rfl
    | _ => rfl
  dsimp only
  rw [← ht]
  refine RelE.bind (S := R) ?_ (fun _ _ h2 => ?_)
  · unfold readSmoothingPoints
    exact RelE.ite rfl (getF_same hj he hd _ _) (RelE.ok (NumRel.neg (NumRel.lit _ _ _)))
  · refine RelE.bind (S := R) (by unfold radians; same) (fun _ _ h3 => RelE.pure ?_)
    constructor <;> first | assumption | exact .none | rfl

omit hj he hd hn in
theorem mean_same {l : List α} {l' : List β} (h : List.Forall₂ R l l') {n : α} {n' : β} (hn : R n n') (i : Nat) :
    RelE R (runningMeanAt l n i) (runningMeanAt l' n' i) := by
  unfold runningMeanAt
  refine RelE.bind (S := R) (by same) (fun x y hxy => ?_)
  have h1 := NumRel.trunc (R := R) hxy
  have h2 : PyNum.truncInt (PyNum.ofInt (i : Int) + x) = PyNum.truncInt (PyNum.ofInt (i : Int) + y) :=
    NumRel.trunc (R := R) (by same)
  dsimp only
  rw [h1, h2, h.length_eq]
  have hs : ∀ (a : Nat) (b : Int), List.Forall₂ R (pySlice l a b) (pySlice l' a b) := by
    intro a b
    unfold pySlice
    rw [h.length_eq]
    exact List.forall₂_drop _ (List.forall₂_take _ h)
  have hf : ∀ {l : List α} {l' : List β}, List.Forall₂ R l l' → ∀ {x : α} {y : β}, R x y →
      R (l.foldl (· + ·) x) (l'.foldl (· + ·) y) := by
    intro l l' h
    induction h with
    | nil => intro x y h; exact h
    | cons h _ ih => intro x y h2; exact ih (NumRel.add h2 h)
  generalize (max 0 ((i : Int) - PyNum.truncInt y)).toNat = a
  generalize (min ((l'.length : Int) - 1) (PyNum.truncInt (PyNum.ofInt (i : Int) + y)) + 1) = b
  rw [(hs a b).length_eq]
  exact NumRel.div (hf (hs a b) (NumRel.lit _ _ _)) (NumRel.ofInt _)

omit hj he hd hn [NumRel R] in
theorem mapM_same {γ δ γ' δ' : Type} {S : γ → δ → Prop} {T : γ' → δ' → Prop} {l : List γ} {l' : List δ}
    (h : List.Forall₂ S l l') {f : γ → Except Err γ'} {g : δ → Except Err δ'} (hf : ∀ a b, S a b → RelE T (f a) (g b)) :
    RelE (List.Forall₂ T) (l.mapM f) (l'.mapM g) := by
  induction h with
  | nil => exact RelE.ok .nil
  | cons hab h ih =>
    rw [List.mapM_cons, List.mapM_cons]
    exact RelE.bind (hf _ _ hab) (fun _ _ h1 => RelE.bind ih (fun _ _ h2 => RelE.ok (.cons h1 h2)))

omit hj he hd hn in
theorem readSlope_same {t : Terrain α} {t' : Terrain β} (ht : SameTerrain R t t') {l : List (SlopeLine α)}
    {l' : List (SlopeLine β)} (h : List.Forall₂ (SameLine R) l l') :
    RelE (SameTerrain R) (t.readSlope l) (t'.readSlope l') := by
  unfold Terrain.readSlope
  have hk : List.Forall₂ (SameLine R) (keepSlopeLines l) (keepSlopeLines l') := by
    unfold keepSlopeLines
    induction h with
    | nil => exact .nil
    | @cons x y _ _ hxy h ih =>
      have hb : (!(leB x.slopeDeg 0.1)) = (!(leB y.slopeDeg 0.1)) := by
        rw [NumRel.le (R := R) hxy.slope (NumRel.lit _ _ _)]
      rw [List.filter_cons, List.filter_cons, hb]
      split
      · exact .cons hxy ih
      · exact ih
  generalize keepSlopeLines l = m at hk ⊢
  generalize keepSlopeLines l' = m' at hk ⊢
  dsimp only
  refine RelE.bind (mapM_same (T := R) hk (fun a b hab => ?_)) (fun s s' hs => ?_)
  · have := hab.slope
    unfold radians; same
  · have hmk : ∀ {u : List α} {u' : List β}, List.Forall₂ R u u' → RelE (SameTerrain R)
        (do let sp ← Spline.make (m.map (·.dist)) u; return { t with spline := some sp })
        (do let sp ← Spline.make (m'.map (·.dist)) u'; return { t' with spline := some sp }) := by
      intro u u' hu
      refine RelE.bind (make_same ?_ hu) (fun p p' hp => RelE.pure { ht with spline := .some hp })
      exact List.forall₂_map_left_iff.mpr (List.forall₂_map_right_iff.mpr (hk.imp fun _ _ h => h.dist))
    refine RelE.ite ht.smoothing (RelE.bind (S := List.Forall₂ R) ?_ (fun u u' hu => hmk hu)) (hmk hs)
    unfold runningMean
    rw [← hs.length_eq]
    exact mapM_same (S := Eq) (List.forall₂_same.mpr (fun _ _ => rfl)) (fun i _ hi => by subst hi; exact mean_same hs ht.points i)

/-- The same entries read by the run itself. -/
structure SameRunConfig (J R : α → β → Prop) (c : RunConfig α) (c' : RunConfig β) : Prop where
  rate : SameJson J c.rate c'.rate
  name : SameJson J c.lavaName c'.lavaName
  slope : SameJson J c.slopeFile c'.slopeFile
  step : R c.stepSize c'.stepSize
  mass : c.massConservation = c'.massConservation

omit he hd hn in
theorem mass_same {j : Json α} {j' : Json β} (h : SameJson J j j') : massConservationOf j = massConservationOf j' := by
  cases h with
  | num h =>
    simp only [massConservationOf, Json.truthy]
    rw [NumRel.eq (R := R) (hj _ _ h) (NumRel.lit _ _ _)]
  | arr h => cases h <;> rfl
  | obj hk h => cases pairs_same hk h <;> rfl
  | _ => rfl

omit hn in
theorem runConfig_same : RelE (SameRunConfig J R) (readRunConfig env data) (readRunConfig env' data') := by
  unfold readRunConfig
  refine RelE.bind (get_same hd _) (fun _ _ h1 => ?_)
  refine RelE.bind (requireTop_same hd _) (fun _ _ h2 => ?_)
  refine RelE.bind (requireTop_same hd _) (fun _ _ h3 => ?_)
  refine RelE.bind (requireTop_same hd _) (fun _ _ h4 => ?_)
  refine RelE.bind (toFloat_same hj (parse_same hj he) h4) (fun _ _ h5 => ?_)
  refine RelE.bind (S := SameJson J) ?_ (fun _ _ h6 => RelE.pure ⟨h1, h2, h3, h5, mass_same hj h6⟩)
  unfold rawMassConservation
  refine RelE.bind (get_same hd _) (fun x y hxy => ?_)
  cases hxy with
  | obj hk h =>
    replace h := pairs_same hk h
    dsimp only
    refine RelE.ok ?_
    have := lookup_same h "mass_conservation"
    revert this
    generalize lookup _ "mass_conservation" = x
    generalize lookup _ "mass_conservation" = y
    intro h
    cases h with
    | none => exact .bool false
    | some h => exact h
  | _ => exact RelE.error

omit hd hn in
theorem loadSlope_same {t : Terrain α} {t' : Terrain β} (ht : SameTerrain R t t') {j : Json α} {j' : Json β}
    (h : SameJson J j j') : RelE (SameTerrain R) (loadSlope env t j) (loadSlope env' t' j') := by
  have key : ∀ p, RelE (SameTerrain R)
      (match env.slopeFile p with | none => .error .fileNotFound | some lines => t.readSlope lines)
      (match env'.slopeFile p with | none => .error .fileNotFound | some lines => t'.readSlope lines) := by
    intro p
    have hs := he.slope p
    revert hs
    generalize env.slopeFile p = x
    generalize env'.slopeFile p = y
    intro hs
    cases hs with
    | none => exact RelE.error
    | some h =>
      exact readSlope_same ht (h.imp fun _ _ h => ⟨hj _ _ h.lat, hj _ _ h.lon, hj _ _ h.elev, hj _ _ h.dist, hj _ _ h.slope⟩)
  unfold loadSlope
  cases h with
  | null => exact key _
  | str s => exact key _
  | _ => exact RelE.error

/-- The same prepared run. -/
structure SamePrepared (J R : α → β → Prop) (p : Prepared α) (p' : Prepared β) : Prop where
  cfg : SameRunConfig J R p.cfg p'.cfg
  integrator : SameIntegrator R p.integrator p'.integrator
  world : SameWorld R p.world p'.world

omit hn in
theorem prepare_same {log : Log (Cell α)} {log' : Log (Cell β)} (hlog : SameLog R log log') :
    RelE (SamePrepared J R) (prepare env data log) (prepare env' data' log') := by
  unfold prepare
  refine RelE.bind (runConfig_same hj he hd) (fun c c' hc => ?_)
  refine RelE.bind (buildTerrain_same hj he hd) (fun t t' ht => ?_)
  refine RelE.bind (loadSlope_same hj he ht hc.slope) (fun t2 t2' ht2 => ?_)
  refine RelE.bind (factory_same hj he hd) (fun m m' hm => ?_)
  refine RelE.bind (getF_same hj he hd _ _) (fun p p' hp => ?_)
  refine RelE.bind (getF_same hj he hd _ _) (fun q q' hq => ?_)
  refine RelE.bind (S := SameState R) ?_ (fun s s' hs => RelE.pure ⟨hc, ⟨hc.step, hm, hc.mass⟩,
    ⟨hs, ht2, hlog, NumRel.lit _ _ _, .none, rfl, rfl⟩⟩)
  unfold initialState
  have h1 := ht2.rate
  have h2 := ht2.depth
  have h3 := ht2.width
  refine RelE.bind (fraction_same hm.cryst hm.lava.eruption) (fun f f' hf => ?_)
  refine RelE.bind (S := R) (by same) (fun a a' ha => ?_)
  refine RelE.bind (S := R) (by same) (fun b b' hb => ?_)
  exact RelE.pure ⟨hf, hm.lava.eruption, hp, hq, hb⟩

omit hd hn in
theorem run_same_numbers {ds : List α} {ds' : List β} (hg : List.Forall₂ R ds ds') (n : Nat) (file folder : String)
    {p : Proc α} {p' : Proc β} (hp : SameProc R J p p') :
    (∀ q, runOn ds n env file folder p = some (.ok (), q) →
      ∃ q', runOn ds' n env' file folder p' = some (.ok (), q') ∧ SameProc R J q q') ∧
    (runOn ds n env file folder p = none → runOn ds' n env' file folder p' = none) := by
  unfold runOn
  rw [← he.canon file]
  have hl := lookup_same hp.json (env.canon file)
  revert hl
  generalize lookup p.json (env.canon file) = x
  generalize lookup p'.json (env.canon file) = y
  intro hl
  cases hl with
  | none => exact ⟨fun q h => (by simp at h), fun h => (by simp at h)⟩
  | @some data data' hd =>
    dsimp only
    have hpr := prepare_same hj he hd hp.log
    cases hr : prepare env data p.log with
    | error e => exact ⟨fun q h => (by simp at h), fun h => (by simp at h)⟩
    | ok pr =>
      obtain ⟨pr', hr', hs⟩ := hpr pr hr
      rw [hr']
      dsimp only
      obtain ⟨h1, h2⟩ := simulate_same hs.integrator hg n hs.world
      cases hsim : simulateOn ds n pr.integrator pr.world with
      | none => rw [h2 hsim]; exact ⟨fun q h => (by simp at h), fun _ => rfl⟩
      | some r =>
        obtain ⟨r, w⟩ := r
        cases r with
        | error e => exact ⟨fun q h => (by simp at h), fun h => (by simp at h)⟩
        | ok u =>
          obtain ⟨w', hsim', hw⟩ := h1 w hsim
          rw [hsim']
          dsimp only
          have hwv := writeValues_same hw.log
          cases hv : writeValues w.log with
          | error e => exact ⟨fun q h => (by simp at h), fun h => (by simp at h)⟩
          | ok o =>
            obtain ⟨o', hv', ho⟩ := hwv o hv
            rw [hv']
            cases ho with
            | none =>
              refine ⟨fun q h => ?_, fun h => (by simp at h)⟩
              cases h
              exact ⟨_, rfl, { hp with log := hw.log }⟩
            | some ht =>
              refine ⟨fun q h => ?_, fun h => (by simp at h)⟩
              cases h
              refine ⟨_, rfl, hp.json, ?_, hw.log⟩
              refine .cons ⟨?_, ht⟩ hp.results
              dsimp only
              rw [he.show_ _ _ hs.cfg.rate, he.show_ _ _ hs.cfg.name, he.canon]

end
end PyFlowGo
