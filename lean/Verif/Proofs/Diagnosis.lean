import Verif.Spec.Diagnosis
import Verif.Proofs.ConfigLemmas
/-
  The readers against the diagnosis of a configuration.
-/
set_option linter.unusedSectionVars false
namespace PyFlowGo
open Spec
variable {α : Type} [Add α] [Sub α] [Mul α] [Neg α] [OfScientific α] [PyNum α] {β γ : Type}

/-- The exception of a computation. -/
def errOf : Except Err β → Option Err
  | .ok _ => none
  | .error e => some e

theorem errOf_iff (m : Except Err β) (e : Err) : errOf m = some e ↔ m = .error e := by cases m <;> simp [errOf]

theorem errOf_none (m : Except Err β) : errOf m = none ↔ ∃ x, m = .ok x := by cases m <;> simp [errOf]

theorem errOf_bind {m : Except Err β} {f : β → Except Err γ} {a r : Option Err} (ha : errOf m = a) (h : ∀ x, m = .ok x → errOf (f x) = r) :
    errOf (m >>= f) = a.or r := by
  subst ha
  cases m with
  | error e => rfl
  | ok x => rw [ok_bind, h x rfl]; rfl

theorem errOf_ite {c : Prop} [Decidable c] {a b : Except Err β} {x y : Option Err} (h1 : c → errOf a = x) (h2 : ¬ c → errOf b = y) :
    errOf (if c then a else b) = if c then x else y := by
  by_cases hc : c
  · rw [if_pos hc, if_pos hc, h1 hc]
  · rw [if_neg hc, if_neg hc, h2 hc]

theorem get_err (v : Json α) (k : String) : errOf (v.get k) = (match v with
    | .obj l => if (lookup l k).isSome then none else some .keyError
    | _ => some .typeError) := by
  unfold Json.get
  cases v with
  | obj l => dsimp only; cases lookup l k <;> rfl
  | _ => rfl

theorem has_err (v : Json α) (k : String) :
    errOf (v.has k >>= fun b => if b then (.ok () : Except Err Unit) else .error .valueError) = containsError v k := by
  unfold Json.has containsError
  cases v with
  | obj l => dsimp only; rw [ok_bind]; cases (lookup l k).isSome <;> rfl
  | arr l => dsimp only; rw [ok_bind]; cases (l.any fun x => x.isStr k) <;> rfl
  | str s =>
    dsimp only; rw [ok_bind]
    by_cases h : k.toList <:+: s.toList
    · rw [if_pos h, if_pos (by simpa using h)]; rfl
    · rw [if_neg h, if_neg (by simpa using h)]; rfl
  | _ => rfl

theorem toFloat_err (env : Env α) (v : Json α) : errOf (v.toFloat env) = floatError env v := by
  unfold Json.toFloat floatError
  cases v with
  | str s => dsimp only; cases env.parseFloat s <;> rfl
  | _ => rfl

theorem number_err (env : Env α) (data : Json α) (sec key : String) : errOf (getF env data sec key) = numberError env data sec key := by
  unfold getF numberError Json.get
  cases data with
  | obj top =>
    dsimp only
    cases lookup top sec with
    | none => rfl
    | some v =>
      rw [ok_bind]
      cases v with
      | obj inner =>
        dsimp only
        cases lookup inner key with
        | none => rfl
        | some x => exact toFloat_err env x
      | _ => rfl
  | _ => rfl

theorem entry_err (data : Json α) (sec key : String) : errOf (getJ data sec key) = entryError data sec key := by
  unfold getJ entryError Json.get
  cases data with
  | obj top =>
    dsimp only
    cases lookup top sec with
    | none => rfl
    | some v =>
      rw [ok_bind]
      cases v with
      | obj inner => dsimp only; cases lookup inner key <;> rfl
      | _ => rfl
  | _ => rfl

theorem present_err (data : Json α) (sec key : String) : errOf (requireKey data sec key) = presentError data sec key := by
  unfold requireKey presentError
  cases data with
  | obj top =>
    unfold Json.get
    dsimp only
    cases lookup top sec with
    | none => rfl
    | some v => rw [ok_bind]; exact has_err v key
  | _ => rfl

variable (env : Env α) (data : Json α)

theorem checks_cons (c : Check) (cs : List Check) :
    (c :: cs).findSome? (Check.error env data) = (c.error env data).or (cs.findSome? (Check.error env data)) := by
  rw [List.findSome?_cons]
  cases c.error env data <;> rfl

theorem number_step {sec key : String} {f : α → Except Err β} {cs : List Check}
    (h : ∀ x, getF env data sec key = .ok x → errOf (f x) = cs.findSome? (Check.error env data)) :
    errOf (getF env data sec key >>= f) = (Check.number sec key :: cs).findSome? (Check.error env data) := by
  rw [errOf_bind (number_err env data sec key) h, checks_cons]
  rfl

theorem present_step {sec key : String} {f : Unit → Except Err β} {cs : List Check}
    (h : ∀ x, requireKey data sec key = .ok x → errOf (f x) = cs.findSome? (Check.error env data)) :
    errOf (requireKey data sec key >>= f) = (Check.present sec key :: cs).findSome? (Check.error env data) := by
  rw [errOf_bind (present_err data sec key) h, checks_cons]
  rfl

theorem diagnosis_cons (i : Item) (is : List Item) : diagnosis env data (i :: is) = (i.error env data).or (diagnosis env data is) := by
  unfold diagnosis
  rw [List.findSome?_cons]
  cases i.error env data <;> rfl

theorem diagnosis_append (a b : List Item) : diagnosis env data (a ++ b) = (diagnosis env data a).or (diagnosis env data b) := by
  unfold diagnosis
  rw [List.findSome?_append]

theorem diagnosis_checks (cs : List Check) : diagnosis env data (cs.map .check) = cs.findSome? (Check.error env data) := by
  unfold diagnosis
  induction cs with
  | nil => rfl
  | cons c cs ih => rw [List.map_cons, List.findSome?_cons, List.findSome?_cons, ih]; rfl

theorem item_step {i : Item} {is : List Item} {m : Except Err β} {f : β → Except Err γ} (hm : errOf m = i.error env data)
    (h : ∀ x, m = .ok x → errOf (f x) = diagnosis env data is) : errOf (m >>= f) = diagnosis env data (i :: is) := by
  rw [errOf_bind hm h, diagnosis_cons]

/-- A name that must be one of the listed ones. -/
def choiceError (v : Json α) : List (String × List Check) → Option Err
  | [] => some .nameError
  | (n, cs) :: rest => if v.isStr n = true then cs.findSome? (Check.error env data) else choiceError v rest

def textOf : Json α → Option String
  | .str s => some s
  | _ => none

theorem text_of {sec key : String} {v : Json α} (hv : entryValue data sec key = some v) : textAt data sec key = textOf v := by
  unfold textAt; rw [hv]; cases v <;> rfl

theorem choice_err {sec key : String} {v : Json α} (hv : entryValue data sec key = some v) (options : List (String × List Check)) :
    (Item.choice sec key options).error env data = choiceError env data v options := by
  have ht := text_of data hv
  have he : (Item.choice sec key options).error env data = match textAt data sec key with
    | none => some .nameError
    | some s => match options.find? (fun o => o.1 = s) with
      | none => some .nameError
      | some o => o.2.findSome? (Check.error env data) := rfl
  rw [he, ht]
  clear he ht
  cases v with
  | str s =>
    show (match options.find? (fun o => o.1 = s) with
      | none => some Err.nameError
      | some o => o.2.findSome? (Check.error env data)) = _
    induction options with
    | nil => rfl
    | cons o rest ih =>
      obtain ⟨n, cs⟩ := o
      unfold choiceError
      rw [List.find?_cons]
      by_cases h : n = s
      · subst h; simp [Json.isStr]
      · have h2 : ¬ s = n := fun e => h e.symm
        simp only [h, decide_false, Json.isStr, beq_iff_eq, h2, if_false]
        exact ih
  | _ =>
    show some Err.nameError = _
    induction options with
    | nil => rfl
    | cons o rest ih => unfold choiceError; simpa [Json.isStr] using ih

theorem value_of {sec key : String} {v : Json α} (h : getJ data sec key = .ok v) : entryValue data sec key = some v := by
  obtain ⟨top, inner, h1, h2, h3⟩ := (getJ_ok_iff _ _ _ _).mp h
  subst h1
  unfold entryValue
  dsimp only
  rw [h2]
  exact h3

macro "chain" : tactic => `(tactic| (repeat first
  | (refine number_step _ _ (fun _ _ => ?_))
  | (refine present_step _ _ (fun _ _ => ?_))
  | exact rfl))

theorem cryst_err {v : Json α} (hv : entryValue data "models" "crystallization_rate_model" = some v) :
    errOf (buildCryst env data v) = crystItem.error env data := by
  unfold crystItem
  rw [choice_err env data hv]
  unfold buildCryst
  simp only [choiceError]
  refine errOf_ite (fun _ => by chain) fun _ => ?_
  refine errOf_ite (fun _ => by chain) fun _ => ?_
  refine errOf_ite (fun _ => by chain) fun _ => ?_
  refine errOf_ite (fun _ => ?_) fun _ => rfl
  rw [checks_cons]
  have e : Check.error env data (.presentTop "melts_look-up_table") = containsError data "melts_look-up_table" := rfl
  rw [e, ← has_err]
  cases data.has "melts_look-up_table" with
  | error e => rfl
  | ok b =>
    rw [ok_bind, ok_bind]
    cases b
    · rfl
    · show errOf (getF env data "lava_state" "crystal_fraction" >>= _) = List.findSome? _ _
      chain

theorem air_err : errOf (buildAir env data) = diagnosis env data airItems := by
  unfold airItems
  rw [diagnosis_checks]
  unfold buildAir
  chain

theorem vesicle_err {v : Json α} (hv : entryValue data "models" "vesicle_fraction_model" = some v) :
    errOf (buildVes env data v) = vesicleItem.error env data := by
  unfold vesicleItem
  rw [choice_err env data hv]
  unfold buildVes
  simp only [choiceError]
  repeat refine errOf_ite (fun _ => by chain) fun _ => ?_
  rfl

theorem melt_err {v : Json α} (hv : entryValue data "models" "melt_viscosity_model" = some v) :
    errOf (buildMelt env data v) = meltItem.error env data := by
  unfold meltItem
  rw [choice_err env data hv]
  unfold buildMelt
  simp only [choiceError]
  repeat refine errOf_ite (fun _ => by chain) fun _ => ?_
  rfl

theorem relative_err {v : Json α} (hv : entryValue data "models" "relative_viscosity_model" = some v) (ves : VesicleModel α) (melt : MeltModel α) :
    errOf (buildRel env data v ves melt) = relativeItem.error env data := by
  unfold relativeItem
  rw [choice_err env data hv]
  unfold buildRel
  simp only [choiceError]
  repeat refine errOf_ite (fun _ => by chain) fun _ => ?_
  rfl

theorem bubbles_err {v : Json α} (hv : entryValue data "models" "relative_viscosity_bubbles_model" = some v) (ves : VesicleModel α) (melt : MeltModel α)
    (rel : RelModel α) : errOf (buildBub env data v ves melt rel) = bubblesItem.error env data := by
  unfold bubblesItem
  rw [choice_err env data hv]
  unfold buildBub
  simp only [choiceError]
  repeat refine errOf_ite (fun _ => by chain) fun _ => ?_
  rfl

theorem yield_err {v : Json α} (hv : entryValue data "models" "yield_strength_model" = some v) :
    errOf (buildYield env data v) = yieldItem.error env data := by
  unfold yieldItem
  rw [choice_err env data hv]
  unfold buildYield
  simp only [choiceError]
  repeat refine errOf_ite (fun _ => by chain) fun _ => ?_
  rfl

theorem lava_err (melt : MeltModel α) (rel : RelModel α) (bub : BubModel α) (yld : YieldModel α) (ves : VesicleModel α) :
    errOf (buildLava env data melt rel bub yld ves) = diagnosis env data lavaItems := by
  have : lavaItems = ([.number "eruption_condition" "eruption_temperature", .number "thermal_parameters" "buffer",
    .number "crystals_parameters" "latent_heat_of_crystallization", .number "lava_state" "density_dre",
    .number "relative_viscosity_parameters" "max_packing"] : List Check).map .check := rfl
  rw [this, diagnosis_checks]
  unfold buildLava
  chain

theorem cover_err {v : Json α} (hv : entryValue data "models" "effective_cover_crust_model" = some v) :
    errOf (buildCover env data v) = coverItem.error env data := by
  unfold coverItem
  rw [choice_err env data hv]
  unfold buildCover
  simp only [choiceError]
  repeat refine errOf_ite (fun _ => by chain) fun _ => ?_
  rfl

theorem crust_err {v : Json α} (hv : entryValue data "models" "crust_temperature_model" = some v) :
    errOf (buildCrust env data v) = crustItem.error env data := by
  unfold crustItem
  rw [choice_err env data hv]
  unfold buildCrust
  simp only [choiceError]
  refine errOf_ite (fun _ => by chain) fun _ => ?_
  refine errOf_ite (fun _ => by chain) fun _ => ?_
  refine errOf_ite (fun _ => by chain) fun _ => ?_
  refine errOf_ite (fun _ => ?_) fun _ => rfl
  rw [checks_cons]
  have e : Check.error env data .crustProfile = match env.crustFile "resources/crust_temperature_profile.txt" with
    | none => some .fileNotFound
    | some rows => match readCrustField rows with
      | .ok _ => none
      | .error e => some e := rfl
  rw [e]
  cases env.crustFile "resources/crust_temperature_profile.txt" with
  | none => rfl
  | some rows =>
    dsimp only
    cases readCrustField rows with
    | error e => rfl
    | ok sp =>
      rw [ok_bind]
      show _ = List.findSome? (Check.error env data) _
      chain

theorem textOf_iff (v : Json α) (t : String) : textOf v = some t ↔ v.isStr t = true := by
  cases v <;> simp [textOf, Json.isStr]

/-- The names, as read. -/
structure NamesOf (n : Names α) : Prop where
  cryst : entryValue data "models" "crystallization_rate_model" = some n.cryst
  melt : entryValue data "models" "melt_viscosity_model" = some n.melt
  rel : entryValue data "models" "relative_viscosity_model" = some n.rel
  bub : entryValue data "models" "relative_viscosity_bubbles_model" = some n.bub
  yld : entryValue data "models" "yield_strength_model" = some n.yld
  crust : entryValue data "models" "crust_temperature_model" = some n.crust
  cover : entryValue data "models" "effective_cover_crust_model" = some n.cover
  ves : entryValue data "models" "vesicle_fraction_model" = some n.ves
  radiation : entryValue data "heat_budget_models" "radiation" = some n.radiation
  snyder : entryValue data "heat_budget_models" "snyder" = some n.snyder
  conduction : entryValue data "heat_budget_models" "conduction" = some n.conduction
  convection : entryValue data "heat_budget_models" "convection" = some n.convection
  rain : entryValue data "heat_budget_models" "rain" = some n.rain
  viscous : entryValue data "heat_budget_models" "viscous_heating" = some n.viscous

theorem entry_step {sec key : String} {f : Json α → Except Err β} {is : List Item}
    (h : ∀ x, getJ data sec key = .ok x → errOf (f x) = diagnosis env data is) :
    errOf (getJ data sec key >>= f) = diagnosis env data (.check (.entry sec key) :: is) :=
  item_step env data (entry_err data sec key) h

theorem names_err : errOf (readNames data) = diagnosis env data nameItems := by
  unfold readNames
  have : nameItems = [.check (.entry "models" "crystallization_rate_model"), .check (.entry "models" "melt_viscosity_model"),
    .check (.entry "models" "relative_viscosity_model"), .check (.entry "models" "relative_viscosity_bubbles_model"),
    .check (.entry "models" "yield_strength_model"), .check (.entry "models" "crust_temperature_model"),
    .check (.entry "models" "effective_cover_crust_model"), .check (.entry "models" "vesicle_fraction_model"),
    .check (.entry "heat_budget_models" "radiation"), .check (.entry "heat_budget_models" "snyder"),
    .check (.entry "heat_budget_models" "conduction"), .check (.entry "heat_budget_models" "convection"),
    .check (.entry "heat_budget_models" "rain"), .check (.entry "heat_budget_models" "viscous_heating")] := rfl
  rw [this]
  iterate 14 refine entry_step env data fun _ _ => ?_
  rfl

theorem names_of {n : Names α} (h : readNames data = .ok n) : NamesOf data n := by
  unfold readNames at h
  simp only [bind_ok_iff, pure_ok_iff] at h
  obtain ⟨a1, h1, a2, h2, a3, h3, a4, h4, a5, h5, a6, h6, a7, h7, a8, h8, a9, h9, a10, h10, a11, h11, a12, h12, a13, h13, a14, h14, rfl⟩ := h
  exact ⟨value_of data h1, value_of data h2, value_of data h3, value_of data h4, value_of data h5, value_of data h6, value_of data h7,
    value_of data h8, value_of data h9, value_of data h10, value_of data h11, value_of data h12, value_of data h13, value_of data h14⟩

theorem radiation_err {v : Json α} (hv : entryValue data "heat_budget_models" "radiation" = some v) :
    errOf (selectRadiation v) = (Item.choice "heat_budget_models" "radiation"
      [("basic", []), ("2_emi", []), ("cont", []), ("lin_emi", []), ("no", [])]).error env data := by
  rw [choice_err env data hv]
  unfold selectRadiation
  simp only [choiceError]
  repeat refine errOf_ite (fun _ => rfl) fun _ => ?_
  rfl

theorem switch_err {key : String} {v : Json α} (hv : entryValue data "heat_budget_models" key = some v) (k : FluxKind) :
    errOf (selectSwitch v k) = (Item.choice "heat_budget_models" key [("yes", []), ("no", [])]).error env data := by
  rw [choice_err env data hv]
  unfold selectSwitch
  simp only [choiceError]
  repeat refine errOf_ite (fun _ => rfl) fun _ => ?_
  rfl

theorem snyder_err {n : Names α} (hn : NamesOf data n) : errOf (selectSnyder n) = Item.snyder.error env data := by
  have e : Item.snyder.error env data = if textAt data "heat_budget_models" "snyder" = some "no" ∨
      textAt data "heat_budget_models" "snyder" = some "yes" ∧ textAt data "heat_budget_models" "convection" = some "no" ∧
        textAt data "heat_budget_models" "radiation" = some "no" then none else some .nameError := rfl
  rw [e, text_of data hn.snyder, text_of data hn.convection, text_of data hn.radiation]
  simp only [textOf_iff]
  unfold selectSnyder
  cases n.snyder.isStr "yes" <;> cases n.convection.isStr "no" <;> cases n.radiation.isStr "no" <;> cases n.snyder.isStr "no" <;> rfl

theorem mapM_err (f : β → Except Err γ) (l : List β) : errOf (l.mapM f) = l.findSome? fun x => errOf (f x) := by
  induction l with
  | nil => rfl
  | cons x l ih =>
    rw [List.mapM_cons, List.findSome?_cons]
    cases hx : f x with
    | error e => rfl
    | ok y =>
      rw [ok_bind, errOf_bind ih (fun _ _ => rfl : ∀ ys, l.mapM f = .ok ys → errOf (pure (y :: ys)) = none)]
      simp [errOf]

/-- The parameters of the fluxes that were switched on. -/
theorem radiation_reads {v : Json α} (hv : entryValue data "heat_budget_models" "radiation" = some v) {l : List FluxKind}
    (h : selectRadiation v = .ok l) : (l.findSome? fun k => errOf (readFlux env data k)) = (Item.choice "heat_budget_models" "radiation"
     [("basic", numbers "radiation_parameters" ["stefan-boltzmann_sigma", "emissivity_epsilon"]),
      ("2_emi", numbers "radiation_parameters" ["stefan-boltzmann_sigma", "epsilon_crust", "epsilon_hot"]),
      ("cont", numbers "radiation_parameters" ["stefan-boltzmann_sigma"]), ("lin_emi", numbers "radiation_parameters" ["stefan-boltzmann_sigma"]),
      ("no", [])]).error env data := by
  rw [choice_err env data hv]
  simp only [choiceError]
  unfold selectRadiation at h
  split at h
  · rename_i hc
    cases h
    rw [if_pos hc, List.findSome?_singleton]
    show errOf (readFlux env data .radBasic) = _
    unfold readFlux
    chain
  rename_i hc; rw [if_neg hc]
  split at h
  · rename_i hc
    cases h
    rw [if_pos hc, List.findSome?_singleton]
    show errOf (readFlux env data .radTwoEmi) = _
    unfold readFlux
    chain
  rename_i hc; rw [if_neg hc]
  split at h
  · rename_i hc
    cases h
    rw [if_pos hc, List.findSome?_singleton]
    show errOf (readFlux env data .radCont) = _
    unfold readFlux
    chain
  rename_i hc; rw [if_neg hc]
  split at h
  · rename_i hc
    cases h
    rw [if_pos hc, List.findSome?_singleton]
    show errOf (readFlux env data .radLin) = _
    unfold readFlux
    chain
  rename_i hc; rw [if_neg hc]
  split at h
  · rename_i hc
    cases h
    rw [if_pos hc]
    rfl
  · cases h

theorem switch_reads {key : String} {v : Json α} (hv : entryValue data "heat_budget_models" key = some v) {k : FluxKind} {l : List FluxKind}
    {cs : List Check} (hk : errOf (readFlux env data k) = cs.findSome? (Check.error env data)) (h : selectSwitch v k = .ok l) :
    (l.findSome? fun k => errOf (readFlux env data k)) = (Item.choice "heat_budget_models" key [("yes", cs), ("no", [])]).error env data := by
  rw [choice_err env data hv]
  simp only [choiceError]
  unfold selectSwitch at h
  split at h
  · rename_i hc
    cases h
    rw [if_pos hc, List.findSome?_singleton]
    exact hk
  rename_i hc; rw [if_neg hc]
  split at h
  · rename_i hc
    cases h
    rw [if_pos hc]
    rfl
  · cases h

theorem switch_silent {v : Json α} {k : FluxKind} {l : List FluxKind} (hk : errOf (readFlux env data k) = none) (h : selectSwitch v k = .ok l) :
    (l.findSome? fun k => errOf (readFlux env data k)) = none := by
  unfold selectSwitch at h
  split at h
  · cases h
    rw [List.findSome?_singleton]
    exact hk
  split at h
  · cases h; rfl
  · cases h

theorem snyder_reads {n : Names α} (hn : NamesOf data n) {l : List FluxKind} (h : selectSnyder n = .ok l) :
    (l.findSome? fun k => errOf (readFlux env data k)) =
      (Item.choice "heat_budget_models" "snyder" [("yes", [.number "convection_parameters" "air_temperature"]), ("no", [])]).error env data := by
  rw [choice_err env data hn.snyder]
  simp only [choiceError]
  unfold selectSnyder at h
  split at h
  · rename_i hc
    cases h
    simp only [Bool.and_eq_true] at hc
    rw [if_pos hc.1.1, List.findSome?_singleton]
    show errOf (readFlux env data .snyder) = _
    unfold readFlux
    chain
  · split at h
    · rename_i hc
      cases h
      have h2 : ¬ n.snyder.isStr "yes" = true := by
        rw [← textOf_iff] at hc ⊢
        rw [hc]
        intro he
        exact absurd (Option.some.inj he) (by decide)
      rw [if_neg h2, if_pos hc]
      rfl
    · cases h

theorem fluxes_err {n : Names α} (hn : NamesOf data n) :
    errOf (selectFluxes n >>= fun kinds => kinds.mapM (readFlux env data)) = diagnosis env data fluxItems := by
  unfold selectFluxes fluxItems
  simp only [bind_assoc, pure_bind]
  refine item_step env data (radiation_err env data hn.radiation) fun rad hrad => ?_
  refine item_step env data (switch_err env data hn.conduction _) fun cond hcond => ?_
  refine item_step env data (switch_err env data hn.convection _) fun conv hconv => ?_
  refine item_step env data (switch_err env data hn.rain _) fun rain hrain => ?_
  refine item_step env data (switch_err env data hn.viscous _) fun visc hvisc => ?_
  refine item_step env data (snyder_err env data hn) fun sny hsny => ?_
  rw [mapM_err]
  simp only [List.findSome?_append, diagnosis_cons]
  rw [radiation_reads env data hn.radiation hrad, switch_silent env data rfl hconv, switch_silent env data rfl hvisc,
    switch_reads env data hn.conduction (cs := numbers "conduction_parameters" ["basal_temperature", "core_base_distance"])
      (by unfold readFlux; chain) hcond,
    switch_reads env data hn.rain (cs := numbers "rain_parameters" ["rainfall_rate", "density_water", "latent_heat_vaporization"])
      (by unfold readFlux; chain) hrain,
    snyder_reads env data hn hsny]
  simp only [diagnosis, List.findSome?_nil, Option.or_none, Option.or_assoc]

theorem items_step {is js : List Item} {m : Except Err β} {f : β → Except Err γ} (hm : errOf m = diagnosis env data is)
    (h : ∀ x, m = .ok x → errOf (f x) = diagnosis env data js) : errOf (m >>= f) = diagnosis env data (is ++ js) := by
  rw [errOf_bind hm h, diagnosis_append]

/-- The factory. -/
theorem factory_err : errOf (factory env data) = diagnosis env data factoryItems := by
  unfold factory factoryItems
  simp only [List.append_assoc, List.cons_append, List.nil_append]
  refine items_step env data (names_err env data) fun n hn => ?_
  have hn := names_of data hn
  refine item_step env data (cryst_err env data hn.cryst) fun cryst _ => ?_
  refine items_step env data (is := airItems) (air_err env data) fun air _ => ?_
  refine item_step env data (vesicle_err env data hn.ves) fun ves _ => ?_
  refine item_step env data (melt_err env data hn.melt) fun melt _ => ?_
  refine item_step env data (relative_err env data hn.rel ves melt) fun rel _ => ?_
  refine item_step env data (bubbles_err env data hn.bub ves melt rel) fun bub _ => ?_
  refine item_step env data (yield_err env data hn.yld) fun yld _ => ?_
  refine items_step env data (is := lavaItems) (lava_err env data melt rel bub yld ves) fun lava _ => ?_
  refine item_step env data (cover_err env data hn.cover) fun cover _ => ?_
  refine item_step env data (crust_err env data hn.crust) fun crust _ => ?_
  have h := fluxes_err env data hn
  rw [← h]
  cases selectFluxes n with
  | error e => rfl
  | ok kinds =>
    rw [ok_bind, ok_bind]
    cases kinds.mapM (readFlux env data) <;> rfl

end PyFlowGo
