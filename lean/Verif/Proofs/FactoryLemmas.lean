import Verif.Proofs.ConfigLemmas
import Verif.Spec.FactorySpec
/-
  Each builder of the factory against its specification.
-/
set_option linter.unusedSectionVars false
namespace PyFlowGo
open Spec
variable {α : Type} [Add α] [Sub α] [Mul α] [Neg α] [OfScientific α] [PyNum α]

/-- Unfold reads of the configuration, then close by logic. -/
macro "cfg" : tactic => `(tactic| (
  simp only [Json.isStr, bind_ok_iff, pure_ok_iff, getF_ok_iff, requireKey_ok_iff, reduceCtorEq, if_true, if_false,
    beq_iff_eq, String.reduceEq, Bool.false_eq_true, String.reduceBEq, beq_self_eq_true, Except.ok.injEq]
  try grind [NumberAt.entry, NumberAt.not_odd]))

theorem buildCryst_iff (env : Env α) (data : Json α) (s : String) (m : CrystModel α) :
    buildCryst env data (.str s) = .ok m ↔ CrystFrom env data s m := by
  unfold CrystFrom
  split
  · unfold buildCryst; cfg
  · unfold buildCryst; cfg
  · unfold buildCryst; cfg
  · unfold buildCryst
    simp only [Json.isStr, String.reduceBEq, Bool.false_eq_true, if_false, if_true, bind_ok_iff, Bool.exists_bool,
      has_true_cases, reduceCtorEq, and_false, false_or, pure_ok_iff, getF_ok_iff]
    grind [NumberAt.not_mentions]
  · unfold buildCryst; cfg

theorem buildAir_iff (env : Env α) (data : Json α) (a : Air α) : buildAir env data = .ok a ↔ AirFrom env data a := by
  unfold buildAir AirFrom
  simp only [bind_ok_iff, pure_ok_iff, getF_ok_iff]
  constructor
  · rintro ⟨_, h1, _, h2, _, h3, _, h4, _, h5, rfl⟩
    exact ⟨h1, h2, h3, h4, h5⟩
  · rintro ⟨h1, h2, h3, h4, h5⟩
    exact ⟨_, h1, _, h2, _, h3, _, h4, _, h5, rfl⟩

theorem buildVes_iff (env : Env α) (data : Json α) (s : String) (m : VesicleModel α) :
    buildVes env data (.str s) = .ok m ↔ VesFrom env data s m := by
  unfold VesFrom
  split <;> (unfold buildVes; cfg)

theorem buildMelt_iff (env : Env α) (data : Json α) (s : String) (m : MeltModel α) :
    buildMelt env data (.str s) = .ok m ↔ MeltFrom env data s m := by
  unfold MeltFrom
  split <;> (unfold buildMelt; cfg)

theorem buildRel_iff (env : Env α) (data : Json α) (ves : VesicleModel α) (melt : MeltModel α) (s : String)
    (m : RelModel α) : buildRel env data (.str s) ves melt = .ok m ↔ RelFrom env data ves melt s m := by
  unfold RelFrom
  split <;> (unfold buildRel; cfg)

theorem buildBub_iff (env : Env α) (data : Json α) (ves : VesicleModel α) (melt : MeltModel α) (rel : RelModel α)
    (s : String) (m : BubModel α) :
    buildBub env data (.str s) ves melt rel = .ok m ↔ BubFrom env data ves melt rel s m := by
  unfold BubFrom
  split <;> (unfold buildBub; cfg)

theorem buildYield_iff (env : Env α) (data : Json α) (s : String) (m : YieldModel α) :
    buildYield env data (.str s) = .ok m ↔ YieldFrom env data s m := by
  unfold YieldFrom
  split <;> (unfold buildYield; cfg)

theorem buildCover_iff (env : Env α) (data : Json α) (s : String) (m : CoverModel α) :
    buildCover env data (.str s) = .ok m ↔ CoverFrom env data s m := by
  unfold CoverFrom
  split <;> (unfold buildCover; cfg)

theorem buildCrust_iff (env : Env α) (data : Json α) (s : String) (m : CrustModel α) :
    buildCrust env data (.str s) = .ok m ↔ CrustFrom env data s m := by
  unfold CrustFrom
  split
  · unfold buildCrust; cfg
  · unfold buildCrust; cfg
  · unfold buildCrust; cfg
  · unfold buildCrust
    simp only [Json.isStr, String.reduceBEq, Bool.false_eq_true, if_false, if_true]
    cases h : env.crustFile "resources/crust_temperature_profile.txt" with
    | none => simp
    | some rows =>
      simp only [bind_ok_iff, pure_ok_iff, getF_ok_iff, requireKey_ok_iff, Option.some.injEq]
      grind [NumberAt.not_odd]
  · unfold buildCrust; cfg

/-- Only strings select a model. -/
theorem build_str {name : Json α} (h : ∀ s, name ≠ .str s) (t : String) : name.isStr t = false := by
  cases hb : name.isStr t with
  | false => rfl
  | true => exact absurd ((isStr_iff name t).mp hb) (h t)

/-- A name that is not a string, or an undocumented one, is a NameError. -/
theorem selectRadiation_iff (name : Json α) (k : List FluxKind) :
    selectRadiation name = .ok k ↔ ∃ s, name = .str s ∧
      (s = "basic" ∧ k = [.radBasic] ∨ s = "2_emi" ∧ k = [.radTwoEmi] ∨ s = "cont" ∧ k = [.radCont] ∨
       s = "lin_emi" ∧ k = [.radLin] ∨ s = "no" ∧ k = []) := by
  classical
  unfold selectRadiation
  simp only [isStr_iff]
  grind

theorem selectSwitch_iff (name : Json α) (f : FluxKind) (k : List FluxKind) :
    selectSwitch name f = .ok k ↔ ∃ s, name = .str s ∧ (s = "yes" ∧ k = [f] ∨ s = "no" ∧ k = []) := by
  classical
  unfold selectSwitch
  simp only [isStr_iff]
  grind

theorem selectSnyder_iff (n : Names α) (k : List FluxKind) :
    selectSnyder n = .ok k ↔ ∃ s, n.snyder = .str s ∧
      (s = "yes" ∧ n.convection = .str "no" ∧ n.radiation = .str "no" ∧ k = [.snyder] ∨ s = "no" ∧ k = []) := by
  classical
  unfold selectSnyder
  simp only [Bool.and_eq_true, isStr_iff]
  grind

theorem mapM_one {β γ : Type} (f : β → Except Err γ) (a : β) (r : List γ) :
    [a].mapM f = .ok r ↔ ∃ b, f a = .ok b ∧ r = [b] := by
  rw [mapM_ok_iff]
  constructor
  · intro h; cases h with | cons h1 h2 => cases h2; exact ⟨_, h1, rfl⟩
  · rintro ⟨b, h, rfl⟩; exact .cons h .nil

theorem mapM_none {β γ : Type} (f : β → Except Err γ) (r : List γ) :
    ([] : List β).mapM f = .ok r ↔ r = [] := by
  rw [mapM_ok_iff]
  constructor
  · intro h; cases h; rfl
  · rintro rfl; exact .nil

theorem mapM_append_iff {β γ : Type} (f : β → Except Err γ) (a b : List β) (r : List γ) :
    (a ++ b).mapM f = .ok r ↔ ∃ ra rb, a.mapM f = .ok ra ∧ b.mapM f = .ok rb ∧ r = ra ++ rb := by
  rw [List.mapM_append]
  simp only [bind_ok_iff, pure_ok_iff]
  grind

theorem radiation_iff (env : Env α) (data name : Json α) (fl : List (Flux α)) :
    (∃ k, selectRadiation name = .ok k ∧ k.mapM (readFlux env data) = .ok fl) ↔
      ∃ s, name = .str s ∧ RadiationFrom env data s fl := by
  constructor
  · rintro ⟨k, hk, hf⟩
    obtain ⟨s, rfl, h⟩ := (selectRadiation_iff name k).mp hk
    refine ⟨s, rfl, ?_⟩
    rcases h with ⟨rfl, rfl⟩ | ⟨rfl, rfl⟩ | ⟨rfl, rfl⟩ | ⟨rfl, rfl⟩ | ⟨rfl, rfl⟩ <;>
      simp only [mapM_one, mapM_none, readFlux, bind_ok_iff, pure_ok_iff, getF_ok_iff] at hf <;>
      unfold RadiationFrom <;> grind
  · rintro ⟨s, rfl, h⟩
    unfold RadiationFrom at h
    split at h
    · refine ⟨[.radBasic], (selectRadiation_iff _ _).mpr ⟨_, rfl, by simp⟩, ?_⟩
      simp only [mapM_one, readFlux, bind_ok_iff, pure_ok_iff, getF_ok_iff]; grind
    · refine ⟨[.radTwoEmi], (selectRadiation_iff _ _).mpr ⟨_, rfl, by simp⟩, ?_⟩
      simp only [mapM_one, readFlux, bind_ok_iff, pure_ok_iff, getF_ok_iff]; grind
    · refine ⟨[.radCont], (selectRadiation_iff _ _).mpr ⟨_, rfl, by simp⟩, ?_⟩
      simp only [mapM_one, readFlux, bind_ok_iff, pure_ok_iff, getF_ok_iff]; grind
    · refine ⟨[.radLin], (selectRadiation_iff _ _).mpr ⟨_, rfl, by simp⟩, ?_⟩
      simp only [mapM_one, readFlux, bind_ok_iff, pure_ok_iff, getF_ok_iff]; grind
    · exact ⟨[], (selectRadiation_iff _ _).mpr ⟨_, rfl, by simp⟩, (mapM_none _ _).mpr h⟩
    · exact h.elim

theorem switch_iff (env : Env α) (data name : Json α) (k : FluxKind) (fl : List (Flux α)) :
    (∃ ks, selectSwitch name k = .ok ks ∧ ks.mapM (readFlux env data) = .ok fl) ↔
      ∃ s, name = .str s ∧ SwitchFrom s fl (fun f => readFlux env data k = .ok f) := by
  unfold SwitchFrom
  constructor
  · rintro ⟨ks, hk, hf⟩
    obtain ⟨s, rfl, h⟩ := (selectSwitch_iff name k ks).mp hk
    refine ⟨s, rfl, ?_⟩
    rcases h with ⟨rfl, rfl⟩ | ⟨rfl, rfl⟩
    · exact Or.inl ⟨rfl, (mapM_one _ _ _).mp hf⟩
    · exact Or.inr ⟨rfl, (mapM_none _ _).mp hf⟩
  · rintro ⟨s, rfl, ⟨rfl, h⟩ | ⟨rfl, h⟩⟩
    · exact ⟨[k], (selectSwitch_iff _ _ _).mpr ⟨_, rfl, by simp⟩, (mapM_one _ _ _).mpr h⟩
    · exact ⟨[], (selectSwitch_iff _ _ _).mpr ⟨_, rfl, by simp⟩, (mapM_none _ _).mpr h⟩

theorem fluxes_iff (env : Env α) (data : Json α) (n : Names α) (fl : List (Flux α)) :
    (∃ ks, selectFluxes n = .ok ks ∧ ks.mapM (readFlux env data) = .ok fl) ↔
      ∃ c : Choice, n.radiation = .str c.radiation ∧ n.conduction = .str c.conduction ∧
        n.convection = .str c.convection ∧ n.rain = .str c.rain ∧ n.viscous = .str c.viscous ∧
        n.snyder = .str c.snyder ∧ FluxesFrom env data c fl := by
  unfold FluxesFrom selectFluxes
  simp only [bind_ok_iff, pure_ok_iff]
  have hcond : ∀ f, readFlux env data .conduction = .ok f ↔ ∃ b d,
      NumberAt env data "conduction_parameters" "basal_temperature" b ∧
      NumberAt env data "conduction_parameters" "core_base_distance" d ∧ f = .conduction b d := by
    intro f; simp only [readFlux, bind_ok_iff, pure_ok_iff, getF_ok_iff]; grind
  have hrain : ∀ f, readFlux env data .rain = .ok f ↔ ∃ r d l,
      NumberAt env data "rain_parameters" "rainfall_rate" r ∧
      NumberAt env data "rain_parameters" "density_water" d ∧
      NumberAt env data "rain_parameters" "latent_heat_vaporization" l ∧ f = .rain r d l := by
    intro f; simp only [readFlux, bind_ok_iff, pure_ok_iff, getF_ok_iff]; grind
  have hconv : ∀ f, readFlux env data .convection = .ok f ↔ f = .convection := by
    intro f; simp only [readFlux, Except.ok.injEq]; grind
  have hvisc : ∀ f, readFlux env data .viscous = .ok f ↔ f = .viscous := by
    intro f; simp only [readFlux, Except.ok.injEq]; grind
  have hsny : ∀ f, readFlux env data .snyder = .ok f ↔
      (∃ x, NumberAt env data "convection_parameters" "air_temperature" x) ∧ f = .snyder := by
    intro f; simp only [readFlux, bind_ok_iff, pure_ok_iff, getF_ok_iff]; grind
  constructor
  · rintro ⟨ks, ⟨k1, h1, k2, h2, k3, h3, k4, h4, k5, h5, k6, h6, rfl⟩, hf⟩
    obtain ⟨q5, r6, hq5, hf6, rfl⟩ := (mapM_append_iff _ _ _ _).mp hf
    obtain ⟨q4, r5, hq4, hf5, rfl⟩ := (mapM_append_iff _ _ _ _).mp hq5
    obtain ⟨q3, r4, hq3, hf4, rfl⟩ := (mapM_append_iff _ _ _ _).mp hq4
    obtain ⟨q2, r3, hq2, hf3, rfl⟩ := (mapM_append_iff _ _ _ _).mp hq3
    obtain ⟨r1, r2, hf1, hf2, rfl⟩ := (mapM_append_iff _ _ _ _).mp hq2
    obtain ⟨s1, e1, g1⟩ := (radiation_iff env data n.radiation r1).mp ⟨k1, h1, hf1⟩
    obtain ⟨s2, e2, g2⟩ := (switch_iff env data n.conduction .conduction r2).mp ⟨k2, h2, hf2⟩
    obtain ⟨s3, e3, g3⟩ := (switch_iff env data n.convection .convection r3).mp ⟨k3, h3, hf3⟩
    obtain ⟨s4, e4, g4⟩ := (switch_iff env data n.rain .rain r4).mp ⟨k4, h4, hf4⟩
    obtain ⟨s5, e5, g5⟩ := (switch_iff env data n.viscous .viscous r5).mp ⟨k5, h5, hf5⟩
    obtain ⟨s6, e6, g6⟩ := (selectSnyder_iff n k6).mp h6
    simp only [hcond, hrain, hconv, hvisc] at g2 g3 g4 g5
    refine ⟨⟨"", "", "", "", "", "", "", "", s1, s6, s2, s3, s4, s5⟩, e1, e2, e3, e4, e5, e6,
      r1, r2, r3, r4, r5, r6, rfl, g1, g2, g3, g4, g5, ?_, ?_⟩
    · rcases g6 with ⟨hs, _, _, rfl⟩ | ⟨hs, rfl⟩
      · refine Or.inl ⟨hs, ?_⟩
        simp only [mapM_one, hsny] at hf6
        exact hf6
      · exact Or.inr ⟨hs, (mapM_none _ _).mp hf6⟩
    · intro hy
      rcases g6 with ⟨hs, hc, hr, rfl⟩ | ⟨hs, rfl⟩
      · rw [hr] at e1; rw [hc] at e3
        injection e1 with e1; injection e3 with e3
        exact ⟨e1.symm, e3.symm⟩
      · dsimp only at hy; rw [hs] at hy; exact absurd hy (by decide)
  · rintro ⟨c, e1, e2, e3, e4, e5, e6, r1, r2, r3, r4, r5, r6, rfl, g1, g2, g3, g4, g5, g6, g7⟩
    simp only [← hcond, ← hrain, ← hconv, ← hvisc] at g2 g3 g4 g5
    obtain ⟨k1, h1, hf1⟩ := (radiation_iff env data n.radiation r1).mpr ⟨_, e1, g1⟩
    obtain ⟨k2, h2, hf2⟩ := (switch_iff env data n.conduction .conduction r2).mpr ⟨_, e2, g2⟩
    obtain ⟨k3, h3, hf3⟩ := (switch_iff env data n.convection .convection r3).mpr ⟨_, e3, g3⟩
    obtain ⟨k4, h4, hf4⟩ := (switch_iff env data n.rain .rain r4).mpr ⟨_, e4, g4⟩
    obtain ⟨k5, h5, hf5⟩ := (switch_iff env data n.viscous .viscous r5).mpr ⟨_, e5, g5⟩
    have : ∃ k6, selectSnyder n = .ok k6 ∧ k6.mapM (readFlux env data) = .ok r6 := by
      rcases g6 with ⟨hs, hf⟩ | ⟨hs, hf⟩
      · obtain ⟨hr, hc⟩ := g7 hs
        refine ⟨[.snyder], (selectSnyder_iff _ _).mpr ⟨_, e6, Or.inl ⟨hs, ?_, ?_, rfl⟩⟩, ?_⟩
        · rw [e3, hc]
        · rw [e1, hr]
        · simp only [mapM_one, hsny]; exact hf
      · exact ⟨[], (selectSnyder_iff _ _).mpr ⟨_, e6, Or.inr ⟨hs, rfl⟩⟩, (mapM_none _ _).mpr hf⟩
    obtain ⟨k6, h6, hf6⟩ := this
    refine ⟨_, ⟨k1, h1, k2, h2, k3, h3, k4, h4, k5, h5, k6, h6, rfl⟩, ?_⟩
    simp only [mapM_append_iff]
    exact ⟨_, _, ⟨_, _, ⟨_, _, ⟨_, _, ⟨_, _, hf1, hf2, rfl⟩, hf3, rfl⟩, hf4, rfl⟩, hf5, rfl⟩, hf6, rfl⟩

end PyFlowGo
