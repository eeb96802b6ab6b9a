import Verif.Model.Run
import Verif.Model.RoundNum
import Verif.Model.NumpyNum
/-
  "The same simulation computed with another number type": every object of one simulation is the object of the other with
  each number replaced by one that denotes the same value.  `R a b` says that `a` and `b` denote the same value.
-/
namespace PyFlowGo.Spec

/-- The value of a rounded number and of a number of the program agree: the latter is finite, and may be a Python float or a
    numpy scalar, a zero of either sign. -/
def SameValue {rd : ℝ → ℝ} (x : Rounded rd) (a : Scalar rd) : Prop := ∃ s, a.val = .fin s x.val

/-- The same for exact real arithmetic. -/
def SameReal (x : ℝ) (a : Scalar id) : Prop := ∃ s, a.val = .fin s x

section
variable {α β : Type} (R : α → β → Prop)

/-- The same state of the lava parcel. -/
structure SameState (s : FlowState α) (s' : FlowState β) : Prop where
  crystal : R s.crystal s'.crystal
  temp : R s.temp s'.temp
  pos : R s.pos s'.pos
  time : R s.time s'.time
  strain : R s.strain s'.strain

/-- The same interpolation table. -/
def SameSpline (p : Spline α) (p' : Spline β) : Prop :=
  List.Forall₂ (fun k k' => R k.1 k'.1 ∧ R k.2 k'.2) p.knots p'.knots

/-- Both absent, or both present and the same. -/
inductive SameOption {γ δ : Type} (S : γ → δ → Prop) : Option γ → Option δ → Prop
  | none : SameOption S none none
  | some {x y} (h : S x y) : SameOption S (some x) (some y)

/-- The same terrain. -/
structure SameTerrain (t : Terrain α) (t' : Terrain β) : Prop where
  rate : R t.effusionRateInit t'.effusionRateInit
  depth : R t.depth t'.depth
  width : R t.width t'.width
  gravity : R t.gravity t'.gravity
  slope : R t.defaultSlope t'.defaultSlope
  spline : SameOption (SameSpline R) t.spline t'.spline
  length : R t.maxLength t'.maxLength
  smoothing : t.smoothing = t'.smoothing
  points : R t.smoothingPoints t'.smoothingPoints

/-- The same vesicle model: the same class with the same parameters; likewise for the other models. -/
inductive SameVesicles : VesicleModel α → VesicleModel β → Prop
  | constant {a a'} (h : R a a') : SameVesicles (.constant a) (.constant a')
  | bimodal {a b c a' b' c'} (h : R a a') (h2 : R b b') (h3 : R c c') : SameVesicles (.bimodal a b c) (.bimodal a' b' c')
  | variable {a b a' b'} (h : R a a') (h2 : R b b') : SameVesicles (.variable a b) (.variable a' b')
  | variableBimodal {a b c a' b' c'} (h : R a a') (h2 : R b b') (h3 : R c c') :
    SameVesicles (.variableBimodal a b c) (.variableBimodal a' b' c')
  | poly {a b c a' b' c'} (h : R a a') (h2 : R b b') (h3 : R c c') : SameVesicles (.poly a b c) (.poly a' b' c')

/-- The same crystallisation model. -/
inductive SameCryst : CrystModel α → CrystModel β → Prop
  | basic {a b c d a' b' c' d'} (h : R a a') (h2 : R b b') (h3 : R c c') (h4 : R d d') :
    SameCryst (.basic a b c d) (.basic a' b' c' d')
  | bimodal {a b c d e a' b' c' d' e'} (h : R a a') (h2 : R b b') (h3 : R c c') (h4 : R d d') (h5 : R e e') :
    SameCryst (.bimodal a b c d e) (.bimodal a' b' c' d' e')
  | bimodalFTemp {a b c d e a' b' c' d' e'} (h : R a a') (h2 : R b b') (h3 : R c c') (h4 : R d d') (h5 : R e e') :
    SameCryst (.bimodalFTemp a b c d e) (.bimodalFTemp a' b' c' d' e')
  | melts {a b sp a' b' sp'} (h : R a a') (h2 : R b b') (h3 : SameOption (SameSpline R) sp sp') :
    SameCryst (.melts a b sp) (.melts a' b' sp')

/-- The same crust-temperature model. -/
inductive SameCrust : CrustModel α → CrustModel β → Prop
  | constant {a a'} (h : R a a') : SameCrust (.constant a) (.constant a')
  | hon : SameCrust .hon .hon
  | honBimodal {a b a' b'} (h : R a a') (h2 : R b b') : SameCrust (.honBimodal a b) (.honBimodal a' b')
  | field {a sp a' sp'} (h : R a a') (h2 : SameOption (SameSpline R) sp sp') : SameCrust (.field a sp) (.field a' sp')
  | hr2001 : SameCrust .hr2001 .hr2001

/-- The same melt-viscosity model. -/
inductive SameMelt : MeltModel α → MeltModel β → Prop
  | basic {a b a' b'} (h : R a a') (h2 : R b b') : SameMelt (.basic a b) (.basic a' b')
  | shaw {a a'} (h : R a a') : SameMelt (.shaw a) (.shaw a')
  | vft {a b c a' b' c'} (h : R a a') (h2 : R b b') (h3 : R c c') : SameMelt (.vft a b c) (.vft a' b' c')

/-- The same relative-viscosity model. -/
inductive SameRel : RelModel α → RelModel β → Prop
  | er : SameRel .er .er
  | kd {a b a' b'} (h : R a a') (h2 : R b b') : SameRel (.kd a b) (.kd a' b')
  | mp {a a'} (h : R a a') : SameRel (.mp a) (.mp a')
  | mpMueller {a a'} (h : R a a') : SameRel (.mpMueller a) (.mpMueller a')
  | mader {a a'} (h : R a a') : SameRel (.mader a) (.mader a')
  | bll {a b c d e f v m a' b' c' d' e' f' v' m'} (h : R a a') (h2 : R b b') (h3 : R c c') (h4 : R d d') (h5 : R e e')
    (h6 : R f f') (hv : SameVesicles R v v') (hm : SameMelt R m m') :
    SameRel (.bll a b c d e f v m) (.bll a' b' c' d' e' f' v' m')
  | ptp1 {v v'} (hv : SameVesicles R v v') : SameRel (.ptp1 v) (.ptp1 v')
  | ptp2 {v v'} (hv : SameVesicles R v v') : SameRel (.ptp2 v) (.ptp2 v')
  | ptp3 {v v'} (hv : SameVesicles R v v') : SameRel (.ptp3 v) (.ptp3 v')
  | costa1 {a a'} (h : R a a') : SameRel (.costa1 a) (.costa1 a')
  | costa2 {a a'} (h : R a a') : SameRel (.costa2 a) (.costa2 a')

/-- The same bubble model. -/
inductive SameBub : BubModel α → BubModel β → Prop
  | no : SameBub .no .no
  | rigid {v v'} (hv : SameVesicles R v v') : SameBub (.rigid v) (.rigid v')
  | defo {v v'} (hv : SameVesicles R v v') : SameBub (.defo v) (.defo v')
  | mader {a b v m r a' b' v' m' r'} (h : R a a') (h2 : R b b') (hv : SameVesicles R v v') (hm : SameMelt R m m')
    (hr : SameRel R r r') : SameBub (.mader a b v m r) (.mader a' b' v' m' r')

/-- The same yield-strength model. -/
inductive SameYield : YieldModel α → YieldModel β → Prop
  | basic {a a'} (h : R a a') : SameYield (.basic a) (.basic a')
  | dragoni {a a'} (h : R a a') : SameYield (.dragoni a) (.dragoni a')
  | dragoniAlone {a a'} (h : R a a') : SameYield (.dragoniAlone a) (.dragoniAlone a')
  | ryerson : SameYield .ryerson .ryerson
  | bll {v v'} (hv : SameVesicles R v v') : SameYield (.bll v) (.bll v')

/-- The same lava. -/
structure SameLava (l : Lava α) (l' : Lava β) : Prop where
  eruption : R l.eruptionT l'.eruptionT
  buffer : R l.buffer l'.buffer
  latent : R l.latentHeat l'.latentHeat
  dre : R l.densityDre l'.densityDre
  melt : SameMelt R l.melt l'.melt
  rel : SameRel R l.rel l'.rel
  bub : SameBub R l.bub l'.bub
  yld : SameYield R l.yld l'.yld
  ves : SameVesicles R l.ves l'.ves

/-- The same air. -/
structure SameAir (a : Air α) (a' : Air β) : Prop where
  temp : R a.temp a'.temp
  wind : R a.windSpeed a'.windSpeed
  ch : R a.ch a'.ch
  rho : R a.rho a'.rho
  cp : R a.cp a'.cp

/-- The same cover model. -/
inductive SameCover : CoverModel α → CoverModel β → Prop
  | basic {a b a' b'} (h : R a a') (h2 : R b b') : SameCover (.basic a b) (.basic a' b')
  | bimodal {a b c d e a' b' c' d' e'} (h : R a a') (h2 : R b b') (h3 : R c c') (h4 : R d d') (h5 : R e e') :
    SameCover (.bimodal a b c d e) (.bimodal a' b' c' d' e')

/-- The same flux. -/
inductive SameFlux : Flux α → Flux β → Prop
  | radBasic {a b a' b'} (h : R a a') (h2 : R b b') : SameFlux (.radBasic a b) (.radBasic a' b')
  | radTwoEmi {a b c a' b' c'} (h : R a a') (h2 : R b b') (h3 : R c c') : SameFlux (.radTwoEmi a b c) (.radTwoEmi a' b' c')
  | radCont {a a'} (h : R a a') : SameFlux (.radCont a) (.radCont a')
  | radLin {a a'} (h : R a a') : SameFlux (.radLin a) (.radLin a')
  | conduction {a b a' b'} (h : R a a') (h2 : R b b') : SameFlux (.conduction a b) (.conduction a' b')
  | convection : SameFlux .convection .convection
  | rain {a b c a' b' c'} (h : R a a') (h2 : R b b') (h3 : R c c') : SameFlux (.rain a b c) (.rain a' b' c')
  | viscous : SameFlux .viscous .viscous
  | snyder : SameFlux .snyder .snyder

/-- The same models. -/
structure ModelsAgree (m : Models α) (m' : Models β) : Prop where
  lava : SameLava R m.lava m'.lava
  air : SameAir R m.air m'.air
  crust : SameCrust R m.crust m'.crust
  cover : SameCover R m.cover m'.cover
  cryst : SameCryst R m.cryst m'.cryst
  fluxes : List.Forall₂ (SameFlux R) m.fluxes m'.fluxes

/-- The same integrator. -/
structure SameIntegrator (g : Integrator α) (g' : Integrator β) : Prop where
  dx : R g.dx g'.dx
  models : ModelsAgree R g.models g'.models
  mass : g.massConservation = g'.massConservation

/-- The same logged value: both numbers, or both texts of numbers. -/
inductive SameCell : Cell α → Cell β → Prop
  | num {x y} (h : R x y) : SameCell (.num x) (.num y)
  | text {x y} (h : R x y) : SameCell (.text x) (.text y)

/-- The same row: the same names in the same order with the same values. -/
def SameRow (r : Row (Cell α)) (r' : Row (Cell β)) : Prop :=
  List.Forall₂ (fun kv kv' => kv.1 = kv'.1 ∧ SameCell R kv.2 kv'.2) r r'

/-- The same log: the same rows in the same order. -/
def SameLog (l : Log (Cell α)) (l' : Log (Cell β)) : Prop := List.Forall₂ (SameRow R) l l'

/-- The same moment of a run. -/
structure SameWorld (w : World α) (w' : World β) : Prop where
  st : SameState R w.st w'.st
  terrain : SameTerrain R w.terrain w'.terrain
  log : SameLog R w.log w'.log
  rate : R w.effusionRate w'.effusionRate
  flux : SameOption R w.fluxRate w'.fluxRate
  iteration : w.iteration = w'.iteration
  finished : w.finished = w'.finished

/-- The same result file. -/
structure SameTable (t : CsvTable (Cell α)) (t' : CsvTable (Cell β)) : Prop where
  header : t.header = t'.header
  rows : List.Forall₂ (List.Forall₂ (SameOption (SameCell R))) t.rows t'.rows

/-- The same configuration: the same tree with the same texts, switches and integers, and the same numbers. -/
inductive SameJson : Json α → Json β → Prop
  | null : SameJson .null .null
  | bool (b : Bool) : SameJson (.bool b) (.bool b)
  | int (n : Int) : SameJson (.int n) (.int n)
  | num {x y} (h : R x y) : SameJson (.num x) (.num y)
  | str (s : String) : SameJson (.str s) (.str s)
  | arr {l l'} (h : List.Forall₂ SameJson l l') : SameJson (.arr l) (.arr l')
  | obj {l : List (String × Json α)} {l' : List (String × Json β)} (keys : l.map Prod.fst = l'.map Prod.fst)
    (h : List.Forall₂ SameJson (l.map Prod.snd) (l'.map Prod.snd)) : SameJson (.obj l) (.obj l')

/-- The same line of a slope file. -/
structure SameLine (s : SlopeLine α) (s' : SlopeLine β) : Prop where
  lat : R s.lat s'.lat
  lon : R s.lon s'.lon
  elev : R s.elev s'.elev
  dist : R s.dist s'.dist
  slope : R s.slopeDeg s'.slopeDeg

/-- The same surroundings: the same files with the same numbers, and the same texts for the numbers of a configuration. -/
structure SameEnv (e : Env α) (e' : Env β) : Prop where
  parse : ∀ s, SameOption R (e.parseFloat s) (e'.parseFloat s)
  show_ : ∀ (j : Json α) (j' : Json β), SameJson R j j' → j.show e = j'.show e'
  slope : ∀ p, SameOption (List.Forall₂ (SameLine R)) (e.slopeFile p) (e'.slopeFile p)
  crust : ∀ p, SameOption (List.Forall₂ (fun r r' => R r.1 r'.1 ∧ R r.2 r'.2)) (e.crustFile p) (e'.crustFile p)
  canon : ∀ p, e.canon p = e'.canon p

/-- The same process: the same configuration files, result files and log (`J` relates the numbers of configurations). -/
structure SameProc (J : α → β → Prop) (p : Proc α) (p' : Proc β) : Prop where
  json : List.Forall₂ (fun f f' => f.1 = f'.1 ∧ SameJson J f.2 f'.2) p.json p'.json
  results : List.Forall₂ (fun f f' => f.1 = f'.1 ∧ SameTable R f.2 f'.2) p.results p'.results
  log : SameLog R p.log p'.log

end
end PyFlowGo.Spec

/-! ### The program's own numbers -/
namespace PyFlowGo.Spec
open Classical

/-- A value read from a text file, or computed by Python: a Python float. -/
noncomputable def pyFloat {rd : ℝ → ℝ} (x : Rounded rd) : Scalar rd := ⟨false, .fin (decide (x.val < 0)) x.val⟩

/-- An element of a numpy array, such as those of `np.arange`. -/
noncomputable def npFloat {rd : ℝ → ℝ} (x : Rounded rd) : Scalar rd := ⟨true, .fin (decide (x.val < 0)) x.val⟩

/-- The value of a finite number (0 for the others, which no file of a simulation contains). -/
def valueOf {rd : ℝ → ℝ} (a : Scalar rd) : Rounded rd :=
  match a.val with
  | .fin _ x => x
  | _ => (0 : ℝ)

/-- The same three for exact real arithmetic. -/
noncomputable def pyReal (x : ℝ) : Scalar id := ⟨false, .fin (decide (x < 0)) x⟩
/-- An element of a numpy array. -/
noncomputable def npReal (x : ℝ) : Scalar id := ⟨true, .fin (decide (x < 0)) x⟩
/-- The value of a finite number. -/
noncomputable def realOf (a : Scalar id) : ℝ :=
  match a.val with
  | .fin _ x => x
  | _ => 0

mutual
/-- A configuration with each number replaced. -/
def mapJson {α β : Type} (f : α → β) : Json α → Json β
  | .null => .null
  | .bool b => .bool b
  | .int n => .int n
  | .num x => .num (f x)
  | .str s => .str s
  | .arr l => .arr (mapArray f l)
  | .obj l => .obj (mapEntries f l)
/-- The elements of an array. -/
def mapArray {α β : Type} (f : α → β) : List (Json α) → List (Json β)
  | [] => []
  | j :: l => mapJson f j :: mapArray f l
/-- The entries of an object. -/
def mapEntries {α β : Type} (f : α → β) : List (String × Json α) → List (String × Json β)
  | [] => []
  | (k, j) :: l => (k, mapJson f j) :: mapEntries f l
end

/-- A result file with each number replaced. -/
def mapCell {α β : Type} (f : α → β) : Cell α → Cell β
  | .num x => .num (f x)
  | .text x => .text (f x)

/-- The surroundings of a process with each number replaced (`g` leads back). -/
def mapEnv {α β : Type} (f : α → β) (g : β → α) (e : Env α) : Env β where
  parseFloat s := (e.parseFloat s).map f
  showNum x := e.showNum (g x)
  showOther j := e.showOther (mapJson g j)
  slopeFile p := (e.slopeFile p).map (·.map fun l => ⟨f l.lat, f l.lon, f l.elev, f l.dist, f l.slopeDeg⟩)
  crustFile p := (e.crustFile p).map (·.map fun r => (f r.1, f r.2))
  canon := e.canon

/-- A process with each number replaced. -/
def mapProc {α β : Type} (f : α → β) (p : Proc α) : Proc β where
  json := p.json.map fun kv => (kv.1, mapJson f kv.2)
  results := p.results.map fun kv => (kv.1, ⟨kv.2.header, kv.2.rows.map (·.map (·.map (mapCell f)))⟩)
  log := p.log.map (·.map fun kv => (kv.1, mapCell f kv.2))

end PyFlowGo.Spec
