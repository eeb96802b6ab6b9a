import Verif.Model.Vesicle
import Verif.Model.Melt
/-
  pyflowgo/flowgo_relative_viscosity_model_*.py
-/
namespace PyFlowGo
variable {α : Type} [Add α] [Sub α] [Mul α] [Neg α] [OfScientific α] [PyNum α]

/-- The relative-viscosity classes reachable through the factory. -/
inductive RelModel (α : Type) where
  /-- flowgo_relative_viscosity_model_er.py:55-58 (`_r` is always 1.51) -/
  | er
  /-- flowgo_relative_viscosity_model_kd.py:53-63 -/
  | kd (phimax beinstein : α)
  /-- flowgo_relative_viscosity_model_mp.py:32-41 -/
  | mp (phimax : α)
  /-- flowgo_relative_viscosity_model_mp_mueller2010.py:41-50 -/
  | mpMueller (rp : α)
  /-- flowgo_relative_viscosity_model_mader.py:52-62 -/
  | mader (rp : α)
  /-- flowgo_relative_viscosity_model_bll.py:85-120 -/
  | bll (phimax bsolid bgas radius tension phicrit : α) (ves : VesicleModel α) (melt : MeltModel α)
  /-- flowgo_relative_viscosity_model_ptp1.py:36-42 -/
  | ptp1 (ves : VesicleModel α)
  /-- flowgo_relative_viscosity_model_ptp2.py:36-42 -/
  | ptp2 (ves : VesicleModel α)
  /-- flowgo_relative_viscosity_model_ptp3.py:36-42 -/
  | ptp3 (ves : VesicleModel α)
  /-- flowgo_relative_viscosity_model_costa1.py:49-58; `_strain_rate` is the configured parameter -/
  | costa1 (strainParam : α)
  /-- flowgo_relative_viscosity_model_costa2.py:48-57 -/
  | costa2 (strainParam : α)
  deriving Repr

/-- The packing limit of Mueller et al. (2010): mp_mueller2010.py:55-57 and 64-66, mader.py:68-71
    and 95-97: `phim1 * exp(-(log10(Rp)**2 / 2 * b**2))` with phim1 = 0.55, b = 1. -/
def muellerPhimax (rp : α) : Except Err α := do
  let l ← PyNum.log10 rp
  let q ← PyNum.div (PyNum.npow l 2) 2.0
  return 0.55 * PyNum.exp (-(q * PyNum.npow 1.0 2))

/-- The Maron-Pierce law `math.pow(1 - phi/phimax, -2)`: mp.py:46, mp_mueller2010.py:58,
    mader.py:84 and 88. -/
def maronPierce (phi phimax : α) : Except Err α := do
  let q ← PyNum.div phi phimax
  PyNum.mpow (1.0 - q) (-2.0)

/-- The Costa law with its four fit parameters: costa1.py:73-79 and 90-96, costa2.py:69-75 and
    85-91. -/
def costaLaw (delta gama phiStar eps phi : α) : Except Err α := do
  let pref ← PyNum.div (PyNum.sqrt PyNum.pi) (2.0 * (1.0 - eps))
  let q ← PyNum.div phi phiStar
  let g ← PyNum.mpow q gama
  let f := (1.0 - eps) * PyNum.erf (pyMin 25.0 (pref * q * (1.0 + g)))
  let d ← PyNum.mpow q delta
  let den ← PyNum.mpow (1.0 - f) (2.5 * phiStar)
  PyNum.div (1.0 + d) den

/-- The flow index of bll.py:143-146: `Ca` capped at 10, index clamped to [0.2, 1.2]. -/
def bllIndex (phicrit phi vf ca : α) : α :=
  let ca := if ltB 10.0 ca then 10.0 else ca
  let n := 1.0 + (0.7 - 0.55 * ca) * (phicrit - phi * (1.0 - vf) - vf)
  pyMin 1.2 (pyMax 0.2 n)

/-- flowgo_relative_viscosity_model_bll.py:122-165 `compute_relative_viscosity`. -/
def bllRelative (phimax bsolid bgas radius tension phicrit : α) (ves : VesicleModel α)
    (melt : MeltModel α) (s : FlowState α) : Except Err α := do
  let phi := s.crystal
  let vf := ves.fraction s
  let mv ← melt.viscosity s
  let relax ← PyNum.div (radius * mv) tension
  let ca := relax * s.strain
  let phiEff := phi * (1.0 - vf) + vf
  if leB 1.0 vf then .error .infinite            -- line 133-135: return float("inf")
  else
    let strain := if leB s.strain 0.0 then 1e-12 else s.strain    -- line 137-139
    let rv ←
      if ltB phicrit phiEff then do
        let n := bllIndex phicrit phi vf ca
        let q ← PyNum.div phi phimax
        let a ← PyNum.pow (1.0 - q) (-bsolid)
        let b ← PyNum.pow (1.0 - vf) (-bgas)
        let c ← PyNum.pow strain (n - 1.0)
        pure (a * b * c)
      else do
        let q ← PyNum.div phi phimax
        let a ← PyNum.pow (1.0 - q) (-bsolid)
        let b ← PyNum.pow (1.0 - vf) (-bgas)
        pure (a * b)
    if leB strain 0.0 then .error .valueError      -- line 158-159
    else .ok rv

/-- flowgo_relative_viscosity_model_mader.py:65-91 `compute_relative_viscosity`. -/
def maderRelative (rp : α) (s : FlowState α) : Except Err α := do
  let phi := s.crystal
  let phimax ← muellerPhimax rp
  let q ← PyNum.div phi phimax
  let n := 1.0 - 0.2 * rp * PyNum.npow q 4
  if leB 0.5 q then
    if ltB n 0.9 then
      if leB s.strain 0.0 then .error .valueError
      else do
        let a ← PyNum.mpow (1.0 - q) (-2.0)
        let b ← PyNum.pow s.strain (n - 1.0)
        pure (a * b)
    else maronPierce phi phimax
  else maronPierce phi phimax

/-- `compute_relative_viscosity(state)`: er.py:64-69, kd.py:65-70, mp.py:43-48,
    mp_mueller2010.py:52-60, mader.py:65-91, bll.py:122-165, ptp1.py:49-55, ptp2.py:48-55,
    ptp3.py:48-54, costa1.py:60-96, costa2.py:59-91.  The Costa classes return `None` for any other
    `strain_rate` parameter; the value is only ever multiplied, hence `TypeError`. -/
def RelModel.relative (m : RelModel α) (s : FlowState α) : Except Err α :=
  match m with
  | .er => PyNum.mpow (1.0 - 1.51 * s.crystal) (-2.5)
  | .kd phimax be => do
    let q ← PyNum.div s.crystal phimax
    PyNum.mpow (1.0 - q) (-be * phimax)
  | .mp phimax => maronPierce s.crystal phimax
  | .mpMueller rp => do
    let phimax ← muellerPhimax rp
    maronPierce s.crystal phimax
  | .mader rp => maderRelative rp s
  | .bll pm bs bg r t pc ves melt => bllRelative pm bs bg r t pc ves melt s
  | .ptp1 ves => do
    let vf := ves.fraction s
    let q ← PyNum.div s.crystal (1.0 - vf)
    let a ← PyNum.pow (1.0 - q) (-2.5)
    let b ← PyNum.pow (1.0 - vf) (-1.0)
    return a * b
  | .ptp2 ves => do
    let vf := ves.fraction s
    let e ← PyNum.div (5.0 * s.crystal + 2.0 * vf) (2.0 * (s.crystal + vf))
    PyNum.mpow (1.0 - s.crystal - vf) (-e)
  | .ptp3 ves => do
    let vf := ves.fraction s
    let q ← PyNum.div vf (1.0 - s.crystal)
    let a ← PyNum.pow (1.0 - q) (-1.0)
    let b ← PyNum.pow (1.0 - s.crystal) (-2.5)
    return a * b
  | .costa1 p =>
    if eqB p 1.0 then costaLaw 11.4 1.6 0.67 0.01 s.crystal
    else if eqB p 0.0001 then costaLaw 11.48 1.52 0.62 0.005 s.crystal
    else .error .typeError
  | .costa2 p =>
    if eqB p 1.0 then costaLaw 4.45 8.55 0.28 0.001 s.crystal
    else if eqB p 0.0001 then costaLaw 7.5 5.5 0.26 0.0002 s.crystal
    else .error .typeError

/-- `is_notcompatible(state)`: er.py:71-77, kd.py:72-78, mp.py:50-55, mp_mueller2010.py:62-70,
    mader.py:93-101, bll.py:168-174, ptp1.py:57-64, ptp2.py:57-64, ptp3.py:56-63, costa1.py:98-99,
    costa2.py:93-94. -/
def RelModel.notCompatible (m : RelModel α) (s : FlowState α) : Except Err Bool :=
  match m with
  | .er => do
    let lim ← PyNum.div 1.0 1.51
    return leB lim s.crystal
  | .kd phimax _ => do
    let q ← PyNum.div s.crystal phimax
    return ltB 1.0 q
  | .mp phimax => do
    let q ← PyNum.div s.crystal phimax
    return ltB 1.0 q
  | .mpMueller rp => do
    let phimax ← muellerPhimax rp
    let q ← PyNum.div s.crystal phimax
    return ltB 1.0 q
  | .mader rp => do
    let phimax ← muellerPhimax rp
    let q ← PyNum.div s.crystal phimax
    return eqB q 1.0
  | .bll phimax _ _ _ _ _ ves _ => .ok (ltB (phimax * (1.0 - ves.fraction s)) s.crystal)
  | .ptp1 ves => .ok (ltB (1.0 - ves.fraction s) s.crystal)
  | .ptp2 ves => .ok (ltB (1.0 - ves.fraction s) s.crystal)
  | .ptp3 ves => .ok (ltB (1.0 - ves.fraction s) s.crystal)
  | .costa1 _ => .ok false
  | .costa2 _ => .ok false

end PyFlowGo
