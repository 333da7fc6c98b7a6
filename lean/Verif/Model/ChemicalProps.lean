import Mathlib.Algebra.Order.Field.Basic
import Mathlib.Algebra.BigOperators.Group.List.Basic
import Verif.Model.ArraySerialization

/-!
# Model of `Reaktoro/Core/ChemicalProps.cpp` and `Reaktoro/Core/ChemicalPropsPhase.hpp`

Numbers are the elements of an ordered field (exact arithmetic), `R` is the universal gas constant. A phase is given by the
standard thermodynamic models of its species and by its activity models. A standard model gives nothing if it throws. An activity
model gets the current contents of the properties it writes, gives the new contents and says whether it returned normally. The
data members of `ChemicalProps` are those of `ArraySerialization.Props`.
-/

namespace Verif.ChemicalProps

open ArraySerialization (Props write)

variable {K : Type}

/-- `StandardThermoProps` (StandardThermoProps.hpp). -/
structure Std (K : Type) where
  G0 : K
  H0 : K
  V0 : K
  Cp0 : K
  Cv0 : K

/-- `ActivityProps` (ActivityProps.hpp:32-58). -/
structure AProps (K : Type) where
  Vex : K
  VexT : K
  VexP : K
  Gex : K
  Hex : K
  Cpex : K
  Cvex : K
  ln_g : List K
  ln_a : List K

/-- The parts of a `Phase` used by `ChemicalProps`. -/
structure PhaseModel (K : Type) where
  species : List (K → K → Option (Std K))
  activity : K → K → List K → AProps K → AProps K × Bool
  ideal : K → K → List K → AProps K → AProps K × Bool
  molarMasses : List K := []

/-- The number of species of a phase. -/
def PhaseModel.size (ph : PhaseModel K) : Nat := ph.species.length

/-- `ChemicalPropsPhaseBaseData` (ChemicalPropsPhase.hpp:28-90). -/
structure PhaseData (K : Type) where
  T : K
  P : K
  n : List K
  nsum : K
  x : List K
  G0 : List K
  H0 : List K
  V0 : List K
  Cp0 : List K
  Cv0 : List K
  Vex : K
  VexT : K
  VexP : K
  Gex : K
  Hex : K
  Cpex : K
  Cvex : K
  ln_g : List K
  ln_a : List K
  u : List K

/-- `array.segment(begin, size)`. -/
def seg (a : List K) (begin size : Nat) : List K := (a.drop begin).take size

/-- `numSpeciesUntilPhase` (PhaseList.hpp:190-196). -/
def before (phases : List (PhaseModel K)) (i : Nat) : Nat := ((phases.take i).map PhaseModel.size).sum

/-- The number of species of the phase with an index. -/
def sizeAt (phases : List (PhaseModel K)) (i : Nat) : Nat := (phases[i]?.map PhaseModel.size).getD 0

/-- `phaseProps` (ChemicalProps.cpp:206-234): the data the returned object refers to. -/
def view [Zero K] (phases : List (PhaseModel K)) (p : Props K) (idx : Nat) : PhaseData K :=
  let b := before phases idx
  let s := sizeAt phases idx
  ⟨p.Ts.getD idx 0, p.Ps.getD idx 0, seg p.n b s, p.nsum.getD idx 0, seg p.x b s, seg p.G0 b s, seg p.H0 b s, seg p.V0 b s,
    seg p.Cp0 b s, seg p.Cv0 b s, p.Vex.getD idx 0, p.VexT.getD idx 0, p.VexP.getD idx 0, p.Gex.getD idx 0, p.Hex.getD idx 0,
    p.Cpex.getD idx 0, p.Cvex.getD idx 0, seg p.ln_g b s, seg p.ln_a b s, seg p.u b s⟩

/-- Writing through the references of `phaseProps` (ChemicalProps.cpp:206-234). -/
def put (phases : List (PhaseModel K)) (p : Props K) (idx : Nat) (d : PhaseData K) : Props K :=
  let b := before phases idx
  { p with
    Ts := p.Ts.set idx d.T
    Ps := p.Ps.set idx d.P
    n := write p.n b d.n
    nsum := p.nsum.set idx d.nsum
    x := write p.x b d.x
    G0 := write p.G0 b d.G0
    H0 := write p.H0 b d.H0
    V0 := write p.V0 b d.V0
    Cp0 := write p.Cp0 b d.Cp0
    Cv0 := write p.Cv0 b d.Cv0
    Vex := p.Vex.set idx d.Vex
    VexT := p.VexT.set idx d.VexT
    VexP := p.VexP.set idx d.VexP
    Gex := p.Gex.set idx d.Gex
    Hex := p.Hex.set idx d.Hex
    Cpex := p.Cpex.set idx d.Cpex
    Cvex := p.Cvex.set idx d.Cvex
    ln_g := write p.ln_g b d.ln_g
    ln_a := write p.ln_a b d.ln_a
    u := write p.u b d.u }

/-- The assignments for species `i` (ChemicalPropsPhase.hpp:522-526). -/
def PhaseData.setStd (d : PhaseData K) (i : Nat) (s : Std K) : PhaseData K :=
  { d with
    G0 := d.G0.set i s.G0
    H0 := d.H0.set i s.H0
    V0 := d.V0.set i s.V0
    Cp0 := d.Cp0.set i s.Cp0
    Cv0 := d.Cv0.set i s.Cv0 }

/-- The loop computing the standard properties (ChemicalPropsPhase.hpp:518-527), from species `i` on. -/
def stdLoop (T P : K) : List (K → K → Option (Std K)) → Nat → PhaseData K → PhaseData K × Bool
  | [], _, d => (d, true)
  | f :: fs, i, d =>
    match f T P with
    | none => (d, false)
    | some s => stdLoop T P fs (i + 1) (d.setStd i s)

/-- `x.minCoeff()`; phases are not empty. -/
def minCoeff [LinearOrder K] [Zero K] : List K → K
  | [] => 0
  | a :: l => l.foldl min a

/-- The properties written by the activity model (ChemicalPropsPhase.hpp:541). -/
def PhaseData.aprops (d : PhaseData K) : AProps K := ⟨d.Vex, d.VexT, d.VexP, d.Gex, d.Hex, d.Cpex, d.Cvex, d.ln_g, d.ln_a⟩

/-- Writing to the properties referred to by `aprops` (ChemicalPropsPhase.hpp:541). -/
def PhaseData.setAprops (d : PhaseData K) (a : AProps K) : PhaseData K :=
  { d with Vex := a.Vex, VexT := a.VexT, VexP := a.VexP, Gex := a.Gex, Hex := a.Hex, Cpex := a.Cpex, Cvex := a.Cvex, ln_g := a.ln_g,
           ln_a := a.ln_a }

/-- `aprops = 0.0` (ActivityProps.hpp:61-73). -/
def AProps.zero [Zero K] (a : AProps K) : AProps K := ⟨0, 0, 0, 0, 0, 0, 0, a.ln_g.map (fun _ => 0), a.ln_a.map (fun _ => 0)⟩

/-- `ChemicalPropsPhaseBase::_update` (ChemicalPropsPhase.hpp:477-552). The second component says whether it returned normally; if
not, the first is what has been written. -/
def phaseUpdate [Field K] [LinearOrder K] (R : K) (ph : PhaseModel K) (useIdeal : Bool) (T P : K) (n : List K) (d : PhaseData K) :
    PhaseData K × Bool :=
  let d := { d with T := T, P := P, n := n }
  let r := stdLoop T P ph.species 0 d
  if r.2 = false then (r.1, false) else
  let nsum := n.sum
  let x := if nsum = 0 then List.replicate ph.size (if ph.size = 1 then 1 else 0) else n.map (fun y => y / nsum)
  let d := { r.1 with nsum := nsum, x := x }
  if minCoeff x = 0 then (d, false) else
  let fn := if useIdeal then ph.ideal else ph.activity
  let a := if nsum = 0 then (d.aprops.zero, true) else fn T P x d.aprops
  let d := d.setAprops a.1
  if a.2 = false then (d, false) else
  ({ d with u := List.zipWith (fun g a => g + R * T * a) d.G0 d.ln_a }, true)

/-- The loop of `update` and `updateIdeal` (ChemicalProps.cpp:149-156, 182-189). -/
def updateLoop [Field K] [LinearOrder K] (R : K) (phases : List (PhaseModel K)) (useIdeal : Bool) (T P : K) (n : List K) :
    List (PhaseModel K) → Nat → Nat → Props K → Res (Props K × Bool)
  | [], _, _, p => .ok (p, true)
  | ph :: rest, i, offset, p =>
    if n.length < offset + ph.size then .ub else
    let r := phaseUpdate R ph useIdeal T P (seg n offset ph.size) (view phases p i)
    let p := put phases p i r.1
    if r.2 then updateLoop R phases useIdeal T P n rest (i + 1) (offset + ph.size) p else .ok (p, false)

/-- `ChemicalProps::Impl::update` and `updateIdeal` (ChemicalProps.cpp:144-157, 177-190). The flag says whether the call returned
normally. -/
def update [Field K] [LinearOrder K] (R : K) (phases : List (PhaseModel K)) (useIdeal : Bool) (p : Props K) (T P : K) (n : List K) :
    Res (Props K × Bool) :=
  updateLoop R phases useIdeal T P n phases 0 0 { p with T := T, P := P }

/-! ### Properties of species and phases -/

section Getters

variable [Field K] [DecidableEq K]

/-- `standardEntropies` of a phase (ChemicalPropsPhase.hpp:304-307). -/
def PhaseData.S0 (d : PhaseData K) : List K := List.zipWith (fun h g => (h - g) / d.T) d.H0 d.G0
/-- `standardInternalEnergies` of a phase (ChemicalPropsPhase.hpp:310-313). -/
def PhaseData.U0 (d : PhaseData K) : List K := List.zipWith (fun h v => h - d.P * v) d.H0 d.V0
/-- `standardHelmholtzEnergies` of a phase (ChemicalPropsPhase.hpp:316-319). -/
def PhaseData.A0 (d : PhaseData K) : List K := List.zipWith (fun g v => g - d.P * v) d.G0 d.V0
/-- `molarGibbsEnergy` (ChemicalPropsPhase.hpp:334-337). -/
def PhaseData.molarG (d : PhaseData K) : K := (List.zipWith (· * ·) d.x d.G0).sum + d.Gex
/-- `molarEnthalpy` (ChemicalPropsPhase.hpp:340-343). -/
def PhaseData.molarH (d : PhaseData K) : K := (List.zipWith (· * ·) d.x d.H0).sum + d.Hex
/-- `molarVolume` (ChemicalPropsPhase.hpp:346-349). -/
def PhaseData.molarV (d : PhaseData K) : K := (List.zipWith (· * ·) d.x d.V0).sum + d.Vex
/-- `molarEntropy` (ChemicalPropsPhase.hpp:352-358). -/
def PhaseData.molarS (d : PhaseData K) : K := (d.molarH - d.molarG) / d.T
/-- `molarInternalEnergy` (ChemicalPropsPhase.hpp:361-367). -/
def PhaseData.molarU (d : PhaseData K) : K := d.molarH - d.P * d.molarV
/-- `molarHelmholtzEnergy` (ChemicalPropsPhase.hpp:370-376). -/
def PhaseData.molarA (d : PhaseData K) : K := d.molarU - d.T * d.molarS
/-- `molarHeatCapacityConstP` (ChemicalPropsPhase.hpp:379-382). -/
def PhaseData.molarCp (d : PhaseData K) : K := (List.zipWith (· * ·) d.x d.Cp0).sum + d.Cpex
/-- `molarHeatCapacityConstV` (ChemicalPropsPhase.hpp:385-388). -/
def PhaseData.molarCv (d : PhaseData K) : K := (List.zipWith (· * ·) d.x d.Cv0).sum + d.Cvex
/-- `molarDensity` (ChemicalPropsPhase.hpp:391-395). -/
def PhaseData.molarDensity (d : PhaseData K) : K := if d.molarV ≠ 0 then 1 / d.molarV else 0
/-- `amount` (ChemicalPropsPhase.hpp:398-401). -/
def PhaseData.amount (d : PhaseData K) : K := d.nsum
/-- `mass` (ChemicalPropsPhase.hpp:404-410). -/
def PhaseData.mass (ph : PhaseModel K) (d : PhaseData K) : K := (List.zipWith (· * ·) d.n ph.molarMasses).foldl (· + ·) 0
/-- `gibbsEnergy` of a phase (ChemicalPropsPhase.hpp:413-416). -/
def PhaseData.G (d : PhaseData K) : K := d.molarG * d.amount
/-- `enthalpy` of a phase (ChemicalPropsPhase.hpp:419-422). -/
def PhaseData.H (d : PhaseData K) : K := d.molarH * d.amount
/-- `volume` of a phase (ChemicalPropsPhase.hpp:425-428). -/
def PhaseData.V (d : PhaseData K) : K := d.molarV * d.amount
/-- `entropy` of a phase (ChemicalPropsPhase.hpp:431-434). -/
def PhaseData.S (d : PhaseData K) : K := d.molarS * d.amount
/-- `internalEnergy` of a phase (ChemicalPropsPhase.hpp:437-440). -/
def PhaseData.U (d : PhaseData K) : K := d.molarU * d.amount
/-- `helmholtzEnergy` of a phase (ChemicalPropsPhase.hpp:443-446). -/
def PhaseData.A (d : PhaseData K) : K := d.molarA * d.amount

/-- `Reaktoro::sum` over the phases (Algorithms.hpp, ChemicalProps.cpp:383-417). -/
def total (phases : List (PhaseModel K)) (p : Props K) (f : PhaseData K → K) : K :=
  ((List.range phases.length).map fun i => f (view phases p i)).foldl (· + ·) 0

/-- `gibbsEnergy` of the system (ChemicalProps.cpp:383-387). -/
def gibbsEnergy (phases : List (PhaseModel K)) (p : Props K) : K := total phases p PhaseData.G
/-- `enthalpy` of the system (ChemicalProps.cpp:389-393). -/
def enthalpy (phases : List (PhaseModel K)) (p : Props K) : K := total phases p PhaseData.H
/-- `volume` of the system (ChemicalProps.cpp:395-399). -/
def volume (phases : List (PhaseModel K)) (p : Props K) : K := total phases p PhaseData.V
/-- `entropy` of the system (ChemicalProps.cpp:401-405). -/
def entropy (phases : List (PhaseModel K)) (p : Props K) : K := total phases p PhaseData.S
/-- `internalEnergy` of the system (ChemicalProps.cpp:407-411). -/
def internalEnergy (phases : List (PhaseModel K)) (p : Props K) : K := total phases p PhaseData.U
/-- `helmholtzEnergy` of the system (ChemicalProps.cpp:413-417). -/
def helmholtzEnergy (phases : List (PhaseModel K)) (p : Props K) : K := total phases p PhaseData.A

/-- `standardEntropies` of the system (ChemicalProps.cpp:358-361). -/
def standardEntropies (p : Props K) : List K := List.zipWith (fun h g => (h - g) / p.T) p.H0 p.G0
/-- `standardInternalEnergies` of the system (ChemicalProps.cpp:363-366). -/
def standardInternalEnergies (p : Props K) : List K := List.zipWith (fun h v => h - p.P * v) p.H0 p.V0
/-- `standardHelmholtzEnergies` of the system (ChemicalProps.cpp:368-371). -/
def standardHelmholtzEnergies (p : Props K) : List K := List.zipWith (fun g v => g - p.P * v) p.G0 p.V0

end Getters

end Verif.ChemicalProps
