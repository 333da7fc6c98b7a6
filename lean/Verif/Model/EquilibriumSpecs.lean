import Verif.Base
import Verif.Model.AggregateState

/-!
# Model of `EquilibriumSpecs` and `EquilibriumDims`

`Reaktoro/Equilibrium/EquilibriumSpecs.cpp`, `EquilibriumDims.cpp` and the loops of `EquilibriumSetup.cpp` that evaluate the
constraints. A call that throws leaves the object as it was changed up to that point, so every call gives a new object and
whether it returned normally.

The functions attached to constraints made by the class itself are represented by what they compute (`EFn`, `UFn`), those given by
the user are arbitrary. The conversion of a string to a `ChemicalFormula` is a parameter `parse` (`none` if it throws; see C08-C10).
-/

namespace Verif.EquilibriumSpecs

abbrev Str := List Char
abbrev State := AggregateState.State

/-- `ChemicalFormula::Impl` (ChemicalFormula.cpp:27-50). -/
structure Formula where
  str : Str
  elements : List (Str × Rat)
  charge : Rat
  deriving DecidableEq, Repr

/-- `ChemicalFormula::equivalent` (ChemicalFormula.cpp:120-125) with `contained` (Algorithms.hpp:117-124). -/
def Formula.equivalent (f g : Formula) : Bool :=
  f.elements.length == g.elements.length && f.elements.all (fun x => g.elements.contains x) && f.charge == g.charge

/-- The members of `Species` used here. -/
structure Species where
  name : Str
  formula : Formula
  state : State
  deriving DecidableEq, Repr

/-- The function of an equation constraint. The index is that of an input. -/
inductive EFn (K Pr : Type) where
  | volume (idx : Nat)
  | internalEnergy (idx : Nat)
  | enthalpy (idx : Nat)
  | gibbsEnergy (idx : Nat)
  | helmholtzEnergy (idx : Nat)
  | entropy (idx : Nat)
  | custom (fn : Pr → List K → Res K)

/-- The function `convert_to_lna` of an activity constraint. -/
inductive Conv where
  | lnActivity
  | fugacity
  | minusLg

/-- The function of a chemical potential constraint. -/
inductive UFn (K Pr : Type) where
  | value (idx : Nat)
  | activity (species : Species) (conv : Conv) (idx : Nat)
  | pE (idx : Nat)
  | Eh (idx : Nat)
  | custom (fn : Pr → List K → Res K)

/-- `EquilibriumConstraintEquation` (EquilibriumSpecs.hpp:33-42); `none` is an empty function. -/
structure EConstraint (K Pr : Type) where
  name : Str
  fn : Option (EFn K Pr)

/-- `EquilibriumConstraintChemicalPotential` (EquilibriumSpecs.hpp:45-58). -/
structure UConstraint (K Pr : Type) where
  name : Str
  substance : Formula
  fn : Option (UFn K Pr)

/-- A `Param`: its identifier and the cell that holds its value. -/
structure Par where
  id : Str
  cell : Nat
  deriving DecidableEq, Repr

/-- `EquilibriumSpecs` (EquilibriumSpecs.hpp, private members). -/
structure Specs (K Pr : Type) where
  database : List Species
  inputs : List Str := []
  params : List Par := []
  paramsIdxs : List Nat := []
  unknownT : Bool := true
  unknownP : Bool := true
  titrantsExplicit : List Formula := []
  titrantsImplicit : List Formula := []
  econstraints : List (EConstraint K Pr) := []
  uconstraints : List (UConstraint K Pr) := []

variable {K Pr : Type}

/-- `addInput(const String&)` (EquilibriumSpecs.cpp:454-461). -/
def addInput (s : Specs K Pr) (var : Str) : Specs K Pr × Option Nat :=
  if s.inputs.contains var then (s, none)
  else ({ s with inputs := s.inputs ++ [var] }, some (s.inputs.length + 1 - 1))

/-- `addInput(const Param&)` (EquilibriumSpecs.cpp:463-469). -/
def addInputParam (s : Specs K Pr) (p : Par) : Specs K Pr × Bool :=
  match addInput s p.id with
  | (s, none) => (s, false)
  | (s, some idx) => ({ s with params := s.params ++ [p], paramsIdxs := s.paramsIdxs ++ [idx] }, true)

/-- `throwErrorIfTitrantHasBeenRegistered` (EquilibriumSpecs.cpp:538-548): true if it throws. The name read at 547 exists
(`C35_invariant`: there is one constraint for each implicit titrant). -/
def titrantRegistered (s : Specs K Pr) (f : Formula) : Bool :=
  s.titrantsExplicit.any (fun x => x.equivalent f) || s.titrantsImplicit.any (fun x => x.equivalent f)

/-- `addConstraint(const EquilibriumConstraintEquation&)` (EquilibriumSpecs.cpp:434-441). -/
def addEConstraint (s : Specs K Pr) (c : EConstraint K Pr) : Specs K Pr × Bool :=
  if s.econstraints.any (fun x => x.name == c.name) then (s, false)
  else if c.name.isEmpty then (s, false)
  else if c.fn.isNone then (s, false)
  else ({ s with econstraints := s.econstraints ++ [c] }, true)

/-- `addConstraint(const EquilibriumConstraintChemicalPotential&)` (EquilibriumSpecs.cpp:443-452). -/
def addUConstraint (s : Specs K Pr) (c : UConstraint K Pr) : Specs K Pr × Bool :=
  if s.uconstraints.any (fun x => x.name == c.name) then (s, false)
  else if c.name.isEmpty then (s, false)
  else if c.fn.isNone then (s, false)
  else if titrantRegistered s c.substance then (s, false)
  else ({ s with uconstraints := s.uconstraints ++ [c], titrantsImplicit := s.titrantsImplicit ++ [c.substance] }, true)

/-- `temperature` (EquilibriumSpecs.cpp:66-70). -/
def temperature (s : Specs K Pr) : Specs K Pr × Bool :=
  let r := addInput { s with unknownT := false } c!"T"
  (r.1, r.2.isSome)

/-- `pressure` (EquilibriumSpecs.cpp:72-76). -/
def pressure (s : Specs K Pr) : Specs K Pr × Bool :=
  let r := addInput { s with unknownP := false } c!"P"
  (r.1, r.2.isSome)

/-- The common body of `volume`, `internalEnergy`, `enthalpy`, `gibbsEnergy`, `helmholtzEnergy` and `entropy`
(EquilibriumSpecs.cpp:78-148). -/
def constrainProperty (s : Specs K Pr) (name input : Str) (fn : Nat → EFn K Pr) : Specs K Pr × Bool :=
  match addInput s input with
  | (s, none) => (s, false)
  | (s, some idx) => addEConstraint s ⟨name, some (fn idx)⟩

/-- The common body of the methods that constrain a chemical potential: the input is added before the constraint. -/
def constrainPotential (s : Specs K Pr) (name : Str) (substance : Formula) (fn : Nat → UFn K Pr) : Specs K Pr × Bool :=
  match addInput s name with
  | (s, none) => (s, false)
  | (s, some idx) => addUConstraint s ⟨name, substance, some (fn idx)⟩

/-- `chemicalPotential` (EquilibriumSpecs.cpp:156-168). -/
def chemicalPotential (parse : Str → Option Formula) (s : Specs K Pr) (substance : Str) : Specs K Pr × Bool :=
  match parse substance with
  | none => (s, false)
  | some f => constrainPotential s (c!"u[" ++ substance ++ c!"]") f .value

/-- `lnActivity(const Species&)` (EquilibriumSpecs.cpp:193-200). -/
def lnActivitySpecies (s : Specs K Pr) (species : Species) : Specs K Pr × Bool :=
  constrainPotential s (c!"lnActivity[" ++ species.name ++ c!"]") species.formula (.activity species .lnActivity)

/-- `lnActivity(String)` (EquilibriumSpecs.cpp:202-211); also `lgActivity` and `activity` (213-221). -/
def lnActivity (s : Specs K Pr) (name : Str) : Specs K Pr × Bool :=
  match s.database.find? (fun x => x.name == name) with
  | none => (s, false)
  | some species => lnActivitySpecies s species

/-- `getSpecies` (EquilibriumSpecs.cpp:33-39) with `findWithFormula` (SpeciesList.hpp:107-110). -/
def getSpecies (db : List Species) (f : Formula) (state : State) : Option Species :=
  (db.filter (fun x => x.state == state)).find? (fun x => f.equivalent x.formula)

/-- `fugacity` (EquilibriumSpecs.cpp:223-234). A species found with an empty name is treated as missing. -/
def fugacity (parse : Str → Option Formula) (s : Specs K Pr) (gas : Str) : Specs K Pr × Bool :=
  match parse gas with
  | none => (s, false)
  | some f =>
    match getSpecies s.database f .Gas with
    | none => (s, false)
    | some species =>
      if species.name.isEmpty then (s, false)
      else constrainPotential s (c!"f[" ++ gas ++ c!"]") species.formula (.activity species .fugacity)

/-- The common body of `pH` and `pMg` (EquilibriumSpecs.cpp:236-258). -/
def minusLgActivity (parse : Str → Option Formula) (s : Specs K Pr) (name ion : Str) : Specs K Pr × Bool :=
  match parse ion with
  | none => (s, false)
  | some f =>
    match getSpecies s.database f .Aqueous with
    | none => (s, false)
    | some species =>
      if species.name.isEmpty then (s, false)
      else constrainPotential s name species.formula (.activity species .minusLg)

/-- `pE` (EquilibriumSpecs.cpp:260-275). -/
def pE (parse : Str → Option Formula) (s : Specs K Pr) : Specs K Pr × Bool :=
  match parse c!"e-" with
  | none => (s, false)
  | some f => constrainPotential s c!"pE" f .pE

/-- `Eh` (EquilibriumSpecs.cpp:277-289). -/
def Eh (parse : Str → Option Formula) (s : Specs K Pr) : Specs K Pr × Bool :=
  match parse c!"e-" with
  | none => (s, false)
  | some f => constrainPotential s c!"Eh" f .Eh

/-- `openTo` (EquilibriumSpecs.cpp:297-301). -/
def openTo (s : Specs K Pr) (f : Formula) : Specs K Pr × Bool :=
  if titrantRegistered s f then (s, false)
  else ({ s with titrantsExplicit := s.titrantsExplicit ++ [f] }, true)

/-- The calls of the public interface that change a specification. Constraints given by the user have their own functions. -/
inductive Call (K Pr : Type) where
  | temperature
  | pressure
  | volume
  | internalEnergy
  | enthalpy
  | gibbsEnergy
  | helmholtzEnergy
  | entropy
  | chemicalPotential (substance : Str)
  | lnActivitySpecies (species : Species)
  | lnActivity (name : Str)
  | fugacity (gas : Str)
  | pH
  | pMg
  | pE
  | Eh
  | openTo (f : Formula)
  | addEConstraint (name : Str) (fn : Option (Pr → List K → Res K))
  | addUConstraint (name : Str) (substance : Formula) (fn : Option (Pr → List K → Res K))
  | addInput (var : Str)
  | addInputParam (p : Par)

/-- One call. -/
def step (parse : Str → Option Formula) (s : Specs K Pr) : Call K Pr → Specs K Pr × Bool
  | .temperature => temperature s
  | .pressure => pressure s
  | .volume => constrainProperty s c!"volume" c!"V" .volume
  | .internalEnergy => constrainProperty s c!"internalEnergy" c!"U" .internalEnergy
  | .enthalpy => constrainProperty s c!"enthalpy" c!"H" .enthalpy
  | .gibbsEnergy => constrainProperty s c!"gibbsEnergy" c!"G" .gibbsEnergy
  | .helmholtzEnergy => constrainProperty s c!"helmholtzEnergy" c!"A" .helmholtzEnergy
  | .entropy => constrainProperty s c!"entropy" c!"S" .entropy
  | .chemicalPotential x => chemicalPotential parse s x
  | .lnActivitySpecies x => lnActivitySpecies s x
  | .lnActivity x => lnActivity s x
  | .fugacity x => fugacity parse s x
  | .pH => minusLgActivity parse s c!"pH" c!"H+"
  | .pMg => minusLgActivity parse s c!"pMg" c!"Mg+2"
  | .pE => pE parse s
  | .Eh => Eh parse s
  | .openTo f => openTo s f
  | .addEConstraint name fn => addEConstraint s ⟨name, fn.map .custom⟩
  | .addUConstraint name f fn => addUConstraint s ⟨name, f, fn.map .custom⟩
  | .addInput v => ((addInput s v).1, (addInput s v).2.isSome)
  | .addInputParam p => addInputParam s p

/-- A sequence of calls on a new object; exceptions are caught by the caller. -/
def run (parse : Str → Option Formula) (db : List Species) (calls : List (Call K Pr)) : Specs K Pr :=
  calls.foldl (fun s c => (step parse s c).1) { database := db }

/-- `numTitrants` (EquilibriumSpecs.cpp:334-337). -/
def numTitrants (s : Specs K Pr) : Nat := s.titrantsExplicit.length + s.titrantsImplicit.length

/-- `numControlVariables` (EquilibriumSpecs.cpp:319-322). -/
def numControlVariables (s : Specs K Pr) : Nat := s.unknownT.toNat + s.unknownP.toNat + numTitrants s

/-- `numControlVariablesP` (EquilibriumSpecs.cpp:324-327). -/
def numControlVariablesP (s : Specs K Pr) : Nat := s.unknownT.toNat + s.unknownP.toNat + s.titrantsExplicit.length

/-- `numControlVariablesQ` (EquilibriumSpecs.cpp:329-332). -/
def numControlVariablesQ (s : Specs K Pr) : Nat := s.titrantsImplicit.length

/-- `numConstraints` (EquilibriumSpecs.cpp:349-352). -/
def numConstraints (s : Specs K Pr) : Nat := s.econstraints.length + s.uconstraints.length

/-- The name of a titrant (EquilibriumSpecs.cpp:405, 410). -/
def titrantName (f : Formula) : Str := c!"[" ++ f.str ++ c!"]"

/-- `namesControlVariablesP` (EquilibriumSpecs.cpp:385-391). -/
def namesControlVariablesP (s : Specs K Pr) : List Str :=
  (if s.unknownT then [c!"T"] else []) ++ (if s.unknownP then [c!"P"] else []) ++ s.titrantsExplicit.map titrantName

/-- `namesControlVariablesQ` (EquilibriumSpecs.cpp:393-396). -/
def namesControlVariablesQ (s : Specs K Pr) : List Str := s.titrantsImplicit.map titrantName

/-- `namesControlVariables` (EquilibriumSpecs.cpp:380-383). -/
def namesControlVariables (s : Specs K Pr) : List Str := namesControlVariablesP s ++ namesControlVariablesQ s

/-- `namesConstraints` (EquilibriumSpecs.cpp:413-426). -/
def namesConstraints (s : Specs K Pr) : List Str := s.econstraints.map (·.name) ++ s.uconstraints.map (·.name)

/-- `namesParams` (EquilibriumSpecs.cpp:375-378). -/
def namesParams (s : Specs K Pr) : List Str := s.params.map (·.id)

/-- The check of `EquilibriumDims` (EquilibriumDims.cpp:27-46): true if the object can be constructed. -/
def dimsAccept (s : Specs K Pr) : Bool := numControlVariablesP s + numControlVariablesQ s == numConstraints s

/-- What constraint functions use of other classes. -/
structure Env (K Pr : Type) where
  R : K
  F : K
  ln10 : K
  log : K → K
  temperature : Pr → K
  pressure : Pr → K
  volume : Pr → K
  internalEnergy : Pr → K
  enthalpy : Pr → K
  gibbsEnergy : Pr → K
  helmholtzEnergy : Pr → K
  entropy : Pr → K
  /-- `species.props(T, P).G0`; `none` if the model throws. -/
  G0 : Species → K → K → Option K

variable [Add K] [Sub K] [Mul K] [Neg K] [Zero K]

/-- The function of an equation constraint (EquilibriumSpecs.cpp:78-148). -/
def evalE (env : Env K Pr) (props : Pr) (w : List K) : EFn K Pr → Res K
  | .volume idx => (at! w idx).bind fun x => .ok (env.volume props - x)
  | .internalEnergy idx => (at! w idx).bind fun x => .ok (env.internalEnergy props - x)
  | .enthalpy idx => (at! w idx).bind fun x => .ok (env.enthalpy props - x)
  | .gibbsEnergy idx => (at! w idx).bind fun x => .ok (env.gibbsEnergy props - x)
  | .helmholtzEnergy idx => (at! w idx).bind fun x => .ok (env.helmholtzEnergy props - x)
  | .entropy idx => (at! w idx).bind fun x => .ok (env.entropy props - x)
  | .custom fn => fn props w

/-- `convert_to_lna` (EquilibriumSpecs.cpp:196, 231, 243, 255). -/
def convert (env : Env K Pr) : Conv → K → K
  | .lnActivity, x => x
  | .fugacity, x => env.log x
  | .minusLg, x => -x * env.ln10

/-- The function of a chemical potential constraint (EquilibriumSpecs.cpp:163-166, 181-189, 268-273, 284-287). -/
def evalU (env : Env K Pr) (props : Pr) (w : List K) : UFn K Pr → Res K
  | .value idx => at! w idx
  | .activity species conv idx =>
    match env.G0 species (env.temperature props) (env.pressure props) with
    | none => .throw
    | some u0 => (at! w idx).bind fun x => .ok (u0 + env.R * env.temperature props * convert env conv x)
  | .pE idx => (at! w idx).bind fun x => .ok (0 + env.R * env.temperature props * (-x * env.ln10))
  | .Eh idx => (at! w idx).bind fun x => .ok (-env.F * x)
  | .custom fn => fn props w

/-- Calling the function of the constraint at position `i`, which must exist (EquilibriumSetup.cpp:309). An empty
`std::function` throws. -/
def evalEAt (env : Env K Pr) (s : Specs K Pr) (props : Pr) (w : List K) (i : Nat) : Res K :=
  (at! s.econstraints i).bind fun c =>
    match c.fn with
    | none => .throw
    | some fn => evalE env props w fn

/-- The same for chemical potential constraints (EquilibriumSetup.cpp:260). -/
def evalUAt (env : Env K Pr) (s : Specs K Pr) (props : Pr) (w : List K) (i : Nat) : Res K :=
  (at! s.uconstraints i).bind fun c =>
    match c.fn with
    | none => .throw
    | some fn => evalU env props w fn

/-- The loop of `evalEquationConstraints` (EquilibriumSetup.cpp:308-309). -/
def evalEquationConstraints (env : Env K Pr) (s : Specs K Pr) (props : Pr) (w : List K) : Res (List K) :=
  (List.range (numControlVariables s - s.titrantsImplicit.length)).mapM (evalEAt env s props w)

/-- The loop of `evalObjectiveGradX` (EquilibriumSetup.cpp:259-260), before the division by `RT`. -/
def evalPotentials (env : Env K Pr) (s : Specs K Pr) (props : Pr) (w : List K) : Res (List K) :=
  (List.range s.titrantsImplicit.length).mapM (evalUAt env s props w)

end Verif.EquilibriumSpecs
