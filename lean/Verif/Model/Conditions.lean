import Verif.Model.Chem
import Verif.Model.Units
import Verif.Model.ChemicalSystem
import Verif.Model.ChemicalState

/-!
# Model of `Reaktoro/Equilibrium/EquilibriumConditions.cpp` and `Reaktoro/Core/Utils.cpp`

Values are rational numbers; the natural logarithm and the constant `ln10` are parameters. A specification is represented by its
list of input names, the positions of the parameters among them and the current values of the parameters. Unit conversion is the
model of `Units.cpp`.
-/

namespace Verif.Conditions

open Chem

/-- What the conditions use of the chemical system: species, number of elements, formula matrix, molar mass of the electron. -/
structure Sys where
  species : List Species
  numElements : Nat
  formulaMatrix : List (List Rat)
  me : Rat

/-- The members of `EquilibriumConditions` (EquilibriumConditions.hpp:216-231). -/
structure Cond where
  inputs : List Str
  values : List Rat
  amounts : List Rat := []
  components : List Rat := []
  deriving DecidableEq, Repr

/-- Ways a call ends: it returns, throws, or its behaviour is undefined. -/
inductive End where
  | returned | threw | undefined
  deriving DecidableEq, Repr

abbrev Out := Cond × End

/-- Continue with the result of a function that does not change the conditions. -/
def andThen {α : Type} (c : Cond) (r : Res α) (f : α → Out) : Out :=
  match r with
  | .ok a => f a
  | .throw => (c, .threw)
  | .ub => (c, .undefined)

/-- `m_inputs_values(specs.indicesParams()) = VectorXr(specs.params())` (EquilibriumConditions.cpp:52). -/
def assignParams : List Rat → List Nat → List Rat → List Rat
  | values, i :: is, v :: vs => assignParams (values.set i v) is vs
  | values, _, _ => values

/-- The constructor (EquilibriumConditions.cpp:45-53). -/
def initial (inputs : List Str) (idxParams : List Nat) (params : List Rat) : Cond :=
  { inputs, values := assignParams (List.replicate inputs.length 0) idxParams params }

/-- `index(m_inputs, name)` (Algorithms.hpp:47-51). -/
def index (inputs : List Str) (name : Str) : Nat := indexfn inputs (fun x => x = name)

/-- `m_inputs_values[idx] = value`. -/
def assign (c : Cond) (idx : Nat) (value : Rat) : Out :=
  if idx < c.values.length then ({ c with values := c.values.set idx value }, .returned) else (c, .undefined)

/-- The body common to the setters: check that the input is registered (EquilibriumConditions.cpp:36-41), convert the value, find
the input and set it. -/
def setInput (c : Cond) (name : Str) (convert : Res Rat) : Out :=
  if contains c.inputs name then andThen c convert fun v => assign c (index c.inputs name) v else (c, .threw)

/-- `detail::computeSpeciesAmount` (Utils.cpp:27-39). -/
def computeSpeciesAmount (sys : Sys) (i : Nat) (value : Rat) (unit : Str) : Res Rat :=
  if unit = c!"mol" then .ok value
  else (Units.convertible unit c!"kg").bind fun b =>
    if b then (at! sys.species i).bind fun s => (Units.convert value unit c!"kg").bind fun v => .ok (v / s.molarMass sys.me)
    else Units.convert value unit c!"mol"

/-- `resize(size)` of an array: nothing happens if it has that size; otherwise the entries are default constructed (autodiff
initialises numbers with zero). -/
def resize (l : List Rat) (size : Nat) : List Rat := if l.length = size then l else List.replicate size 0

/-- `startWith(ispecies, value, unit)` (EquilibriumConditions.cpp:125-133). -/
def startWithIndex (sys : Sys) (c : Cond) (i : Nat) (value : Rat) (unit : Str) : Out :=
  if i ≥ sys.species.length then (c, .threw)
  else andThen c (computeSpeciesAmount sys i value unit) fun amount =>
    ({ c with amounts := (resize c.amounts sys.species.length).set i amount, components := [] }, .returned)

/-- `startWith(species, value, unit)` (EquilibriumConditions.cpp:119-123). -/
def startWithName (sys : Sys) (c : Cond) (name : Str) (value : Rat) (unit : Str) : Out :=
  andThen c (ChemicalState.index sys.species name) fun i => startWithIndex sys c i value unit

/-- `startWith(state)` (EquilibriumConditions.cpp:135-142); the state is given by its amounts. -/
def startWithState (sys : Sys) (c : Cond) (n : List Rat) : Out :=
  if n.length ≠ sys.species.length then (c, .threw) else ({ c with amounts := n, components := [] }, .returned)

/-- `startWithComponentAmounts(b)` (EquilibriumConditions.cpp:144-150). -/
def startWithComponents (sys : Sys) (c : Cond) (b : List Rat) : Out :=
  if b.length ≠ sys.numElements + 1 then (c, .threw) else ({ c with amounts := [], components := b }, .returned)

/-- The calls on `EquilibriumConditions` that change it. -/
inductive Call where
  | temperature (value : Rat) (unit : Str)
  | pressure (value : Rat) (unit : Str)
  | volume (value : Rat) (unit : Str)
  | internalEnergy (value : Rat) (unit : Str)
  | enthalpy (value : Rat) (unit : Str)
  | gibbsEnergy (value : Rat) (unit : Str)
  | helmholtzEnergy (value : Rat) (unit : Str)
  | entropy (value : Rat) (unit : Str)
  | chemicalPotential (substance : Str) (value : Rat) (unit : Str)
  | lnActivity (species : Str) (value : Rat)
  | lgActivity (species : Str) (value : Rat)
  | activity (species : Str) (value : Rat)
  | fugacity (gas : Str) (value : Rat) (unit : Str)
  | pH (value : Rat)
  | pMg (value : Rat)
  | pE (value : Rat)
  | Eh (value : Rat) (unit : Str)
  | set (input : Str) (value : Rat)
  | startWithIndex (i : Nat) (value : Rat) (unit : Str)
  | startWithName (name : Str) (value : Rat) (unit : Str)
  | startWithState (n : List Rat)
  | startWithComponents (b : List Rat)
  deriving DecidableEq, Repr

/-- The calls, with the names of the inputs and the units (EquilibriumConditions.cpp:55-228). The unit given to `Eh` is not used
(EquilibriumConditions.cpp:215-220). -/
def step (ln10 : Rat) (log : Rat → Rat) (sys : Sys) (c : Cond) : Call → Out
  | .temperature v u => setInput c c!"T" (Units.convert v u c!"K")
  | .pressure v u => setInput c c!"P" (Units.convert v u c!"Pa")
  | .volume v u => setInput c c!"V" (Units.convert v u c!"m3")
  | .internalEnergy v u => setInput c c!"U" (Units.convert v u c!"J")
  | .enthalpy v u => setInput c c!"H" (Units.convert v u c!"J")
  | .gibbsEnergy v u => setInput c c!"G" (Units.convert v u c!"J")
  | .helmholtzEnergy v u => setInput c c!"A" (Units.convert v u c!"J")
  | .entropy v u => setInput c c!"S" (Units.convert v u c!"J/K")
  | .chemicalPotential s v u => setInput c (c!"u[" ++ s ++ c!"]") (Units.convert v u c!"J/mol")
  | .lnActivity s v => setInput c (c!"lnActivity[" ++ s ++ c!"]") (.ok v)
  | .lgActivity s v => setInput c (c!"lnActivity[" ++ s ++ c!"]") (.ok (v * ln10))
  | .activity s v => setInput c (c!"lnActivity[" ++ s ++ c!"]") (.ok (log v))
  | .fugacity g v u => setInput c (c!"f[" ++ g ++ c!"]") (Units.convert v u c!"bar")
  | .pH v => setInput c c!"pH" (.ok v)
  | .pMg v => setInput c c!"pMg" (.ok v)
  | .pE v => setInput c c!"pE" (.ok v)
  | .Eh v _ => setInput c c!"Eh" (.ok v)
  | .set name v => if index c.inputs name ≥ c.inputs.length then (c, .threw) else assign c (index c.inputs name) v
  | .startWithIndex i v u => startWithIndex sys c i v u
  | .startWithName s v u => startWithName sys c s v u
  | .startWithState n => startWithState sys c n
  | .startWithComponents b => startWithComponents sys c b

/-- A sequence of calls, continued after exceptions and ended by undefined behaviour. -/
def run (ln10 : Rat) (log : Rat → Rat) (sys : Sys) (c : Cond) : List Call → Out
  | [] => (c, .returned)
  | call :: calls =>
    match step ln10 log sys c call with
    | (c', .undefined) => (c', .undefined)
    | (c', _) => run ln10 log sys c' calls

/-- `initialComponentAmounts()` (EquilibriumConditions.cpp:235-246). -/
def initialComponentAmounts (sys : Sys) (c : Cond) : Res (List Rat) :=
  if c.components.length ≠ 0 then .ok c.components
  else if c.amounts.length = 0 then .throw
  else .ok (ChemicalSystem.mulVec sys.formulaMatrix c.amounts)

end Verif.Conditions
