import Verif.Model.EquilibriumSetup
import Verif.Model.EquilibriumProps
import Verif.Model.Restrictions
import Mathlib.Data.Matrix.Mul

/-!
# Model of `Reaktoro/Equilibrium/EquilibriumSolver.cpp`

The optimiser (the library Optima) is a parameter: any function from the optimisation problem and the starting point to the point it ends with,
whether it succeeded, and the values of `p` at which it last evaluated the objective function. Numbers are rational.
-/

namespace Verif.EquilibriumSolver

open EquilibriumSpecs Conditions Restrictions EquilibriumSetup

/-- The linear constraints and bounds of the optimisation problem (EquilibriumSolver.cpp:149-223). -/
structure Problem where
  Aex : List (List Rat)
  Aep : List (List Rat)
  be : List Rat
  xlower : List (Option Rat)
  xupper : List (Option Rat)
  deriving DecidableEq, Repr

/-- The members of `Optima::State` used here. -/
structure OptState where
  x : List Rat
  p : List Rat
  deriving DecidableEq, Repr

/-- What an optimiser leaves behind. -/
structure OptResult where
  state : OptState
  succeeded : Bool
  /-- The control variables of the last evaluation of the chemical properties. -/
  pEval : List Rat
  deriving DecidableEq, Repr

abbrev Optimizer := Problem → OptState → OptResult

/-- A `ChemicalState` with its `Equilibrium` part (ChemicalState.cpp:387-430). -/
structure EqState where
  st : ChemicalState.St
  inputs : List Str := []
  w : List Rat := []
  b : List Rat := []
  q : List Rat := []
  opt : OptState := ⟨[], []⟩
  deriving DecidableEq, Repr

abbrev Out := EqState × ChemicalState.End

/-- Continue with the result of a function that does not change the state. -/
def andThen {α : Type} (s : EqState) (r : Res α) (f : α → Out) : Out :=
  match r with
  | .ok a => f a
  | .throw => (s, .threw)
  | .ub => (s, .undefined)

/-- Continue after a call on the chemical state. -/
def onState (s : EqState) (o : ChemicalState.Out) (f : EqState → Out) : Out :=
  match o with
  | (st, .returned) => f { s with st := st }
  | (st, e) => ({ s with st := st }, e)

/-- What the conditions and restrictions use of a chemical system. -/
def condSys (sys : ChemicalSystem.System) (me : Rat) : Sys := ⟨sys.species, sys.elements.length, sys.formulaMatrix, me⟩

/-- `updateInitialState` (EquilibriumSolver.cpp:133-145). `maxCoeff` of an empty array is undefined. -/
def updateInitialState (debug : Bool) (s : EqState) (c : Cond) (f : EqState → Out) : Out :=
  if s.st.n = [] then (s, .undefined)
  else
    let uninitialized := s.st.n.all (· ≤ 0) && s.st.n.any (· = 0)
    let has_n0 := c.amounts.length > 0
    if uninitialized && !has_n0 then (s, .threw)
    else if uninitialized && has_n0 then onState s (ChemicalState.setAmounts debug s.st c.amounts) f
    else f s

/-- `updateOptProblem` (EquilibriumSolver.cpp:148-224). The restrictions are given with the orders in which the containers are traversed. -/
def updateOptProblem {Pr : Type} (sys : ChemicalSystem.System) (me : Rat) (s : Specs Rat Pr) (n0 : List Rat) (c : Cond) (r : Restr) (eps : Rat) : Res Problem :=
  (matrixAex sys s).bind fun Aex =>
  (matrixAep sys s).bind fun Aep =>
  (initialComponentAmounts (condSys sys me) c).bind fun be =>
  (lowerBounds r.cannotDecreaseBelow r.cannotDecrease n0 sys.species.length s.titrantsImplicit.length eps).bind fun lower =>
  (upperBounds r.cannotIncreaseAbove r.cannotIncrease n0 sys.species.length s.titrantsImplicit.length eps).bind fun upper =>
  .ok ⟨Aex, Aep, be, lower, upper⟩

/-- `updateOptState` (EquilibriumSolver.cpp:227-235). -/
def updateOptState {Pr : Type} (sys : ChemicalSystem.System) (s : Specs Rat Pr) (e : EqState) : OptState :=
  let nx := sys.species.length + s.titrantsImplicit.length
  let o := if e.opt.x.length ≠ nx then ⟨List.replicate nx 0, List.replicate (numControlVariablesP s) 0⟩ else e.opt
  { o with x := e.st.n ++ o.x.drop sys.species.length }

/-- `updateChemicalState` (EquilibriumSolver.cpp:238-249) and `setOptimaState` (ChemicalState.cpp:470-475). -/
def updateChemicalState {Pr : Type} (debug : Bool) (sys : ChemicalSystem.System) (s : Specs Rat Pr) (e : EqState) (c : Cond) (be : List Rat) (r : OptResult) : Out :=
  andThen e (EquilibriumProps.getter s c!"T" r.pEval c.values) fun T =>
  andThen e (EquilibriumProps.getter s c!"P" r.pEval c.values) fun P =>
  onState e (ChemicalState.setTemperature e.st T) fun e =>
  onState e (ChemicalState.setPressure e.st P) fun e =>
  onState e (ChemicalState.setAmounts debug e.st (r.state.x.take sys.species.length)) fun e =>
  ({ e with inputs := c.inputs, w := c.values, b := be, opt := r.state, q := r.state.x.drop sys.species.length }, .returned)

/-- `solve(state, conditions, restrictions)` (EquilibriumSolver.cpp:309-323). -/
def solve {Pr : Type} (debug : Bool) (opt : Optimizer) (sys : ChemicalSystem.System) (me : Rat) (s : Specs Rat Pr) (eps : Rat) (e : EqState) (c : Cond) (r : Restr) : Out :=
  updateInitialState debug e c fun e =>
  andThen e (updateOptProblem sys me s e.st.n c r eps) fun problem =>
  updateChemicalState debug sys s e c problem.be (opt problem (updateOptState sys s e))

/-- Continue after a call on the conditions. -/
def onCond (s : EqState) (o : Conditions.Out) (f : Cond → Out) : Out :=
  match o with
  | (c, .returned) => f c
  | (_, .threw) => (s, .threw)
  | (_, .undefined) => (s, .undefined)

/-- `solve(state0, restrictions)` (EquilibriumSolver.cpp:288-296): conditions are made from the temperature, pressure and amounts of the
state. `params` are the values of the parameters when the conditions are made. -/
def solveState {Pr : Type} (debug : Bool) (opt : Optimizer) (sys : ChemicalSystem.System) (me : Rat) (s : Specs Rat Pr) (params : List Rat) (ln10 : Rat) (log : Rat → Rat) (eps : Rat)
    (e : EqState) (r : Restr) : Out :=
  let c := Conditions.initial s.inputs s.paramsIdxs params
  let cs := condSys sys me
  onCond e (Conditions.step ln10 log cs c (.temperature e.st.T c!"K")) fun c =>
  onCond e (Conditions.step ln10 log cs c (.pressure e.st.P c!"Pa")) fun c =>
  onCond e (Conditions.step ln10 log cs c (.startWithState e.st.n)) fun c =>
  solve debug opt sys me s eps e c r

/-! ## Sensitivities -/

section
open Matrix
variable {Nn Nq Np Nw Nb Nu : Nat} {K : Type} [Field K]

/-- The derivatives in `EquilibriumSensitivity` (EquilibriumSensitivity.cpp:27-57). -/
structure Sens (Nn Nq Np Nw Nb Nu : Nat) (K : Type) where
  dndw : Matrix (Fin Nn) (Fin Nw) K
  dqdw : Matrix (Fin Nq) (Fin Nw) K
  dpdw : Matrix (Fin Np) (Fin Nw) K
  dndb : Matrix (Fin Nn) (Fin Nb) K
  dqdb : Matrix (Fin Nq) (Fin Nb) K
  dpdb : Matrix (Fin Np) (Fin Nb) K
  dudw : Matrix (Fin Nu) (Fin Nw) K
  dudb : Matrix (Fin Nu) (Fin Nb) K

/-- `updateEquilibriumSensitivity` (EquilibriumSolver.cpp:252-283): the derivatives of the optimiser's variables `x = (n, q)` and `p` with
respect to `c = (w, b)` are cut into blocks and combined with those of the chemical properties. -/
def sensitivity (xc : Matrix (Fin (Nn + Nq)) (Fin (Nw + Nb)) K) (pc : Matrix (Fin Np) (Fin (Nw + Nb)) K)
    (dudn : Matrix (Fin Nu) (Fin Nn) K) (dudp : Matrix (Fin Nu) (Fin Np) K) (dudw : Matrix (Fin Nu) (Fin Nw) K) : Sens Nn Nq Np Nw Nb Nu K :=
  let dndw := xc.submatrix (Fin.castAdd Nq) (Fin.castAdd Nb)
  let dqdw := xc.submatrix (Fin.natAdd Nn) (Fin.castAdd Nb)
  let dpdw := pc.submatrix id (Fin.castAdd Nb)
  let dndb := xc.submatrix (Fin.castAdd Nq) (Fin.natAdd Nw)
  let dqdb := xc.submatrix (Fin.natAdd Nn) (Fin.natAdd Nw)
  let dpdb := pc.submatrix id (Fin.natAdd Nw)
  ⟨dndw, dqdw, dpdw, dndb, dqdb, dpdb, dudw + dudn * dndw + dudp * dpdw, dudn * dndb + dudp * dpdb⟩

/-- The matrix `bec` (EquilibriumSolver.cpp:222-223). -/
def bec : Matrix (Fin Nb) (Fin (Nw + Nb)) K := fun i j => if j = Fin.natAdd Nw i then 1 else 0

/-- The getters by input name, `dndw(wid)`, `dpdw(wid)` and `dqdw(wid)` (EquilibriumSensitivity.cpp:118-122, 142-146, 166-170): there is no
check of the index. -/
def columnOf {R : Nat} (inputs : List Str) (M : Matrix (Fin R) (Fin Nw) K) (name : Str) : Res (Fin R → K) :=
  if h : EquilibriumProps.index inputs name < Nw then .ok (fun i => M i ⟨_, h⟩) else .ub

/-- The setters of the sensitivities (EquilibriumSensitivity.cpp:134-140 and the like) on matrices given by rows, for `rows` and `cols` as
made by `initialize`. -/
def setMatrix (rows cols : Nat) (data : List (List K)) : Res (List (List K)) :=
  if data.length ≠ rows then .throw else if ∃ r ∈ data, r.length ≠ cols then .throw else .ok data

end

end Verif.EquilibriumSolver
