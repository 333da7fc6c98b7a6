import Verif.Model.EquilibriumSolver

/-!
# Model of `EquilibriumSolver` objects: options, overloads of `solve`, copies

One solve is in `Model/EquilibriumSolver.lean`. Here are the objects of a program that makes solvers for one chemical system, sets their
options, copies them and calls `solve` with several chemical states. The library Optima is a parameter (`Ctx.optima`): its result may depend on
the options it was given, on the specification, the factor of the barrier term and the input values (all used by the objective function), on the
problem and on the starting point. It is assumed to keep nothing else from one call to the next, and to evaluate the objective
function at least once.
-/

namespace Verif.SolverSessions

open EquilibriumSpecs Conditions Restrictions EquilibriumSolver

/-- `Optima::Options`: the members that Reaktoro writes, and the others as a list of numbers. -/
structure OptimaOptions where
  active : Bool := false
  xprefix : Str := c!"x"
  xnames : List Str := []
  others : List Rat := []
  deriving DecidableEq, Repr

/-- `GibbsHessian` (EquilibriumOptions.hpp:26-39). -/
inductive Hessian where
  | exact | exactDiagonal | approximation | approximationDiagonal
  deriving DecidableEq, Repr

/-- `EquilibriumOptions` (EquilibriumOptions.hpp:52-80); the options of the smart solver, which are not used, are left out. -/
structure Options where
  optima : OptimaOptions := {}
  epsilon : Rat := 1 / 10000000000000000
  barrier : Rat := 1
  warmstart : Bool := true
  hessian : Hessian := .approximationDiagonal
  deriving DecidableEq, Repr

/-- The members of `EquilibriumSolver::Impl` that outlive a call (EquilibriumSolver.cpp:58-88): the specification, the options, the options in
the `EquilibriumSetup` object and those in the optimiser. Problem, point and sensitivities of the optimiser are assigned in
every call before they are used (EquilibriumSolver.cpp:160, 229, 344). -/
structure Solver (Pr : Type) where
  specs : Specs Rat Pr
  options : Options
  setup : Options
  optsolver : OptimaOptions

/-- What the program has besides its objects. A calculation with sensitivities is a second function of the optimiser. `params` are the
values of the parameters among the inputs. -/
structure Ctx (Pr : Type) where
  debug : Bool
  sys : ChemicalSystem.System
  me : Rat
  ln10 : Rat
  log : Rat → Rat
  params : Specs Rat Pr → List Rat
  optima : OptimaOptions → Specs Rat Pr → Rat → List Rat → Optimizer
  optimaS : OptimaOptions → Specs Rat Pr → Rat → List Rat → Optimizer

variable {Pr : Type}

/-- The part of `setOptions` after the check (EquilibriumSolver.cpp:110-126). -/
def named (sys : ChemicalSystem.System) (specs : Specs Rat Pr) (o : OptimaOptions) : OptimaOptions :=
  if o.active then { o with xprefix := c!"n", xnames := o.xnames ++ sys.species.map (·.name) ++ namesControlVariablesQ specs } else o

/-- `setOptions` (EquilibriumSolver.cpp:99-130): the object is changed before the check. The flag is true if it throws. -/
def setOptions (x : Ctx Pr) (s : Solver Pr) (opts : Options) : Solver Pr × Bool :=
  let s := { s with options := opts }
  let s := { s with setup := s.options }
  if s.options.epsilon ≤ 0 then (s, true)
  else
    let s := { s with options := { s.options with optima := named x.sys s.specs s.options.optima } }
    ({ s with optsolver := s.options.optima }, false)

/-- The constructor with a specification (EquilibriumSolver.cpp:91-96, 366-368): `EquilibriumDims` checks the specification, then the default options
are set. `none` is an exception. -/
def construct (x : Ctx Pr) (specs : Specs Rat Pr) : Option (Solver Pr) :=
  if dimsAccept specs then
    match setOptions x ⟨specs, {}, {}, {}⟩ {} with
    | (s, false) => some s
    | (_, true) => none
  else none

/-- The arguments of the overloads of `solve`, besides the state and the sensitivities (EquilibriumSolver.hpp:58-96). -/
inductive Args where
  | state
  | restrictions (r : Restr)
  | conditions (c : Cond)
  | both (c : Cond) (r : Restr)

/-- The factor of the barrier term (EquilibriumSetup.cpp:232, 250), a part of the objective function. -/
def tau (s : Solver Pr) : Rat := s.setup.epsilon * s.setup.barrier

/-- `solve(state, conditions, restrictions)` and `solve(state, sensitivity, conditions, restrictions)` (EquilibriumSolver.cpp:309-323, 345-361):
the bounds are those of the options in the setup object (EquilibriumSetup.cpp:198, 213). -/
def solveFull (x : Ctx Pr) (s : Solver Pr) (sens : Bool) (e : EqState) (c : Cond) (r : Restr) : EquilibriumSolver.Out :=
  let opt := if sens then x.optimaS else x.optima
  EquilibriumSolver.solve x.debug (opt s.optsolver s.specs (tau s) c.values) x.sys x.me s.specs s.setup.epsilon e c r

/-- `solve(state, restrictions)` and `solve(state, sensitivity, restrictions)` (EquilibriumSolver.cpp:291-298, 333-340): conditions are made from the
temperature, pressure and amounts of the state. -/
def solveClosed (x : Ctx Pr) (s : Solver Pr) (sens : Bool) (e : EqState) (r : Restr) : EquilibriumSolver.Out :=
  let c := Conditions.initial s.specs.inputs s.specs.paramsIdxs (x.params s.specs)
  let cs := condSys x.sys x.me
  onCond e (Conditions.step x.ln10 x.log cs c (.temperature e.st.T c!"K")) fun c =>
  onCond e (Conditions.step x.ln10 x.log cs c (.pressure e.st.P c!"Pa")) fun c =>
  onCond e (Conditions.step x.ln10 x.log cs c (.startWithState e.st.n)) fun c =>
  solveFull x s sens e c r

/-- The overloads (EquilibriumSolver.cpp:284-361, 387-426); `sens` is true if there is an argument for the sensitivities. -/
def solve (x : Ctx Pr) (s : Solver Pr) (sens : Bool) (e : EqState) : Args → EquilibriumSolver.Out
  | .state => solveClosed x s sens e {}
  | .restrictions r => solveClosed x s sens e r
  | .conditions c => solveFull x s sens e c {}
  | .both c r => solveFull x s sens e c r

/-- A program: its statements name solvers and states by position. -/
inductive Stmt (Pr : Type) where
  | make (specs : Specs Rat Pr)
  | setOptions (i : Nat) (o : Options)
  | copy (i : Nat)
  | assign (i j : Nat)
  | solve (i k : Nat) (sens : Bool) (a : Args)

/-- The objects of the program. -/
structure World (Pr : Type) where
  solvers : List (Solver Pr) := []
  states : List EqState := []

/-- One statement; an object that does not exist is not a program, the statement then does nothing. A constructor that throws makes no object; a copy has
its own copy of every member (EquilibriumSolver.cpp:370-383, EquilibriumSetup.cpp:353-364). -/
def step (x : Ctx Pr) (w : World Pr) : Stmt Pr → World Pr × ChemicalState.End
  | .make specs =>
    match construct x specs with
    | some s => ({ w with solvers := w.solvers ++ [s] }, .returned)
    | none => (w, .threw)
  | .setOptions i o =>
    match w.solvers[i]? with
    | some s => ({ w with solvers := w.solvers.set i (setOptions x s o).1 }, if (setOptions x s o).2 then .threw else .returned)
    | none => (w, .returned)
  | .copy i =>
    match w.solvers[i]? with
    | some s => ({ w with solvers := w.solvers ++ [s] }, .returned)
    | none => (w, .returned)
  | .assign i j =>
    match w.solvers[j]? with
    | some s => ({ w with solvers := w.solvers.set i s }, .returned)
    | none => (w, .returned)
  | .solve i k sens a =>
    match w.solvers[i]?, w.states[k]? with
    | some s, some e => ({ w with states := w.states.set k (solve x s sens e a).1 }, (solve x s sens e a).2)
    | _, _ => (w, .returned)

/-- A program goes on after exceptions, which it catches, and ends with an aborted assertion or undefined behaviour. The result has the way every
statement ended. -/
def run (x : Ctx Pr) (w : World Pr) : List (Stmt Pr) → World Pr × List ChemicalState.End
  | [] => (w, [])
  | st :: rest =>
    match step x w st with
    | (w', .returned) => let (w'', l) := run x w' rest; (w'', .returned :: l)
    | (w', .threw) => let (w'', l) := run x w' rest; (w'', .threw :: l)
    | (w', e) => (w', [e])

end Verif.SolverSessions
