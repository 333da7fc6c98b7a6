import Verif.Model.SolverSessions

/-!
# Specification for C103

A solver is a specification and the options that the last successful `setOptions` gave it. Every overload of `solve` is the full calculation
with those options; conditions that are not given are the temperature, the pressure and the amounts of the state, restrictions that
are not given do not restrict.
-/

namespace Verif.SolverSessions.Spec

open EquilibriumSpecs Conditions Restrictions EquilibriumSolver SolverSessions

variable {Pr : Type}

/-- A solver as the user sees it. -/
structure Obj (Pr : Type) where
  specs : Specs Rat Pr
  opts : Options

/-- The options for the optimiser: with output, the variables have the names of the species and of the implicit titrants. -/
def optimaOf (sys : ChemicalSystem.System) (o : Obj Pr) : OptimaOptions :=
  if o.opts.optima.active then
    { o.opts.optima with
      xprefix := c!"n"
      xnames := o.opts.optima.xnames ++ (sys.species.map (·.name) ++ o.specs.titrantsImplicit.map fun f => c!"[" ++ f.str ++ c!"]") }
  else o.opts.optima

/-- The calculation with conditions and restrictions. -/
def full (x : Ctx Pr) (o : Obj Pr) (sens : Bool) (e : EqState) (c : Cond) (r : Restr) : EquilibriumSolver.Out :=
  EquilibriumSolver.solve x.debug ((if sens then x.optimaS else x.optima) (optimaOf x.sys o) o.specs (o.opts.epsilon * o.opts.barrier) c.values)
    x.sys x.me o.specs o.opts.epsilon e c r

/-- The conditions of a closed system in the given state, if temperature and pressure are inputs. The other inputs have their initial values. -/
def closed (x : Ctx Pr) (o : Obj Pr) (e : EqState) : Option Cond :=
  if c!"T" ∈ o.specs.inputs ∧ c!"P" ∈ o.specs.inputs ∧ e.st.n.length = x.sys.species.length then
    some { inputs := o.specs.inputs, amounts := e.st.n, components := []
           values := List.zipWith (fun name v => if name = c!"T" then e.st.T else if name = c!"P" then e.st.P else v) o.specs.inputs
             (initial o.specs.inputs o.specs.paramsIdxs (x.params o.specs)).values }
  else none

/-- The calculation with restrictions only. -/
def onlyRestrictions (x : Ctx Pr) (o : Obj Pr) (sens : Bool) (e : EqState) (r : Restr) : EquilibriumSolver.Out :=
  match closed x o e with
  | some c => full x o sens e c r
  | none => (e, .threw)

/-- Every overload. -/
def solve (x : Ctx Pr) (o : Obj Pr) (sens : Bool) (e : EqState) : Args → EquilibriumSolver.Out
  | .state => onlyRestrictions x o sens e {}
  | .restrictions r => onlyRestrictions x o sens e r
  | .conditions c => full x o sens e c {}
  | .both c r => full x o sens e c r

/-- The objects of a program as the user sees them. -/
structure World (Pr : Type) where
  solvers : List (Obj Pr) := []
  states : List EqState := []

/-- One statement. Options with an `epsilon` that is not positive are refused and nothing changes. -/
def step (x : Ctx Pr) (w : World Pr) : Stmt Pr → World Pr × ChemicalState.End
  | .make specs => if dimsAccept specs then ({ w with solvers := w.solvers ++ [⟨specs, {}⟩] }, .returned) else (w, .threw)
  | .setOptions i o =>
    match w.solvers[i]? with
    | some s => if 0 < o.epsilon then ({ w with solvers := w.solvers.set i { s with opts := o } }, .returned) else (w, .threw)
    | none => (w, .returned)
  | .copy i =>
    match w.solvers[i]? with
    | some s => ({ w with solvers := w.solvers ++ [s] }, .returned)
    | none => (w, .returned)
  | .assign i j =>
    match w.solvers[j]? with
    | some s => ({ w with solvers := w.solvers.set i s }, .returned)
    | none => (w, .returned)
  | .solve i k sens a =>
    match w.solvers[i]?, w.states[k]? with
    | some s, some e => ({ w with states := w.states.set k (solve x s sens e a).1 }, (solve x s sens e a).2)
    | _, _ => (w, .returned)

/-- A program. -/
def run (x : Ctx Pr) (w : World Pr) : List (Stmt Pr) → World Pr × List ChemicalState.End
  | [] => (w, [])
  | st :: rest =>
    match step x w st with
    | (w', .returned) => let (w'', l) := run x w' rest; (w'', .returned :: l)
    | (w', .threw) => let (w'', l) := run x w' rest; (w'', .threw :: l)
    | (w', e) => (w', [e])

/-- What a user observes: the states and how the statements ended. -/
def Same (r : SolverSessions.World Pr × List ChemicalState.End) (r' : World Pr × List ChemicalState.End) : Prop :=
  r.1.states = r'.1.states ∧ r.2 = r'.2 ∧ r.1.solvers.length = r'.1.solvers.length

/-- A statement with a specification whose inputs have different names (which is what the methods of `EquilibriumSpecs` make). -/
def Distinct : Stmt Pr → Prop
  | .make specs => specs.inputs.Nodup
  | _ => True

/-- A statement that does not give options that are refused. -/
def Accepted : Stmt Pr → Prop
  | .setOptions _ o => 0 < o.epsilon
  | _ => True

/-- The statement with another value of the options `warmstart` and `hessian`. -/
def withFlags (warm : Bool) (h : Hessian) : Stmt Pr → Stmt Pr
  | .setOptions i o => .setOptions i { o with warmstart := warm, hessian := h }
  | s => s

/-- Two specifications that have the same number of implicit titrants also have the same number of other unknowns. -/
def Compatible (a b : Specs Rat Pr) : Prop :=
  a.titrantsImplicit.length = b.titrantsImplicit.length → numControlVariablesP a = numControlVariablesP b

/-- The starting point has an entry for every unknown of the specification. -/
def Fits (sys : ChemicalSystem.System) (s : Specs Rat Pr) (o : OptState) : Prop :=
  o.x.length = sys.species.length + s.titrantsImplicit.length ∧ o.p.length = numControlVariablesP s

/-- An optimiser returns as many numbers as it was given. -/
def Keeps (opt : Optimizer) : Prop := ∀ p o, (opt p o).state.x.length = o.x.length ∧ (opt p o).state.p.length = o.p.length

/-- The conditions of a statement have no amounts or an amount for every species. -/
def Sized (sys : ChemicalSystem.System) : Stmt Pr → Prop
  | .solve _ _ _ (.conditions c) => c.amounts = [] ∨ c.amounts.length = sys.species.length
  | .solve _ _ _ (.both c _) => c.amounts = [] ∨ c.amounts.length = sys.species.length
  | _ => True

end Verif.SolverSessions.Spec
