import Verif.Model.EquilibriumSolver

/-!
# Model of `Reaktoro/Equilibrium/EquilibriumPredictor.cpp`
-/

namespace Verif.EquilibriumPredictor

open Matrix EquilibriumSpecs EquilibriumSolver

variable {Nn Nq Np Nw Nb Nu : Nat}

/-- The reference state (EquilibriumPredictor.cpp:55-62). -/
structure Ref (Nn Nq Np Nw Nb Nu : Nat) where
  inputs : List Str
  n0 : Fin Nn → Rat
  p0 : Fin Np → Rat
  q0 : Fin Nq → Rat
  w0 : Fin Nw → Rat
  b0 : Fin Nb → Rat
  u0 : Fin Nu → Rat

/-- The state that is predicted: a chemical state, its properties, and its record of the equilibrium calculation. -/
structure State (Nn Nq Np Nw Nb Nu : Nat) where
  st : ChemicalState.St
  u : Fin Nu → Rat
  inputs : List Str
  w : Fin Nw → Rat
  b : Fin Nb → Rat
  p : Fin Np → Rat
  q : Fin Nq → Rat

/-- `getTemperatureFn` (EquilibriumPredictor.cpp:33-39). -/
def getT {α : Type} (inputs : List Str) (p w : List α) : Res α :=
  let idxT := EquilibriumProps.index inputs c!"T"
  if idxT < inputs.length then at! w idxT else at! p 0

/-- `getPressureFn` (EquilibriumPredictor.cpp:42-51). -/
def getP {α : Type} (inputs : List Str) (p w : List α) : Res α :=
  let idxP := EquilibriumProps.index inputs c!"P"
  if idxP < inputs.length then at! w idxP
  else
    let idxT := EquilibriumProps.index inputs c!"T"
    if idxT < inputs.length then at! p 0 else at! p 1

/-- The constructor (EquilibriumPredictor.cpp:76-89) throws if the state was not made by a solver. -/
def construct (r : Ref Nn Nq Np Nw Nb Nu) : Res (Ref Nn Nq Np Nw Nb Nu) := if r.inputs.isEmpty then .throw else .ok r

/-- The predicted values (EquilibriumPredictor.cpp:107-113), of any kind of numbers. -/
def predicted {K : Type} [NonUnitalNonAssocRing K] (N : Nat) (v0 : Fin N → K) (dvdw : Matrix (Fin N) (Fin Nw) K) (dvdb : Matrix (Fin N) (Fin Nb) K) (w0 w : Fin Nw → K)
    (b0 b : Fin Nb → K) : Fin N → K := v0 + dvdw *ᵥ (w - w0) + dvdb *ᵥ (b - b0)

/-- `predict` (EquilibriumPredictor.cpp:92-124). -/
def predict (debug : Bool) (r : Ref Nn Nq Np Nw Nb Nu) (s : Sens Nn Nq Np Nw Nb Nu Rat) (x : State Nn Nq Np Nw Nb Nu) (w : Fin Nw → Rat) (b : Fin Nb → Rat) :
    State Nn Nq Np Nw Nb Nu × ChemicalState.End :=
  let n := predicted Nn r.n0 s.dndw s.dndb r.w0 w r.b0 b
  let p := predicted Np r.p0 s.dpdw s.dpdb r.w0 w r.b0 b
  let q := predicted Nq r.q0 s.dqdw s.dqdb r.w0 w r.b0 b
  let u := predicted Nu r.u0 s.dudw s.dudb r.w0 w r.b0 b
  match getT r.inputs (List.ofFn p) (List.ofFn w), getP r.inputs (List.ofFn p) (List.ofFn w) with
  | .ok T, .ok P =>
    match ChemicalState.setTemperature x.st T with
    | (st1, .returned) =>
      match ChemicalState.setPressure st1 P with
      | (st2, .returned) =>
        match ChemicalState.setAmounts debug st2 (List.ofFn n) with
        | (st3, .returned) => (⟨st3, u, r.inputs, r.w0, r.b0, p, q⟩, .returned)
        | (st3, e) => ({ x with st := st3 }, e)
      | (st2, e) => ({ x with st := st2 }, e)
    | (st1, e) => ({ x with st := st1 }, e)
  | _, _ => (x, .undefined)

end Verif.EquilibriumPredictor
