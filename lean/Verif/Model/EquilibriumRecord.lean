import Verif.Model.Owned

/-!
# The record of an equilibrium calculation

Model of `ChemicalState::Equilibrium` (`/repo/Reaktoro/Core/ChemicalState.cpp` 380-603). An object holds a
pointer to its data; the heap is a list of data and the objects are the list of their addresses. Of
`Optima::State` only the members used here are kept: `x`, `p`, `ye` and `s`.
-/

namespace Verif.EquilibriumRecord

open Owned

/-- The members of `Optima::State` that are used. -/
structure Opt where
  x : List Rat
  p : List Rat
  ye : List Rat
  s : List Rat
deriving DecidableEq

/-- `ChemicalState::Equilibrium::Impl` (`ChemicalState.cpp` 387-426). -/
structure Data where
  Nn : Nat
  Nb : Nat
  inputs : List String
  w : List Rat
  b : List Rat
  q : List Rat
  opt : Opt
  ips : List Nat
  kp : Nat
  isue : List Nat
  isus : List Nat
deriving DecidableEq

/-- `Equilibrium(system)` (`ChemicalState.cpp` 423-430), for the numbers of species and elements. -/
def Data.new (species elements : Nat) : Data :=
  ⟨species, elements + 1, [], [], [], [], ⟨[], [], [], []⟩, [], 0, [], []⟩

/-- The setters. -/
inductive Setter where
  | inputNames (names : List String)
  | inputValues (w : List Rat)
  | initialComponentAmounts (b : List Rat)
  | controlVariablesP (p : List Rat)
  | controlVariablesQ (q : List Rat)
  | optimaState (state : Opt)
  | primarySecondary (ips : List Nat) (kp : Nat)
  | strictlyUnstableElements (isue : List Nat)
  | strictlyUnstableSpecies (isus : List Nat)

/-- The setters (`ChemicalState.cpp` 445-491). The tail of a negative number of entries, in
`setOptimaState`, is undefined; the state has already been stored then. -/
def Data.set (d : Data) : Setter → Res Data
  | .inputNames names => .ok { d with inputs := names }
  | .inputValues w => .ok { d with w := w }
  | .initialComponentAmounts b => .ok { d with b := b }
  | .controlVariablesP p => .ok { d with opt := { d.opt with p := p } }
  | .controlVariablesQ q => .ok { d with q := q }
  | .optimaState state =>
    if state.x.length < d.Nn then .ub
    else .ok { d with opt := state, q := state.x.drop d.Nn }
  | .primarySecondary ips kp => .ok { d with ips := ips, kp := kp }
  | .strictlyUnstableElements isue => .ok { d with isue := isue }
  | .strictlyUnstableSpecies isus => .ok { d with isus := isus }

/-- `head(n)` of a vector; undefined when there are fewer entries. -/
def head {α : Type} (v : List α) (n : Nat) : Res (List α) := if v.length < n then .ub else .ok (v.take n)

/-- `tail(n)` of a vector; undefined when there are fewer entries. -/
def tail {α : Type} (v : List α) (n : Nat) : Res (List α) := if v.length < n then .ub else .ok (v.drop (v.length - n))

/-- `numPrimarySpecies` (`ChemicalState.cpp` 493-496). -/
def Data.numPrimary (d : Data) : Nat := d.kp

/-- `numSecondarySpecies` (`ChemicalState.cpp` 498-501): a difference of unsigned numbers. -/
def Data.numSecondary (d : Data) : Nat := (d.ips.length + (2 ^ 64 - d.kp % 2 ^ 64)) % 2 ^ 64

/-- `indicesPrimarySpecies` (`ChemicalState.cpp` 503-506). -/
def Data.primary (d : Data) : Res (List Nat) := head d.ips d.numPrimary

/-- `indicesSecondarySpecies` (`ChemicalState.cpp` 508-511). -/
def Data.secondary (d : Data) : Res (List Nat) := tail d.ips d.numSecondary

/-- `elementChemicalPotentials` (`ChemicalState.cpp` 523-528). -/
def Data.potentials (d : Data) : Res (List Rat) := if d.opt.ye.length ≠ 0 then head d.opt.ye d.Nb else .ok d.opt.ye

/-- `speciesStabilities` (`ChemicalState.cpp` 530-535). -/
def Data.stabilities (d : Data) : Res (List Rat) := if d.opt.s.length ≠ 0 then head d.opt.s d.Nn else .ok d.opt.s

/-- A statement of a program that uses such objects. -/
inductive Op where
  | new (species elements : Nat)
  | copy (i : Nat)
  | assign (i j : Nat)
  | set (i : Nat) (v : Setter)

/-- Effect of a statement: constructor (428-430), copy constructor (432-434), assignment (439-443, where the
argument is a copy whose pointer is taken over), setters. Statements about objects that do not exist are
not programs and do nothing. -/
def step (w : World Data) : Op → Res (World Data)
  | .new s e => .ok (w.add (Data.new s e))
  | .copy i =>
    match w.get? i with
    | some d => .ok (w.add d)
    | none => .ok w
  | .assign i j =>
    match w.get? j with
    | some d => .ok (w.take i d)
    | none => .ok w
  | .set i v =>
    match w.ptr[i]?, w.get? i with
    | some a, some d => (d.set v).bind fun d' => .ok { w with cells := w.cells.set a d' }
    | _, _ => .ok w

/-- A program. -/
def run (w : World Data) : List Op → Res (World Data)
  | [] => .ok w
  | op :: ops => (step w op).bind fun w' => run w' ops

end Verif.EquilibriumRecord
