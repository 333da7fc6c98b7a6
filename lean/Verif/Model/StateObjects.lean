import Verif.Model.Owned
import Verif.Model.ChemicalState

/-!
# Copies of chemical states

Model of the constructors and assignments of `ChemicalState` (`/repo/Reaktoro/Core/ChemicalState.cpp` 204-219) and of
`PorousRockState` (`/repo/Reaktoro/Extensions/PorousMedia/PorousRockState.cpp` 27-81). The setters of
`ChemicalState` are those of `Verif/Model/ChemicalState.lean`; those of `PorousRockState` only throw.
-/

namespace Verif.StateObjects

open Owned ChemicalState Chem

/-- The data of a state: the species of its system, temperature, pressure and amounts. -/
structure Data where
  species : List Species
  st : St

/-- A new state (`ChemicalState.cpp` 204-206, `PorousRockState.cpp` 34-36). -/
def Data.new (species : List Species) : Data := ⟨species, initial species⟩

/-- Copy of a `ChemicalState` (`ChemicalState.cpp` 208-210). -/
def Data.copy (d : Data) : Data := d

/-- Copy of a `PorousRockState` (`PorousRockState.cpp` 38-40): the base is constructed from the system. -/
def Data.copyRock (d : Data) : Data := Data.new d.species

/-- A statement. -/
inductive Stmt where
  | new (species : List Species)
  | copy (i : Nat)
  | assign (i j : Nat)
  | call (i : Nat) (op : Op)

/-- Effect of a statement on objects that are copied by `cp`. In an assignment the argument is a copy,
whose pointer is taken over (`ChemicalState.cpp` 215-219; in `PorousRockState.cpp` 45-50 the argument is a
copy, of which the base is copied once more). A failed assertion ends the program like undefined
behaviour; exceptions are caught by the program. -/
def step (cp : Data → Data) (debug : Bool) (me : Rat) (w : World Data) : Stmt → Res (World Data)
  | .new s => .ok (w.add (Data.new s))
  | .copy i =>
    match w.get? i with
    | some d => .ok (w.add (cp d))
    | none => .ok w
  | .assign i j =>
    match w.get? j with
    | some d => .ok (w.take i (cp d).copy)
    | none => .ok w
  | .call i op =>
    match w.ptr[i]?, w.get? i with
    | some a, some d =>
      match ChemicalState.step debug me d.species d.st op with
      | (st, .returned) => .ok { w with cells := w.cells.set a { d with st := st } }
      | (st, .threw) => .ok { w with cells := w.cells.set a { d with st := st } }
      | (_, .aborted) => .ub
      | (_, .undefined) => .ub
    | _, _ => .ok w

/-- A program. -/
def run (cp : Data → Data) (debug : Bool) (me : Rat) (w : World Data) : List Stmt → Res (World Data)
  | [] => .ok w
  | x :: xs => (step cp debug me w x).bind fun w' => run cp debug me w' xs

end Verif.StateObjects
