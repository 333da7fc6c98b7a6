import Verif.Model.Database

/-!
# Specification for C25
-/

namespace Verif.Database

open Chem

/-- The species given to the `addSpecies` calls that returned normally, since the last `clear`. -/
def accepted : List Op → List Bool → List Species → List Species
  | .addSpecies s :: ops, true :: flags, acc => accepted ops flags (acc ++ [s])
  | .clear :: ops, true :: flags, _ => accepted ops flags []
  | _ :: ops, _ :: flags, acc => accepted ops flags acc
  | _, _, acc => acc

/-- A stored species is the given one, up to exclamation marks appended to the name, none if the name is new; an aggregate state
that is neither given nor identified from the stored name is replaced by `Aqueous`. -/
def StoredAs (earlier : List Str) (given stored : Species) : Prop :=
  (∃ k, stored.name = given.name ++ List.replicate k '!') ∧
  (given.name ∉ earlier → stored.name = given.name) ∧
  stored.formula = given.formula ∧ stored.elements = given.elements ∧ stored.charge = given.charge ∧
  stored.tags = given.tags ∧ stored.reactants = given.reactants ∧
  (stored.rawState = given.rawState ∨
    (given.rawState = .Undefined ∧ AggregateState.identify stored.name = .ok .Undefined ∧ stored.rawState = .Aqueous))

end Verif.Database
