import Verif.Model.ValueObjects

/-!
# Specification for C96: objects are values
-/

namespace Verif.ValueObjects

open Chem

/-- What a `with...` method returns, as a function of the value of the object. -/
def changed {R U : Type} (c : Class R U) (u : U) (r : R) : Res R := (c.check u).bind fun _ => c.write u r

/-- The meaning of a statement for variables that hold values, without pointers. A statement that throws changes nothing. -/
def meaning {R U : Type} (c : Class R U) (vals : List R) : Stmt R U → Res (Bool × List R)
  | .create (.ok r) => .ok (true, vals ++ [r])
  | .create .throw => .ok (false, vals)
  | .create .ub => .ub
  | .copy x => (at! vals x).bind fun v => .ok (true, vals ++ [v])
  | .assign x y => (at! vals y).bind fun v => (at! vals x).bind fun _ => .ok (true, vals.set x v)
  | .update x u => (at! vals x).bind fun v =>
    match changed c u v with
    | .ok w => .ok (true, vals ++ [w])
    | .throw => .ok (false, vals)
    | .ub => .ub

/-- The meaning of a program. -/
def meanings {R U : Type} (c : Class R U) (vals : List R) : List (Stmt R U) → Res (List Bool × List R)
  | [] => .ok ([], vals)
  | s :: ss => (meaning c vals s).bind fun r => (meanings c r.2 ss).bind fun q => .ok (r.1 :: q.1, q.2)

/-- What the objects of a memory show. -/
def Memory.shown {R : Type} (m : Memory R) : List (Option R) := m.vars.map fun a => m.heap[a]?

/-- What a species shows through its public methods. -/
structure View (M D : Type) where
  name : Str
  formula : Str
  formulaElements : List (Str × Rat)
  formulaCharge : Rat
  substance : Res Str
  elements : List (Element × Rat)
  charge : Rat
  state : Res State
  tags : List Str
  reactants : List (Str × Rat)
  model : Option M
  data : Option D

def Impl.view {M D : Type} (o : Impl M D) : View M D :=
  { name := o.getName
    formula := o.getFormula.1
    formulaElements := o.getFormula.2.1
    formulaCharge := o.getFormula.2.2
    substance := o.getSubstance
    elements := o.getElements
    charge := o.getCharge
    state := o.getAggregateState
    tags := o.getTags
    reactants := o.getReactants
    model := o.getModel
    data := o.getData }

/-- A species with a name, a substance and an aggregate state of its own. -/
def Impl.Complete {M D : Type} (o : Impl M D) : Prop := o.name ≠ [] ∧ o.substance ≠ [] ∧ ∃ st, o.state = some st ∧ st ≠ .Undefined

/-- The view after a `with...` method: exactly the named attribute is the given one. -/
def View.after {M D : Type} (v : View M D) : SpeciesWith M D → View M D
  | .name s => { v with name := s }
  | .formula s => { v with formula := s }
  | .substance s => { v with substance := .ok s }
  | .elements l => { v with elements := l, formulaElements := l.map fun p => (p.1.symbol, p.2) }
  | .charge z => { v with charge := z, formulaCharge := z }
  | .aggregateState st => { v with state := .ok st }
  | .formationReaction f => { v with reactants := f.reactants, model := f.derived }
  | .standardThermoModel m => { v with model := some m }
  | .tags l => { v with tags := l }
  | .attachedData d => { v with data := some d }

/-- The argument of a `with...` method is not empty or undefined. -/
def SpeciesWith.Proper {M D : Type} : SpeciesWith M D → Prop
  | .name s => s ≠ []
  | .substance s => s ≠ []
  | .aggregateState st => st ≠ .Undefined
  | _ => True

/-- The attributes are rejected, by the documentation of `Species::Attribs`. -/
def Attribs.Bad {M : Type} (a : Attribs M) : Prop :=
  a.name = [] ∨ a.formula = [] ∨ a.elements = [] ∨ a.state = .Undefined ∨
  (a.model = none ↔ ¬ (a.reaction.reactants ≠ [] ∧ a.reaction.hasModel = true))

/-- All species of a phase have the aggregate state of the phase, and the molar masses are those of its species. -/
def PhaseImpl.Consistent {S F : Type} {solid : S} (me : Rat) (p : PhaseImpl S F solid) : Prop :=
  (∀ s ∈ p.species, s.aggregateState = p.getAggregateState) ∧ p.molarMasses = p.species.map (Species.molarMass me)

end Verif.ValueObjects
