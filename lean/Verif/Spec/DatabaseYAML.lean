import Verif.Model.DatabaseYAML

/-!
# Specification for C26
-/

namespace Verif.DatabaseYAML

open Chem

/-- The first species node of the document with a given name. -/
def firstNode (doc : Doc) (name : Str) : Option SpeciesNode := doc.species.find? (fun node => node.name = some name)

/-- In the document, `y` is a reactant in the formation reaction of `x`. -/
def Reactant (doc : Doc) (x y : Str) : Prop :=
  ∃ node pairs model, firstNode doc x = some node ∧ node.reaction = some (some pairs, model) ∧ y ∈ pairs.map Prod.fst

/-- The relation between species and reactants has no cycles: species can be numbered such that the reactants of a species
have smaller numbers. -/
def Acyclic (doc : Doc) : Prop := ∃ rank : Str → Nat, ∀ x y, Reactant doc x y → rank y < rank x

/-- The species has the data of the node: its formula is that of the node without a suffix as in `H2O(aq)`, and it is also the substance
if none is given. -/
def HasDataOf (node : SpeciesNode) (s : Species) : Prop :=
  node.name = some s.name ∧
  (∃ f suffix, node.formula = some f ∧ ChargeParser.splitSpeciesNameSuffix f = .ok (s.formula, suffix)) ∧
  (s.rawSubstance = if node.substance = [] then s.formula else node.substance) ∧
  (∃ t, node.aggregateState = some t ∧ s.rawState = AggregateState.parse t ∧ s.rawState ≠ .Undefined) ∧
  node.elements = some (s.elements.map fun p => (p.1.symbol, p.2)) ∧
  s.charge = node.charge ∧ s.tags = node.tags ∧
  ((node.reaction = none ∧ s.reactants = []) ∨ ∃ model, node.reaction = some (some s.reactants, model))

/-- A document without mistakes: all data are present and valid, there is either a reaction or a model, every element is
known and every reactant is a species of the document. -/
structure WellFormed (defaults : Str → Option Element) (doc : Doc) : Prop where
  elements : ∀ e ∈ doc.elements, ∃ s m, e.symbol = some s ∧ s ≠ [] ∧ e.molarMass = some m ∧ 0 ≤ m
  names : ∀ n ∈ doc.species, ∃ x, n.name = some x ∧ x ≠ []
  formulas : ∀ n ∈ doc.species, ∃ f, n.formula = some f ∧ f ≠ []
  states : ∀ n ∈ doc.species, ∃ t, n.aggregateState = some t ∧ AggregateState.parse t ≠ .Undefined
  compositions : ∀ n ∈ doc.species, ∃ l, n.elements = some l ∧ l ≠ [] ∧
    ∀ p ∈ l, (∃ e ∈ doc.elements, e.symbol = some p.1) ∨ (defaults p.1).isSome
  models : ∀ n ∈ doc.species, (n.reaction = none ∧ n.model = .valid) ∨
    (n.model = .absent ∧ ∃ l, n.reaction = some (some l, .valid) ∧ l ≠ [] ∧
      ∀ p ∈ l, ∃ m ∈ doc.species, m.name = some p.1)

end Verif.DatabaseYAML
