import Verif.Model.Chem
import Verif.Model.Database
import Verif.Model.ValueObjects

/-!
# Model of `Reaktoro/Core/Support/DatabaseParserYAML.cpp`

A document is given by its element and species nodes. The values of the nodes are taken as already read: the texts
`Elements` and `Reactants` are lists of names and numbers (`parseNumberStringPairs`), the thermodynamic models are only
absent, valid or invalid.
-/

namespace Verif.DatabaseYAML

open Chem

/-- A node `StandardThermoModel` or `ReactionThermoModel`. -/
inductive ModelNode where
  | absent | valid | invalid
  deriving DecidableEq, Repr

/-- A node in `Elements`. -/
structure ElementNode where
  symbol : Option Str
  molarMass : Option Rat
  name : Str := []
  tags : List Str := []
  deriving DecidableEq, Repr

/-- A node in `Species`; `reaction` holds the children `Reactants` and `ReactionThermoModel` of `FormationReaction`. An absent substance
reads as the empty text. -/
structure SpeciesNode where
  name : Option Str
  formula : Option Str
  aggregateState : Option Str
  elements : Option (List (Str × Rat))
  reaction : Option (Option (List (Str × Rat)) × ModelNode)
  model : ModelNode
  charge : Rat := 0
  tags : List Str := []
  substance : Str := []
  deriving DecidableEq, Repr

/-- The document. -/
structure Doc where
  elements : List ElementNode
  species : List SpeciesNode

/-- The two lists of `DatabaseParserYAML::Impl` (DatabaseParserYAML.cpp:36-39). -/
structure St where
  species : List Species := []
  elements : List Element := []

/-- `getElementNode` (DatabaseParserYAML.cpp:60-68); `at` throws if there is no symbol. -/
def getElementNode : List ElementNode → Str → Res (Option ElementNode)
  | [], _ => .ok none
  | node :: nodes, symbol =>
    match node.symbol with
    | none => .throw
    | some s => if s = symbol then .ok (some node) else getElementNode nodes symbol

/-- `getSpeciesNode` (DatabaseParserYAML.cpp:71-79); `at` throws if there is no name. -/
def getSpeciesNode : List SpeciesNode → Str → Res (Option SpeciesNode)
  | [], _ => .ok none
  | node :: nodes, name =>
    match node.name with
    | none => .throw
    | some s => if s = name then .ok (some node) else getSpeciesNode nodes name

/-- `addElement(node)` (DatabaseParserYAML.cpp:93-104) with the checks of the constructor of `Element` (Element.cpp:61-71). -/
def addElementNode (st : St) (node : ElementNode) : Res (St × Element) :=
  match node.symbol, node.molarMass with
  | some symbol, some mass =>
    if symbol = [] then .throw
    else if mass < 0 then .throw
    else
      let e : Element := ⟨symbol, mass, if node.name = [] then symbol else node.name, node.tags⟩
      .ok ({ st with elements := st.elements ++ [e] }, e)
  | _, _ => .throw

/-- `addElement(symbol)` (DatabaseParserYAML.cpp:82-90); `defaults` is `Elements::withSymbol`. -/
def addElementSymbol (defaults : Str → Option Element) (doc : Doc) (st : St) (symbol : Str) : Res (St × Element) :=
  (getElementNode doc.elements symbol).bind fun node =>
  match node with
  | some node => addElementNode st node
  | none =>
    match defaults symbol with
    | some e => .ok ({ st with elements := st.elements ++ [e] }, e)
    | none => .throw

/-- `createElementalComposition` (DatabaseParserYAML.cpp:148-166). -/
def createElementalComposition (defaults : Str → Option Element) (doc : Doc) :
    St → List (Str × Rat) → Res (St × List (Element × Rat))
  | st, [] => .ok (st, [])
  | st, (symbol, coeff) :: rest =>
    match st.elements.find? (fun e => e.symbol = symbol) with
    | some e => (createElementalComposition defaults doc st rest).bind fun r => .ok (r.1, (e, coeff) :: r.2)
    | none =>
      (addElementSymbol defaults doc st symbol).bind fun a =>
      (createElementalComposition defaults doc a.1 rest).bind fun r => .ok (r.1, (a.2, coeff) :: r.2)

/-- The loop of `createReactants` (DatabaseParserYAML.cpp:203-213); `add` is `addSpecies(name)`. -/
def createReactants (add : St → Str → Res (St × Species)) : St → List (Str × Rat) → Res (St × List (Str × Rat))
  | st, [] => .ok (st, [])
  | st, (name, coeff) :: rest =>
    if findWithName st.species name < st.species.length then
      (createReactants add st rest).bind fun r => .ok (r.1, (name, coeff) :: r.2)
    else
      (add st name).bind fun a => (createReactants add a.1 rest).bind fun r => .ok (r.1, (name, coeff) :: r.2)

/-- `createFormationReaction` (DatabaseParserYAML.cpp:186-195): the reactants, and whether the reaction is initialized. -/
def createFormationReaction (add : St → Str → Res (St × Species)) (st : St) :
    Option (Option (List (Str × Rat)) × ModelNode) → Res (St × List (Str × Rat) × Bool)
  | none => .ok (st, [], false)
  | some (none, _) => .throw
  | some (some pairs, model) =>
    (createReactants add st pairs).bind fun r =>
    if model ≠ .valid then .throw else .ok (r.1, r.2, r.2.length != 0)

/-- `addSpecies(node)` (DatabaseParserYAML.cpp:117-145), with the constructor of `Species` (Species.cpp:102-138).
The first argument bounds the depth of the recursion; recursion without end is undefined. -/
def addSpeciesNode (defaults : Str → Option Element) (doc : Doc) : Nat → St → SpeciesNode → Res (St × Species)
  | 0, _, _ => .ub
  | n + 1, st, node =>
    match node.name, node.formula, node.aggregateState, node.elements with
    | some name, some formula, some state, some pairs =>
      if node.reaction = none ∧ node.model = .absent then .throw
      else
        match st.species.find? (fun s => s.name = name) with
        | some s => .ok (st, s)
        | none =>
          if AggregateState.parse state = .Undefined then .throw
          else
            (createElementalComposition defaults doc st pairs).bind fun c =>
            (createFormationReaction
              (fun st name => (getSpeciesNode doc.species name).bind fun found =>
                match found with
                | none => .throw
                | some node => addSpeciesNode defaults doc n st node)
              c.1 node.reaction).bind fun r =>
            if node.model = .invalid then .throw
            else if name = [] ∨ formula = [] ∨ c.2.length = 0 then .throw
            else if node.model = .absent ∧ r.2.2 = false then .throw
            else if node.model = .valid ∧ r.2.2 = true then .throw
            else (ValueObjects.removeSuffix formula).bind fun f =>
              let s : Species := ⟨name, f, c.2, node.charge, AggregateState.parse state, node.tags, r.2.1,
                if node.substance = [] then f else node.substance⟩
              .ok ({ r.1 with species := r.1.species ++ [s] }, s)
    | _, _, _, _ => .throw

/-- The loop over the element nodes (DatabaseParserYAML.cpp:52-53). -/
def addElementNodes : St → List ElementNode → Res St
  | st, [] => .ok st
  | st, node :: nodes => (addElementNode st node).bind fun r => addElementNodes r.1 nodes

/-- The loop over the species nodes (DatabaseParserYAML.cpp:55-56). -/
def addSpeciesNodes (defaults : Str → Option Element) (doc : Doc) (depth : Nat) : St → List SpeciesNode → Res St
  | st, [] => .ok st
  | st, node :: nodes => (addSpeciesNode defaults doc depth st node).bind fun r => addSpeciesNodes defaults doc depth r.1 nodes

/-- The constructor of the parser (DatabaseParserYAML.cpp:49-57) with a stack for `depth` nested calls. -/
def load (defaults : Str → Option Element) (depth : Nat) (doc : Doc) : Res St :=
  (addElementNodes {} doc.elements).bind fun st => addSpeciesNodes defaults doc depth st doc.species

/-- The conversion into a database (DatabaseParserYAML.cpp:262-265). -/
def toDatabase (st : St) : Res (List Bool × Database.Db) :=
  Database.run {} (st.elements.map .addElement ++ st.species.map .addSpecies)

end Verif.DatabaseYAML
