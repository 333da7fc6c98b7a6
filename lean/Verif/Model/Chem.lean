import Verif.Base
import Verif.Model.Strings
import Verif.Model.AggregateState

/-!
# Model of `Element`, `ElementalComposition`, `Species`, `SpeciesList` and `Algorithms.hpp`

Numbers are rational. The thermodynamic model and the attached data of a species are not modelled. The reactants
of the formation reaction are given by their names (species are compared by name, Species.cpp:307-310).
-/

namespace Verif.Chem

abbrev Str := List Char
abbrev State := AggregateState.State

/-- `Element` (Element.hpp, Element.cpp:44-78). -/
structure Element where
  symbol : Str
  molarMass : Rat
  name : Str := []
  tags : List Str := []
  deriving DecidableEq, Repr

/-- `Species` (Species.cpp:55-91). -/
structure Species where
  rawName : Str
  formula : Str
  elements : List (Element × Rat)
  charge : Rat
  rawState : State
  tags : List Str := []
  reactants : List (Str × Rat) := []
  rawSubstance : Str := []
  deriving DecidableEq, Repr

/-- `Species::name` (Species.cpp:236-241). -/
def Species.name (s : Species) : Str := if s.rawName = [] then s.formula else s.rawName

/-- `Species::aggregateState` (Species.cpp:265-270). -/
def Species.aggregateState (s : Species) : Res State :=
  if s.rawState = .Undefined then AggregateState.identify s.name else .ok s.rawState

/-- `Species::withName` (Species.cpp:160-165). -/
def Species.withName (s : Species) (name : Str) : Species := { s with rawName := name }

/-- `Species::withAggregateState` (Species.cpp:195-200). -/
def Species.withAggregateState (s : Species) (st : State) : Species := { s with rawState := st }

/-- `ElementalComposition::symbols` (ElementalComposition.cpp:64-67). -/
def Species.symbols (s : Species) : List Str := s.elements.map (·.1.symbol)

/-- `ElementalComposition::coefficient` (ElementalComposition.cpp:74-80). -/
def coefficient : List (Element × Rat) → Str → Rat
  | [], _ => 0
  | (e, c) :: rest, symbol => if e.symbol = symbol then c else coefficient rest symbol

/-- `detail::computeMolarMass` (ElementalComposition.cpp:29-35). -/
def computeMolarMass (elements : List (Element × Rat)) : Rat :=
  elements.foldl (fun m p => m + p.1.molarMass * p.2) 0

/-- `Species::molarMass` (Species.cpp:292-295); `me` is the molar mass of the electron. -/
def Species.molarMass (me : Rat) (s : Species) : Rat := computeMolarMass s.elements - s.charge * me

/-- `indexfn` (Algorithms.hpp:40-43): the index of the first item with a property, or the number of items. -/
def indexfn {α : Type} (c : List α) (pred : α → Bool) : Nat := c.findIdx pred

/-- `contains` (Algorithms.hpp:104-107). -/
def contains (c : List Str) (x : Str) : Bool := c.length != 0 && c.any (· == x)

/-- `contained` (Algorithms.hpp:118-124). -/
def contained (a b : List Str) : Bool := a.all (fun x => contains b x)

/-- Insertion into a sorted list without duplicates. -/
def insertSorted (x : Str) : List Str → List Str
  | [] => [x]
  | y :: ys => if x = y then y :: ys else if x < y then x :: y :: ys else y :: insertSorted x ys

/-- `merge` (Algorithms.hpp:137-144): the items of both lists, sorted, without duplicates. `std::sort` followed by
`std::unique` is modelled by insertion. -/
def merge (a b : List Str) : List Str := (a ++ b).foldr insertSorted []

/-- `SpeciesList::findWithName` (SpeciesList.hpp:101-104). -/
def findWithName (l : List Species) (name : Str) : Nat := indexfn l (fun s => s.name = name)

/-- `SpeciesList::getWithName` and `indexWithName` (SpeciesList.hpp:125-130, 155-158). -/
def getWithName (l : List Species) (name : Str) : Res Species :=
  let idx := findWithName l name
  if idx ≥ l.length then .throw else at! l idx

/-- `SpeciesList::withNames` (SpeciesList.hpp:173-176). -/
def withNames (l : List Species) : List Str → Res (List Species)
  | [] => .ok []
  | n :: ns => (getWithName l n).bind fun s => (withNames l ns).bind fun r => .ok (s :: r)

/-- `SpeciesList::withElements` (SpeciesList.hpp:240-243). -/
def withElements (l : List Species) (symbols : List Str) : List Species := l.filter (fun s => contained s.symbols symbols)

/-- `SpeciesList::withTags` (SpeciesList.hpp:213-218). -/
def withTags (l : List Species) (tags : List Str) : List Species :=
  if tags = [] then [] else l.filter (fun s => contained tags s.tags)

/-- `SpeciesList::withoutTags` (SpeciesList.hpp:221-226). -/
def withoutTags (l : List Species) (tags : List Str) : List Species :=
  if tags = [] then l else l.filter (fun s => !contained tags s.tags)

end Verif.Chem
