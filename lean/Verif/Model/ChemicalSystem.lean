import Verif.Model.Phases

/-!
# Model of `Reaktoro/Core/ChemicalSystem.cpp` and `Reaktoro/Core/PhaseList.hpp`
-/

namespace Verif.ChemicalSystem

open Chem Phases

/-- The loop of `PhaseList::findWithSpecies(Index)` (PhaseList.hpp:98-105); at the end `i` is the number of phases. -/
def findWithSpeciesGo : List Phase → Nat → Nat → Nat → Nat
  | [], _, i, _ => i
  | p :: ps, counter, i, index =>
    if counter + p.species.length > index then i else findWithSpeciesGo ps (counter + p.species.length) (i + 1) index

/-- `PhaseList::findWithSpecies(Index)` (PhaseList.hpp:96-105). -/
def findWithSpecies (phases : List Phase) (index : Nat) : Nat := findWithSpeciesGo phases 0 0 index

/-- `PhaseList::findWithSpecies(String)` (PhaseList.hpp:108-111). -/
def findWithSpeciesName (phases : List Phase) (name : Str) : Nat :=
  indexfn phases (fun p => p.species.any (fun s => s.name = name))

/-- `PhaseList::findWithName` (PhaseList.hpp:90-93). -/
def findPhaseWithName (phases : List Phase) (name : Str) : Nat := indexfn phases (fun p => p.name = name)

/-- `PhaseList::indexWithSpecies(Index)` (PhaseList.hpp:140-145). -/
def indexWithSpecies (phases : List Phase) (index : Nat) : Res Nat :=
  if findWithSpecies phases index ≥ phases.length then .throw else .ok (findWithSpecies phases index)

/-- The loop of `PhaseList::numSpeciesUntilPhase` (PhaseList.hpp:192-194), `k` iterations to go. -/
def numSpeciesGo (phases : List Phase) : Nat → Nat → Nat → Res Nat
  | 0, _, sum => .ok sum
  | k + 1, i, sum => (at! phases i).bind fun p => numSpeciesGo phases k (i + 1) (sum + p.species.length)

/-- `PhaseList::numSpeciesUntilPhase` (PhaseList.hpp:189-195). -/
def numSpeciesUntilPhase (phases : List Phase) (iphase : Nat) : Res Nat := numSpeciesGo phases iphase 0 0

/-- `collectSpecies` (ChemicalSystem.cpp:67-78). -/
def collectSpecies (phases : List Phase) : List Species := phases.foldl (fun l p => l ++ p.species) []

/-- `collected.emplace(element.symbol(), element)` (ChemicalSystem.cpp:59): nothing happens if the symbol is present. -/
def emplace (l : List Element) (e : Element) : List Element := if l.any (fun x => x.symbol = e.symbol) then l else l ++ [e]

/-- The loops in `collectElements` (ChemicalSystem.cpp:56-59). The entries of the map, in order of insertion. -/
def collectedElements (species : List Species) : List Element :=
  species.foldl (fun l s => s.elements.foldl (fun l p => emplace l p.1) l) []

/-- The possible results of `collectElements` (ChemicalSystem.cpp:54-64): the map is unordered and `std::sort` is not stable, so the
result is some permutation of the entries that is sorted by molar mass. -/
structure CollectElements (species : List Species) (elements : List Element) : Prop where
  perm : elements.Perm (collectedElements species)
  sorted : elements.Pairwise (fun a b => a.molarMass ≤ b.molarMass)

/-- `formulaMatrix` (ChemicalSystem.cpp:81-93), by rows. -/
def formulaMatrix (species : List Species) (elements : List Element) : List (List Rat) :=
  elements.map (fun e => species.map fun s => coefficient s.elements e.symbol) ++ [species.map (·.charge)]

/-- `fixDuplicatePhaseNames` (ChemicalSystem.cpp:34-41). -/
def fixPhaseNames (phases : List Phase) : List Phase :=
  List.zipWith (fun p n => if p.name ≠ n then { p with name := n } else p) phases
    (Strings.makeunique (phases.map (·.name)) ['!'])

/-- `fixDuplicateSpeciesNames` (ChemicalSystem.cpp:44-51). -/
def fixSpeciesNames (species : List Species) : List Species :=
  List.zipWith (fun s n => if s.name ≠ n then s.withName n else s) species
    (Strings.makeunique (species.map Species.name) ['!'])

/-- `ChemicalSystem::Impl` (ChemicalSystem.cpp:97-113). -/
structure System where
  phases : List Phase
  species : List Species
  elements : List Element
  formulaMatrix : List (List Rat)

/-- The constructor of `ChemicalSystem::Impl` (ChemicalSystem.cpp:119-129): the systems it may construct, one for each order
of the elements. -/
def Constructs (phases : List Phase) (sys : System) : Prop :=
  ∃ elements, CollectElements (collectSpecies phases) elements ∧
    sys = ⟨fixPhaseNames phases, fixSpeciesNames (collectSpecies phases), elements,
      ChemicalSystem.formulaMatrix (collectSpecies phases) elements⟩

/-- The product of a matrix, given by rows, and a vector. -/
def mulVec (A : List (List Rat)) (n : List Rat) : List Rat := A.map fun row => (List.zipWith (· * ·) row n).sum

/-- A sort by molar mass, to show that systems exist. -/
def sortedElements (species : List Species) : List Element :=
  (collectedElements species).mergeSort (fun a b => decide (a.molarMass ≤ b.molarMass))

end Verif.ChemicalSystem
