import Verif.Spec.IdealEquilibrium
import Verif.Model.ChemicalSystem

/-!
# Specification for C111
-/

namespace Verif.PhaseOrder

open ChemicalProps IdealEquilibrium
open ArraySerialization (Props)

/-- The phases of a system, each with the data that are stored for it. -/
def stored {K : Type} [Zero K] (phases : List (PhaseModel K)) (p : Props K) : List (PhaseModel K × PhaseData K) :=
  phases.zipIdx.map fun x => (x.1, view phases p x.2)

/-- An unknown of an equilibrium problem: its column in the matrix of the balances, its bounds and its amount. -/
structure Unknown where
  column : List Rat
  lower : Option Rat
  upper : Option Rat
  amount : ℝ

/-- A phase with its species. -/
structure Part where
  model : PhaseModel ℝ
  species : List Unknown

/-- All unknowns, in the order of the program: the species of the phases, one phase after the other, then the titrants. -/
def unknowns (parts : List Part) (titrants : List (Unknown × ℝ)) : List Unknown := parts.flatMap Part.species ++ titrants.map (·.1)

/-- The equilibrium problem for a system with these phases. The constants, the temperature, the pressure, the options and the right-hand side of
the balances are those of `common`; `titrants` are given with their chemical potentials. -/
def problem (common : Problem) (parts : List Part) (titrants : List (Unknown × ℝ)) : Problem :=
  { common with
    phases := parts.map Part.model
    A := (List.range common.b.length).map fun i => (unknowns parts titrants).map fun x => x.column.getD i 0
    lower := (unknowns parts titrants).map Unknown.lower
    upper := (unknowns parts titrants).map Unknown.upper
    uq := titrants.map (·.2) }

/-- The amounts of the species. -/
def amounts (parts : List Part) : List ℝ := (parts.flatMap Part.species).map Unknown.amount

/-- Every symbol stands for one element. -/
def OneElement (species : List Chem.Species) : Prop :=
  ∀ s ∈ species, ∀ s' ∈ species, ∀ p ∈ s.elements, ∀ p' ∈ s'.elements, p.1.symbol = p'.1.symbol → p.1 = p'.1

/-- Species with their columns of a matrix given by rows. -/
def withColumns (species : List Chem.Species) (A : List (List Rat)) : List (Chem.Species × List Rat) :=
  species.zipIdx.map fun x => (x.1, A.map fun row => row.getD x.2 0)

end Verif.PhaseOrder
