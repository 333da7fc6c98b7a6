import Verif.Model.ChemicalSystem

/-!
# Specifications for C27–C29
-/

namespace Verif.ChemicalSystem

open Chem Phases

/-- The species at position `j` of phase `i`. -/
def speciesAt (phases : List Phase) (i j : Nat) : Option Species := (phases[i]?).bind fun p => p.species[j]?

/-- The number of species in all phases before phase `i`. -/
def before (phases : List Phase) (i : Nat) : Nat := ((phases.take i).map (fun p => p.species.length)).sum

/-- The two species agree in everything except for the name. -/
def SameButName (s t : Species) : Prop :=
  s.formula = t.formula ∧ s.elements = t.elements ∧ s.charge = t.charge ∧ s.rawState = t.rawState ∧ s.tags = t.tags ∧
    s.reactants = t.reactants

/-- The amount of the element with a symbol in one unit of the species: the sum over all its entries. -/
def elementContent (s : Species) (symbol : Str) : Rat :=
  ((s.elements.filter (fun p => p.1.symbol = symbol)).map Prod.snd).sum

/-- The sum of `f` over the species, weighted with the amounts. -/
def total (f : Species → Rat) (species : List Species) (n : List Rat) : Rat :=
  ((species.zip n).map fun p => f p.1 * p.2).sum

/-- No name is another one followed by exclamation marks. -/
def NoSuffixClash (names : List Str) : Prop :=
  ∀ x ∈ names, ∀ y ∈ names, ∀ k, x = y ++ List.replicate k '!' → k = 0

end Verif.ChemicalSystem
