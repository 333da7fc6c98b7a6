import Verif.Model.AqueousMixture
import Mathlib.Algebra.BigOperators.Group.Finset.Basic
import Mathlib.Data.Fintype.Basic

/-!
# Specification for aqueous mixtures (C49)
-/

namespace Verif.Aqueous

variable {K : Type} [Field K] [LinearOrder K]

/-- A species is water: it has the formula of water. -/
def IsWater (s : Species K) : Prop := waterFormula.equivalent s.formula = true

/-- The amounts `n` of the species of a phase, as mole fractions. -/
def moleFractionsOf (n : List K) : List K := n.map (· / n.sum)

/-- Ionic strength: half the sum of the molalities weighted by the squares of the charges. -/
def ionicStrength {N : Nat} (z m : Fin N → K) : K := (∑ i, z i ^ 2 * m i) / 2

/-- The stoichiometric coefficient of the ion at index `j` in the complex at index `i`, from the registered dissociation
reactions. -/
def ionsIn (reactions : List Registries.Reaction) (species : List (Species K)) (i j : Nat) : K :=
  ((match species[i]?, species[j]? with
    | some a, some b => Registries.coefficient reactions a.formula b.formula
    | _, _ => 0 : Rat) : K)

end Verif.Aqueous
