import Verif.Model.EquilibriumSetup
import Verif.Spec.ChemicalSystem

/-!
# Specification for C41 and C55
-/

namespace Verif.EquilibriumSetup

open ChemicalSystem EquilibriumSpecs

/-- The amount of an element in one unit of a substance: the sum over all its entries. -/
def formulaContent (f : Formula) (symbol : Str) : Rat := ((f.elements.filter (fun p => p.1 = symbol)).map Prod.snd).sum

/-- The sum of `g` over the titrants, weighted with their amounts. -/
def titrants (g : Formula → Rat) (fs : List Formula) (q : List Rat) : Rat := ((fs.zip q).map fun p => g p.1 * p.2).sum

/-- For each element of the system, and last for the charge, what is in the species and the titrants together. -/
def totals (sys : System) (implicit explicit : List Formula) (n q t : List Rat) : List Rat :=
  sys.elements.map (fun e => total (elementContent · e.symbol) sys.species n + titrants (formulaContent · e.symbol) implicit q +
    titrants (formulaContent · e.symbol) explicit t) ++
  [total (·.charge) sys.species n + titrants (·.charge) implicit q + titrants (·.charge) explicit t]

/-- The variables `j` with `active j` are stationary: the gradient is a combination of the rows of the matrix. These are the optimality
conditions for variables that are not at their bounds. -/
def Stationary (A : List (List Rat)) (g : List ℝ) (active : Nat → Prop) : Prop :=
  ∃ y : Nat → ℝ, ∀ j, active j → g.getD j 0 = ∑ i ∈ Finset.range A.length, y i * (((A.getD i []).getD j 0 : Rat) : ℝ)

end Verif.EquilibriumSetup
