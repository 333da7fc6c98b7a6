import Verif.Model.EquilibriumSpecs
import Verif.Model.ChemicalSystem
import Mathlib.Analysis.SpecialFunctions.Log.Basic

/-!
# Model of the matrices, the objective function and its gradient in `Reaktoro/Equilibrium/EquilibriumSetup.cpp`

The coefficients of formulas are rational numbers, matrices are lists of rows. Chemical potentials are real numbers and come from
the chemical properties, which are parameters here. The bounds are in `Model/Restrictions.lean`.
-/

namespace Verif.EquilibriumSetup

open ChemicalSystem EquilibriumSpecs

/-- The loop of `assembleFormulaVector` (EquilibriumSetup.cpp:130-133): `elements().index(symbol)` throws if there is no such element
(ElementList.hpp:113-118); a later entry for the same element replaces an earlier one. -/
def formulaLoop (elements : List Chem.Element) : List Rat → List (Str × Rat) → Res (List Rat)
  | vec, [] => .ok vec
  | vec, (symbol, coeff) :: rest =>
    let idx := Chem.indexfn elements (fun e => e.symbol = symbol)
    if idx ≥ elements.length then .throw else formulaLoop elements (vec.set idx coeff) rest

/-- `assembleFormulaVector` (EquilibriumSetup.cpp:124-134). -/
def formulaVector (elements : List Chem.Element) (f : Formula) : Res (List Rat) :=
  let vec := List.replicate (elements.length + 1) 0
  formulaLoop elements (vec.set elements.length f.charge) f.elements

/-- The columns for a list of titrants (EquilibriumSetup.cpp:154-156, 175-176). -/
def columns (elements : List Chem.Element) : List Formula → Res (List (List Rat))
  | [] => .ok []
  | f :: fs => (formulaVector elements f).bind fun c => (columns elements fs).bind fun cs => .ok (c :: cs)

/-- Row `i` of a matrix given by columns. -/
def rowOf (cols : List (List Rat)) (i : Nat) : List Rat := cols.map fun c => c.getD i 0

/-- `assembleMatrixAex` (EquilibriumSetup.cpp:137-159). -/
def matrixAex {K Pr : Type} (sys : System) (s : Specs K Pr) : Res (List (List Rat)) :=
  (columns sys.elements s.titrantsImplicit).bind fun cols =>
    .ok ((List.range (sys.elements.length + 1)).map fun i => sys.formulaMatrix.getD i [] ++ rowOf cols i)

/-- `assembleMatrixAep` (EquilibriumSetup.cpp:162-179): the columns of unknown temperature and pressure are zero. -/
def matrixAep {K Pr : Type} (sys : System) (s : Specs K Pr) : Res (List (List Rat)) :=
  (columns sys.elements s.titrantsExplicit).bind fun cols =>
    .ok ((List.range (sys.elements.length + 1)).map fun i =>
      List.replicate (s.unknownT.toNat + s.unknownP.toNat) 0 ++ rowOf cols i)

/-- `evalObjectiveValue` (EquilibriumSetup.cpp:224-235) for `N` species with amounts `n` and chemical potentials `u`. `eps` and `factor` are
the options `epsilon` and `logarithm_barrier_factor`. -/
noncomputable def objective {N : Nat} (R T eps factor : ℝ) (n u : Fin N → ℝ) : ℝ :=
  (∑ i, n i * u i) / (R * T) + -(eps * factor) * ∑ i, Real.log (n i)

/-- The part of the gradient for the species (EquilibriumSetup.cpp:255). -/
noncomputable def gradN (R T eps factor : ℝ) (n u : List ℝ) : List ℝ := List.zipWith (fun u n => u / (R * T) - eps * factor / n) u n

/-- The part of the gradient for the implicit titrants (EquilibriumSetup.cpp:259-260); `uq` are the values of the constraint functions. -/
noncomputable def gradQ (R T : ℝ) (uq : List ℝ) : List ℝ := uq.map fun u => u / (R * T)

/-- `evalObjectiveGradX` (EquilibriumSetup.cpp:237-263). -/
noncomputable def gradX (R T eps factor : ℝ) (n u uq : List ℝ) : List ℝ := gradN R T eps factor n u ++ gradQ R T uq

end Verif.EquilibriumSetup
