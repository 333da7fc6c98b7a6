import Verif.Spec.Imposed
import Verif.Spec.Restrictions
import Verif.Model.EquilibriumSolver

/-!
# Specification for C110
-/

namespace Verif.Repeat

open ChemicalProps ChemicalSystem EquilibriumSpecs EquilibriumSetup IdealEquilibrium

/-- The problem `pr` is the one that a solver with specification `s` makes for a state with amounts `n0` of the species, the conditions `c` and the
restrictions declared by `calls`. Temperature and pressure are given, and there are no unknowns other than species and implicit titrants. -/
structure Posed {Pr : Type} (sys : System) (me : Rat) (s : Specs Rat Pr) (n0 : List Rat) (c : Conditions.Cond) (calls : List Restrictions.Call)
    (eps : Rat) (pr : IdealEquilibrium.Problem) : Prop where
  amounts : n0.length = sys.species.length
  species : sys.species.length = count pr.phases
  titrants : pr.uq.length = s.titrantsImplicit.length
  closed : numControlVariablesP s = 0
  problem : ∃ r0 r p, Restrictions.run (EquilibriumSolver.condSys sys me) {} calls = (r0, .returned) ∧
    r.cannotDecreaseBelow.Perm r0.cannotDecreaseBelow ∧ r.cannotDecrease.Perm r0.cannotDecrease ∧
    r.cannotIncreaseAbove.Perm r0.cannotIncreaseAbove ∧ r.cannotIncrease.Perm r0.cannotIncrease ∧
    EquilibriumSolver.updateOptProblem sys me s n0 c r eps = .ok p ∧
    pr.A = p.Aex ∧ pr.b = p.be.map (fun x : Rat => (x : ℝ)) ∧ pr.lower = p.xlower ∧ pr.upper = p.xupper

/-- The same phases at the same temperature and pressure, with the same options. -/
def SameSystem (pr pr' : IdealEquilibrium.Problem) : Prop :=
  pr' = { pr with A := pr'.A, b := pr'.b, lower := pr'.lower, upper := pr'.upper, uq := pr'.uq }

/-- The system has been made from phases, and its species and the titrants list no element twice (C41). -/
structure Sound {Pr : Type} (sys : System) (s : Specs Rat Pr) : Prop where
  system : ∃ phases, Constructs phases sys
  symbols : ∀ x ∈ sys.species, x.symbols.Nodup
  formulas : ∀ f ∈ s.titrantsImplicit, (f.elements.map (·.1)).Nodup

end Verif.Repeat
