import Verif.Spec.IdealEquilibrium

/-!
# Specification for C107
-/

namespace Verif.Scaling

open ChemicalProps IdealEquilibrium

/-- All amounts times `c`. -/
def times {K : Type} [Mul K] (c : K) (n : List K) : List K := n.map (c * ·)

/-- The properties of a phase with `c` times the amounts: the amounts are different, and nothing else is. -/
def larger {K : Type} [Mul K] (c : K) (d : PhaseData K) : PhaseData K := { d with n := times c d.n, nsum := c * d.nsum }

/-- The problem with `c` times the amounts of elements and `c` times the bounds, and with the option `epsilon` times `c`. -/
noncomputable def largerProblem (c : Rat) (pr : Problem) : Problem :=
  { pr with b := times (c : ℝ) pr.b, lower := pr.lower.map (Option.map (c * ·)), upper := pr.upper.map (Option.map (c * ·)), eps := c * pr.eps }

end Verif.Scaling
