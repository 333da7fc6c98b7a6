import Mathlib.Analysis.Convex.Function
import Mathlib.Analysis.SpecialFunctions.Log.Basic

/-!
# Specification for C105: the Gibbs energy of mixing of a binary solution
-/

namespace Verif.SolutionStability

/-- The Gibbs energy of mixing, over `RT`, of one mole of a solution of Redlich and Kister with mole fractions `x` and `1 - x`. -/
noncomputable def mixing (a0 a1 a2 x : ℝ) : ℝ :=
  x * Real.log x + (1 - x) * Real.log (1 - x) + x * (1 - x) * (a0 + a1 * (x - (1 - x)) + a2 * (x - (1 - x)) ^ 2)

end Verif.SolutionStability
