import Verif.Model.AqueousProps
import Mathlib.Analysis.SpecialFunctions.Log.Base
import Mathlib.LinearAlgebra.Matrix.NonsingularInverse

/-!
# Specification for aqueous properties (C50)
-/

namespace Verif.Aqueous

/-- The object after a history of updates. -/
def Impl.updates (a : Impl) (history : List PhaseProps) : Impl := history.foldl Impl.update a

/-- The pH of a solution in which the hydrogen ion has the given ln activity: minus the decimal logarithm of its activity. -/
noncomputable def pHOf (lnActivity : ℝ) : ℝ := - Real.logb 10 (Real.exp lnActivity)

/-- The pE of a solution in which the electron has chemical potential `u` at temperature `T`: minus the decimal logarithm of the
activity of the electron, whose standard chemical potential is zero. -/
noncomputable def pEOf (T u : ℝ) : ℝ := - Real.logb 10 (Real.exp (u / (gasConstant * T)))

/-- What the echelonizer gives for a matrix `A` with `m` rows: `R * A_b` is the identity for as many rows as there are basic
variables, and `ib` has at most `m` entries. -/
structure Echelon (m : Nat) (A : List (List ℝ)) (ib : List Nat) (R : Nat → Nat → ℝ) : Prop where
  rows : A.length = m
  size : ib.length ≤ m
  identity : ∀ r c, r < ib.length → c < ib.length →
    ∑ k : Fin m, R r k * (A.getD k []).getD (ib.getD c 0) 0 = if r = c then 1 else 0

end Verif.Aqueous
