import Verif.Spec.IdealEquilibrium
import Verif.Model.ChemicalSystem

/-!
# Specification for C116
-/

namespace Verif.Components

open ChemicalProps IdealEquilibrium

/-- The sum of balances `0, …, m - 1`, balance `k` taken `w k` times: the coefficient of unknown `j`. -/
def combined (A : List (List Rat)) (m : Nat) (w : Nat → Rat) (j : Nat) : Rat := ∑ k ∈ Finset.range m, w k * (A.getD k []).getD j 0

/-- Every balance of the second problem, with the amount given for it, is a combination of balances of the first one. -/
def Follow (pr pr' : Problem) : Prop :=
  ∀ i < pr'.A.length, ∃ w : Nat → Rat, (∀ j < count pr.phases + pr.uq.length, (pr'.A.getD i []).getD j 0 = combined pr.A pr.A.length w j) ∧
    pr'.b.getD i 0 = ∑ k ∈ Finset.range pr.A.length, (w k : ℝ) * pr.b.getD k 0

/-- The problems differ in the balances only. -/
def OnlyBalances (pr pr' : Problem) : Prop := pr' = { pr with A := pr'.A, b := pr'.b }

end Verif.Components
