import Verif.Model.EquilibriumSolver
import Verif.Spec.EquilibriumSetup
import Verif.Spec.Restrictions
import Verif.Spec.Conditions
import Verif.Spec.EquilibriumProps
import Mathlib.Analysis.Calculus.FDeriv.Comp
import Mathlib.Analysis.Calculus.FDeriv.Prod
import Mathlib.Analysis.Normed.Module.FiniteDimension
import Mathlib.LinearAlgebra.Matrix.ToLin

/-!
# Specification for C45 and C56
-/

namespace Verif.EquilibriumSolver

open EquilibriumSpecs Conditions Restrictions EquilibriumSetup

/-- The point satisfies the linear constraints of an equilibrium problem with right-hand side `b`. -/
def Feasible {Pr : Type} (sys : ChemicalSystem.System) (s : Specs Rat Pr) (b : List Rat) (o : OptState) : Prop :=
  ∃ Aex Aep, matrixAex sys s = .ok Aex ∧ matrixAep sys s = .ok Aep ∧
    List.zipWith (· + ·) (ChemicalSystem.mulVec Aex o.x) (ChemicalSystem.mulVec Aep o.p) = b

/-- The amounts the calculation starts with: those of the state, or those of the conditions if all amounts in the state are zero. -/
def startAmounts (st : ChemicalState.St) (c : Cond) : List Rat := if st.n.all (· = 0) then c.amounts else st.n

/-- The linear map of a matrix. -/
noncomputable def lin {a b : Nat} (J : Matrix (Fin a) (Fin b) ℝ) : (Fin b → ℝ) →L[ℝ] (Fin a → ℝ) := LinearMap.toContinuousLinearMap J.mulVecLin

/-- The matrix of the partial derivatives of `f` at `x` is `J`. -/
def HasJacobian {a b : Nat} (f : (Fin b → ℝ) → (Fin a → ℝ)) (J : Matrix (Fin a) (Fin b) ℝ) (x : Fin b → ℝ) : Prop := HasFDerivAt f (lin J) x

/-- The partial derivatives of `f`, a function of three vectors, are the matrices `Jx`, `Jy` and `Jz`. -/
def HasJacobian3 {a b c d : Nat} (f : (Fin b → ℝ) × (Fin c → ℝ) × (Fin d → ℝ) → (Fin a → ℝ)) (Jx : Matrix (Fin a) (Fin b) ℝ)
    (Jy : Matrix (Fin a) (Fin c) ℝ) (Jz : Matrix (Fin a) (Fin d) ℝ) (x : (Fin b → ℝ) × (Fin c → ℝ) × (Fin d → ℝ)) : Prop :=
  HasFDerivAt f ((lin Jx).comp (.fst ℝ _ _) + (lin Jy).comp ((ContinuousLinearMap.fst ℝ _ _).comp (.snd ℝ _ _)) +
    (lin Jz).comp ((ContinuousLinearMap.snd ℝ _ _).comp (.snd ℝ _ _))) x

/-- The first and the last entries of a vector. -/
def head {a b : Nat} {K : Type} (v : Fin (a + b) → K) : Fin a → K := fun i => v (Fin.castAdd b i)
def tail {a b : Nat} {K : Type} (v : Fin (a + b) → K) : Fin b → K := fun i => v (Fin.natAdd a i)

/-- Two matrices next to each other. -/
def beside {a b c : Nat} {K : Type} (A : Matrix (Fin a) (Fin b) K) (B : Matrix (Fin a) (Fin c) K) : Matrix (Fin a) (Fin (b + c)) K :=
  fun i => Fin.addCases (A i) (B i)

end Verif.EquilibriumSolver
