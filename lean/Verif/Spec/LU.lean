import Verif.Model.LU

/-!
# What a user of the LU solver relies on

The product of matrices, consistent right-hand sides, and the condition under which Eigen's decision
about the rank is exact.
-/

namespace Verif.LU

open Finset

variable {K : Type} [Field K] [LinearOrder K] [IsStrictOrderedRing K]

/-- Entry `(i, j)` of the product of two matrices. -/
def mul (A B : Mat K) (i j : Nat) : K := ∑ k ∈ range A.cols, A.e i k * B.e k j

/-- `A X = B`, with sizes that fit. -/
def Solves (A X B : Mat K) : Prop :=
  X.rows = A.cols ∧ B.rows = A.rows ∧ X.cols = B.cols ∧
    ∀ i < A.rows, ∀ j < B.cols, mul A X i j = B.e i j

/-- The entry `(i, j)` of `P A Q` for permutation matrices with `(P x)[σ i] = x[i]`. -/
def permuted (P : Equiv.Perm Nat) (A : Mat K) (Q : Equiv.Perm Nat) (i j : Nat) : K :=
  A.e (P⁻¹ i) (Q j)

/-- The indices of a permutation of `n` elements. -/
def IsPerm (n : Nat) (σ : Equiv.Perm Nat) : Prop := ∀ i, i < n ↔ σ i < n

/-- No pivot that is not zero is so small, in comparison with the largest one, that Eigen takes it for
zero. -/
def ClearRank (A : Mat K) : Prop :=
  ∀ i < (fullPivLU A).nonzero,
    |(fullPivLU A).maxpivot| * threshold A.rows A.cols < |(fullPivLU A).lu i i|

/-- The matrix of a call. -/
def Op.matrix : Op K → Mat K
  | .plain A => A
  | .weighted A _ => A

/-- A call with a matrix that is not empty, with as many weights as columns and none equal to zero. -/
def Op.Proper : Op K → Prop
  | .plain A => 0 < A.rows ∧ 0 < A.cols
  | .weighted A W => 0 < A.rows ∧ 0 < A.cols ∧ W.size = A.cols ∧ ∀ j < A.cols, W.e j ≠ 0

/-- The decision about the rank is exact for the matrix that the call factorises. -/
def Op.Clear : Op K → Prop
  | .plain A => ClearRank A
  | .weighted A W => ClearRank (weigh A.stored W.stored).tr

end Verif.LU
