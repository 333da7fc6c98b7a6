import Mathlib.Data.Matrix.Mul
import Mathlib.Data.Matrix.Basic

/-!
# Model of `inverseShermanMorrison` (`Reaktoro/Math/MathUtils.cpp:64-70`)

Numbers are elements of an arbitrary field (exact arithmetic); `none` stands for a division by zero.
-/

namespace Verif.ShermanMorrison

variable {K : Type} [Field K] [DecidableEq K] {n : Nat}

/-- The body of the loop (MathUtils.cpp:68): `invM - (D[i]/(1 + D[i]*invM(i, i)))*invM.col(i)*invM.row(i)`. -/
def step (D : Fin n → K) (invM : Matrix (Fin n) (Fin n) K) (i : Fin n) : Option (Matrix (Fin n) (Fin n) K) :=
  if 1 + D i * invM i i = 0 then none
  else some (invM - (D i / (1 + D i * invM i i)) • Matrix.vecMulVec (fun r => invM r i) (fun s => invM i s))

/-- `inverseShermanMorrison` (MathUtils.cpp:64-70); `D` has as many entries as the matrix has rows. -/
def inverseShermanMorrison (invA : Matrix (Fin n) (Fin n) K) (D : Fin n → K) : Option (Matrix (Fin n) (Fin n) K) :=
  (List.finRange n).foldlM (step D) invA

end Verif.ShermanMorrison
