import Mathlib.Algebra.Order.Field.Basic
import Mathlib.Algebra.Order.BigOperators.Group.Finset
import Mathlib.Algebra.BigOperators.Fin
import Mathlib.GroupTheory.Perm.Basic
import Mathlib.Logic.Equiv.Basic
import Verif.Base

/-!
# The LU solver of Reaktoro

Model of `/repo/Reaktoro/Math/LU.hpp` and `/repo/Reaktoro/Math/LU.cpp`, with the algorithm of
`Eigen::FullPivLU` (the external class the code calls) written out.

Simplifications: arithmetic is exact, in an ordered field (the doubles are replaced by `ℚ` or `ℝ`; the
test that Eigen uses to decide the rank, which compares with the machine epsilon, is kept). A matrix is
a pair of sizes and a function of two indices of which only the values inside the sizes matter. A
permutation of `n` indices is a permutation of `ℕ` that fixes the indices from `n` on.
-/

namespace Verif.LU

open Finset

/-- `MatrixXd`. -/
structure Mat (K : Type) where
  rows : Nat
  cols : Nat
  e : Nat → Nat → K

/-- `VectorXd`. -/
structure Vct (K : Type) where
  size : Nat
  e : Nat → K

variable {K : Type} [Field K] [LinearOrder K] [IsStrictOrderedRing K]

/-- The entries inside the sizes: all that Eigen stores. -/
def Mat.stored (A : Mat K) : Mat K :=
  ⟨A.rows, A.cols, fun i j => if i < A.rows ∧ j < A.cols then A.e i j else 0⟩

/-- The entries inside the size. -/
def Vct.stored (w : Vct K) : Vct K := ⟨w.size, fun i => if i < w.size then w.e i else 0⟩

/-- `tr(A)`. -/
def Mat.tr (A : Mat K) : Mat K := ⟨A.cols, A.rows, fun i j => A.e j i⟩

/-- `equal` on matrices (`LU.cpp` 26-31). -/
def equalM (A B : Mat K) : Bool :=
  A.rows == B.rows && A.cols == B.cols &&
    (List.range A.rows).all fun i => (List.range A.cols).all fun j => decide (A.e i j = B.e i j)

/-- `equal` on vectors (`LU.cpp` 26-31). -/
def equalV (v w : Vct K) : Bool :=
  v.size == w.size && (List.range v.size).all fun i => decide (v.e i = w.e i)

/-! ## `Eigen::FullPivLU` -/

/-- What `Eigen::FullPivLU` keeps: the packed matrix with `L` below the diagonal and `U` on and above
it, the two permutations, the number of nonzero pivots and the largest pivot. An Eigen permutation
matrix `P` with indices `σ` satisfies `(P x)[σ i] = x[i]`. -/
structure FullPiv (K : Type) where
  lu : Nat → Nat → K
  p : Equiv.Perm Nat
  q : Equiv.Perm Nat
  nonzero : Nat
  maxpivot : K

/-- The indices of the corner that starts at `k`, in the (column by column) order of Eigen. -/
def corner (m n k : Nat) : List (Nat × Nat) :=
  (List.range (n - k)).flatMap fun j => (List.range (m - k)).map fun i => (k + i, k + j)

/-- `cwiseAbs().maxCoeff(&row, &col)`: the first entry of largest absolute value. -/
def argmax (e : Nat → Nat → K) : List (Nat × Nat) → Nat × Nat → Nat × Nat
  | [], best => best
  | x :: xs, best => argmax e xs (if |e best.1 best.2| < |e x.1 x.2| then x else best)

/-- Exchange of the rows `k, r` and of the columns `k, c`, recorded in the permutations. -/
def exchange (k r c : Nat) (w : FullPiv K) : FullPiv K :=
  { w with
    lu := fun i j => w.lu (Equiv.swap k r i) (Equiv.swap k c j)
    p := Equiv.swap k r * w.p
    q := w.q * Equiv.swap k c }

/-- Elimination with the pivot at `(k, k)`. -/
def eliminate (k : Nat) (w : FullPiv K) : FullPiv K :=
  { w with
    lu := fun i j =>
      if k < i ∧ j = k then w.lu i k / w.lu k k
      else if k < i ∧ k < j then w.lu i j - w.lu i k / w.lu k k * w.lu k j
      else w.lu i j }

/-- The loop of `FullPivLU::computeInPlace` from step `k` on, `s` steps left. -/
def steps (m n : Nat) : Nat → Nat → FullPiv K → FullPiv K
  | 0, k, w => { w with nonzero := k }
  | s + 1, k, w =>
      let rc := argmax w.lu (corner m n k) (k, k)
      if w.lu rc.1 rc.2 = 0 then { w with nonzero := k }
      else steps m n s (k + 1)
        (eliminate k (exchange k rc.1 rc.2 { w with maxpivot := max w.maxpivot |w.lu rc.1 rc.2| }))

/-- `Eigen::FullPivLU<MatrixXd> lu(A)`. -/
def fullPivLU (A : Mat K) : FullPiv K :=
  steps A.rows A.cols (min A.rows A.cols) 0 ⟨A.stored.e, 1, 1, 0, 0⟩

/-- The relative threshold of Eigen: the machine epsilon times the size of the diagonal. -/
def threshold (m n : Nat) : K := 1 / 2 ^ 52 * (min m n : Nat)

/-- `lu.rank()`: the number of nonzero pivots above the threshold. -/
def FullPiv.rank (d : FullPiv K) (m n : Nat) : Nat :=
  ((List.range d.nonzero).filter fun i =>
    decide (|d.maxpivot| * threshold m n < |d.lu i i|)).length

/-! ## The members of `LU` -/

/-- The factors kept by `LU` (`LU.hpp`). -/
structure Factors (K : Type) where
  L : Mat K
  U : Mat K
  P : Equiv.Perm Nat
  Q : Equiv.Perm Nat
  rank : Nat

/-- `LU::compute(A)` without the test for the last matrix (`LU.cpp` 59-79). -/
def factor (A : Mat K) : Factors K :=
  let m := A.rows
  let n := A.cols
  let r := min m n
  let d := fullPivLU A
  { L := ⟨m, r, fun i j => if i = j then 1 else if j < i then d.lu i j else 0⟩
    U := ⟨r, n, fun i j => if i ≤ j then d.lu i j else 0⟩
    P := d.p
    Q := d.q
    rank := d.rank m n }

/-- `A * diag(W)` (`LU.cpp` 97). -/
def weigh (A : Mat K) (W : Vct K) : Mat K := ⟨A.rows, A.cols, fun i j => A.e i j * W.e j⟩

/-- `U * Q` for a permutation matrix: column `j` of the result is column `σ j` of `U`. -/
def permCols (U : Mat K) (σ : Equiv.Perm Nat) : Mat K := ⟨U.rows, U.cols, fun i j => U.e i (σ j)⟩

/-- `U * diag(inv(W))`. The quotient by a weight equal to zero, infinite in C++, is outside the model. -/
def unweigh (U : Mat K) (W : Vct K) : Mat K := ⟨U.rows, U.cols, fun i j => U.e i j * (1 / W.e j)⟩

/-- `LU::compute(A, W)` without the test for the last arguments (`LU.cpp` 87-113). As in the code, `U`
gets all the rows of the transposed packed matrix, and not the first `r` of them. -/
def factorW (A : Mat K) (W : Vct K) : Factors K :=
  let m := A.rows
  let n := A.cols
  let r := min m n
  let d := fullPivLU (weigh A.stored W.stored).tr
  let U : Mat K := ⟨m, n, fun i j => if i = j then 1 else if i < j then d.lu j i else 0⟩
  let Q := d.p⁻¹
  { L := ⟨m, r, fun i j => if j ≤ i then d.lu j i else 0⟩
    U := permCols (unweigh (permCols U Q⁻¹) W.stored) Q
    P := d.q⁻¹
    Q := Q
    rank := d.rank n m }

/-- An `LU` object. The member `rank` has no initial value: `factors = none` until the first
computation that is not skipped. -/
structure Obj (K : Type) where
  Alast : Mat K
  Wlast : Vct K
  factors : Option (Factors K)

/-- `LU::LU()` (`LU.cpp` 35-36): empty matrices. -/
def Obj.new : Obj K := ⟨⟨0, 0, fun _ _ => 0⟩, ⟨0, fun _ => 0⟩, none⟩

/-- `LU::empty` (`LU.cpp` 48-51): `return L.size();`. -/
def Obj.empty (s : Obj K) : Bool :=
  match s.factors with
  | some f => f.L.rows * f.L.cols != 0
  | none => false

/-- `LU::compute(A)` (`LU.cpp` 53-79). -/
def Obj.compute (s : Obj K) (A : Mat K) : Obj K :=
  if equalM A s.Alast && s.Wlast.size == 0 then s
  else ⟨A, ⟨0, fun _ => 0⟩, some (factor A)⟩

/-- `LU::compute(A, W)` (`LU.cpp` 81-113), for as many weights as columns (Eigen asserts otherwise). -/
def Obj.computeW (s : Obj K) (A : Mat K) (W : Vct K) : Obj K :=
  if equalM A s.Alast && equalV W s.Wlast then s
  else ⟨A, W, some (factorW A W)⟩

/-- Solution of the lower triangular system `T x = c` by forward substitution. -/
def forward (T : Nat → Nat → K) (c : Nat → K) (i : Nat) : K :=
  (c i - ∑ j : Fin i, T i j * forward T c j) / T i i
termination_by i

/-- Solution of the upper triangular system `T x = c` of size `r` by back substitution. -/
def backward (r : Nat) (T : Nat → Nat → K) (c : Nat → K) (i : Nat) : K :=
  (c i - ∑ j : Fin (r - 1 - i), T i (i + 1 + j) * backward r T c (i + 1 + j)) / T i i
termination_by r - i

/-- `LU::solve(B)` with the factors (`LU.cpp` 115-134). -/
def Factors.solve (f : Factors K) (B : Mat K) : Mat K :=
  ⟨f.U.cols, B.cols, fun i col =>
    let y := forward f.L.e (fun k => B.e (f.P⁻¹ k) col)
    let z := backward f.rank f.U.e y
    let x := fun k => if k < f.rank then z k else 0
    x (f.Q⁻¹ i)⟩

/-- `LU::trsolve(B)` with the factors (`LU.cpp` 136-157). -/
def Factors.trsolve (f : Factors K) (B : Mat K) : Mat K :=
  ⟨f.L.rows, B.cols, fun i col =>
    let y := forward (fun a b => f.U.e b a) (fun k => B.e (f.Q k) col)
    let z := backward f.rank (fun a b => f.L.e b a) y
    let x := fun k => if k < f.rank then z k else 0
    x (f.P i)⟩

/-- `LU::solve(B)`. Undefined when nothing was computed: `rank` is read without a value. -/
def Obj.solve (s : Obj K) (B : Mat K) : Res (Mat K) :=
  match s.factors with
  | none => .ub
  | some f => .ok (f.solve B)

/-- `LU::trsolve(B)`. Undefined when nothing was computed. -/
def Obj.trsolve (s : Obj K) (B : Mat K) : Res (Mat K) :=
  match s.factors with
  | none => .ub
  | some f => .ok (f.trsolve B)

/-- A call to one of the two `compute` functions. -/
inductive Op (K : Type) where
  | plain (A : Mat K)
  | weighted (A : Mat K) (W : Vct K)

/-- Running a call. -/
def Obj.run (s : Obj K) : Op K → Obj K
  | .plain A => s.compute A
  | .weighted A W => s.computeW A W

end Verif.LU
