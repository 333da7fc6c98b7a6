import Verif.Model.Farey
import Mathlib.Algebra.Order.Field.Basic
import Mathlib.Data.Matrix.Mul
import Mathlib.Data.List.Sort

/-!
# Model of the remaining functions of `Reaktoro/Math/MathUtils.cpp`

The independent columns and rows (lines 28-62), the cleaning of a matrix in memory (lines 124-127) and the products with
split numbers (lines 129-166). `inverseShermanMorrison` is modelled in `ShermanMorrison.lean`, `farey`, `rationalize` and the cleaning
of an array in `Farey.lean`.
-/

namespace Verif.MathUtils

variable {K : Type} [Field K] [LinearOrder K]

/-! ## `Eigen::ColPivHouseholderQR`

External code, written out. The reflections of Eigen keep the length of every column, so the part of a column below the rows already
processed has the length of what is left of the column after its components along the chosen columns are removed. The model
keeps these remainders. Arithmetic is exact and lengths are squared, so that no root is needed. -/

/-- The square of the length. -/
def sq {m : Nat} (v : Fin m → K) : K := v ⬝ᵥ v

/-- The position of the first column with the greatest remaining length (`maxCoeff(&biggest_col_index)`). -/
def biggest {m n : Nat} : List (Fin n × (Fin m → K)) → Nat
  | [] => 0
  | [_] => 0
  | q :: r :: L =>
    let j := biggest (r :: L)
    match (r :: L)[j]? with
    | some s => if sq q.2 < sq s.2 then j + 1 else 0
    | none => 0

/-- One turn of the elimination: the longest column is swapped with the first one, and removed; its component is taken out of the other ones. -/
def turn {m n : Nat} : List (Fin n × (Fin m → K)) → Option ((Fin n × K) × List (Fin n × (Fin m → K)))
  | [] => none
  | q :: L =>
    let j := biggest (q :: L)
    match (q :: L)[j]? with
    | none => none
    | some p =>
      let rest := if j = 0 then L else L.set (j - 1) q
      some ((p.1, sq p.2), rest.map fun r => (r.1, r.2 - (r.2 ⬝ᵥ p.2 / sq p.2) • p.2))

/-- The columns in the order in which they are chosen, with the squares of their pivots. -/
def pivots {m n : Nat} : Nat → List (Fin n × (Fin m → K)) → List (Fin n × K)
  | 0, _ => []
  | k + 1, L =>
    match turn L with
    | none => []
    | some (p, L') => p :: pivots k L'

/-- `NumTraits<double>::epsilon()`. -/
def eps : K := 1 / 2 ^ 52

/-- `m_nonzero_pivots`: the first pivot that is negligible against the greatest column. -/
def nonzeroPivots {n : Nat} (m : Nat) (ps : List (Fin n × K)) : Nat :=
  match ps with
  | [] => 0
  | p0 :: _ => (List.range ps.length).findIdx fun k =>
    match ps[k]? with
    | some p => decide (p.2 < p0.2 * eps ^ 2 / (m : K) * ((m - k : Nat) : K))
    | none => false

/-- `rank()`: the number of pivots above the threshold. -/
def rank {n : Nat} (m : Nat) (ps : List (Fin n × K)) : Nat :=
  let maxpivot := ps.foldl (fun a p => max a p.2) 0
  (ps.take (nonzeroPivots m ps)).countP fun p => decide (maxpivot * (eps * ((min m n : Nat) : K)) ^ 2 < p.2)

/-- The pivots of a matrix. -/
def pivotsOf {m n : Nat} (A : Matrix (Fin m) (Fin n) K) : List (Fin n × K) :=
  pivots (min m n) ((List.finRange n).map fun j => (j, fun i => A i j))

/-! ## Independent columns and rows -/

/-- `linearlyIndependentCols` (MathUtils.cpp:28-36). The decomposition of a matrix without columns takes the maximum of an empty vector,
which Eigen does not define. -/
def linearlyIndependentCols {m n : Nat} (A : Matrix (Fin m) (Fin n) K) : Res (List (Fin n)) :=
  if n = 0 then .ub
  else .ok ((((pivotsOf A).map fun p => p.1).take (rank m (pivotsOf A))).insertionSort (· ≤ ·))

/-- `linearlyIndependentRows` (MathUtils.cpp:38-42). -/
def linearlyIndependentRows {m n : Nat} (A : Matrix (Fin m) (Fin n) K) : Res (List (Fin m)) :=
  linearlyIndependentCols A.transpose

/-- `linearlyIndependentCols` with an output matrix (MathUtils.cpp:44-52). `B` has `r` rows and `c` columns when the function is called and
is a reference that cannot be resized: Eigen does not define the assignment of a matrix of another size. The matrix is given
as its list of columns. -/
def linearlyIndependentColsInto {m n : Nat} (A : Matrix (Fin m) (Fin n) K) (r c : Nat) : Res (List (Fin n) × List (List K)) :=
  (linearlyIndependentCols A).bind fun indices =>
    if r = m ∧ c = indices.length then
      .ok (indices, indices.map fun j => (List.finRange m).map fun i => A i j)
    else .ub

/-- `linearlyIndependentRows` with an output matrix (MathUtils.cpp:54-62); the matrix is given as its list of rows. -/
def linearlyIndependentRowsInto {m n : Nat} (A : Matrix (Fin m) (Fin n) K) (r c : Nat) : Res (List (Fin m) × List (List K)) :=
  (linearlyIndependentRows A).bind fun indices =>
    if r = indices.length ∧ c = n then
      .ok (indices, indices.map fun i => (List.finRange n).map fun j => A i j)
    else .ub

/-! ## Matrices in memory -/

/-- `Eigen::Ref<MatrixXd>`: the place of the first entry, the sizes, and the distance between the first entries of consecutive columns. -/
structure MatRef where
  first : Nat
  rows : Nat
  cols : Nat
  stride : Nat

/-- The address of an entry. -/
def MatRef.at (A : MatRef) (i j : Nat) : Nat := A.first + j * A.stride + i

/-- The number after `cleanRationalNumbers`, `none` for an infinity (MathUtils.cpp:117-121). -/
def clean (v : K) (maxden : Nat) : Res (Option K) :=
  (Farey.rationalize v maxden).bind fun (num, den) => .ok (if den = 0 then none else some ((num : K) / (den : K)))

/-- `cleanRationalNumbers` for a matrix (MathUtils.cpp:124-127): the memory afterwards. The matrix is passed as the
address of its first entry and its number of entries. -/
def cleanMatrix (mem : Nat → K) (A : MatRef) (maxden : Nat) : Nat → Res (Option K) := fun a =>
  if A.first ≤ a ∧ a < A.first + A.rows * A.cols then clean (mem a) maxden else .ok (some (mem a))

/-! ## Products with split numbers -/

/-- One turn of `dot3p_` (MathUtils.cpp:134-147). `fl` is the conversion to `float` and back, and `rd` the rounding of the sum
of the two upper parts; the other operations are exact. -/
def dot3pTurn (fl rd : K → K) (st : K × K) (x y : K) : K × K :=
  let (shi, slo) := st
  let xhi := fl x
  let xlo := x - xhi
  let yhi := fl y
  let ylo := y - yhi
  let tmp := xhi * yhi
  let zhi := fl tmp
  let zlo := tmp - zhi + xhi * ylo + xlo * yhi + xlo * ylo
  let tmp := rd (shi + zhi)
  let del := tmp - shi - zhi
  (fl tmp, tmp - fl tmp + slo + zlo - del)

/-- The loop of `dot3p_`: it runs over the entries of `x`, and reads beyond the end of a shorter `y`. -/
def dot3pLoop (fl rd : K → K) : K × K → List K → List K → Res (K × K)
  | st, [], _ => .ok st
  | _, _ :: _, [] => .ub
  | st, x :: xs, y :: ys => dot3pLoop fl rd (dot3pTurn fl rd st x y) xs ys

/-- `dot3p` (MathUtils.cpp:129-156). -/
def dot3p (fl rd : K → K) (x y : List K) (s : K) : Res K :=
  (dot3pLoop fl rd (fl s, s - fl s) x y).bind fun st => .ok (st.1 + st.2)

/-- `residual3p` (MathUtils.cpp:158-165); the matrix is given as its list of rows. -/
def residual3p (fl rd : K → K) : List (List K) → List K → List K → Res (List K)
  | [], _, _ => .ok []
  | _ :: _, _, [] => .ub
  | row :: A, x, b :: bs => (dot3p fl rd row x (-b)).bind fun r => (residual3p fl rd A x bs).bind fun rs => .ok (r :: rs)

end Verif.MathUtils
