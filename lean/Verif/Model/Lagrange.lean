import Verif.Base
import Mathlib.Algebra.Order.Field.Basic

/-!
# Model of `Reaktoro/Math/LagrangeInterpolator.cpp`

Numbers are elements of an arbitrary linearly ordered field (exact arithmetic).
-/

namespace Verif.Lagrange

variable {K : Type} [Field K] [LinearOrder K]

/-- The inner loop of `interpolate` (LagrangeInterpolator.cpp:29-32) over the index `j`. -/
def basisLoop (x : K) (xi : List K) (i : Nat) : Nat → List K → K → K
  | _, [], li => li
  | j, xj :: rest, li =>
    basisLoop x xi i (j + 1) rest (li * (if i = j then 1 else (x - xj) / ((xi[i]?).getD 0 - xj)))

/-- The outer loop of `interpolate` (LagrangeInterpolator.cpp:25-37) over the index `i`; `pts` are the points not visited yet,
`xi` all points. Reading `xi[i]` is always within range here. -/
def outerLoop (x : K) (xi : List K) : Nat → List K → K → K
  | _, [], y => y
  | i, yi :: rest, y => outerLoop x xi (i + 1) rest (y + yi * basisLoop x xi i 0 xi 1)

/-- `interpolate(x, xi, yi, npoints)` (LagrangeInterpolator.cpp:23-38), with the two pointers given as the remaining parts of
the two tables. Reading beyond the tables is undefined. -/
def interpolate (x : K) (xi yi : List K) (npoints : Nat) : Res K :=
  if xi.length < npoints ∨ yi.length < npoints then .ub
  else .ok (outerLoop x (xi.take npoints) 0 (yi.take npoints) 0)

/-- `while(xi[i] < x) ++i` (LagrangeInterpolator.cpp:61): undefined if it runs past the end of the table. -/
def scan (x : K) : Nat → List K → Res Nat
  | _, [] => .ub
  | i, a :: rest => if a < x then scan x (i + 1) rest else .ok i

/-- `operator()` (LagrangeInterpolator.cpp:49-67). -/
def evaluate (xi yi : List K) (order : Nat) (x : K) : Res K :=
  match xi.head?, xi.getLast? with
  | some front, some back =>
    if x ≤ front then (match yi.head? with | some y => .ok y | none => .ub)
    else if x ≥ back then (match yi.getLast? with | some y => .ok y | none => .ub)
    else (scan x 0 xi).bind fun i =>
      let npoints := if i + order + 1 > xi.length then xi.length - i else order + 1
      interpolate x (xi.drop i) (yi.drop i) npoints
  | _, _ => .ub

end Verif.Lagrange
