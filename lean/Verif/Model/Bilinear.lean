import Verif.Base
import Mathlib.Algebra.Order.Field.Basic

/-!
# Model of `Reaktoro/Math/BilinearInterpolator.cpp`

Numbers are elements of an arbitrary linearly ordered field (exact arithmetic).
-/

namespace Verif.Bilinear

variable {K : Type} [Field K] [LinearOrder K]

/-- `binarySearchHelper` (BilinearInterpolator.cpp:34-45). The first argument bounds the recursion depth; unbounded recursion
(`begin = end`) is undefined. -/
def binarySearchHelper : Nat → K → List K → Nat → Nat → Res Nat
  | 0, _, _, _, _ => .ub
  | n + 1, p, coordinates, b, e =>
    if e - b = 1 then .ok b
    else
      let mid := (b + e) / 2
      (at! coordinates mid).bind fun c =>
        if p < c then binarySearchHelper n p coordinates b mid
        else binarySearchHelper n p coordinates mid e

/-- `binarySearch` (BilinearInterpolator.cpp:47-50). -/
def binarySearch (p : K) (coordinates : List K) : Res Nat :=
  binarySearchHelper (coordinates.length + 1) p coordinates 0 coordinates.length

/-- A `BilinearInterpolator`. -/
structure Interpolator (K : Type) where
  xs : List K
  ys : List K
  data : List K

/-- The constructor from a function (BilinearInterpolator.cpp:66-78): the inner loop runs over `x`. -/
def fromFunction (xs ys : List K) (f : K → K → K) : Interpolator K :=
  ⟨xs, ys, ys.flatMap (fun y => xs.map (fun x => f x y))⟩

/-- `index == size - 1 ? index - 1 : index` (BilinearInterpolator.cpp:132,135); `0 - 1` wraps around and is later used as an
index, which is undefined. -/
def cellIndex (index size : Nat) : Res Nat :=
  if index = size - 1 then (if index = 0 then .ub else .ok (index - 1)) else .ok index

/-- `operator()` (BilinearInterpolator.cpp:115-156). -/
def eval (t : Interpolator K) (x y : K) : Res K :=
  if t.data.length = 1 then at! t.data 0
  else
    (at! t.xs 0).bind fun xA => (at! t.xs (t.xs.length - 1)).bind fun xB =>
    (at! t.ys 0).bind fun yA => (at! t.ys (t.ys.length - 1)).bind fun yB =>
    if x < xA ∨ x > xB then .throw
    else if y < yA ∨ y > yB then .throw
    else
      (binarySearch x t.xs).bind fun ix => (cellIndex ix t.xs.length).bind fun i =>
      (binarySearch y t.ys).bind fun iy => (cellIndex iy t.ys.length).bind fun j =>
      let k := fun (i j : Nat) => i + j * t.xs.length
      (at! t.xs i).bind fun x1 => (at! t.xs (i + 1)).bind fun x2 =>
      (at! t.ys j).bind fun y1 => (at! t.ys (j + 1)).bind fun y2 =>
      (at! t.data (k i j)).bind fun z11 => (at! t.data (k (i + 1) j)).bind fun z21 =>
      (at! t.data (k i (j + 1))).bind fun z12 => (at! t.data (k (i + 1) (j + 1))).bind fun z22 =>
      let f11 := z11 * (x2 - x) * (y2 - y)
      let f12 := -z12 * (x2 - x) * (y1 - y)
      let f21 := -z21 * (x1 - x) * (y2 - y)
      let f22 := z22 * (x1 - x) * (y1 - y)
      .ok ((f11 + f12 + f21 + f22) / ((x2 - x1) * (y2 - y1)))

/-- `interpolate` for several functions (Common/InterpolationUtils.cpp:44-64): one interpolator for each function, all of them evaluated; the array that
receives the results is overwritten from its first to its last entry. -/
def interpolateAll (xs ys : List K) (fs : List (K → K → K)) (x y : K) : Res (List K) :=
  (fs.map (fromFunction xs ys)).mapM (m := Res) fun t => eval t x y

end Verif.Bilinear
