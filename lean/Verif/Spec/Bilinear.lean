import Verif.Model.Bilinear

/-!
# Specification: regular tables and the bilinear form
-/

namespace Verif.Bilinear

variable {K : Type} [Field K] [LinearOrder K]

/-- A usable table: at least two strictly increasing coordinates per axis, and one value per grid point. -/
structure Regular (t : Interpolator K) : Prop where
  xs2 : 2 ≤ t.xs.length
  ys2 : 2 ≤ t.ys.length
  xsorted : t.xs.Pairwise (· < ·)
  ysorted : t.ys.Pairwise (· < ·)
  size : t.data.length = t.xs.length * t.ys.length

/-- Coordinates and values by index. -/
def Interpolator.X (t : Interpolator K) (i : Nat) : K := t.xs.getD i 0
def Interpolator.Y (t : Interpolator K) (j : Nat) : K := t.ys.getD j 0
def Interpolator.Z (t : Interpolator K) (i j : Nat) : K := t.data.getD (i + j * t.xs.length) 0

/-- The weighted mean of four corner values with weights `s` along x and `u` along y. -/
def mix (s u z11 z21 z12 z22 : K) : K :=
  (1 - u) * ((1 - s) * z11 + s * z21) + u * ((1 - s) * z12 + s * z22)

/-- `(x, y)` lies in the rectangle covered by the table. -/
def Interpolator.Covers (t : Interpolator K) (x y : K) : Prop :=
  t.X 0 ≤ x ∧ x ≤ t.X (t.xs.length - 1) ∧ t.Y 0 ≤ y ∧ y ≤ t.Y (t.ys.length - 1)

end Verif.Bilinear
