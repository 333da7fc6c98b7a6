import Mathlib.Data.Real.Basic
import Mathlib.Data.List.FinRange
import Mathlib.Algebra.Order.Group.Unbundled.Abs
import Verif.Base

/-!
# Numerical derivatives

Model of `/repo/Reaktoro/Math/Derivatives.cpp`. The function to differentiate may throw; real numbers
are exact. A vector of size `n` is a function on `Fin n`; the result of the scalar functions is the list
`dfdx`, that of the vector functions the list of the columns of `dfdx`.
-/

namespace Verif.Derivatives

/-- Points at which functions are evaluated. -/
abbrev Pt (n : Nat) := Fin n → ℝ

/-- `eps1storder` (`Derivatives.cpp` 24). -/
noncomputable def eps1 : ℝ := 1 / 10 ^ 8

/-- `eps2ndorder` (`Derivatives.cpp` 27). -/
noncomputable def eps2 : ℝ := 1 / 10 ^ 6

open Classical in
/-- `h = eps * (x[i] ? std::abs(x[i]) : 1.0)` (`Derivatives.cpp` 39 and alike). -/
noncomputable def step (eps : ℝ) {n : Nat} (x : Pt n) (i : Fin n) : ℝ :=
  eps * (if x i ≠ 0 then |x i| else 1)

/-- `xh = x; xh[i] += h;`. -/
noncomputable def shift {n : Nat} (x : Pt n) (i : Fin n) (h : ℝ) : Pt n := Function.update x i (x i + h)

/-- `derivativeForward` of a scalar function (`Derivatives.cpp` 31-45). -/
noncomputable def forward {n : Nat} (f : Pt n → Res ℝ) (x : Pt n) : Res (List ℝ) :=
  f x >>= fun fx =>
  (List.finRange n).mapM fun i =>
    f (shift x i (step eps1 x i)) >>= fun fh => pure ((fh - fx) / step eps1 x i)

/-- `derivativeBackward` of a scalar function (`Derivatives.cpp` 47-61). -/
noncomputable def backward {n : Nat} (f : Pt n → Res ℝ) (x : Pt n) : Res (List ℝ) :=
  f x >>= fun fx =>
  (List.finRange n).mapM fun i =>
    f (shift x i (-step eps1 x i)) >>= fun fh => pure ((fx - fh) / step eps1 x i)

/-- `derivativeCentral` of a scalar function (`Derivatives.cpp` 63-78). -/
noncomputable def central {n : Nat} (f : Pt n → Res ℝ) (x : Pt n) : Res (List ℝ) :=
  (List.finRange n).mapM fun i =>
    f (shift x i (step eps2 x i)) >>= fun f1 =>
    f (shift x i (-step eps2 x i)) >>= fun f2 => pure ((f1 - f2) / (2 * step eps2 x i))

/-- `(a - b)/h` of vectors, assigned to a column with `rows` rows: undefined when the sizes differ. -/
noncomputable def column (rows : Nat) (a b : List ℝ) (h : ℝ) : Res (List ℝ) :=
  if a.length = b.length ∧ a.length = rows then .ok (List.zipWith (fun u v => (u - v) / h) a b) else .ub

/-- `derivativeForward` of a vector function (`Derivatives.cpp` 80-95). -/
noncomputable def forwardV {n : Nat} (f : Pt n → Res (List ℝ)) (x : Pt n) : Res (List (List ℝ)) :=
  f x >>= fun fx =>
  (List.finRange n).mapM fun i =>
    f (shift x i (step eps1 x i)) >>= fun fh => column fx.length fh fx (step eps1 x i)

/-- `derivativeBackward` of a vector function (`Derivatives.cpp` 97-112). -/
noncomputable def backwardV {n : Nat} (f : Pt n → Res (List ℝ)) (x : Pt n) : Res (List (List ℝ)) :=
  f x >>= fun fx =>
  (List.finRange n).mapM fun i =>
    f (shift x i (-step eps1 x i)) >>= fun fh => column fx.length fx fh (step eps1 x i)

/-- `derivativeCentral` of a vector function (`Derivatives.cpp` 114-131), which evaluates the function at
`x` as well, for the number of rows. -/
noncomputable def centralV {n : Nat} (f : Pt n → Res (List ℝ)) (x : Pt n) : Res (List (List ℝ)) :=
  f x >>= fun fx =>
  (List.finRange n).mapM fun i =>
    f (shift x i (step eps2 x i)) >>= fun f1 =>
    f (shift x i (-step eps2 x i)) >>= fun f2 => column fx.length f1 f2 (2 * step eps2 x i)

end Verif.Derivatives
