import Verif.Base
import Mathlib.Algebra.Order.Field.Basic

/-!
# Model of `farey`, `rationalize` and `cleanRationalNumbers` (`Reaktoro/Math/MathUtils.cpp:76-122`)

Numbers are elements of an arbitrary linearly ordered field (exact arithmetic), the `long` integers are unbounded.
-/

namespace Verif.Farey

variable {K : Type} [Field K] [LinearOrder K]

/-- The loop of `farey` (MathUtils.cpp:80-98). The first argument bounds the number of iterations; an endless loop is
undefined. -/
def fareyLoop (x : K) (maxden : Nat) : Nat → Nat → Nat → Nat → Nat → Res (Nat × Nat)
  | 0, _, _, _, _ => .ub
  | fuel + 1, a, b, c, d =>
    if b ≤ maxden ∧ d ≤ maxden then
      let mediant : K := ((a + c : Nat) : K) / ((b + d : Nat) : K)
      if x = mediant then
        if b + d ≤ maxden then .ok (a + c, b + d)
        else if d > b then .ok (c, d)
        else .ok (a, b)
      else if x > mediant then fareyLoop x maxden fuel (a + c) (b + d) c d
      else fareyLoop x maxden fuel a b (a + c) (b + d)
    else if b > maxden then .ok (c, d)
    else .ok (a, b)

/-- `farey` (MathUtils.cpp:76-99). -/
def farey (x : K) (maxden : Nat) : Res (Nat × Nat) := fareyLoop x maxden (2 * maxden + 2) 0 1 1 1

/-- `rationalize` (MathUtils.cpp:101-112). -/
def rationalize (x : K) (maxden : Nat) : Res (Int × Int) :=
  let sign : Int := if x ≥ 0 then 1 else -1
  if |x| > 1 then (farey (1 / |x|) maxden).bind fun (a, b) => .ok (sign * b, a)
  else (farey |x| maxden).bind fun (a, b) => .ok (sign * a, b)

/-- `cleanRationalNumbers` for an array (MathUtils.cpp:114-122): every number is replaced by `num/den`. `none` stands for the
infinity produced by a zero denominator. -/
def cleanRationalNumbers (vals : List K) (maxden : Nat) : List (Res (Option K)) :=
  vals.map fun v => (rationalize v maxden).bind fun (num, den) => .ok (if den = 0 then none else some ((num : K) / (den : K)))

end Verif.Farey
