import Verif.Base
import Mathlib.Data.Real.Basic

/-!
# Newton's method

Model of `newton` (`/repo/Reaktoro/Math/Roots.hpp` 96-120) for real numbers. A zero derivative stops the program in
debug builds and gives no finite number otherwise; the model has no value for it.
-/

namespace Verif.Newton

/-- The loop from iteration `i`, with `left` iterations left: the root, the number of iterations and the
flag of success. -/
noncomputable def loop (f : ℝ → ℝ × ℝ) (ε : ℝ) : (left i : ℕ) → ℝ → Res (ℝ × ℕ × Bool)
  | 0, i, x => .ok (x, i, false)
  | left + 1, i, x =>
    let r := f x
    if r.2 = 0 then .ub
    else
      let x' := x - r.1 / r.2
      if |r.1| < ε then .ok (x', i, true) else loop f ε left (i + 1) x'

/-- `newton(f, x0, epsilon, maxiter)`. -/
noncomputable def newton (f : ℝ → ℝ × ℝ) (x0 ε : ℝ) (maxiter : ℕ) : Res (ℝ × ℕ × Bool) := loop f ε maxiter 0 x0

end Verif.Newton
