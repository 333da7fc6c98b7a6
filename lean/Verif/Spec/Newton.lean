import Verif.Model.Newton
import Mathlib.Analysis.Calculus.Deriv.Basic

/-!
# Newton's iteration
-/

namespace Verif.Newton

/-- The `k`-th point of Newton's iteration. -/
noncomputable def point (F F' : ℝ → ℝ) (x0 : ℝ) : ℕ → ℝ
  | 0 => x0
  | k + 1 => point F F' x0 k - F (point F F' x0 k) / F' (point F F' x0 k)

/-- The function passed to the method: a function and its derivative. -/
def pair (F F' : ℝ → ℝ) : ℝ → ℝ × ℝ := fun x => (F x, F' x)

end Verif.Newton
