import Mathlib.Data.Rat.Defs
import Mathlib.Algebra.Order.Field.Rat
import Mathlib.Algebra.Order.Ring.Abs

/-!
# Specification for C72
-/

namespace Verif.NumberText

/-- The number can be written with at most six significant decimal digits. -/
def SixDigits (x : ℚ) : Prop := ∃ k j : ℤ, |k| < 10 ^ 6 ∧ x = k * 10 ^ j

/-- `y` is a number with six significant digits, and none is closer to `x`. -/
def Nearest (x y : ℚ) : Prop := SixDigits y ∧ ∀ z, SixDigits z → |y - x| ≤ |z - x|

/-- The sum of all coefficients given for a symbol. -/
def total (l : List (List Char × ℚ)) (symbol : List Char) : ℚ := ((l.filter fun p => p.1 = symbol).map Prod.snd).sum

end Verif.NumberText
