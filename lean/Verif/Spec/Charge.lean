import Verif.Spec.Formula

/-!
# Specification: written charges and aggregate state suffixes
-/

namespace Verif.Charge

/-- A sign and its character. -/
def signChar (positive : Bool) : Char := if positive then '+' else '-'

/-- The number `x` with the sign. -/
def signed (positive : Bool) (x : Rat) : Rat := if positive then x else -x

/-- What may follow the charge: nothing, or a suffix such as `(aq)` without upper case letters or parentheses inside. -/
def IsSuffix (s : List Char) : Prop :=
  s = [] ∨ ∃ t, s = '(' :: t ++ [')'] ∧ ∀ c ∈ t, c ≠ '(' ∧ c.isUpper = false

end Verif.Charge
