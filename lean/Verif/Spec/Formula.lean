import Mathlib.Data.Rat.Defs

/-!
# Specification: chemical formulas as syntax trees

Numbers are written with decimal digits; a formula is a sequence of element symbols and parenthesised groups, each with an
optional number.
-/

namespace Verif.Formula

abbrev Digits := List (Fin 10)

/-- The character of a digit. -/
def digitChar (d : Fin 10) : Char := Nat.digitChar d.val

def digitsText (ds : Digits) : List Char := ds.map digitChar

/-- Positional value. -/
def natVal : Digits → Nat
  | [] => 0
  | d :: ds => d.val * 10 ^ ds.length + natVal ds

/-- A number written in a formula: nothing, digits, or digits with a fractional part. -/
inductive Num where
  | implicit
  | int (ds : Digits)
  | dec (ds fs : Digits)

def Num.text : Num → List Char
  | .implicit => []
  | .int ds => digitsText ds
  | .dec ds fs => digitsText ds ++ '.' :: digitsText fs

/-- Value of a number; no number means one. -/
def Num.val : Num → Rat
  | .implicit => 1
  | .int ds => natVal ds
  | .dec ds fs => natVal ds + (natVal fs : Rat) / (10 ^ fs.length : Nat)

/-- At least one digit is written. -/
def Num.WF : Num → Prop
  | .implicit => True
  | .int ds => ds ≠ []
  | .dec ds fs => ds ≠ [] ∨ fs ≠ []

/-- A formula: a sequence of elements with a number and groups with a number. -/
inductive Formula where
  | nil
  | elem (symbol : List Char) (num : Num) (rest : Formula)
  | group (inner : Formula) (num : Num) (rest : Formula)

/-- The written form. -/
def Formula.text : Formula → List Char
  | .nil => []
  | .elem s n rest => s ++ n.text ++ rest.text
  | .group inner n rest => '(' :: inner.text ++ ')' :: n.text ++ rest.text

/-- Element symbols are an upper case letter followed by lower case letters. -/
def IsSymbol (s : List Char) : Prop := ∃ c t, s = c :: t ∧ c.isUpper = true ∧ ∀ x ∈ t, x.isLower = true

def Formula.WF : Formula → Prop
  | .nil => True
  | .elem s n rest => IsSymbol s ∧ n.WF ∧ rest.WF
  | .group inner n rest => inner.WF ∧ n.WF ∧ rest.WF

/-- Number of atoms of element `e`. -/
def Formula.atoms (e : List Char) : Formula → Rat
  | .nil => 0
  | .elem s n rest => (if s = e then n.val else 0) + rest.atoms e
  | .group inner n rest => n.val * inner.atoms e + rest.atoms e

/-- Element `e` is written somewhere in the formula. -/
def Formula.Mentions (e : List Char) : Formula → Prop
  | .nil => False
  | .elem s _ rest => s = e ∨ rest.Mentions e
  | .group inner _ rest => inner.Mentions e ∨ rest.Mentions e

/-- What may follow the composition: characters that cannot belong to it (a charge such as `+2`, `--`, `[2+]`), the first
of which does not continue the last symbol or number. -/
def IsTail (tail : List Char) : Prop :=
  (∀ c ∈ tail, c ≠ '(' ∧ c ≠ '.' ∧ c.isUpper = false) ∧
  (∀ c ∈ tail.head?, c.isDigit = false ∧ c.isAlpha = false)

end Verif.Formula
