import Verif.Spec.Formula

/-!
# Specification: written reaction equations
-/

namespace Verif.ReactionEquation

open Verif.Formula

/-- A term `2*Cl-` or `Ca++`. -/
structure Term where
  num : Num
  name : List Char

def Term.text (t : Term) : List Char :=
  match t.num with
  | .implicit => t.name
  | n => n.text ++ '*' :: t.name

/-- Names are not empty, are not a lone `+`, and have no space, `=` or `*`; written numbers have digits. -/
def Term.WF (t : Term) : Prop :=
  t.num.WF ∧ t.name ≠ [] ∧ t.name ≠ ['+'] ∧ ∀ c ∈ t.name, c ≠ ' ' ∧ c ≠ '=' ∧ c ≠ '*'

/-- The words of a side: terms separated by `+`. -/
def sideWords : List Term → List (List Char)
  | [] => []
  | [t] => [t.text]
  | t :: ts => t.text :: ['+'] :: sideWords ts

/-- The written equation, e.g. `CaCl2 = Ca++ + 2*Cl-`. -/
def equationText (reactants products : List Term) : List Char :=
  (sideWords reactants).flatMap (fun w => w ++ [' ']) ++ '=' :: (sideWords products).flatMap (fun w => ' ' :: w)

end Verif.ReactionEquation
