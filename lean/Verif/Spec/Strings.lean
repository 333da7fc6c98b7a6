import Verif.Base

/-!
# Specifications for string utilities
-/

namespace Verif.Strings

/-- `Fields d s ws`: `ws` are the maximal non-empty runs of characters of `s` that are not delimiters, in order. -/
inductive Fields (d : List Char) : List Char → List (List Char) → Prop
  | none (sep : List Char) (hsep : ∀ c ∈ sep, c ∈ d) : Fields d sep []
  | word (sep w rest : List Char) (ws : List (List Char)) (hsep : ∀ c ∈ sep, c ∈ d) (hne : w ≠ [])
      (hw : ∀ c ∈ w, c ∉ d) (hrest : ∀ c ∈ rest.head?, c ∈ d) (h : Fields d rest ws) :
      Fields d (sep ++ w ++ rest) (w :: ws)

/-- `s` repeated `k` times. -/
def repeated (s : List Char) : Nat → List Char
  | 0 => []
  | k + 1 => repeated s k ++ s

/-- The suffix is not empty and no word is a different word followed by suffixes. -/
def Clean (ws : List (List Char)) (suffix : List Char) : Prop :=
  suffix ≠ [] ∧ ∀ x ∈ ws, ∀ y ∈ ws, ∀ k, x = y ++ repeated suffix k → x = y

/-- Bracket depth never falls below zero and ends at zero, starting at depth `d`. -/
def balancedFrom (d : Nat) : List Char → Bool
  | [] => d == 0
  | c :: s =>
    if c = '(' then balancedFrom (d + 1) s
    else if c = ')' then (d != 0) && balancedFrom (d - 1) s
    else balancedFrom d s

/-- The brackets of `s` are balanced. -/
def balanced (s : List Char) : Bool := balancedFrom 0 s

/-- `s`, starting at bracket depth `d`, has no separator at depth zero. -/
def noSepFrom (sep : Char) (d : Nat) : List Char → Bool
  | [] => true
  | c :: s =>
    if c = '(' then noSepFrom sep (d + 1) s
    else if c = ')' then noSepFrom sep (d - 1) s
    else !(c == sep && d == 0) && noSepFrom sep d s

/-- `s` has no separator outside brackets. -/
def noSep (sep : Char) (s : List Char) : Bool := noSepFrom sep 0 s

/-- ASCII white space. -/
def whiteChars : List Char := [' ', '\t', '\n', '\x0b', '\x0c', '\r']

end Verif.Strings
