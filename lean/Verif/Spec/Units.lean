import Verif.Model.Units

/-!
# Specification: temperature scales, unit expressions, factors and dimensions
-/

namespace Verif.Units

/-- The four temperature scales. -/
inductive Scale | kelvin | celsius | fahrenheit | rankine
  deriving DecidableEq

/-- The reading on a scale of the thermodynamic temperature `t` (in kelvin). -/
def Scale.reading : Scale → Rat → Rat
  | .kelvin, t => t
  | .celsius, t => t - 27315 / 100
  | .fahrenheit, t => 9 / 5 * t - 45967 / 100
  | .rankine, t => 9 / 5 * t

/-- The accepted names of the scales. -/
def scaleNames : List (List Char × Scale) :=
  [(c!"K", .kelvin), (c!"kelvin", .kelvin), (c!"degC", .celsius), (c!"celsius", .celsius), (c!"degF", .fahrenheit),
   (c!"fahrenheit", .fahrenheit), (c!"degR", .rankine), (c!"rankine", .rankine)]

/-- A unit expression: symbols combined with `*`, `/` (left associative) and parentheses. -/
inductive Expr
  | sym (s : List Char)
  | paren (e : Expr)
  | opSym (e : Expr) (mul : Bool) (s : List Char)
  | opParen (e : Expr) (mul : Bool) (e' : Expr)

def opChar (mul : Bool) : Char := if mul then '*' else '/'

/-- The written expression. -/
def Expr.text : Expr → List Char
  | .sym s => s
  | .paren e => '(' :: (e.text ++ [')'])
  | .opSym e mul s => e.text ++ opChar mul :: s
  | .opParen e mul e' => e.text ++ opChar mul :: '(' :: (e'.text ++ [')'])

/-- The symbols of an expression. -/
def Expr.symbols : Expr → List (List Char)
  | .sym s => [s]
  | .paren e => e.symbols
  | .opSym e _ s => e.symbols ++ [s]
  | .opParen e _ e' => e.symbols ++ e'.symbols

/-- Symbols are not empty and have no operator or parenthesis. -/
def SymbolText (s : List Char) : Prop := s ≠ [] ∧ ∀ c ∈ s, c ≠ '*' ∧ c ≠ '/' ∧ c ≠ '(' ∧ c ≠ ')'

def Expr.WF (e : Expr) : Prop := ∀ s ∈ e.symbols, SymbolText s

/-- Value of an expression for given values of the symbols. -/
def Expr.value (F : List Char → Rat) : Expr → Rat
  | .sym s => F s
  | .paren e => e.value F
  | .opSym e mul s => if mul then e.value F * F s else e.value F / F s
  | .opParen e mul e' => if mul then e.value F * e'.value F else e.value F / e'.value F

/-- Exponent of the base unit `k` in an expression, for given exponents in the symbols. -/
def Expr.dim (D : List Char → List Char → Int) : Expr → List Char → Int
  | .sym s, k => D s k
  | .paren e, k => e.dim D k
  | .opSym e mul s, k => if mul then e.dim D k + D s k else e.dim D k - D s k
  | .opParen e mul e', k => if mul then e.dim D k + e'.dim D k else e.dim D k - e'.dim D k

/-- The symbol is in one of the two tables. -/
def Known (s : List Char) : Prop := isTemperature s = true ∨ ∃ us, find derivedUnitsMap s = some us

/-- `F` satisfies the equations of the unit table: a temperature unit counts as one, a base unit (defined by itself) is its
own number, and any other unit is the product of its parts. -/
def IsFactor (F : List Char → Rat) : Prop :=
  (∀ s, isTemperature s = true → F s = 1) ∧
  (∀ s u us, isTemperature s = false → find derivedUnitsMap s = some (u :: us) →
    if u.symbol = s then F s = u.factor ^ u.power
    else F s = ((u :: us).map (fun p => p.factor * F p.symbol ^ p.power)).prod)

/-- `D s k`, the exponent of base unit `k` in `s`, satisfies the equations of the unit table: a temperature unit and a base
unit have their own dimension, and in any other unit the dimensions of the parts add up. -/
def IsDim (D : List Char → List Char → Int) : Prop :=
  (∀ s k, isTemperature s = true → D s k = if s = k then 1 else 0) ∧
  (∀ s u us k, isTemperature s = false → find derivedUnitsMap s = some (u :: us) →
    if u.symbol = s then D s k = (if s = k then u.power else 0)
    else D s k = ((u :: us).map (fun p => p.power * D p.symbol k)).sum)

end Verif.Units
