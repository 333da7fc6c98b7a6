import Verif.Base
import Verif.Model.Numbers
import Verif.Model.Strings
import Mathlib.Data.Int.Log
import Mathlib.Data.Rat.Floor
import Mathlib.Data.Nat.Digits.Defs

/-!
# Numbers written to and read from texts

`operator<<(std::ostream&, double)` with the default precision of six digits, as used by `ElementalComposition::repr`
(`Reaktoro/Core/ElementalComposition.cpp:87-94`) and by the encoder of `FormationReaction`
(`Reaktoro/Serialization/Core.YAML.cpp:148-160`), and the functions that read these texts : `tofloat`
(`Reaktoro/Common/StringUtils.hpp:154-157`) and `parseNumberStringPairs` (`Reaktoro/Common/ParseUtils.cpp:221-237`).

Numbers are rationals : every finite double is one.  The printed digits are those of the exact value, correctly rounded (half to even), as in
glibc; the value of a text is exact, i.e. the rounding of a decimal text to a double is not modelled.  Infinities, NaN and the
negative zero are left out.
-/

namespace Verif.NumberText

open Numbers

abbrev Str := List Char

/-- The character of a digit. -/
def digitChar (d : Nat) : Char := Char.ofNat (48 + d)

/-- The last `w` digits of `m`. -/
def fixedDigits : Nat → Nat → Str
  | 0, _ => []
  | w + 1, m => fixedDigits w (m / 10) ++ [digitChar (m % 10)]

/-- All digits of `n`, none for zero. -/
def natDigits (n : Nat) : Str := ((Nat.digits 10 n).reverse).map digitChar

/-- Rounding to an integer, half to even. -/
def roundEven (q : ℚ) : Nat :=
  let n := ⌊q⌋₊
  if q - n < 1 / 2 then n
  else if 1 / 2 < q - n then n + 1
  else if n % 2 = 0 then n else n + 1

/-- The significant digits, as an integer below `10 ^ 6`, and the decimal exponent of a positive number. -/
def decompose (x : ℚ) : Nat × ℤ :=
  let e := Int.log 10 x
  let m := roundEven (x * 10 ^ (5 - e))
  if m = 10 ^ 6 then (10 ^ 5, e + 1) else (m, e)

/-- Removal of zeros at the end. -/
def strip (s : Str) : Str := (s.reverse.dropWhile (· = '0')).reverse

/-- Integer and fractional digits with the decimal point, if any digits remain after it. -/
def withPoint (ip fp : Str) : Str := ip ++ if strip fp = [] then [] else '.' :: strip fp

/-- The exponent as written by `%e` : a sign and at least two digits. -/
def exponentText (e : ℤ) : Str :=
  ['e', if e < 0 then '-' else '+'] ++ (if e.natAbs < 10 then fixedDigits 2 e.natAbs else natDigits e.natAbs)

/-- A positive number in the format `%g`. -/
def formatPos (x : ℚ) : Str :=
  let (m, e) := decompose x
  let ds := fixedDigits 6 m
  if 0 ≤ e ∧ e < 6 then withPoint (ds.take (e.toNat + 1)) (ds.drop (e.toNat + 1))
  else if -4 ≤ e ∧ e < 0 then withPoint ['0'] (List.replicate (-e - 1).toNat '0' ++ ds)
  else withPoint (ds.take 1) (ds.drop 1) ++ exponentText e

/-- `std::stringstream << double` with the default format. -/
def format (x : ℚ) : Str :=
  if x = 0 then ['0'] else if x < 0 then '-' :: formatPos (-x) else formatPos x

/-- The exponent read by `strtod` at the beginning of a text : none if there are no digits. -/
def readExponent : Str → ℤ
  | c :: s =>
    if c = 'e' ∨ c = 'E' then
      match s with
      | '-' :: t => -(digitsVal (t.takeWhile Char.isDigit) : ℤ)
      | '+' :: t => digitsVal (t.takeWhile Char.isDigit)
      | t => digitsVal (t.takeWhile Char.isDigit)
    else 0
  | [] => 0

/-- `strtod` without sign; zero if there are no digits. -/
def readPos (s : Str) : ℚ :=
  let ip := s.takeWhile Char.isDigit
  match s.dropWhile Char.isDigit with
  | '.' :: fr =>
    let fp := fr.takeWhile Char.isDigit
    if ip = [] ∧ fp = [] then 0
    else (digitsVal (ip ++ fp) : ℚ) / 10 ^ fp.length * 10 ^ readExponent (fr.dropWhile Char.isDigit)
  | rest => if ip = [] then 0 else (digitsVal ip : ℚ) * 10 ^ readExponent rest

/-- `atof` (`StringUtils.hpp:156`).  White space at the beginning, hexadecimal numbers, infinities and NaN are not modelled. -/
def tofloat : Str → ℚ
  | '-' :: s => -readPos s
  | '+' :: s => readPos s
  | s => readPos s

/-- One word of `ElementalComposition::repr`. -/
def pairText (p : Str × ℚ) : Str := format p.2 ++ ':' :: p.1

/-- `ElementalComposition::repr` (`ElementalComposition.cpp:87-94`) and the text `Reactants` (`Core.YAML.cpp:150-153`). -/
def repr : Nat → List (Str × ℚ) → Str
  | _, [] => []
  | i, p :: l => (if i = 0 then [] else [' ']) ++ pairText p ++ repr (i + 1) l

/-- `ParseUtils.cpp:228-230` : without a colon, both parts are the whole word (`npos + 1` is zero). -/
def splitPair (word : Str) : Str × ℚ :=
  match word.dropWhile (· ≠ ':') with
  | [] => (word, tofloat word)
  | _ :: symbol => (symbol, tofloat (word.takeWhile (· ≠ ':')))

/-- `ParseUtils.cpp:231-234`. -/
def addPair (pairs : List (Str × ℚ)) (p : Str × ℚ) : List (Str × ℚ) :=
  if p.1 ∈ pairs.map Prod.fst then go p pairs else pairs ++ [p]
where
  /-- The first pair with the symbol. -/
  go (p : Str × ℚ) : List (Str × ℚ) → List (Str × ℚ)
    | [] => []
    | q :: l => if q.1 = p.1 then (q.1, q.2 + p.2) :: l else q :: go p l

/-- `parseNumberStringPairs` (`ParseUtils.cpp:221-237`). -/
def parseNumberStringPairs (s : Str) : List (Str × ℚ) :=
  ((Strings.split s [' ']).map splitPair).foldl addPair []

end Verif.NumberText
