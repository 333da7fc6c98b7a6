import Mathlib.Data.Rat.Defs

/-!
# Model of text to number conversions

Numbers are rationals. `atof`/`stod` are modelled for decimal texts `[sign]digits[.digits]`; exponents, hexadecimal,
`inf`/`nan` and leading white space are not modelled. A trailing part that is not a number is ignored, as in C.
-/

namespace Verif.Numbers

/-- Value of a digit character. -/
def digitVal (c : Char) : Nat := c.toNat - 48

/-- Value of a run of digits, read from the left. -/
def digitsVal (s : List Char) : Nat := s.foldl (fun a c => 10 * a + digitVal c) 0

/-- Unsigned decimal prefix of a text: `digits[.digits]`, zero if there is none. -/
def decimalPrefix (s : List Char) : Rat :=
  let ip := s.takeWhile Char.isDigit
  match s.dropWhile Char.isDigit with
  | '.' :: fr =>
    let fp := fr.takeWhile Char.isDigit
    (digitsVal ip : Rat) + (digitsVal fp : Rat) / (10 ^ fp.length : Nat)
  | _ => (digitsVal ip : Rat)

/-- Whether the text starts with a decimal number, i.e. `strtod` converts something. -/
def startsDecimal : List Char → Bool
  | '.' :: c :: _ => c.isDigit
  | c :: _ => c.isDigit
  | [] => false

/-- C's `atof` (used by `tofloat`, StringUtils.hpp:154-157, and ParseUtils.cpp:45). -/
def atof : List Char → Rat
  | '-' :: s => - decimalPrefix s
  | '+' :: s => decimalPrefix s
  | s => decimalPrefix s

end Verif.Numbers
