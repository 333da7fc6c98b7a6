import Verif.Base
import Verif.Model.Numbers

/-!
# Model of the electric charge parser (`Reaktoro/Common/ParseUtils.cpp`, `NamingUtils.cpp`)
-/

namespace Verif.ChargeParser

open Verif.Numbers

abbrev Str := List Char

/-- Text before and after the last occurrence of a character (`rfind`, `find_last_of`). -/
def rfind (c : Char) : Str → Option (Str × Str)
  | [] => none
  | x :: s =>
    match rfind c s with
    | some (a, b) => some (x :: a, b)
    | none => if x = c then some ([], s) else none

/-- `splitSpeciesNameSuffix` (NamingUtils.cpp:190-204). `name.back()` of an empty string is undefined. -/
def splitSpeciesNameSuffix (name : Str) : Res (Str × Str) :=
  match name.getLast? with
  | none => .ub
  | some last =>
    if last ≠ ')' then .ok (name, [])
    else
      -- without `(`, `pos + 1` wraps to 0 and `substr(0, pos)` is the whole name
      let (before, suffix) :=
        match rfind '(' name with
        | some (a, b) => (a, b.dropLast)
        | none => (name, name.dropLast)
      if suffix.any Char.isUpper then .ok (name, []) else .ok (before, suffix)

/-- `std::stod` on a decimal text (see `Verif.Model.Numbers`): throws if there is no number. -/
def stod : Str → Res Rat
  | '-' :: s => if startsDecimal s then .ok (- decimalPrefix s) else .throw
  | '+' :: s => if startsDecimal s then .ok (decimalPrefix s) else .throw
  | s => if startsDecimal s then .ok (decimalPrefix s) else .throw

/-- Value of a sign character. -/
def signVal (c : Char) : Rat := if c = '+' then 1 else if c = '-' then -1 else 0

/-- `parseElectricChargeModeMultipleSigns` (ParseUtils.cpp:159-173). The loop condition reads `formula[ilast - i]` before
testing `i <= ilast`, so it reads before the first character when all characters equal the last one. -/
def modeMultipleSigns (formula : Str) : Res Rat :=
  match formula.getLast? with
  | none => .ub
  | some sign =>
    let run := (formula.reverse.takeWhile (fun c => c == sign)).length
    if run = formula.length then .ub else .ok ((run : Rat) * signVal sign)

/-- `parseElectricChargeModeNumberSignBetweenBrackets` (ParseUtils.cpp:175-193). -/
def modeBrackets (formula : Str) : Res Rat :=
  if formula.getLast? ≠ some ']' then .ok 0
  else
    match rfind '[' formula with
    | none => .ok 0
    | some (_, b) =>
      match formula.dropLast.getLast? with
      | none => .ub
      | some c =>
        let sign := signVal c
        if sign = 0 then .ok 0
        else
          let digits := b.dropLast.dropLast
          if digits = [] then .ok sign
          else Res.bind (stod digits) (fun x => .ok (sign * x))

/-- `parseElectricChargeModeSignNumber` (ParseUtils.cpp:140-157). -/
def modeSignNumber (formula : Str) : Res Rat :=
  let found : Option (Rat × Str) :=
    match rfind '+' formula, rfind '-' formula with
    | none, none => none
    | some (_, b), none => some (1, b)
    | none, some (_, b) => some (-1, b)
    | some (a, b), some (a', b') => if a.length < a'.length then some (1, b) else some (-1, b')
  match found with
  | none => .ok 0
  | some (sign, digits) =>
    if digits = [] then .ok sign else Res.bind (stod digits) (fun x => .ok (sign * x))

/-- `parseElectricCharge` (ParseUtils.cpp:195-205). -/
def parseElectricCharge (formula : Str) : Res Rat :=
  Res.bind (splitSpeciesNameSuffix formula) fun p =>
  Res.bind (modeMultipleSigns p.1) fun c1 =>
  if c1 ≠ 0 then .ok c1 else
  Res.bind (modeBrackets p.1) fun c2 =>
  if c2 ≠ 0 then .ok c2 else
  Res.bind (modeSignNumber p.1) fun c3 =>
  if c3 ≠ 0 then .ok c3 else .ok 0

end Verif.ChargeParser
