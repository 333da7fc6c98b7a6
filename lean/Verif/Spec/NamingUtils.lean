import Verif.Model.NamingUtils

/-!
# Ways to write the name of a species

A charged species with base name `Ca` and charge `2` is written `Ca++`, `Ca+2`, `Ca[2+]`; one with charge
`-1` is written `Cl-`, `Cl-1`, `Cl[-]`, `Cl[1-]`. A neutral one is written `CO2(aq)`, `CO2`, `CO2@`, `CO2,aq`.
-/

namespace Verif.Naming

/-- The sign of `z` as a character. -/
def sgn (z : Int) : Char := if 0 < z then '+' else '-'

/-- The decimal digits of the absolute value of `z`. -/
def digits (z : Int) : Str := NumberText.natDigits z.natAbs

/-- `Written base z name`: `name` is a way to write the species with this base name and charge. -/
inductive Written (base : Str) (z : Int) : Str → Prop
  | signs : Written base z (base ++ List.replicate z.natAbs (sgn z))
  | number : Written base z (base ++ sgn z :: digits z)
  | bracket : Written base z (base ++ c!"[" ++ digits z ++ [sgn z] ++ c!"]")
  | single (h : z.natAbs = 1) : Written base z (base ++ c!"[" ++ [sgn z] ++ c!"]")

/-- A base name has none of the characters that mark a charge. -/
def PlainBase (base : Str) : Prop := ∀ c ∈ base, c ≠ '-' ∧ c ≠ '+' ∧ c ≠ '['

/-- A charge: not zero, and representable. -/
def Charge (z : Int) : Prop := z ≠ 0 ∧ z.natAbs ≤ 2147483647

/-- The three names that the documentation announces: `Ca++`, `Ca+2` (`Na+`), `Ca[2+]` (`Na[+]`). -/
def announced (base : Str) (z : Int) : List Str :=
  let num := if z.natAbs = 1 then [] else digits z
  [base ++ List.replicate z.natAbs (sgn z), base ++ sgn z :: num, base ++ c!"[" ++ num ++ [sgn z] ++ c!"]"]

/-- The suffixes of neutral species. -/
def neutralSuffixes : List Str := [c!"(aq)", [], c!"@", c!",aq"]

/-- A base name of a neutral species has none of the suffixes in it. -/
def PlainNeutral (base : Str) : Prop := ¬ c!"(aq)" <:+: base ∧ '@' ∉ base ∧ ¬ c!",aq" <:+: base

/-- The names that were added by users for the species, in this order. -/
def addedCharged (base : Str) (z : Int) (ops : List Op) : List Str :=
  ops.filterMap fun
    | .addCharged name extra => if splitCharged name = .ok (base, z) then some extra else none
    | _ => none

/-- The names that were added by users for a neutral species. -/
def addedNeutral (base : Str) (ops : List Op) : List Str :=
  ops.filterMap fun
    | .addNeutral name extra => if baseNeutral name = base then some extra else none
    | _ => none

end Verif.Naming
