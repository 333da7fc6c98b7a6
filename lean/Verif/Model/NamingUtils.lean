import Verif.Base
import Verif.Model.NumberText

/-!
# Names of species

Model of `/repo/Reaktoro/Common/NamingUtils.cpp` (`splitSpeciesNameSuffix` is in
`Verif/Model/ChargeParser.lean`). Texts are lists of characters. The two maps of the file, which live as
long as the process, are association lists.
-/

namespace Verif.Naming

open Verif.Numbers

abbrev Str := List Char

/-- `std::stoi` without leading white space: a sign and as many digits as there are; throws without digits
or when the value does not fit an `int`. -/
def stoi (s : Str) : Res Int :=
  let read (neg : Bool) (t : Str) : Res Int :=
    let ds := t.takeWhile Char.isDigit
    if ds = [] then .throw
    else
      let v : Int := if neg then -(digitsVal ds : Int) else digitsVal ds
      if v < -2147483648 ∨ 2147483647 < v then .throw else .ok v
  match s with
  | '-' :: t => read true t
  | '+' :: t => read false t
  | t => read false t

/-- `std::to_string` of a positive number. -/
def toString (n : Nat) : Str := NumberText.natDigits n

/-- The characters searched by `find_first_of("-+[")`. -/
def isMark (c : Char) : Bool := c = '-' || c = '+' || c = '['

/-- `splitChargedSpeciesName` (`NamingUtils.cpp` 126-161). Without any of the marks `name[npos]` is read,
which is undefined. -/
def splitCharged (name : Str) : Res (Str × Int) :=
  let base := name.takeWhile fun c => !isMark c
  match name.dropWhile fun c => !isMark c with
  | [] => .ub
  | c :: t =>
    if c = '[' then
      if ']' ∈ t then
        let inside := t.takeWhile fun c => c ≠ ']'
        let sign := (c :: inside).getLast (by simp)
        let numb := if 1 < inside.length then inside.dropLast else c!"1"
        (stoi numb).bind fun n => .ok (base, if sign = '-' then -n else n)
      else .throw
    else
      let last := (c :: t).getLast (by simp)
      if last = c then .ok (base, if c = '-' then -((c :: t).length : Int) else (c :: t).length)
      else if last.isDigit then (stoi (c :: t)).bind fun n => .ok (base, n)
      else .throw

/-- The sign of a charge. -/
def signOf (z : Int) : Char := if z < 0 then '-' else '+'

/-- `conventionalChargedSpeciesName` (`NamingUtils.cpp` 96-103). -/
def conventionalCharged (name : Str) : Res Str :=
  (splitCharged name).bind fun bz => .ok (bz.1 ++ List.replicate bz.2.natAbs (signOf bz.2))

/-- Order of strings by their characters. -/
def le : Str → Str → Bool
  | [], _ => true
  | _ :: _, [] => false
  | a :: s, b :: t => if a = b then le s t else decide (a.toNat < b.toNat)

/-- `std::unique` after erasing: equal neighbours become one. -/
def squeeze : List Str → List Str
  | [] => []
  | [a] => [a]
  | a :: b :: l => if a = b then squeeze (b :: l) else a :: squeeze (b :: l)

/-- `unique` (`Algorithms.hpp` 62-69). -/
def unique (l : List Str) : List Str := squeeze (l.mergeSort le)

/-- The names of a charged species that the code makes (`NamingUtils.cpp` 53-70). -/
def chargedNames (base : Str) (z : Int) : List Str :=
  let n := z.natAbs
  let num := if n = 1 then [] else toString n
  unique [base ++ List.replicate n (signOf z), base ++ signOf z :: num,
    base ++ c!"[" ++ (num ++ [signOf z]) ++ c!"]"]

/-- The names of a neutral species that the code makes (`NamingUtils.cpp` 80-86). -/
def neutralNames (base : Str) : List Str :=
  unique [base ++ c!"(aq)", base, base ++ c!"@", base ++ c!",aq"]

/-- `s.find(p)`: the text before the first occurrence. -/
def before (p : Str) : Str → Option Str
  | [] => if p = [] then some [] else none
  | c :: s => if p.isPrefixOf (c :: s) then some [] else (before p s).map (c :: ·)

/-- `baseNameNeutralSpecies` (`NamingUtils.cpp` 168-184). -/
def baseNeutral (name : Str) : Str :=
  match before c!"(aq)" name with
  | some b => b
  | none =>
    match before c!"@" name with
    | some b => b
    | none =>
      match before c!",aq" name with
      | some b => b
      | none => name

/-- `conventionalNeutralSpeciesName` (`NamingUtils.cpp` 105-109). -/
def conventionalNeutral (name : Str) : Str := baseNeutral name ++ c!"(aq)"

/-- `alternativeWaterNames` (`NamingUtils.cpp` 33, 43-46). -/
def waterNames : List Str := [c!"H2O(l)", c!"H2O", c!"H2O@", c!"H2O(aq)"]

/-- The maps `alternative_charged_names` and `alternative_neutral_names` (`NamingUtils.cpp` 36-39). -/
structure Maps where
  charged : List ((Str × Int) × List Str)
  neutral : List (Str × List Str)

/-- The maps at the start of the process. -/
def Maps.new : Maps := ⟨[], []⟩

/-- Search in a map. -/
def find {α β : Type} [DecidableEq α] (k : α) : List (α × β) → Option β
  | [] => none
  | (a, b) :: l => if a = k then some b else find k l

/-- Change of an entry of a map. -/
def change {α β : Type} [DecidableEq α] (k : α) (f : β → β) : List (α × β) → List (α × β)
  | [] => []
  | (a, b) :: l => if a = k then (a, f b) :: l else (a, b) :: change k f l

/-- `insert`: keeps an entry that exists. -/
def insert {α β : Type} [DecidableEq α] (k : α) (v : β) (l : List (α × β)) : List (α × β) :=
  match find k l with
  | some _ => l
  | none => l ++ [(k, v)]

/-- `alternativeChargedSpeciesNames` (`NamingUtils.cpp` 48-73): the maps after the call, and the key of
the entry to which a reference is returned. -/
def Maps.chargedEntry (s : Maps) (name : Str) : Maps × Res (Str × Int) :=
  match splitCharged name with
  | .ok (base, z) =>
    if z = 0 then (s, .throw)
    else ({ s with charged := insert (base, z) (chargedNames base z) s.charged }, .ok (base, z))
  | .throw => (s, .throw)
  | .ub => (s, .ub)

/-- The list of names behind the reference. -/
def Maps.chargedAlternatives (s : Maps) (name : Str) : Maps × Res (List Str) :=
  match s.chargedEntry name with
  | (s', .ok key) => (s', match find key s'.charged with | some l => .ok l | none => .ub)
  | (s', .throw) => (s', .throw)
  | (s', .ub) => (s', .ub)

/-- `alternativeNeutralSpeciesNames` (`NamingUtils.cpp` 75-89). -/
def Maps.neutralAlternatives (s : Maps) (name : Str) : Maps × Res (List Str) :=
  let base := baseNeutral name
  let s' := { s with neutral := insert base (neutralNames base) s.neutral }
  (s', match find base s'.neutral with | some l => .ok l | none => .ub)

/-- `isAlternativeChargedSpeciesName` (`NamingUtils.cpp` 116-119). -/
def Maps.isAlternativeCharged (s : Maps) (trial name : Str) : Maps × Res Bool :=
  match s.chargedAlternatives name with
  | (s', .ok l) => (s', .ok (l.contains trial))
  | (s', .throw) => (s', .throw)
  | (s', .ub) => (s', .ub)

/-- `isAlternativeNeutralSpeciesName` (`NamingUtils.cpp` 121-124). -/
def Maps.isAlternativeNeutral (s : Maps) (trial name : Str) : Maps × Res Bool :=
  match s.neutralAlternatives name with
  | (s', .ok l) => (s', .ok (l.contains trial))
  | (s', .throw) => (s', .throw)
  | (s', .ub) => (s', .ub)

/-- What the code of a user does with the maps: ask for the names of a species, or add a name of their own
to the list to which they got a reference. -/
inductive Op where
  | charged (name : Str)
  | neutral (name : Str)
  | addCharged (name extra : Str)
  | addNeutral (name extra : Str)

/-- Effect of an operation on the maps. -/
def Maps.run (s : Maps) : Op → Maps
  | .charged name => (s.chargedAlternatives name).1
  | .neutral name => (s.neutralAlternatives name).1
  | .addCharged name extra =>
    match s.chargedEntry name with
    | (s', .ok key) => { s' with charged := change key (· ++ [extra]) s'.charged }
    | (s', _) => s'
  | .addNeutral name extra =>
    let s' := (s.neutralAlternatives name).1
    { s' with neutral := change (baseNeutral name) (· ++ [extra]) s'.neutral }

end Verif.Naming
