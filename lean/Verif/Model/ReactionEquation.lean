import Verif.Base
import Verif.Model.Numbers
import Verif.Model.Strings
import Mathlib.Algebra.Order.Ring.Rat
import Mathlib.Algebra.Order.Group.Abs

/-!
# Model of `ReactionEquation` (`Reaktoro/Core/ReactionEquation.cpp`)

A species is represented by its name: species equality is equality of names (Species.cpp:307-310).
-/

namespace Verif.ReactionEquation

abbrev Str := List Char

/-- `m_species`: pairs of species and coefficients. -/
abbrev Equation := List (Str × Rat)

/-- `coefficient(name)` (ReactionEquation.cpp:64-68): first entry with that name, zero if none. -/
def coefficient (eq : Equation) (name : Str) : Rat :=
  match eq.find? (fun x => x.1 = name) with
  | some x => x.2
  | none => 0

/-- `contained` (Algorithms.hpp:117-124). -/
def contained (a b : List Str) : Bool := a.all (fun x => b.contains x)

/-- `identical` (Algorithms.hpp:178-182). -/
def identical (a b : List Str) : Bool := contained a b && contained b a

/-- `operator==` (ReactionEquation.cpp:93-106); `eps` is the machine epsilon. -/
def equal (eps : Rat) (lhs rhs : Equation) : Bool :=
  if !identical (lhs.map Prod.fst) (rhs.map Prod.fst) then false
  else (lhs.map Prod.fst).all (fun s => !decide (|coefficient lhs s - coefficient rhs s| > eps))

/-- `str.substr(0, str.size() - 3)`: the subtraction wraps for shorter strings, giving the whole string. -/
def dropLast3 (s : Str) : Str := if s.length < 3 then s else s.take (s.length - 3)

/-- `operator String` (ReactionEquation.cpp:70-80); `toStr` is `std::to_string`. -/
def toText (toStr : Rat → Str) (eq : Equation) : Str :=
  let coeffstr := fun (x : Rat) => if x = 1 then [] else toStr x ++ ['*']
  let str := (eq.filter (fun x => x.2 < 0)).flatMap (fun x => coeffstr (-x.2) ++ x.1 ++ " + ".toList)
  let str := dropLast3 str
  let str := str ++ "= ".toList
  let str := str ++ (eq.filter (fun x => x.2 > 0)).flatMap (fun x => coeffstr x.2 ++ x.1 ++ " ".toList)
  dropLast3 str

/-- One word of a side of the equation (ReactionEquation.cpp:133-137, 143-147). -/
def parseWord (sign : Rat) (word : Str) : Res (List (Str × Rat)) :=
  if word = ['+'] then .ok []
  else
    let pair := Strings.split word ['*']
    if pair.length = 2 then
      (at! pair 0).bind fun number => (at! pair 1).bind fun species => .ok [(species, sign * Numbers.atof number)]
    else (at! pair 0).bind fun species => .ok [(species, sign * 1)]

/-- Loop over the words of a side. -/
def parseWords (sign : Rat) : List Str → Res (List (Str × Rat))
  | [] => .ok []
  | w :: ws => (parseWord sign w).bind fun p => (parseWords sign ws).bind fun ps => .ok (p ++ ps)

/-- `parseReactionEquation` (ReactionEquation.cpp:108-151). -/
def parseReactionEquation (equation : Str) : Res (List (Str × Rat)) :=
  match Strings.split equation ['='] with
  | [reactants, products] =>
    (parseWords (-1) (Strings.split reactants [' '])).bind fun r =>
    (parseWords 1 (Strings.split products [' '])).bind fun p => .ok (r ++ p)
  | _ => .throw

end Verif.ReactionEquation
