import Verif.Model.ValueObjects
import Verif.Model.Lists
import Verif.Model.ReactionEquation
import Verif.Model.MineralMechanism

/-!
# Model of the comparisons of elements, species, phases, reactions, formulas, equations and catalysts

Models the operators `<` and `==` and the hash functions of these classes, and `unique` and `merge` of `Reaktoro/Common/Algorithms.hpp`, which use
them.  Strings are compared character by character; this is the order of `std::string` for texts in UTF-8.
-/

namespace Verif.Comparisons

abbrev Str := List Char
abbrev Formula := EquilibriumSpecs.Formula

/-- `operator<` of `std::string`. -/
def lessStr : Str → Str → Bool
  | _, [] => false
  | [], _ :: _ => true
  | a :: s, b :: t => if a.toNat < b.toNat then true else if b.toNat < a.toNat then false else lessStr s t

/-- `operator<(Element, Element)` (Element.cpp:142-145). -/
def elementLess (a b : Chem.Element) : Bool := lessStr a.symbol b.symbol

/-- `operator==(Element, Element)` (Element.cpp:147-154). -/
def elementEqual (a b : Chem.Element) : Bool :=
  a.symbol == b.symbol && a.molarMass == b.molarMass && a.name == b.name && a.tags == b.tags

/-- `std::hash<Element>` (Element.hpp:106-112); `h` is `std::hash<std::string>`. -/
def elementHash (h : Str → Nat) (e : Chem.Element) : Nat := h e.symbol

/-- `operator<(Species, Species)` (Species.cpp:302-305). -/
def speciesLess (a b : Chem.Species) : Bool := lessStr a.name b.name

/-- `operator==(Species, Species)` (Species.cpp:307-310). -/
def speciesEqual (a b : Chem.Species) : Bool := a.name == b.name

/-- `std::hash<Species>` (Species.hpp:195-201). -/
def speciesHash (h : Str → Nat) (s : Chem.Species) : Nat := h s.name

/-- `operator<(Phase, Phase)` (Phase.cpp:152-155). -/
def phaseLess {S F : Type} {solid : S} (a b : ValueObjects.PhaseImpl S F solid) : Bool := lessStr a.name b.name

/-- `operator==(Phase, Phase)` (Phase.cpp:157-160). -/
def phaseEqual {S F : Type} {solid : S} (a b : ValueObjects.PhaseImpl S F solid) : Bool := a.name == b.name

/-- `operator<(Reaction, Reaction)` (Reaction.cpp:99-102). -/
def reactionLess {E K R : Type} (a b : ValueObjects.ReactionImpl E K R) : Bool := lessStr a.name b.name

/-- `operator==(Reaction, Reaction)` (Reaction.cpp:104-108). -/
def reactionEqual {E K R : Type} (a b : ValueObjects.ReactionImpl E K R) : Bool := a.name == b.name

/-- `operator<(ChemicalFormula, ChemicalFormula)` (ChemicalFormula.cpp:142-145). -/
def formulaLess (a b : Formula) : Bool := lessStr a.str b.str

/-- `operator==(ChemicalFormula, ChemicalFormula)` (ChemicalFormula.cpp:147-150). -/
def formulaEqual (a b : Formula) : Bool := a.str == b.str

/-- `operator<(MineralCatalyst, MineralCatalyst)` (MineralCatalyst.cpp:79-82). -/
def catalystLess (a b : Mineral.Catalyst) : Bool := lessStr a.species b.species

/-- `operator<(ReactionEquation, ReactionEquation)` (ReactionEquation.cpp:88-91): `front` of an empty list is undefined. -/
def equationLess (a b : ReactionEquation.Equation) : Res Bool :=
  (at! a 0).bind fun x => (at! b 0).bind fun y => .ok (lessStr x.1 y.1)

/-- `std::unique` and `erase`: of adjacent items that are equal the first is kept. -/
def dropAdjacent {α : Type} (eq : α → α → Bool) : List α → List α
  | [] => []
  | [a] => [a]
  | a :: b :: l => if eq a b then dropAdjacent eq (a :: l) else a :: dropAdjacent eq (b :: l)

/-- `std::sort`: the items in some order in which none is less than one before it. -/
def IsSort {α : Type} (less : α → α → Bool) (l sorted : List α) : Prop :=
  sorted.Perm l ∧ sorted.Pairwise fun a b => less b a = false

/-- `unique` (Algorithms.hpp:62-69), as a relation because the order of items that are not less than each other is not specified. -/
def IsUnique {α : Type} (less eq : α → α → Bool) (l res : List α) : Prop :=
  ∃ sorted, IsSort less l sorted ∧ res = dropAdjacent eq sorted

/-- `merge` (Algorithms.hpp:135-144). -/
def IsMerge {α : Type} (less eq : α → α → Bool) (a b res : List α) : Prop :=
  ∃ sorted, IsSort less (a ++ b) sorted ∧ res = dropAdjacent eq sorted

end Verif.Comparisons
