import Verif.Model.PhaseBuilders
import Verif.Spec.Phases

/-!
# Specification for C102
-/

namespace Verif.PhaseBuilders

open Chem

variable {M F : Type}

/-- What the class of a definition stands for, before any setter is called: name, state of matter, aggregate state and activity model. -/
inductive Preset (id : Ideals M) : Ctor → Str → Matter → State → Option M → Prop
  | generic (a) : Preset id (.generic a) c!"" .Solid .Undefined none
  | aqueous (a) : Preset id (.aqueous a) c!"AqueousPhase" .Liquid .Aqueous (some id.aqueous)
  | gaseous (a) : Preset id (.gaseous a) c!"GaseousPhase" .Gas .Gas (some id.gas)
  | liquid (a) : Preset id (.liquid a) c!"LiquidPhase" .Liquid .Liquid (some id.solution)
  | solid (names) : Preset id (.solid names) c!"SolidPhase" .Solid .Solid (some id.solution)
  | mineral (text name rest) (h : Strings.stringList text ' ' = name :: rest) : Preset id (.mineral text) name .Solid .Solid (some id.solution)

/-- The names given to a constructor. -/
def givenNames : Ctor → List Str
  | .generic (.species l) | .aqueous (.species l) | .gaseous (.species l) | .liquid (.species l) | .solid l => l
  | .mineral text => Strings.stringList text ' '
  | _ => []

/-- The tags given to a constructor. -/
def givenTags : Ctor → List Str
  | .generic (.speciateExclude _ t) | .aqueous (.speciateExclude _ t) | .gaseous (.speciateExclude _ t) | .liquid (.speciateExclude _ t)
  | .generic (.exclude t) | .aqueous (.exclude t) | .gaseous (.exclude t) | .liquid (.exclude t) => t
  | _ => []

/-- The element symbols a definition is restricted to, if it is: those given to the constructor; an aqueous phase restricted to elements
or with excluded tags always has hydrogen and oxygen. -/
def Restricted : Ctor → Str → Prop
  | .generic (.speciate l), x | .gaseous (.speciate l), x | .liquid (.speciate l), x
  | .generic (.speciateExclude l _), x | .gaseous (.speciateExclude l _), x | .liquid (.speciateExclude l _), x => x ∈ l
  | .aqueous (.speciate l), x | .aqueous (.speciateExclude l _), x => x ∈ l ∨ x = c!"H" ∨ x = c!"O"
  | .aqueous (.exclude _), x => x = c!"H" ∨ x = c!"O"
  | _, _ => False

/-- What each setter sets. -/
def Setter.name? : Setter M → Option Str
  | .setName n | .named n => some n
  | _ => none
/-- What each setter sets. -/
def Setter.matter? : Setter M → Option Matter
  | .setStateOfMatter m | .setMatter m => some m
  | _ => none
/-- What each setter sets. -/
def Setter.state? : Setter M → Option State
  | .setAggregateState s | .setState s => some s
  | _ => none
/-- What each setter sets. -/
def Setter.model? : Setter M → Option (Option M)
  | .setActivityModel m | .setModel m => some m
  | _ => none
/-- What each setter sets. -/
def Setter.ideal? : Setter M → Option (Option M)
  | .setIdealActivityModel m => some m
  | _ => none

/-- The value of an attribute after some calls: the last one set, or the one at the beginning if none was. -/
def LastSet {α : Type} (attr : Setter M → Option α) (initial : α) (calls : List (Setter M)) (value : α) : Prop :=
  (∃ before s after, calls = before ++ s :: after ∧ attr s = some value ∧ ∀ t ∈ after, attr t = none) ∨
  ((∀ t ∈ calls, attr t = none) ∧ value = initial)

/-- The functions of a phase come from the models of a definition, called for the species of the phase. -/
def FunctionsOf (apply : M → List Species → Res F) (b : Builder M) (p : Full F) : Prop :=
  (∃ m, b.model = some m ∧ apply m p.species = .ok p.fn) ∧ ∃ m, b.ideal = some m ∧ apply m p.species = .ok p.idealFn

/-- The calls of a program that concern the definition `i`, before a point. -/
def settersOf (i : Nat) (calls : List (Call M)) : List (Setter M) :=
  calls.filterMap fun
    | .set j s => if j = i then some s else none
    | _ => none

/-- The constructors called in a program, in order. -/
def ctorsOf (calls : List (Call M)) : List Ctor :=
  calls.filterMap fun
    | .make c => some c
    | _ => none

/-- The calls of a program that concern the generator `i`. -/
def settersOfGen (i : Nat) (calls : List (Call M)) : List (Setter M) :=
  calls.filterMap fun
    | .setGen j s => if j = i then some s else none
    | _ => none

/-- The constructors of generators called in a program, in order. -/
def genCtorsOf (calls : List (Call M)) : List GenCtor :=
  calls.filterMap fun
    | .makeGen c => some c
    | _ => none

/-- The number of definitions added. -/
def addsOf (calls : List (Call M)) : Nat :=
  (calls.filter fun
    | .add _ => true
    | _ => false).length

/-- The number of generators added. -/
def genAddsOf (calls : List (Call M)) : Nat :=
  (calls.filter fun
    | .addGen _ => true
    | _ => false).length

end Verif.PhaseBuilders
