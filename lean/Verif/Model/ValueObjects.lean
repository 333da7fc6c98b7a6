import Verif.Model.Chem
import Verif.Model.FormulaParser

/-!
# Elements, species, phases and reactions as objects

Models `Reaktoro/Core/Element.cpp`, `Species.cpp`, `Phase.cpp` and `Reaction.cpp`.  An object is a pointer to a cell on the heap that its copies
share (`SharedPtr<Impl> pimpl`); a method named `with...` makes a new cell, copies the contents and writes one member of the
copy.  Model functions and attached data are opaque values.  A memoized model is the model (`C01` to `C05`).
A member that is not initialised is `none`; copying it is allowed here (in C++ even that is undefined), using it is undefined.
-/

namespace Verif.ValueObjects

open Chem

/-! ### Pointers to cells -/

/-- The heap, and the objects: each is a pointer to a cell. -/
structure Memory (R : Type) where
  heap : List R := []
  vars : List Nat := []

/-- `clone` (Element.cpp:86-91, Species.cpp:153-158, Phase.cpp:73-78, Reaction.cpp:44-49): a new cell with the default contents, overwritten with
the contents of the cell of this object. The result is the heap and the address of the new cell. -/
def clone {R : Type} (dflt : R) (h : List R) (a : Nat) : Res (List R × Nat) :=
  let h := h ++ [dflt]
  (at! h a).bind fun r => .ok (h.set (h.length - 1) r, h.length - 1)

/-- The statements of a program that makes and copies objects of one class: a constructor call, a copy construction, a copy
assignment, and `auto y = x.with...(...)`. -/
inductive Stmt (R U : Type) where
  | create (r : Res R)
  | copy (x : Nat)
  | assign (x y : Nat)
  | update (x : Nat) (u : U)

/-- What a `with...` method does: it may check its arguments and throw before anything is copied; then it writes into the copy. -/
structure Class (R U : Type) where
  dflt : R
  check : U → Res Unit
  write : U → R → Res R

/-- One statement. The flag says whether it returned normally; a statement that throws defines no object. -/
def step {R U : Type} (c : Class R U) (m : Memory R) : Stmt R U → Res (Bool × Memory R)
  | .create (.ok r) => .ok (true, ⟨m.heap ++ [r], m.vars ++ [m.heap.length]⟩)
  | .create .throw => .ok (false, m)
  | .create .ub => .ub
  | .copy x => (at! m.vars x).bind fun a => .ok (true, { m with vars := m.vars ++ [a] })
  | .assign x y => (at! m.vars y).bind fun a => (at! m.vars x).bind fun _ => .ok (true, { m with vars := m.vars.set x a })
  | .update x u =>
    (at! m.vars x).bind fun a =>
    match c.check u with
    | .throw => .ok (false, m)
    | .ub => .ub
    | .ok _ =>
      (clone c.dflt m.heap a).bind fun (h, b) => (at! h b).bind fun r =>
      match c.write u r with
      | .ok r' => .ok (true, ⟨h.set b r', m.vars ++ [b]⟩)
      | .throw => .ok (false, { m with heap := h })
      | .ub => .ub

/-- A program, continued after exceptions. -/
def run {R U : Type} (c : Class R U) (m : Memory R) : List (Stmt R U) → Res (List Bool × Memory R)
  | [] => .ok ([], m)
  | s :: ss => (step c m s).bind fun r => (run c r.2 ss).bind fun q => .ok (r.1 :: q.1, q.2)

/-- What an object shows: the contents of its cell. -/
def Memory.value {R : Type} (m : Memory R) (x : Nat) : Res R := (at! m.vars x).bind fun a => at! m.heap a

/-! ### Elements -/

/-- The arguments of `Element(Element::Attribs)` (Element.hpp:31-50). -/
structure ElementAttribs where
  symbol : Str
  molarMass : Rat
  name : Str := []
  tags : List Str := []

/-- `Element::Impl(const Attribs&)` (Element.cpp:61-71). -/
def newElement (a : ElementAttribs) : Res Element :=
  if a.symbol = [] then .throw
  else if a.molarMass < 0 then .throw
  else .ok { symbol := a.symbol, molarMass := a.molarMass, name := if a.name = [] then a.symbol else a.name, tags := a.tags }

/-- The methods of Element.cpp:93-120. -/
inductive ElementWith where
  | symbol (s : Str)
  | molarMass (m : Rat)
  | name (s : Str)
  | tags (l : List Str)

/-- `Element` as a class: `Element::Impl()` (Element.cpp:42-58, 74-76) and the `with...` methods (93-120). -/
def elementClass : Class Element ElementWith where
  dflt := ⟨[], 0, [], []⟩
  check
    | .molarMass m => if m < 0 then .throw else .ok ()
    | _ => .ok ()
  write
    | .symbol s, e => .ok { e with symbol := s }
    | .molarMass m, e => .ok { e with molarMass := m }
    | .name s, e => .ok { e with name := s }
    | .tags l, e => .ok { e with tags := l }

/-! ### Species -/

/-- A formation reaction: its reactants, and whether a model was set; `derived` is the model that `createStandardThermoModel` makes
(FormationReaction.cpp:44-107, `C34`). -/
structure Formation (M : Type) where
  reactants : List (Str × Rat) := []
  hasModel : Bool := false
  derived : Option M := none

/-- `FormationReaction::initialized` (FormationReaction.cpp:154-157). -/
def Formation.initialized {M : Type} (f : Formation M) : Bool := !f.reactants.isEmpty && f.hasModel

/-- `FormationReaction::createStandardThermoModel` (FormationReaction.cpp:48-56, 180-183). -/
def Formation.createModel {M : Type} (f : Formation M) : Res (Option M) :=
  if f.reactants.isEmpty then .throw
  else if !f.hasModel then .throw
  else .ok f.derived

/-- `Species::Impl` (Species.cpp:55-88). `state` is not initialised by the default constructor; `model = none` is the model that always throws
(`detail::defaultStandardThermoModel`, 40-51). -/
structure Impl (M D : Type) where
  name : Str := []
  formula : Str := []
  substance : Str := []
  elements : List (Element × Rat) := []
  charge : Rat := 0
  reaction : Formation M := {}
  state : Option State := none
  model : Option M := none
  tags : List Str := []
  data : Option D := none

variable {M D : Type}

/-- `detail::removeSuffix` (Species.cpp:34-37). -/
def removeSuffix (formula : Str) : Res Str := (ChargeParser.splitSpeciesNameSuffix formula).bind fun p => .ok p.1

/-- `ElementalComposition(Pairs<String, double>)` (ElementalComposition.cpp:52-57): `Element(symbol)` throws for unknown elements (Element.cpp:27-39). -/
def composition (registry : Str → Option Element) : List (Str × Rat) → Res (List (Element × Rat))
  | [] => .ok []
  | (s, c) :: rest =>
    match registry s with
    | none => .throw
    | some e => (composition registry rest).bind fun l => .ok ((e, c) :: l)

/-- `Species(String formula)` (Species.cpp:92-99, 145-147), with `ChemicalFormula(String)` (ChemicalFormula.cpp:41-43). -/
def ofFormula (registry : Str → Option Element) (formula : Str) : Res (Impl M D) :=
  (FormulaParser.parseChemicalFormula formula).bind fun els =>
  (ChargeParser.parseElectricCharge formula).bind fun charge =>
  (removeSuffix formula).bind fun f =>
  (composition registry els).bind fun elements =>
  (AggregateState.identify formula).bind fun st =>
  .ok { name := formula, formula := f, substance := f, elements := elements, charge := charge, state := some st }

/-- `Species::Attribs` (Species.hpp:36-75); `model = none` is a model that is not initialised. -/
structure Attribs (M : Type) where
  name : Str
  formula : Str
  substance : Str := []
  elements : List (Element × Rat)
  charge : Rat := 0
  state : State
  reaction : Formation M := {}
  model : Option M := none
  tags : List Str := []

/-- `Species::Impl(const Attribs&)` (Species.cpp:102-138). -/
def ofAttribs (a : Attribs M) : Res (Impl M D) :=
  if a.name = [] then .throw
  else if a.formula = [] then .throw
  else if a.elements.length = 0 then .throw
  else if a.state = .Undefined then .throw
  else if !a.model.isSome && !a.reaction.initialized then .throw
  else if a.model.isSome && a.reaction.initialized then .throw
  else
    (removeSuffix a.formula).bind fun f =>
    let s : Impl M D :=
      { name := a.name, formula := f, substance := if a.substance = [] then f else a.substance, elements := a.elements,
        charge := a.charge, state := some a.state, tags := a.tags }
    let s := if a.model.isSome then { s with model := a.model } else s
    if a.reaction.initialized then
      a.reaction.createModel.bind fun m => .ok { s with reaction := a.reaction, model := m }
    else .ok s

/-- The methods of Species.cpp:160-234. -/
inductive SpeciesWith (M D : Type) where
  | name (s : Str)
  | formula (s : Str)
  | substance (s : Str)
  | elements (l : List (Element × Rat))
  | charge (z : Rat)
  | aggregateState (st : State)
  | formationReaction (f : Formation M)
  | standardThermoModel (m : M)
  | tags (l : List Str)
  | attachedData (d : D)

/-- `Species` as a class: `Species::Impl()` (Species.cpp:87-89) and the `with...` methods (160-234). `withFormationReaction` writes the reaction into the copy
before the model is made, and a model that is not initialised stays so. -/
def speciesClass : Class (Impl M D) (SpeciesWith M D) where
  dflt := {}
  check _ := .ok ()
  write
    | .name s, o => .ok { o with name := s }
    | .formula s, o => .ok { o with formula := s }
    | .substance s, o => .ok { o with substance := s }
    | .elements l, o => .ok { o with elements := l }
    | .charge z, o => .ok { o with charge := z }
    | .aggregateState st, o => .ok { o with state := some st }
    | .formationReaction f, o => f.createModel.bind fun m => .ok { o with reaction := f, model := m }
    | .standardThermoModel m, o => .ok { o with model := some m }
    | .tags l, o => .ok { o with tags := l }
    | .attachedData d, o => .ok { o with data := some d }

/-- `Species::name` (Species.cpp:236-241); a formula is a text (ChemicalFormula.cpp:131-134). -/
def Impl.getName (o : Impl M D) : Str := if o.name = [] then o.formula else o.name
/-- `Species::formula` (Species.cpp:243-246): the text, and the composition and charge it is given. -/
def Impl.getFormula (o : Impl M D) : Str × List (Str × Rat) × Rat := (o.formula, o.elements.map (fun p => (p.1.symbol, p.2)), o.charge)
/-- `Species::substance` (Species.cpp:248-253). -/
def Impl.getSubstance (o : Impl M D) : Res Str := if o.substance = [] then removeSuffix o.getName else .ok o.substance
/-- `Species::elements` (Species.cpp:255-258). -/
def Impl.getElements (o : Impl M D) : List (Element × Rat) := o.elements
/-- `Species::charge` (Species.cpp:260-263). -/
def Impl.getCharge (o : Impl M D) : Rat := o.charge
/-- `Species::aggregateState` (Species.cpp:265-270). -/
def Impl.getAggregateState (o : Impl M D) : Res State :=
  match o.state with
  | none => .ub
  | some .Undefined => AggregateState.identify o.getName
  | some st => .ok st
/-- `Species::tags` (Species.cpp:282-285). -/
def Impl.getTags (o : Impl M D) : List Str := o.tags
/-- `Species::standardThermoModel` (Species.cpp:277-280). -/
def Impl.getModel (o : Impl M D) : Option M := o.model
/-- `Species::attachedData` (Species.cpp:287-290). -/
def Impl.getData (o : Impl M D) : Option D := o.data
/-- `Species::reaction` (Species.cpp:272-275). -/
def Impl.getReactants (o : Impl M D) : List (Str × Rat) := o.reaction.reactants
/-- `Species::molarMass` (Species.cpp:292-295); `me` is the molar mass of electrons. -/
def Impl.getMolarMass (me : Rat) (o : Impl M D) : Rat := computeMolarMass o.elements - o.charge * me

/-! ### Phases and reactions -/

/-- `Phase::Impl` (Phase.cpp:48-67); states of matter and activity models are opaque. -/
structure PhaseImpl (S F : Type) (solid : S) where
  name : Str := []
  state : S := solid
  species : List Species := []
  activity : Option F := none
  idealActivity : Option F := none
  molarMasses : List Rat := []

/-- The methods of Phase.cpp:80-115. -/
inductive PhaseWith (S F : Type) where
  | name (s : Str)
  | species (l : List Species)
  | stateOfMatter (s : S)
  | activity (f : F)
  | idealActivity (f : F)

/-- The loop of `ensureCommonAggregateState` (Phase.cpp:39-43). -/
def sameState (st : State) : List Species → Res Unit
  | [] => .ok ()
  | s :: rest => s.aggregateState.bind fun st' => if st' ≠ st then .throw else sameState st rest

/-- `ensureCommonAggregateState` (Phase.cpp:36-44): the first species of an empty list is read. -/
def ensureCommonState (l : List Species) : Res Unit :=
  (at! l 0).bind fun s => s.aggregateState.bind fun st => sameState st l

/-- `Phase` as a class: `Phase()` (Phase.cpp:69-71) and the `with...` methods (80-115). `me` is the molar mass of electrons. -/
def phaseClass (S F : Type) (solid : S) (me : Rat) : Class (PhaseImpl S F solid) (PhaseWith S F) where
  dflt := {}
  check
    | .species l => ensureCommonState l
    | _ => .ok ()
  write
    | .name s, p => .ok { p with name := s }
    | .species l, p => .ok { p with species := l, molarMasses := l.map (Species.molarMass me) }
    | .stateOfMatter s, p => .ok { p with state := s }
    | .activity f, p => .ok { p with activity := some f }
    | .idealActivity f, p => .ok { p with idealActivity := some f }

/-- `Phase::aggregateState` (Phase.cpp:127-130). -/
def PhaseImpl.getAggregateState {S F : Type} {solid : S} (p : PhaseImpl S F solid) : Res State :=
  if p.species.length ≠ 0 then (at! p.species 0).bind Species.aggregateState else .ok .Undefined

/-- `Reaction::Impl` (Reaction.cpp:25-38); equations and functions are opaque. -/
structure ReactionImpl (E K R : Type) where
  name : Str := []
  equation : Option E := none
  lnK : Option K := none
  rate : Option R := none

/-- The methods of Reaction.cpp:51-77. -/
inductive ReactionWith (E K R : Type) where
  | name (s : Str)
  | equation (e : E)
  | lnK (f : K)
  | rate (f : R)

/-- `Reaction` as a class (Reaction.cpp:40-77). -/
def reactionClass (E K R : Type) : Class (ReactionImpl E K R) (ReactionWith E K R) where
  dflt := {}
  check _ := .ok ()
  write
    | .name s, r => .ok { r with name := s }
    | .equation e, r => .ok { r with equation := some e }
    | .lnK f, r => .ok { r with lnK := some f }
    | .rate f, r => .ok { r with rate := some f }

end Verif.ValueObjects
