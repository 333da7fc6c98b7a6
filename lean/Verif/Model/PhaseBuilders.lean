import Verif.Model.Phases

/-!
# Model of the classes that define phases

`Reaktoro/Core/Phases.hpp` and `Reaktoro/Core/Phases.cpp`: `Speciate`, `Exclude`, `GenericPhase`, `GenericPhasesGenerator`, the classes
derived from them, and `Phases`. The selection of species is the one of `Model/Phases.lean`.

`M` is the type of the activity models that users can give, `F` the type of the functions they return for a list of species; `apply` calls a
model. An empty `std::function` is `none`; calling it throws `std::bad_function_call`. Objects are passed to `Phases::add` by copy.
-/

namespace Verif.PhaseBuilders

open Chem

variable {M F : Type}

/-- `StateOfMatter` (StateOfMatter.hpp:26-29). -/
inductive Matter where
  | Solid | Liquid | Gas | Plasma
  deriving DecidableEq, Repr

/-- The ideal models named in Phases.hpp: `ActivityModelIdealAqueous()`, `ActivityModelIdealGas()` and `ActivityModelIdealSolution()`. -/
structure Ideals (M : Type) where
  aqueous : M
  gas : M
  solution : M

/-- `GenericPhase` (Phases.hpp:132-157) and `GenericPhasesGenerator` (Phases.hpp:224-247), which has no name. -/
structure Builder (M : Type) extends Phases.GenericPhase where
  matter : Matter := .Solid
  model : Option M := none
  ideal : Option M := none
  deriving DecidableEq, Repr

/-- `Speciate::operator+=` and `Exclude::operator+=` (Phases.hpp:40, 53). -/
def plus (a b : List Str) : List Str := merge a b

/-- The arguments of the constructors of `GenericPhase` and `GenericPhasesGenerator` (Phases.hpp:65-78, 165-178). -/
inductive Arg where
  | default
  | species (names : List Str)
  | speciate (symbols : List Str)
  | speciateExclude (symbols tags : List Str)
  | exclude (tags : List Str)
  deriving DecidableEq, Repr

/-- `GenericPhase::GenericPhase` (Phases.cpp:25-42) and `GenericPhasesGenerator::GenericPhasesGenerator` (Phases.cpp:160-177). -/
def generic : Arg → Builder M
  | .default => {}
  | .species names => { names := names }
  | .speciate symbols => { symbols := symbols }
  | .speciateExclude symbols tags => { symbols := symbols, excludetags := tags }
  | .exclude tags => { excludetags := tags }

/-- The arguments of the constructors of `AqueousPhase` as they are passed to those of `GenericPhase` (Phases.hpp:287-299). -/
def aqueousArg : Arg → Arg
  | .default => .default
  | .species names => .species names
  | .speciate symbols => .speciate (plus symbols [c!"H", c!"O"])
  | .speciateExclude symbols tags => .speciateExclude (plus symbols [c!"H", c!"O"]) tags
  | .exclude tags => .speciateExclude (Strings.stringList c!"H O" ' ') tags

/-- The calls by which users make a phase definition. `SolidPhase` has the constructor with names only (Phases.hpp:377), `MineralPhase` the one with
a text (Phases.hpp:400), which is converted to a `StringList`. -/
inductive Ctor where
  | generic (a : Arg)
  | aqueous (a : Arg)
  | gaseous (a : Arg)
  | liquid (a : Arg)
  | solid (names : List Str)
  | mineral (text : Str)
  deriving DecidableEq, Repr

/-- The constructors with the functions `initialize` (Phases.hpp:284-309, 314-339, 344-369, 374-392, 397-412). `MineralPhase::initialize` reads the first
name. The name that `SolidPhase::initialize` joins from those of the species (Phases.hpp:382-385) is not used. -/
def construct (id : Ideals M) : Ctor → Res (Builder M)
  | .generic a => .ok (generic a)
  | .aqueous a => .ok { (generic (aqueousArg a) : Builder M) with
      phasename := c!"AqueousPhase", matter := .Liquid, aggregatestate := .Aqueous, model := some id.aqueous, ideal := some id.aqueous }
  | .gaseous a => .ok { (generic a : Builder M) with
      phasename := c!"GaseousPhase", matter := .Gas, aggregatestate := .Gas, model := some id.gas, ideal := some id.gas }
  | .liquid a => .ok { (generic a : Builder M) with
      phasename := c!"LiquidPhase", matter := .Liquid, aggregatestate := .Liquid, model := some id.solution, ideal := some id.solution }
  | .solid names => .ok { (generic (.species names) : Builder M) with
      phasename := c!"SolidPhase", matter := .Solid, aggregatestate := .Solid, model := some id.solution, ideal := some id.solution }
  | .mineral text =>
    let b : Builder M := generic (.species (Strings.stringList text ' '))
    (at! b.names 0).bind fun name => .ok { b with
      phasename := name, matter := .Solid, aggregatestate := .Solid, model := some id.solution, ideal := some id.solution }

/-- The calls by which users make a generator of phases. -/
inductive GenCtor where
  | generic (a : Arg)
  | minerals (a : Arg)
  deriving DecidableEq, Repr

/-- The constructors of `GenericPhasesGenerator` (Phases.cpp:160-177) and `MineralPhases` (Phases.hpp:415-441). -/
def constructGen (id : Ideals M) : GenCtor → Builder M
  | .generic a => generic a
  | .minerals a => { (generic a : Builder M) with
      matter := .Solid, aggregatestate := .Solid, model := some id.solution, ideal := some id.solution }

/-- The setters (Phases.hpp:83-108, 183-202). -/
inductive Setter (M : Type) where
  | setName (name : Str)
  | setStateOfMatter (m : Matter)
  | setAggregateState (s : State)
  | setActivityModel (m : Option M)
  | setIdealActivityModel (m : Option M)
  | named (name : Str)
  | setMatter (m : Matter)
  | setState (s : State)
  | setModel (m : Option M)
  deriving DecidableEq, Repr

/-- The setters (Phases.cpp:47-95, 182-218). A generator has neither `setName` nor `named`. -/
def Builder.call (b : Builder M) : Setter M → Builder M
  | .setName name => { b with phasename := name }
  | .setStateOfMatter m => { b with matter := m }
  | .setAggregateState s => { b with aggregatestate := s }
  | .setActivityModel m => { b with model := m }
  | .setIdealActivityModel m => { b with ideal := m }
  | .named name => { b with phasename := name }
  | .setMatter m => { b with matter := m }
  | .setState s => { b with aggregatestate := s }
  | .setModel m => { b with model := m }

/-- `Phase` with its activity functions (Phase.cpp:48-67). -/
structure Full (F : Type) extends Phases.Phase where
  matter : Matter
  fn : F
  idealFn : F
  deriving DecidableEq, Repr

/-- A call of an activity model. -/
def callModel (apply : M → List Species → Res F) (m : Option M) (species : List Species) : Res F :=
  match m with
  | none => .throw
  | some m => apply m species

/-- `GenericPhase::convert` (Phases.cpp:132-157). -/
def Builder.convert (apply : M → List Species → Res F) (db : Database.Db) (elements : List Str) (b : Builder M) : Res (Full F) :=
  (b.toGenericPhase.convert db elements).bind fun phase =>
  (callModel apply b.model phase.species).bind fun fn =>
  (callModel apply b.ideal phase.species).bind fun idealFn =>
  .ok { phase with matter := b.matter, fn := fn, idealFn := idealFn }

/-- `GenericPhasesGenerator::convert` (Phases.cpp:251-283). -/
def Builder.generate (db : Database.Db) (elements : List Str) (b : Builder M) : Res (List (Builder M)) :=
  (Phases.generate db elements b.toGenericPhase).bind fun phases =>
  .ok (phases.map fun g => { g with matter := b.matter, model := b.model, ideal := b.ideal })

/-- `collect_all_generic_phases` (Phases.cpp:332-343). -/
def collectPhases (db : Database.Db) (symbols : List Str) : List (Builder M) → List (Builder M) → Res (List (Builder M))
  | collected, [] => .ok collected
  | collected, g :: gs => (g.generate db symbols).bind fun r => collectPhases db symbols (collected ++ r) gs

/-- `fix_duplicate_phase_names` (Phases.cpp:346-353). -/
def fixNames (phases : List (Builder M)) : List (Builder M) :=
  List.zipWith (fun p n => p.call (.setName n)) phases (Strings.makeunique (phases.map (·.phasename)) ['!'])

/-- The last loop of `Phases::convert` (Phases.cpp:361-366). -/
def convertAll (apply : M → List Species → Res F) (db : Database.Db) (symbols : List Str) : List (Builder M) → Res (List (Full F))
  | [] => .ok []
  | g :: gs => (g.convert apply db symbols).bind fun p => (convertAll apply db symbols gs).bind fun ps => .ok (p :: ps)

/-- `Phases` (Phases.hpp:252-280). -/
structure Collection (M : Type) where
  db : Database.Db
  phases : List (Builder M) := []
  generators : List (Builder M) := []

/-- `Phases::convert` (Phases.cpp:304-367). -/
def Collection.convert (apply : M → List Species → Res F) (c : Collection M) : Res (List (Full F)) :=
  (Phases.collectAll c.db [] (c.phases.map (·.toGenericPhase) ++ c.generators.map (·.toGenericPhase))).bind fun symbols =>
  (collectPhases c.db symbols c.phases c.generators).bind fun all =>
  convertAll apply c.db symbols (fixNames all)

/-- The calls of a program that defines phases: the variables of the two kinds are numbered in the order of their construction. -/
inductive Call (M : Type) where
  | make (c : Ctor)
  | makeGen (c : GenCtor)
  | set (i : Nat) (s : Setter M)
  | setGen (i : Nat) (s : Setter M)
  | add (i : Nat)
  | addGen (i : Nat)

/-- The variables of the program and the `Phases` object. -/
structure Program (M : Type) where
  vars : List (Builder M) := []
  gens : List (Builder M) := []
  collection : Collection M

/-- One call; `Phases::add` (Phases.cpp:289-297). -/
def Program.step (id : Ideals M) (p : Program M) : Call M → Res (Program M)
  | .make c => (construct id c).bind fun b => .ok { p with vars := p.vars ++ [b] }
  | .makeGen c => .ok { p with gens := p.gens ++ [constructGen id c] }
  | .set i s => (at! p.vars i).bind fun b => .ok { p with vars := p.vars.set i (b.call s) }
  | .setGen i s => (at! p.gens i).bind fun b => .ok { p with gens := p.gens.set i (b.call s) }
  | .add i => (at! p.vars i).bind fun b => .ok { p with collection := { p.collection with phases := p.collection.phases ++ [b] } }
  | .addGen i => (at! p.gens i).bind fun b => .ok { p with collection := { p.collection with generators := p.collection.generators ++ [b] } }

/-- A sequence of calls. -/
def Program.run (id : Ideals M) : Program M → List (Call M) → Res (Program M)
  | p, [] => .ok p
  | p, c :: cs => (p.step id c).bind fun p => p.run id cs

end Verif.PhaseBuilders
