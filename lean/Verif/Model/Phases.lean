import Verif.Model.Chem
import Verif.Model.Database
import Verif.Model.Strings

/-!
# Model of `Reaktoro/Core/Phase.cpp` and `Reaktoro/Core/Phases.cpp`

The state of matter and the activity models are left out: they are stored and passed on.
-/

namespace Verif.Phases

open Chem

/-- `Phase::Impl` (Phase.cpp:48-67). -/
structure Phase where
  name : Str := []
  species : List Species := []
  deriving DecidableEq, Repr

/-- The loop in `ensureCommonAggregateState` (Phase.cpp:39-43). -/
def checkStates (st : State) : List Species → Res Unit
  | [] => .ok ()
  | s :: rest => s.aggregateState.bind fun st' => if st' ≠ st then .throw else checkStates st rest

/-- `Phase::withSpecies` (Phase.cpp:87-94) with `ensureCommonAggregateState` (36-44), which reads the first species. -/
def Phase.withSpecies (p : Phase) (species : List Species) : Res Phase :=
  (at! species 0).bind fun s0 => s0.aggregateState.bind fun st =>
  (checkStates st species).bind fun _ => .ok { p with species := species }

/-- `GenericPhase` (Phases.hpp:134-157). -/
structure GenericPhase where
  phasename : Str := []
  aggregatestate : State := .Undefined
  names : List Str := []
  symbols : List Str := []
  excludetags : List Str := []
  deriving DecidableEq, Repr

/-- The selection common to `GenericPhase::convert` (Phases.cpp:138-147) and `GenericPhasesGenerator::convert` (257-266). -/
def select (db : Database.Db) (g : GenericPhase) (elements : List Str) : Res (List Species) :=
  let species := Database.speciesWithAggregateState db g.aggregatestate
  (if g.names.length ≠ 0 then withNames species g.names
    else if g.symbols.length ≠ 0 then .ok (withElements species g.symbols)
    else .ok (withElements species elements)).bind fun species =>
  .ok (if g.excludetags.length ≠ 0 then withoutTags species g.excludetags else species)

/-- `GenericPhase::convert` (Phases.cpp:132-157). -/
def GenericPhase.convert (db : Database.Db) (elements : List Str) (g : GenericPhase) : Res Phase :=
  if g.aggregatestate = .Undefined then .throw
  else (select db g elements).bind fun species => Phase.withSpecies { name := g.phasename } species

/-- `GenericPhasesGenerator` (Phases.hpp:226-247) has the members of `GenericPhase` except for the name.
`GenericPhasesGenerator::convert` (Phases.cpp:251-283); the constructor `GenericPhase(s.name())` takes a `StringList`, which
breaks the name at spaces. -/
def generate (db : Database.Db) (elements : List Str) (g : GenericPhase) : Res (List GenericPhase) :=
  if g.aggregatestate = .Undefined then .throw
  else (select db g elements).bind fun species =>
    .ok (species.map fun s =>
      { phasename := s.name, aggregatestate := g.aggregatestate, names := Strings.stringList s.name ' ' })

/-- The loop over the named species in `collect_element_symbols_in_genericphase_or_generator` (Phases.cpp:316-318). -/
def mergeSymbols (result : List Str) (species : List Species) : List Str :=
  species.foldl (fun r s => merge r s.symbols) result

/-- `collect_element_symbols_in_genericphase_or_generator` (Phases.cpp:311-320). -/
def collectSymbols (db : Database.Db) (g : GenericPhase) : Res (List Str) :=
  let result := if g.symbols.length ≠ 0 then merge [] g.symbols else []
  if g.names.length ≠ 0 then (withNames db.species g.names).bind fun species => .ok (mergeSymbols result species)
  else .ok result

/-- `collect_all_element_symbols` (Phases.cpp:307-329). -/
def collectAll (db : Database.Db) : List Str → List GenericPhase → Res (List Str)
  | symbols, [] => .ok symbols
  | symbols, g :: gs => (collectSymbols db g).bind fun r => collectAll db (merge symbols r) gs

/-- `collect_all_generic_phases` (Phases.cpp:332-343). -/
def collectPhases (db : Database.Db) (symbols : List Str) : List GenericPhase → List GenericPhase → Res (List GenericPhase)
  | collected, [] => .ok collected
  | collected, g :: gs => (generate db symbols g).bind fun r => collectPhases db symbols (collected ++ r) gs

/-- `fix_duplicate_phase_names` (Phases.cpp:346-353). -/
def fixNames (phases : List GenericPhase) : List GenericPhase :=
  List.zipWith (fun p n => { p with phasename := n }) phases (Strings.makeunique (phases.map (·.phasename)) ['!'])

/-- The last loop of `Phases::convert` (Phases.cpp:361-366). -/
def convertAll (db : Database.Db) (symbols : List Str) : List GenericPhase → Res (List Phase)
  | [] => .ok []
  | g :: gs => (g.convert db symbols).bind fun p => (convertAll db symbols gs).bind fun ps => .ok (p :: ps)

/-- `Phases::convert` (Phases.cpp:304-367). -/
def convert (db : Database.Db) (phases generators : List GenericPhase) : Res (List Phase) :=
  (collectAll db [] (phases ++ generators)).bind fun symbols =>
  (collectPhases db symbols phases generators).bind fun all =>
  convertAll db symbols (fixNames all)

end Verif.Phases
