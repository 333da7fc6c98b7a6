import Verif.Model.Chem

/-!
# Model of `Reaktoro/Core/Database.cpp`

The attached data is not modelled. The sets of names and symbols are lists used only for membership; the map from aggregate
states to species lists is a function giving the empty list where the map has no entry (Database.cpp:182-188).
-/

namespace Verif.Database

open Chem

/-- `Database::Impl` (Database.cpp:35-53). -/
structure Db where
  species : List Species := []
  elements : List Element := []
  elementSymbols : List Str := []
  speciesNames : List Str := []
  groups : State → List Species := fun _ => []

/-- `addElement` (Database.cpp:56-63). -/
def addElement (db : Db) (e : Element) : Db :=
  if e.symbol ∈ db.elementSymbols then db
  else { db with elements := db.elements ++ [e], elementSymbols := e.symbol :: db.elementSymbols }

/-- The loop `while(species_names.find(unique_name) != species_names.end()) unique_name = unique_name + "!"`
(Database.cpp:71-72). The first argument bounds the number of iterations; an endless loop is undefined. -/
def uniqueName : Nat → List Str → Str → Res Str
  | 0, _, _ => .ub
  | n + 1, names, name => if name ∈ names then uniqueName n names (name ++ ['!']) else .ok name

/-- `addSpecies` (Database.cpp:66-105). Nothing is changed before the first call of `aggregateState`; if that fails the database
is unchanged. -/
def addSpecies (db : Db) (new : Species) : Res Db :=
  (uniqueName (db.speciesNames.length + 1) db.speciesNames new.name).bind fun unique =>
  let new := if new.name ≠ unique then new.withName unique else new
  new.aggregateState.bind fun st =>
  let new := if st = .Undefined then new.withAggregateState .Aqueous else new
  let db := { db with species := db.species ++ [new], speciesNames := new.name :: db.speciesNames }
  let db := new.elements.foldl (fun db p => addElement db p.1) db
  new.aggregateState.bind fun st =>
  .ok { db with groups := fun x => if x = st then db.groups x ++ [new] else db.groups x }

/-- `speciesWithAggregateState` (Database.cpp:182-188). -/
def speciesWithAggregateState (db : Db) (st : State) : List Species := db.groups st

/-- The calls that change a database. -/
inductive Op where
  | addElement (e : Element)
  | addSpecies (s : Species)
  | clear

/-- One call (Database.cpp:146-165); a call that throws leaves the database unchanged (see `addSpecies`). The flag says
whether the call returned normally. -/
def step (db : Db) : Op → Res (Bool × Db)
  | .addElement e => .ok (true, addElement db e)
  | .addSpecies s =>
    match addSpecies db s with
    | .ok db' => .ok (true, db')
    | .throw => .ok (false, db)
    | .ub => .ub
  | .clear => .ok (true, {})

/-- A sequence of calls, continued after exceptions; the flags say which calls returned normally. -/
def run (db : Db) : List Op → Res (List Bool × Db)
  | [] => .ok ([], db)
  | op :: ops => (step db op).bind fun r => (run r.2 ops).bind fun q => .ok (r.1 :: q.1, q.2)

end Verif.Database
