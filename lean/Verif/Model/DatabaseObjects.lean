import Verif.Model.Database

/-!
# Model of databases as objects of a program, with the data of PHREEQC that their species point to

Models the constructors, the assignment and `load` of `Reaktoro/Core/Database.cpp` and `Reaktoro/Extensions/Phreeqc/PhreeqcDatabase.cpp`, and the
databases and species that chemical systems hold.  PHREEQC is external.  A PHREEQC instance has a number; it is deleted together with the last copy
of the shared pointer to it (PhreeqcDatabase.cpp:42-45), and the copies are in the attached data of databases (PhreeqcDatabase.cpp:278, 292, 305).
The models of the species hold plain pointers to it (PhreeqcThermo.cpp:162-178).

Simplifications: a species is its name and the instance its models point to; the other data of species and databases are in `Verif.Model.Database`
and `Verif.Model.Phreeqc`.  An operation on a variable that does not exist (any longer) is not a program, and does nothing.
-/

namespace Verif.DatabaseObjects

open Verif.Database (uniqueName)

abbrev Str := List Char

/-- A species: its name, and the PHREEQC instance that its volume model reads (PhreeqcThermo.cpp:162-178), if it has one. -/
structure Sp where
  name : Str
  source : Option Nat
  deriving DecidableEq, Repr

/-- The attached data of a database (Database.cpp:42-43): a helper with its shared pointer, or something else. -/
inductive Data where
  | phreeqc (instance' : Nat)
  | other
  deriving DecidableEq, Repr

/-- `Database::Impl` (Database.cpp:35-53): the species and the attached data. -/
structure Db where
  species : List Sp := []
  attached : Option Data := none
  deriving DecidableEq, Repr

/-- `ChemicalSystem::Impl` (ChemicalSystem.cpp:97-109): the database and the species of the phases. -/
structure Sys where
  db : Db
  species : List Sp
  deriving DecidableEq, Repr

/-- What is outside of the program: the files, the embedded files (`cmrc`), and what PHREEQC and the helper (PhreeqcDatabase.cpp:64-83) make of the
text of a database: the names of the species, or an exception. -/
structure World where
  files : Str → Option Str
  embedded : Str → Option Str
  phreeqc : Str → Res (List Str)

/-- The text that `PhreeqcUtils::load` reads (PhreeqcUtils.cpp:42-47): an argument without a newline is a path, and a stream of a file that cannot be
opened has no characters. -/
def source (w : World) (arg : Str) : Str :=
  if '\n' ∈ arg then arg else (w.files arg).getD []

/-- The species list of a `PhreeqcDatabaseHelper` (PhreeqcDatabase.cpp:64-83) with a new instance of PHREEQC. -/
def helper (w : World) (arg : Str) (id : Nat) : Res (List Sp) :=
  (w.phreeqc (source w arg)).bind fun names => .ok (names.map fun n => ⟨n, some id⟩)

/-- `addSpecies` (Database.cpp:66-105): a name that is taken is changed. -/
def addOne (db : Db) (s : Sp) : Res Db :=
  (uniqueName (db.species.length + 1) (db.species.map (·.name)) s.name).bind fun name =>
  .ok { db with species := db.species ++ [{ s with name := name }] }

/-- `addSpecies` for several species (Database.cpp:161-165). -/
def addAll : Db → List Sp → Res Db
  | db, [] => .ok db
  | db, s :: rest => (addOne db s).bind fun db => addAll db rest

/-- `PhreeqcDatabase::fromFile` (PhreeqcDatabase.cpp:282-294). -/
def fromFile (w : World) (path : Str) (id : Nat) : Res Db :=
  (helper w path id).bind fun l => (addAll {} l).bind fun db => .ok { db with attached := some (.phreeqc id) }

/-- The names of the embedded databases (PhreeqcDatabase.cpp:221-231). -/
def names : List Str :=
  [c!"Amm.dat", c!"frezchem.dat", c!"iso.dat", c!"llnl.dat", c!"minteq.dat", c!"minteq.v4.dat", c!"phreeqc.dat", c!"pitzer.dat", c!"sit.dat",
   c!"wateq4f.dat"]

/-- `PhreeqcDatabase::contents` (PhreeqcDatabase.cpp:219-248, 309-312). -/
def contents (w : World) (name : Str) : Res Str :=
  if name ∈ names then
    match w.embedded name with
    | some text => .ok text
    | none => .throw
  else .throw

/-- `PhreeqcDatabase::withName` (PhreeqcDatabase.cpp:267-280). -/
def withName (w : World) (name : Str) (id : Nat) : Res Db :=
  (contents w name).bind fun text => (helper w text id).bind fun l => (addAll {} l).bind fun db => .ok { db with attached := some (.phreeqc id) }

/-- `PhreeqcDatabase::load` (PhreeqcDatabase.cpp:296-307): the helper is made before the database is cleared. -/
def load (w : World) (db : Db) (arg : Str) (id : Nat) : Res Db :=
  (helper w arg id).bind fun l =>
  let db : Db := {}
  (addAll db l).bind fun db => .ok { db with attached := some (.phreeqc id) }

/-- The variables of a program: databases, chemical systems and lists of species, in the order in which they were made; destroyed ones are `none`. -/
structure Prog where
  next : Nat := 0
  dbs : List (Option Db) := []
  systems : List (Option Sys) := []
  lists : List (List Sp) := []
  deriving DecidableEq, Repr

/-- What a program does. -/
inductive Op where
  | withName (name : Str)                 -- a new variable, `PhreeqcDatabase(name)`
  | fromFile (path : Str)                 -- a new variable, `PhreeqcDatabase::fromFile(path)`
  | ofSpecies (l : Nat)                   -- a new variable, `Database(species)`
  | copy (v : Nat)                        -- a new variable, a copy of `v`
  | assign (v u : Nat)                    -- `v = u`
  | load (v : Nat) (arg : Str)            -- `v.load(arg)`
  | clear (v : Nat)                       -- `v.clear()`
  | attach (v : Nat)                      -- `v.attachData(data)` with data of the user
  | add (v l i : Nat)                     -- `v.addSpecies(list[i])`
  | destroy (v : Nat)                     -- the end of the life of `v`
  | keep (v : Nat)                        -- a new list, `v.species()`
  | system (v : Nat) (sel : List Str)     -- a new system, from `Phases(v)` that select these names
  | systemOf (v l : Nat)                  -- a new system, `ChemicalSystem(v, phases)` with phases made of a list
  | destroySystem (s : Nat)
  | keepSystem (s : Nat)                  -- a new list, `system.species()`
  | databaseOf (s : Nat)                  -- a new variable, a copy of `system.database()`
  | useDb (v i : Nat)                     -- the standard properties of species `i` of database `v`
  | useSystem (s i : Nat)
  | useList (l i : Nat)
  deriving DecidableEq, Repr

/-- What is seen of an operation. -/
inductive Out where
  | done
  | thrown
  | props (s : Sp)
  deriving DecidableEq, Repr

/-- The database in a variable. -/
def Prog.db (p : Prog) (v : Nat) : Option Db := (p.dbs[v]?).join

/-- The system in a variable. -/
def Prog.sys (p : Prog) (s : Nat) : Option Sys := (p.systems[s]?).join

/-- The databases that exist: variables and members of systems. -/
def Prog.databases (p : Prog) : List Db := p.dbs.filterMap id ++ (p.systems.filterMap id).map (·.db)

/-- An instance of PHREEQC exists as long as a database holds it in its attached data (PhreeqcDatabase.cpp:42-45). -/
def Prog.alive (p : Prog) (id : Nat) : Bool := p.databases.any fun db => db.attached = some (.phreeqc id)

/-- The evaluation of the standard properties of a species: the volume model reads the species or phase of PHREEQC (PhreeqcThermo.cpp:162-178);
undefined if the instance has been deleted. -/
def use (p : Prog) (s : Option Sp) : Res (Out × Prog) :=
  match s with
  | none => .ok (.done, p)
  | some s =>
    match s.source with
    | none => .ok (.props s, p)
    | some id => if p.alive id then .ok (.props s, p) else .ub

/-- A new database variable, or an exception, in which case there is no variable. -/
def newDb (p : Prog) (r : Res Db) : Res (Out × Prog) :=
  match r with
  | .ok db => .ok (.done, { p with next := p.next + 1, dbs := p.dbs ++ [some db] })
  | .throw => .ok (.thrown, { p with next := p.next + 1 })
  | .ub => .ub

/-- A call that changes a database variable, or throws and leaves it. -/
def change (p : Prog) (v : Nat) (r : Res Db) : Res (Out × Prog) :=
  match r with
  | .ok db => .ok (.done, { p with next := p.next + 1, dbs := p.dbs.set v (some db) })
  | .throw => .ok (.thrown, { p with next := p.next + 1 })
  | .ub => .ub

/-- One operation (Database.cpp:109-170, PhreeqcDatabase.cpp:263-307, ChemicalSystem.cpp:119-141, Phases.cpp:299-302). Copies of a database copy its
`Impl` (Database.cpp:113-115, 140-144), and with it the shared pointer in the attached data. -/
def step (w : World) (p : Prog) : Op → Res (Out × Prog)
  | .withName name => newDb p (withName w name p.next)
  | .fromFile path => newDb p (fromFile w path p.next)
  | .ofSpecies l => newDb p (addAll {} (p.lists.getD l []))
  | .copy v => match p.db v with
    | some db => newDb p (.ok db)
    | none => .ok (.done, p)
  | .assign v u => match p.db v, p.db u with
    | some _, some db => change p v (.ok db)
    | _, _ => .ok (.done, p)
  | .load v arg => match p.db v with
    | some db => change p v (load w db arg p.next)
    | none => .ok (.done, p)
  | .clear v => match p.db v with
    | some _ => change p v (.ok {})
    | none => .ok (.done, p)
  | .attach v => match p.db v with
    | some db => change p v (.ok { db with attached := some .other })
    | none => .ok (.done, p)
  | .add v l i => match p.db v, (p.lists.getD l [])[i]? with
    | some db, some s => change p v (addOne db s)
    | _, _ => .ok (.done, p)
  | .destroy v => .ok (.done, { p with dbs := p.dbs.set v none })
  | .keep v => match p.db v with
    | some db => .ok (.done, { p with lists := p.lists ++ [db.species] })
    | none => .ok (.done, p)
  | .system v sel => match p.db v with
    | some db => .ok (.done, { p with systems := p.systems ++ [some ⟨db, db.species.filter fun s => s.name ∈ sel⟩] })
    | none => .ok (.done, p)
  | .systemOf v l => match p.db v with
    | some db => .ok (.done, { p with systems := p.systems ++ [some ⟨db, p.lists.getD l []⟩] })
    | none => .ok (.done, p)
  | .destroySystem s => .ok (.done, { p with systems := p.systems.set s none })
  | .keepSystem s => match p.sys s with
    | some q => .ok (.done, { p with lists := p.lists ++ [q.species] })
    | none => .ok (.done, p)
  | .databaseOf s => match p.sys s with
    | some q => newDb p (.ok q.db)
    | none => .ok (.done, p)
  | .useDb v i => use p ((p.db v).bind fun db => db.species[i]?)
  | .useSystem s i => use p ((p.sys s).bind fun q => q.species[i]?)
  | .useList l i => use p ((p.lists.getD l [])[i]?)

/-- A program: what is seen of each operation, and the variables at the end. -/
def run (w : World) (p : Prog) : List Op → Res (List Out × Prog)
  | [] => .ok ([], p)
  | op :: ops => (step w p op).bind fun r => (run w r.2 ops).bind fun q => .ok (r.1 :: q.1, q.2)

end Verif.DatabaseObjects
