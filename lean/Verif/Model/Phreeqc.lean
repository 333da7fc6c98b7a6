import Verif.Model.Chem
import Verif.Model.Database

/-!
# Model of `Reaktoro/Extensions/Phreeqc/PhreeqcDatabase.cpp` and of the parts of `PhreeqcUtils.cpp` it uses

The PHREEQC library itself is external: `Phreeqc` is the data it has after reading a database (`PhreeqcUtils::load`), with pointers to
species given as indices into the array of species.  Names of PHREEQC are unique strings that are compared by address
(PhreeqcUtils.cpp:298), they are compared by value here.  Numbers are rational.  The parsing of formulas in `withFormula` is not
modelled.  The order of `std::unordered_map` is the argument `shuffle`.
-/

namespace Verif.Phreeqc

open Chem

/-- The types of species and phases in PHREEQC (`AQ`, `HPLUS`, ...). -/
inductive PType where
  | aq | hplus | h2o | eminus | solid | ex | surf | surfPsi | surfPsi1 | surfPsi2
  deriving DecidableEq, Repr

/-- `element` of PHREEQC: the name, the name of the species of its master, if it has one, and the gram formula weight. -/
structure PElement where
  name : Str
  master : Option Str
  gfw : Rat
  deriving DecidableEq, Repr

/-- `species` of PHREEQC: `rxn` are the tokens of the reaction, if there is one; `logk` are the parameters of the equilibrium constant and
of the volume, `millero` other parameters of the volume. -/
structure PSpecies where
  name : Str
  type : PType
  z : Rat
  elts : List (Str × Rat)
  rxn : Option (List (Nat × Rat))
  logk : Nat → Rat
  millero : Nat → Rat

/-- `phase` of PHREEQC: the first token of the reaction is the phase itself, `rxn` are the tokens after it. -/
structure PPhase where
  name : Str
  formula : Str
  type : PType
  elts : List (Str × Rat)
  rxn : Option (List (Nat × Rat))
  logk : Nat → Rat

/-- The data of PHREEQC. -/
structure Phreeqc where
  elements : List PElement
  species : List PSpecies
  phases : List PPhase

/-- A pointer to a species or a phase (the attached data, PhreeqcDatabase.cpp:137, 152). -/
inductive Src where
  | species (i : Nat)
  | phase (i : Nat)
  deriving DecidableEq, Repr

/-- `symbol`, `name` and `molarMass` of an element, and `addElement` (PhreeqcUtils.cpp:145-158, PhreeqcDatabase.cpp:95-108): a repeated symbol is skipped;
without a master species a null pointer is used. -/
def addElement (l : List Element) (e : PElement) : Res (List Element) :=
  if e.name ∈ l.map (·.symbol) then .ok l else
  match e.master with
  | none => .ub
  | some n => .ok (l ++ [{ symbol := e.name, name := n, molarMass := e.gfw / 1000 }])

/-- The loop over the elements (PhreeqcDatabase.cpp:71-72). -/
def addElements : List Element → List PElement → Res (List Element)
  | l, [] => .ok l
  | l, e :: es => (addElement l e).bind fun l => addElements l es

/-- `name.find("(g)") < name.size()` (PhreeqcUtils.cpp:117-121). -/
def hasGasMark : Str → Bool
  | [] => false
  | c :: cs => c!"(g)".isPrefixOf (c :: cs) || hasGasMark cs

/-- `aggregateState` of a species (PhreeqcUtils.cpp:112-115, 135-143, 206-212). -/
def speciesState (s : PSpecies) : State :=
  match s.type with
  | .aq | .hplus | .h2o | .eminus => .Aqueous
  | .ex => .IonExchange
  | .surf | .surfPsi | .surfPsi1 | .surfPsi2 => .Adsorbed
  | .solid => .Undefined

/-- `aggregateState` of a phase (PhreeqcUtils.cpp:117-133, 214-219). -/
def phaseState (p : PPhase) : State :=
  if hasGasMark p.name then .Gas else if p.type = .solid then .Solid else .Undefined

/-- Repeated keys are ignored by `emplace` (PhreeqcUtils.cpp:180-194). -/
def firsts : List (Str × Rat) → List (Str × Rat) → List (Str × Rat)
  | acc, [] => acc
  | acc, (e, c) :: rest => if e ∈ acc.map (·.1) then firsts acc rest else firsts (acc ++ [(e, c)]) rest

/-- `createElements` (PhreeqcDatabase.cpp:156-171). -/
def createElements (elements : List Element) : List (Str × Rat) → Res (List (Element × Rat))
  | [] => .ok []
  | (e, c) :: rest =>
    match elements.find? (fun x => x.symbol = e) with
    | none => .throw
    | some x => (createElements elements rest).bind fun l => .ok ((x, c) :: l)

/-- The tokens with another species than the given one (PhreeqcUtils.cpp:297-299). An index out of range is a pointer to nothing. -/
def reactantsLoop (db : Phreeqc) (name : Str) : List (Nat × Rat) → Res (List (Nat × Rat))
  | [] => .ok []
  | (i, c) :: rest => (at! db.species i).bind fun s => (reactantsLoop db name rest).bind fun l =>
    .ok (if s.name ≠ name then (i, c) :: l else l)

/-- `reactants` of a species (PhreeqcUtils.cpp:288-305). -/
def speciesReactants (db : Phreeqc) (s : PSpecies) : Res (List (Nat × Rat)) :=
  match s.rxn with
  | none => .ub
  | some tokens => reactantsLoop db s.name tokens

/-- `reactants` of a phase (PhreeqcUtils.cpp:307-323). -/
def phaseReactants (p : PPhase) : Res (List (Nat × Rat)) :=
  match p.rxn with
  | none => .ub
  | some tokens => .ok tokens

/-- A species of the list, with its attached data. -/
structure Entry where
  species : Species
  src : Src
  deriving DecidableEq, Repr

/-- `species_list.find` (SpeciesList.hpp:95-104). -/
def find (l : List Entry) (name : Str) : Nat := l.findIdx fun e => e.species.name = name

/-- The loop of `createReactants` (PhreeqcDatabase.cpp:198-215); `add` is `addSpecies`. The list of the helper grows meanwhile.
The position `find` gave before is used after that. -/
def createReactants (db : Phreeqc) (add : PSpecies → Nat → List Entry → Res (List Entry)) :
    List (Nat × Rat) → List Entry → Res (List Entry × List (Str × Rat))
  | [], l => .ok (l, [])
  | (r, c) :: rest, l =>
    (at! db.species r).bind fun s =>
    let idx := find l s.name
    (if idx = l.length then add s r l else .ok l).bind fun l =>
    (at! l idx).bind fun e =>
    (createReactants db add rest l).bind fun q => .ok (q.1, (e.species.name, c) :: q.2)

/-- `createMasterSpecies` and `createProductSpecies` without the thermodynamic models (PhreeqcDatabase.cpp:125-153).  -/
def mkSpecies (name formula : Str) (elements : List (Element × Rat)) (charge : Rat) (state : State) (reactants : List (Str × Rat)) : Species where
  rawName := name
  formula := formula
  elements := elements
  charge := charge
  rawState := state
  reactants := reactants

/-- `addSpecies` for a species of PHREEQC (PhreeqcDatabase.cpp:110-123). The first argument bounds the depth of the recursion;
endless recursion is undefined. The set of names has the names of the list. -/
def addSpecies (db : Phreeqc) (elements : List Element) (shuffle : List (Str × Rat) → List (Str × Rat)) :
    Nat → PSpecies → Nat → List Entry → Res (List Entry)
  | 0, _, _, _ => .ub
  | fuel + 1, s, i, l =>
    if s.name ∈ l.map (·.species.name) then .ok l else
    (speciesReactants db s).bind fun rs =>
    (createElements elements (shuffle (firsts [] s.elts))).bind fun es =>
    (createReactants db (addSpecies db elements shuffle fuel) rs l).bind fun q =>
    .ok (q.1 ++ [⟨mkSpecies s.name s.name es s.z (speciesState s) q.2, .species i⟩])

/-- `addSpecies` for a phase of PHREEQC (PhreeqcDatabase.cpp:110-123). -/
def addPhase (db : Phreeqc) (elements : List Element) (shuffle : List (Str × Rat) → List (Str × Rat)) (fuel : Nat)
    (p : PPhase) (i : Nat) (l : List Entry) : Res (List Entry) :=
  if p.name ∈ l.map (·.species.name) then .ok l else
  (phaseReactants p).bind fun rs =>
  (createElements elements (shuffle (firsts [] p.elts))).bind fun es =>
  (createReactants db (addSpecies db elements shuffle fuel) rs l).bind fun q =>
  .ok (q.1 ++ [⟨mkSpecies p.name p.formula es 0 (phaseState p) q.2, .phase i⟩])

/-- The loop over the species, from species `i` on (PhreeqcDatabase.cpp:75-76). -/
def speciesLoop (add : PSpecies → Nat → List Entry → Res (List Entry)) : List PSpecies → Nat → List Entry → Res (List Entry)
  | [], _, l => .ok l
  | s :: rest, i, l => (add s i l).bind fun l => speciesLoop add rest (i + 1) l

/-- The loop over the phases, from phase `i` on (PhreeqcDatabase.cpp:79-80). -/
def phaseLoop (add : PPhase → Nat → List Entry → Res (List Entry)) : List PPhase → Nat → List Entry → Res (List Entry)
  | [], _, l => .ok l
  | p :: rest, i, l => (add p i l).bind fun l => phaseLoop add rest (i + 1) l

/-- The constructor of the helper after `load` (PhreeqcDatabase.cpp:63-81). -/
def build (shuffle : List (Str × Rat) → List (Str × Rat)) (fuel : Nat) (db : Phreeqc) : Res (List Entry) :=
  (addElements [] db.elements).bind fun elements =>
  (speciesLoop (addSpecies db elements shuffle fuel) db.species 0 []).bind fun l =>
  phaseLoop (addPhase db elements shuffle fuel) db.phases 0 l

/-- `Database::addSpecies` for a list of species (Database.cpp:161-165): an exception leaves the species before it in the database. The flag says
whether it returned normally. -/
def addAll : Database.Db → List Species → Res (Bool × Database.Db)
  | db, [] => .ok (true, db)
  | db, s :: rest =>
    match Database.addSpecies db s with
    | .ok db => addAll db rest
    | .throw => .ok (false, db)
    | .ub => .ub

/-- `PhreeqcDatabase::load` (PhreeqcDatabase.cpp:296-307), given what PHREEQC has read: the helper comes first, then the database is
cleared and filled. The flag says whether it returned normally. -/
def load (shuffle : List (Str × Rat) → List (Str × Rat)) (fuel : Nat) (db : Phreeqc) (old : Database.Db) : Res (Bool × Database.Db) :=
  match build shuffle fuel db with
  | .throw => .ok (false, old)
  | .ub => .ub
  | .ok l => addAll {} (l.map (·.species))

end Verif.Phreeqc
