import Verif.Base
import Mathlib.Data.List.Sort
import Mathlib.Data.List.Lex
import Mathlib.Data.List.Dedup
import Mathlib.Data.Char
import Mathlib.Data.Rat.Defs
import Mathlib.Algebra.Order.Ring.Rat

/-!
# Model of the set-up of `Reaktoro/Extensions/Phreeqc/Phreeqc.cpp`

What the class `Phreeqc` makes of the contents of PHREEQC after the execution of an input script: the lists of elements, species and
phases, the formula matrix, the reactions and their stoichiometric matrix.  PHREEQC itself is external: `Engine` is the part of its data
that is read.  PHREEQC has one object for each name, so that a pointer to an element or a species is represented by its name, and the order
of `std::set` and `std::map` of pointers is never visible because the lists are sorted by name or only searched.  Numbers are rational.
-/

namespace Verif.PhreeqcEngine

abbrev Str := List Char

/-- `element` of PHREEQC: the primary element `primary->elt`, the weight `gfw`, and the element `master->s->secondary->elt` if these pointers are not null. -/
structure ElementData where
  primary : Str
  gfw : Rat
  dflt : Option Str
  deriving DecidableEq, Repr

/-- `species` of PHREEQC: `dissolved` if the type is neither `EX` nor `SURF`, the charge `z`, the elements `next_elt`, the element of its
secondary master, and the tokens of the rewritten reaction `rxn_x`, if there is one. -/
structure SpeciesData where
  dissolved : Bool
  z : Rat
  elts : List (Str × Rat)
  secondary : Option Str
  rxn : Option (List (Str × Rat))
  deriving DecidableEq, Repr

/-- `phase` of PHREEQC: in the reaction the first token is the phase itself. -/
structure PhaseData where
  name : Str
  elts : List (Str × Rat)
  rxn : Option ((Str × Rat) × List (Str × Rat))
  active : Bool
  deriving DecidableEq, Repr

/-- `unknown` of PHREEQC: the element of its first master, whether it is of type `PP`, and its phase. -/
structure Unknown where
  master : Option Str
  isPP : Bool
  phase : Option Str
  deriving DecidableEq, Repr

/-- The data of PHREEQC that are read. `speciesList` are the pairs `s`, `master_s` of `species_list`, `sx` are the species of `s_x`, `gases` the
names of the components of the gas phases. -/
structure Engine where
  element : Str → ElementData
  species : Str → SpeciesData
  phases : List PhaseData
  speciesList : List (Str × Str)
  sx : List Str
  gases : List Str
  unknowns : List Unknown
  eminus : Str

/-- `reactionEquation` of a species: the signs are changed; a trivial reaction is empty (PhreeqcUtils.cpp:241-263). -/
def speciesReaction (s : SpeciesData) : List (Str × Rat) :=
  match s.rxn with
  | none => []
  | some tokens => if tokens.length ≤ 1 then [] else tokens.map fun t => (t.1, -t.2)

/-- `reactionEquation` of a phase (PhreeqcUtils.cpp:265-286). -/
def phaseReaction (p : PhaseData) : List (Str × Rat) :=
  match p.rxn with
  | none => []
  | some (t, ts) => if (t :: ts).length ≤ 1 then [] else t :: ts

/-- `stoichiometry`: the coefficient of the first species with the given name (PhreeqcUtils.cpp:221-239). -/
def stoichiometry (eq : List (Str × Rat)) (name : Str) : Rat :=
  match eq.find? (fun t => t.1 = name) with
  | some t => t.2
  | none => 0

/-- `activeAqueousSpecies`: a set, with the electron if a reaction has it (PhreeqcUtils.cpp:347-364). The loop that inserts while it goes
through the set inserts at most the electron. -/
def activeAqueous (g : Engine) : List Str :=
  let l := ((g.speciesList.map (·.1)).filter fun s => (g.species s).dissolved).dedup
  if l.any (fun s => stoichiometry (speciesReaction (g.species s)) c!"e-" ≠ 0) then l.insert g.eminus else l

/-- `activeProductSpecies` (PhreeqcUtils.cpp:376-387). -/
def activeProducts (g : Engine) : List Str :=
  g.sx.filter fun s => (g.species s).dissolved && !(speciesReaction (g.species s)).isEmpty

/-- `findPhase`: a null pointer if there is none (PhreeqcUtils.cpp:104-110). -/
def findPhase (g : Engine) (name : Str) : Option PhaseData := g.phases.find? fun p => p.name = name

/-- The phases of the given names: the null pointer of an unknown phase is used when the phases are sorted (Phreeqc.cpp:391). -/
def findAll (g : Engine) : List Str → Res (List PhaseData)
  | [] => .ok []
  | x :: xs => match findPhase g x with
    | none => .ub
    | some p => (findAll g xs).bind fun ps => .ok (p :: ps)

/-- `activeGaseousSpecies` (PhreeqcUtils.cpp:389-400). -/
def activeGases (g : Engine) : Res (List PhaseData) := findAll g g.gases.dedup

/-- `activePhasesInEquilibriumPhases` (PhreeqcUtils.cpp:402-411): the phase of an unknown of type `PP` is read. -/
def activeMinerals (g : Engine) : List Unknown → Res (List PhaseData)
  | [] => .ok []
  | u :: us =>
    if u.isPP then
      match u.phase.bind (findPhase g) with
      | none => .ub
      | some p => (activeMinerals g us).bind fun ps => .ok (if p.rxn.isSome && p.active then p :: ps else ps)
    else activeMinerals g us

/-- `std::sort` by name (Phreeqc.cpp:389-395). Names are different from each other, so that the result does not depend on the algorithm. -/
def sortNames (l : List Str) : List Str := l.insertionSort (· ≤ ·)

/-- `std::sort` of phases by name (Phreeqc.cpp:391-395). -/
def sortPhases (l : List PhaseData) : List PhaseData := l.insertionSort (fun a b => a.name ≤ b.name)

/-- The lists of species (Phreeqc.cpp:375-399). -/
structure SpeciesLists where
  aqueous : List Str
  products : List Str
  gaseous : List PhaseData
  minerals : List PhaseData
  iH2O : Nat

/-- `initializeSpecies` (Phreeqc.cpp:375-399). -/
def initializeSpecies (g : Engine) : Res SpeciesLists :=
  (activeGases g).bind fun gs => (activeMinerals g g.unknowns).bind fun ms =>
  let aq := sortNames (activeAqueous g)
  .ok { aqueous := aq, products := activeProducts g, gaseous := sortPhases gs, minerals := sortPhases ms, iH2O := aq.idxOf c!"H2O" }

/-- The master species of an aqueous species (Phreeqc.cpp:401-417). -/
def masterOf (g : Engine) (s : Str) : Res Str :=
  if s = g.eminus then .ok s else
  match g.speciesList.find? (fun x => x.1 = s) with
  | some x => .ok x.2
  | none => .throw

/-- The primary element of the first master of an unknown. -/
def Unknown.primary (g : Engine) (u : Unknown) : Option Str := u.master.map fun e => (g.element e).primary

/-- `initializeRedoxElements`, the keys of the map: the primary elements shared by two unknowns (Phreeqc.cpp:425-448). -/
def redoxElements (g : Engine) : List Unknown → List Str
  | [] => []
  | u :: us =>
    match u.primary g with
    | none => redoxElements g us
    | some p => if us.any (fun v => v.primary g = some p) then p :: redoxElements g us else redoxElements g us

/-- `choose_element_is_species` (Phreeqc.cpp:452-462). -/
def chooseInSpecies (g : Engine) (redox : List Str) (master e : Str) : Res Str :=
  if master = g.eminus then .ok e else
  if e ∈ redox then
    match (g.species master).secondary with
    | some x => if (g.element x).primary = e then .ok x else (match (g.element e).dflt with | some d => .ok d | none => .ub)
    | none => match (g.element e).dflt with | some d => .ok d | none => .ub
  else .ok e

/-- `choose_element_in_phase` (Phreeqc.cpp:464-467). -/
def chooseInPhase (g : Engine) (redox : List Str) (e : Str) : Res Str :=
  if e ∈ redox then (match (g.element e).dflt with | some d => .ok d | none => .ub) else .ok e

/-- `get_elements_in_species` and `get_elements_in_phase`: `insert` does nothing if the key is there already (Phreeqc.cpp:469-483). -/
def collect (choose : Str → Res Str) : List (Str × Rat) → List (Str × Rat) → Res (List (Str × Rat))
  | acc, [] => .ok acc
  | acc, (e, c) :: rest => (choose e).bind fun k =>
    collect choose (if k ∈ acc.map (·.1) then acc else acc ++ [(k, c)]) rest

/-- The elements of the aqueous species (Phreeqc.cpp:488-490, with the master species of lines 419-422). -/
def aqueousElements (g : Engine) (redox : List Str) : List Str → Res (List (List (Str × Rat)))
  | [] => .ok []
  | s :: ss => (masterOf g s).bind fun m => (collect (chooseInSpecies g redox m) [] (g.species s).elts).bind fun x =>
    (aqueousElements g redox ss).bind fun xs => .ok (x :: xs)

/-- The elements of the gases and minerals (Phreeqc.cpp:492-498). -/
def phaseElements (g : Engine) (redox : List Str) : List PhaseData → Res (List (List (Str × Rat)))
  | [] => .ok []
  | p :: ps => (collect (chooseInPhase g redox) [] p.elts).bind fun x =>
    (phaseElements g redox ps).bind fun xs => .ok (x :: xs)

/-- The molar mass of an element; the electron has none (Phreeqc.cpp:561-566). -/
def elementMolarMass (g : Engine) (e : Str) : Rat :=
  if e = c!"E" ∨ e = c!"e" then 0 else (g.element (g.element e).primary).gfw / 1000

/-- The coefficient of an element in a species, zero if it is not there (Phreeqc.cpp:603-607). -/
def coefIn (comp : List (Str × Rat)) (e : Str) : Rat :=
  match comp.find? (fun x => x.1 = e) with
  | some x => x.2
  | none => 0

/-- A row of the stoichiometric matrix: the entry is set, not incremented; a name that is not in the list has the index one past the end
(Phreeqc.cpp:626-632). -/
def setRow (names : List Str) : List Rat → List (Str × Rat) → Res (List Rat)
  | row, [] => .ok row
  | row, (x, c) :: rest => if names.idxOf x < row.length then setRow names (row.set (names.idxOf x) c) rest else .ub

/-- `initializeStoichiometricMatrix` (Phreeqc.cpp:616-633). -/
def setRows (names : List Str) : List (List (Str × Rat)) → Res (List (List Rat))
  | [] => .ok []
  | r :: rs => (setRow names (List.replicate names.length 0) r).bind fun x => (setRows names rs).bind fun xs => .ok (x :: xs)

/-- The members of the class after `initialize` (Phreeqc.cpp:336-372). The columns of the formula matrix are kept. -/
structure System where
  lists : SpeciesLists
  elementNames : List Str
  speciesNames : List Str
  phaseNames : List Str
  charges : List Rat
  elementMolarMasses : List Rat
  reactions : List (List (Str × Rat))
  formula : List (List Rat)
  stoichiometric : List (List Rat)

/-- `initialize` up to the stoichiometric matrix (Phreeqc.cpp:336-366, 401-633). The critical properties of gases and the state are not here. -/
def initSystem (g : Engine) : Res System :=
  (initializeSpecies g).bind fun l =>
  let redox := redoxElements g g.unknowns
  (aqueousElements g redox l.aqueous).bind fun a =>
  (phaseElements g redox l.gaseous).bind fun b =>
  (phaseElements g redox l.minerals).bind fun c =>
  let comps := a ++ b ++ c
  let elements := sortNames ((comps.flatMap fun x => x.map (·.1)).dedup)
  let names := l.aqueous ++ l.gaseous.map (·.name) ++ l.minerals.map (·.name)
  let charges := l.aqueous.map (fun s => (g.species s).z) ++ List.replicate (l.gaseous.length + l.minerals.length) 0
  let reactions := l.products.map (fun s => speciesReaction (g.species s)) ++ l.gaseous.map phaseReaction ++ l.minerals.map phaseReaction
  (setRows names reactions).bind fun nu =>
  .ok { lists := l
        elementNames := elements ++ [c!"Z"]
        speciesNames := names
        phaseNames := [c!"Aqueous"] ++ (if l.gaseous.length ≠ 0 then [c!"Gaseous"] else []) ++ l.minerals.map (·.name)
        charges := charges
        elementMolarMasses := elements.map (elementMolarMass g) ++ [0]
        reactions := reactions
        formula := (comps.zip charges).map fun x => elements.map (coefIn x.1) ++ [x.2]
        stoichiometric := nu }

/-- `numSpecies` (Phreeqc.cpp:888-891). -/
def System.numSpecies (s : System) : Nat := s.speciesNames.length

/-- `numPhases` (Phreeqc.cpp:893-896). -/
def System.numPhases (s : System) : Nat := s.phaseNames.length

/-- `numSpeciesInPhase` (Phreeqc.cpp:1155-1173). -/
def System.numSpeciesInPhase (s : System) (i : Nat) : Res Nat :=
  if i < s.numPhases then
    if i = 0 then .ok s.lists.aqueous.length
    else if i = 1 ∧ s.lists.gaseous.length ≠ 0 then .ok s.lists.gaseous.length
    else .ok 1
  else .throw

/-- `elementStoichiometry` (Phreeqc.cpp:1185-1188): the access to a matrix is not checked. -/
def System.elementStoichiometry (s : System) (ispecies ielement : Nat) : Res Rat :=
  (at! s.formula ispecies).bind fun col => at! col ielement

end Verif.PhreeqcEngine
