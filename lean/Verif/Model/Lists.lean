import Verif.Model.ValueObjects
import Verif.Model.EquilibriumSpecs

/-!
# Model of `ElementList.hpp`, `SpeciesList.hpp`, `PhaseList.hpp`, `ChemicalFormula.cpp` and of the rest of `Algorithms.hpp`

Lists of elements hold elements of `Chem`; lists of species hold the objects of `ValueObjects`; lists of phases hold `PhaseImpl`.
The getters of species that can fail (`substance`, `aggregateState`) give the predicates of the searches an outcome.  The lists of names given
as `StringList` are lists of texts (`C09`).  `repr` and iterators are not modelled.
-/

namespace Verif.Lists

open Chem ValueObjects

/-! ### Algorithms -/

/-- `indexfn` (Algorithms.hpp:40-43), `std::find_if` with a predicate that can fail: it is called for the items up to the first one accepted. -/
def indexfn {α : Type} (pred : α → Res Bool) : List α → Res Nat
  | [] => .ok 0
  | x :: rest => (pred x).bind fun b => if b then .ok 0 else (indexfn pred rest).bind fun i => .ok (i + 1)

/-- `filter` (Algorithms.hpp:46-52), `std::copy_if`. -/
def filter {α : Type} (pred : α → Res Bool) : List α → Res (List α)
  | [] => .ok []
  | x :: rest => (pred x).bind fun b => (filter pred rest).bind fun l => .ok (if b then x :: l else l)

/-- `vectorize` (Algorithms.hpp:92-101). -/
def vectorize {α β : Type} (f : α → Res β) : List α → Res (List β)
  | [] => .ok []
  | x :: rest => (f x).bind fun y => (vectorize f rest).bind fun l => .ok (y :: l)

/-- The functions `indexWith…` of the lists, e.g. SpeciesList.hpp:125-130: `error(idx >= size())`. -/
def indexOr {α : Type} (pred : α → Res Bool) (l : List α) : Res Nat :=
  (indexfn pred l).bind fun idx => if idx ≥ l.length then .throw else .ok idx

/-- The functions `getWith…` of the lists, e.g. SpeciesList.hpp:155-158. -/
def getOr {α : Type} (pred : α → Res Bool) (l : List α) : Res α := (indexOr pred l).bind fun idx => at! l idx

/-- The loop of `range` (Algorithms.hpp:184-187): `res[i] = first + i*step`. -/
def rangeLoop (first step : Int) : Nat → Nat → List Int
  | _, 0 => []
  | i, n + 1 => (first + i * step) :: rangeLoop first step (i + 1) n

/-- `range(first, last, step)` for integers (Algorithms.hpp:179-188); the quotient of C++ is truncated, division by zero is undefined, and a
negative quotient becomes a size beyond memory. -/
def range (first last step : Int) : Res (List Int) :=
  if last ≤ first then .ok []
  else if step = 0 then .ub
  else
    let q := Int.tdiv (last - first - 1) step
    if q < 0 then (if q = -1 then .ok [] else .throw)
    else .ok (rangeLoop first step 0 (q.toNat + 1))

/-- The loop of `range` for numbers. -/
def rangeLoopRat (first step : Rat) : Nat → Nat → List Rat
  | _, 0 => []
  | i, n + 1 => (first + i * step) :: rangeLoopRat first step (i + 1) n

/-- `range(first, last, step)` for floating-point numbers (Algorithms.hpp:179-188), positive step: the quotient, rounded down when it is not
negative; a negative one that is not above -1 cannot be converted. -/
def rangeRat (first last step : Rat) : Res (List Rat) :=
  if last ≤ first then .ok []
  else
    let q := (last - first - 1) / step
    if q ≤ -1 then .ub
    else .ok (rangeLoopRat first step 0 ((if q < 0 then 0 else q.floor.toNat) + 1))

/-- `sum(ibegin, iend, f)` (Algorithms.hpp:215-223). -/
def sumLoop (f : Nat → Rat) : Nat → Nat → Rat → Rat
  | _, 0, res => res
  | i, n + 1, res => sumLoop f (i + 1) n (res + f i)
/-- `sum(ibegin, iend, f)` (Algorithms.hpp:215-223). -/
def sum (ibegin iend : Nat) (f : Nat → Rat) : Rat := sumLoop f ibegin (iend - ibegin) 0

/-- `intersect` (Algorithms.hpp:147-151). -/
def intersect (a b : List Str) : List Str := a.filter fun x => contains b x
/-- `difference` (Algorithms.hpp:154-158). -/
def difference (a b : List Str) : List Str := a.filter fun x => !contains b x
/-- `disjoint` (Algorithms.hpp:161-168). -/
def disjoint : List Str → List Str → Bool
  | [], _ => true
  | x :: rest, b => if contains b x then false else disjoint rest b
/-- `identical` (Algorithms.hpp:171-175). -/
def identical (a b : List Str) : Bool := contained a b && contained b a
/-- `unique` (Algorithms.hpp:62-69): sorted, without duplicates; `std::sort` and `std::unique` are modelled by insertion. -/
def unique (a : List Str) : List Str := a.foldr insertSorted []

/-! ### Formulas -/

abbrev Formula := EquilibriumSpecs.Formula

/-- `ChemicalFormula(String)` (ChemicalFormula.cpp:41-43, 81-83). -/
def Formula.ofString (s : Str) : Res Formula :=
  (FormulaParser.parseChemicalFormula s).bind fun els => (ChargeParser.parseElectricCharge s).bind fun z => .ok ⟨s, els, z⟩

/-- `ChemicalFormula::symbols` (ChemicalFormula.cpp:51-54). -/
def Formula.symbols (f : Formula) : List Str := f.elements.map (·.1)
/-- `ChemicalFormula::coefficient` (ChemicalFormula.cpp:63-69). -/
def coefficientOf (symbol : Str) : List (Str × Rat) → Rat
  | [] => 0
  | (e, c) :: rest => if e = symbol then c else coefficientOf symbol rest

/-! ### Lists of elements -/

/-- `ElementList::findWithSymbol` and `find` (ElementList.hpp:89-98). -/
def elementWithSymbol (symbol : Str) (e : Element) : Res Bool := .ok (decide (e.symbol = symbol))
/-- `ElementList::findWithName` (ElementList.hpp:101-104). -/
def elementWithName (name : Str) (e : Element) : Res Bool := .ok (decide (e.name = name))

/-- The functions of `ElementList` (ElementList.hpp:89-183). -/
inductive ElementQuery where
  | find (symbol : Str) | findWithSymbol (symbol : Str) | findWithName (name : Str)
  | index (symbol : Str) | indexWithSymbol (symbol : Str) | indexWithName (name : Str)
inductive ElementGet where
  | get (symbol : Str) | getWithSymbol (symbol : Str) | getWithName (name : Str)
inductive ElementSelect where
  | withSymbols (symbols : List Str) | withNames (names : List Str)
  | withTag (tag : Str) | withoutTag (tag : Str) | withTags (tags : List Str) | withoutTags (tags : List Str)

/-- ElementList.hpp:89-131. -/
def elementIndex (l : List Element) : ElementQuery → Res Nat
  | .find s => indexfn (elementWithSymbol s) l
  | .findWithSymbol s => indexfn (elementWithSymbol s) l
  | .findWithName n => indexfn (elementWithName n) l
  | .index s => indexOr (elementWithSymbol s) l
  | .indexWithSymbol s => indexOr (elementWithSymbol s) l
  | .indexWithName n => indexOr (elementWithName n) l
/-- ElementList.hpp:134-149. -/
def elementGet (l : List Element) : ElementGet → Res Element
  | .get s => getOr (elementWithSymbol s) l
  | .getWithSymbol s => getOr (elementWithSymbol s) l
  | .getWithName n => getOr (elementWithName n) l
/-- ElementList.hpp:152-183. -/
def elementSelect (l : List Element) : ElementSelect → Res (List Element)
  | .withSymbols ss => vectorize (fun s => getOr (elementWithSymbol s) l) ss
  | .withNames ns => vectorize (fun n => getOr (elementWithName n) l) ns
  | .withTag t => filter (fun e => .ok (contains e.tags t)) l
  | .withoutTag t => filter (fun e => .ok (!contains e.tags t)) l
  | .withTags ts => filter (fun e => .ok (contained ts e.tags)) l
  | .withoutTags ts => filter (fun e => .ok (!contained ts e.tags)) l

/-! ### Lists of species -/

variable {M D : Type}

/-- `Species::formula` (Species.cpp:243-246) as a formula. -/
def formulaOf (s : Impl M D) : Formula := ⟨s.getFormula.1, s.getFormula.2.1, s.getFormula.2.2⟩

/-- SpeciesList.hpp:101-104. -/
def speciesWithName (name : Str) (s : Impl M D) : Res Bool := .ok (decide (s.getName = name))
/-- SpeciesList.hpp:107-110. -/
def speciesWithFormula (f : Formula) (s : Impl M D) : Res Bool := .ok (f.equivalent (formulaOf s))
/-- SpeciesList.hpp:113-116. -/
def speciesWithSubstance (substance : Str) (s : Impl M D) : Res Bool :=
  s.getSubstance.bind fun t => .ok (decide (t = substance))

/-- The functions of `SpeciesList` (SpeciesList.hpp:95-265) that give an index. -/
inductive SpeciesQuery where
  | find (name : Str) | findWithName (name : Str) | findWithFormula (f : Formula) | findWithSubstance (substance : Str)
  | index (name : Str) | indexWithName (name : Str) | indexWithFormula (f : Formula) | indexWithSubstance (substance : Str)
/-- Those that give a species. -/
inductive SpeciesGet where
  | get (name : Str) | getWithName (name : Str) | getWithFormula (f : Formula) | getWithSubstance (substance : Str)
/-- Those that give a list. -/
inductive SpeciesSelect where
  | withNames (names : List Str) | withFormulas (formulas : List Str) | withSubstances (substances : List Str)
  | withAggregateState (state : State)
  | withTag (tag : Str) | withoutTag (tag : Str) | withTags (tags : List Str) | withoutTags (tags : List Str)
  | withElements (symbols : List Str) | withElementsOf (formulas : List Str)

/-- SpeciesList.hpp:95-146. -/
def speciesIndex (l : List (Impl M D)) : SpeciesQuery → Res Nat
  | .find n => indexfn (speciesWithName n) l
  | .findWithName n => indexfn (speciesWithName n) l
  | .findWithFormula f => indexfn (speciesWithFormula f) l
  | .findWithSubstance t => indexfn (speciesWithSubstance t) l
  | .index n => indexOr (speciesWithName n) l
  | .indexWithName n => indexOr (speciesWithName n) l
  | .indexWithFormula f => indexOr (speciesWithFormula f) l
  | .indexWithSubstance t => indexOr (speciesWithSubstance t) l
/-- SpeciesList.hpp:149-170. -/
def speciesGet (l : List (Impl M D)) : SpeciesGet → Res (Impl M D)
  | .get n => getOr (speciesWithName n) l
  | .getWithName n => getOr (speciesWithName n) l
  | .getWithFormula f => getOr (speciesWithFormula f) l
  | .getWithSubstance t => getOr (speciesWithSubstance t) l

/-- `ElementalComposition::symbols` (ElementalComposition.cpp:64-67). -/
def symbolsOf (s : Impl M D) : List Str := s.getElements.map (·.1.symbol)

/-- `SpeciesList::withElements` (SpeciesList.hpp:240-243). -/
def withElements (l : List (Impl M D)) (symbols : List Str) : Res (List (Impl M D)) :=
  filter (fun s => .ok (contained (symbolsOf s) symbols)) l

/-- The loop of `withElementsOf` (SpeciesList.hpp:260-262). -/
def mergeFormulas : List Str → List Str → Res (List Str)
  | symbols, [] => .ok symbols
  | symbols, x :: rest => (Formula.ofString x).bind fun f => mergeFormulas (merge symbols f.symbols) rest

/-- SpeciesList.hpp:173-264; the text of each formula becomes a `ChemicalFormula` when it is given to `indexWithFormula` (181). -/
def speciesSelect (l : List (Impl M D)) : SpeciesSelect → Res (List (Impl M D))
  | .withNames ns => vectorize (fun n => getOr (speciesWithName n) l) ns
  | .withFormulas fs => vectorize (fun x => (Formula.ofString x).bind fun f => getOr (speciesWithFormula f) l) fs
  | .withSubstances ts => vectorize (fun t => getOr (speciesWithSubstance t) l) ts
  | .withAggregateState st => filter (fun s => s.getAggregateState.bind fun st' => .ok (decide (st' = st))) l
  | .withTag t => if t = [] then .ok [] else filter (fun s => .ok (contains s.getTags t)) l
  | .withoutTag t => if t = [] then .ok l else filter (fun s => .ok (!contains s.getTags t)) l
  | .withTags ts => if ts = [] then .ok [] else filter (fun s => .ok (contained ts s.getTags)) l
  | .withoutTags ts => if ts = [] then .ok l else filter (fun s => .ok (!contained ts s.getTags)) l
  | .withElements symbols => withElements l symbols
  | .withElementsOf formulas => (mergeFormulas [] formulas).bind fun symbols => withElements l symbols

/-- `SpeciesList(StringList)` (SpeciesList.hpp:59-61). -/
def speciesListOf (registry : Str → Option Element) (formulas : List Str) : Res (List (Impl M D)) :=
  vectorize (ofFormula registry) formulas

/-! ### Lists of phases -/

variable {S F : Type} {solid : S} [DecidableEq S]

/-- PhaseList.hpp:90-93. -/
def phaseWithName (name : Str) (p : PhaseImpl S F solid) : Res Bool := .ok (decide (p.name = name))
/-- PhaseList.hpp:108-111, with `containsfn` (Algorithms.hpp:111-114). -/
def phaseWithSpecies (name : Str) (p : PhaseImpl S F solid) : Res Bool :=
  .ok (p.species.length != 0 && p.species.any (fun s => decide (s.name = name)))
/-- PhaseList.hpp:114-117. -/
def phaseWithAggregateState (st : State) (p : PhaseImpl S F solid) : Res Bool :=
  p.getAggregateState.bind fun st' => .ok (decide (st' = st))
/-- PhaseList.hpp:120-123. -/
def phaseWithStateOfMatter (st : S) (p : PhaseImpl S F solid) : Res Bool := .ok (decide (p.state = st))

/-- The loop of `findWithSpecies(Index)` (PhaseList.hpp:98-105). -/
def findSpeciesLoop (index : Nat) : Nat → Nat → List (PhaseImpl S F solid) → Nat
  | _, i, [] => i
  | counter, i, p :: rest => if counter + p.species.length > index then i else findSpeciesLoop index (counter + p.species.length) (i + 1) rest

/-- The functions of `PhaseList` (PhaseList.hpp:84-170) that give an index. -/
inductive PhaseQuery (S : Type) where
  | find (name : Str) | findWithName (name : Str) | findWithSpeciesIndex (i : Nat) | findWithSpecies (name : Str)
  | findWithAggregateState (st : State) | findWithStateOfMatter (st : S)
  | index (name : Str) | indexWithName (name : Str) | indexWithSpeciesIndex (i : Nat) | indexWithSpecies (name : Str)
  | indexWithAggregateState (st : State) | indexWithStateOfMatter (st : S)
/-- Those that give a list. -/
inductive PhaseSelect (S : Type) where
  | withNames (names : List Str) | withStateOfMatter (st : S) | withAggregateState (st : State)

/-- PhaseList.hpp:84-170. -/
def phaseIndex (l : List (PhaseImpl S F solid)) : PhaseQuery S → Res Nat
  | .find n => indexfn (phaseWithName n) l
  | .findWithName n => indexfn (phaseWithName n) l
  | .findWithSpeciesIndex i => .ok (findSpeciesLoop i 0 0 l)
  | .findWithSpecies n => indexfn (phaseWithSpecies n) l
  | .findWithAggregateState st => indexfn (phaseWithAggregateState st) l
  | .findWithStateOfMatter st => indexfn (phaseWithStateOfMatter st) l
  | .index n => indexOr (phaseWithName n) l
  | .indexWithName n => indexOr (phaseWithName n) l
  | .indexWithSpeciesIndex i => if findSpeciesLoop i 0 0 l ≥ l.length then .throw else .ok (findSpeciesLoop i 0 0 l)
  | .indexWithSpecies n => indexOr (phaseWithSpecies n) l
  | .indexWithAggregateState st => indexOr (phaseWithAggregateState st) l
  | .indexWithStateOfMatter st => indexOr (phaseWithStateOfMatter st) l
/-- PhaseList.hpp:171-186. -/
def phaseSelect (l : List (PhaseImpl S F solid)) : PhaseSelect S → Res (List (PhaseImpl S F solid))
  | .withNames ns => vectorize (fun n => getOr (phaseWithName n) l) ns
  | .withStateOfMatter st => filter (phaseWithStateOfMatter st) l
  | .withAggregateState st => filter (phaseWithAggregateState st) l

end Verif.Lists
