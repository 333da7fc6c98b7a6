import Verif.Model.DatabaseSave
import Verif.Spec.NumberText
import Verif.Spec.DatabaseYAML
import Verif.Spec.ModelsYAML

/-!
# Specification for C73
-/

namespace Verif.DatabaseSave

open Chem
open NumberText (SixDigits)

/-- A list of names and numbers that a text can hold : different names without spaces, and numbers of at most six digits. -/
structure TextSafe (l : List (Chem.Str × Rat)) : Prop where
  spaces : ∀ p ∈ l, ' ' ∉ p.1
  distinct : (l.map Prod.fst).Nodup
  digits : ∀ p ∈ l, SixDigits p.2

/-- The formula has no suffix as in `H2O(aq)`, and there is a substance. -/
def Plain (s : Species) : Prop :=
  (∃ suffix, ChargeParser.splitSpeciesNameSuffix s.formula = .ok (s.formula, suffix)) ∧ ∃ t, t ≠ [] ∧ getSubstance s = .ok t

/-- The compositions and reactions of all species can be written as text, and the formulas have no suffixes. -/
def Writable (species : List Species) : Prop :=
  ∀ s ∈ species, TextSafe (s.elements.map fun p => (p.1.symbol, p.2)) ∧ TextSafe s.reactants ∧ Plain s

/-- An element with a symbol, a name and a molar mass that is not negative. -/
def ElementOk (e : Element) : Prop := e.symbol ≠ [] ∧ 0 ≤ e.molarMass ∧ e.name ≠ []

/-- A species with all data the loader asks for. -/
def SpeciesOk (s : Species) : Prop := s.rawName ≠ [] ∧ s.elements ≠ [] ∧ s.rawState ≠ .Undefined

/-- A database whose species and elements have all data, whose species consist of elements of the database, and in which reactants
come before the species formed from them. -/
structure Complete (db : Database.Db) : Prop where
  elements : ∀ e ∈ db.elements, ElementOk e
  species : ∀ s ∈ db.species, SpeciesOk s
  known : ∀ s ∈ db.species, ∀ p ∈ s.elements, p.1 ∈ db.elements
  order : ∀ i s, db.species[i]? = some s → ∀ r ∈ s.reactants, r.1 ∈ (db.species.take i).map Species.name

/-- Two species with the same data; a substance may be given in one and follow from the name in the other. -/
structure SameSpecies (s s' : Species) : Prop where
  name : s'.rawName = s.rawName
  formula : s'.formula = s.formula
  elements : s'.elements = s.elements
  charge : s'.charge = s.charge
  state : s'.rawState = s.rawState
  tags : s'.tags = s.tags
  reactants : s'.reactants = s.reactants
  substance : getSubstance s' = getSubstance s

/-- Two databases with the same contents. -/
structure SameDb (db db' : Database.Db) : Prop where
  species : List.Forall₂ SameSpecies db.species db'.species
  elements : db'.elements = db.elements
  states : ∀ st, List.Forall₂ SameSpecies (Database.speciesWithAggregateState db st) (Database.speciesWithAggregateState db' st)

/-- The database can be saved, and the saved document is loaded again with the same contents, for every set of default elements. -/
def SavedAndLoaded (models : Chem.Str → DatabaseYAML.ModelNode) (db : Database.Db) : Prop :=
  ∃ doc, encode models db = .ok doc ∧ ∀ defaults depth, 0 < depth →
    ∃ st flags db', DatabaseYAML.load defaults depth doc = .ok st ∧ DatabaseYAML.toDatabase st = .ok (flags, db') ∧ SameDb db db'

end Verif.DatabaseSave
