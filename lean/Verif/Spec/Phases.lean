import Verif.Model.Phases

/-!
# Specification for C30
-/

namespace Verif.Phases

open Chem

/-- All elements of the species are allowed. -/
def Allowed (allowed : Str → Prop) (s : Species) : Prop := ∀ p ∈ s.elements, allowed p.1.symbol

/-- The species requested by a definition. By names: exactly these species of the database, in the given order; they have the
aggregate state of the phase. Otherwise: exactly the species of the database, in its order, that have the aggregate state
of the phase, whose elements are all allowed, and that are not excluded. Allowed are the given element symbols or, if there are none,
the symbols in `all`. -/
def Requested (excluded : Species → Prop) (db : Database.Db) (all : Str → Prop) (g : GenericPhase) (species : List Species) : Prop :=
  (g.names ≠ [] → species.map Species.name = g.names ∧ ∀ s ∈ species, s ∈ db.species ∧ s.aggregateState = .ok g.aggregatestate) ∧
  (g.names = [] → species.Sublist db.species ∧
    ∀ s, s ∈ species ↔ s ∈ db.species ∧ s.aggregateState = .ok g.aggregatestate ∧ ¬ excluded s ∧
      ((g.symbols ≠ [] ∧ Allowed (· ∈ g.symbols) s) ∨ (g.symbols = [] ∧ Allowed all s)))

/-- The species carries at least one of the tags. -/
def HasSomeTag (tags : List Str) (s : Species) : Prop := ∃ t ∈ tags, t ∈ s.tags

/-- The species carries all the tags, and there is at least one. -/
def HasAllTags (tags : List Str) (s : Species) : Prop := tags ≠ [] ∧ ∀ t ∈ tags, t ∈ s.tags

/-- The element symbols occurring in the definitions, directly or in the named species. -/
def Mentioned (db : Database.Db) (defs : List GenericPhase) (x : Str) : Prop :=
  ∃ g ∈ defs, x ∈ g.symbols ∨ ∃ s ∈ db.species, s.name ∈ g.names ∧ ∃ p ∈ s.elements, p.1.symbol = x

/-- A constructor call never gives both names and excluded tags (Phases.hpp:70-86). -/
def Constructible (g : GenericPhase) : Prop := g.names ≠ [] → g.excludetags = []

/-- The name has no white space. -/
def NoSpace (name : Str) : Prop := name ≠ [] ∧ ∀ c ∈ name, c ∉ [' ', '\n', '\r', '\t', '\x0b', '\x0c']

end Verif.Phases
