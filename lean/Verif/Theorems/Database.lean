import Verif.Lemmas.Database

/-!
# Theorem C25: the contents of a database
-/

namespace Verif.Database

open Chem

/-- **C25.** After every sequence of `addElement`, `addSpecies` and `clear` calls on a new database, whatever calls threw an
exception: species names are pairwise distinct, element symbols are pairwise distinct, the elements of every species are in the
element list, `speciesWithAggregateState` gives for each state exactly the species with this state in the order of insertion,
every species has a defined state, and the species are exactly the accepted ones, in order, renamed only if the name was already
taken. -/
theorem C25_database (ops : List Op) (flags : List Bool) (db : Db) (h : run {} ops = .ok (flags, db)) :
    (db.species.map Species.name).Nodup ∧
    (db.elements.map (·.symbol)).Nodup ∧
    (∀ s ∈ db.species, ∀ p ∈ s.elements, ∃ e ∈ db.elements, e.symbol = p.1.symbol) ∧
    (∀ st, speciesWithAggregateState db st = db.species.filter (fun s => s.aggregateState = .ok st)) ∧
    (∀ s ∈ db.species, ∃ st, s.aggregateState = .ok st ∧ st ≠ .Undefined) ∧
    (accepted ops flags []).length = db.species.length ∧
    (∀ i given stored, (accepted ops flags [])[i]? = some given → db.species[i]? = some stored →
      StoredAs ((db.species.take i).map Species.name) given stored) := by
  have hi := run_inv ops {} [] inv_empty flags db h
  refine ⟨hi.names, hi.el.nodup, ?_, hi.group, hi.state, hi.len, ?_⟩
  · intro s hs p hp
    obtain ⟨e, he, hes⟩ := List.mem_map.1 (hi.cover s hs p hp)
    exact ⟨e, he, hes⟩
  · intro i g t hg ht
    obtain ⟨h1, rfl⟩ := List.getElem?_eq_some_iff.1 hg
    obtain ⟨h2, rfl⟩ := List.getElem?_eq_some_iff.1 ht
    exact hi.stored i h1 h2

/-- **C25 (no call fails).** If every added species has an aggregate state, all calls return normally. -/
theorem C25_calls_return (ops : List Op) (h : ∀ s, Op.addSpecies s ∈ ops → s.rawState ≠ .Undefined) :
    ∃ db, run {} ops = .ok (ops.map (fun _ => true), db) :=
  run_ok_of_states ops {} h

/-- A water species of the given state. -/
def water (st : State) : Species :=
  ⟨c!"H2O", c!"H2O", [(⟨c!"H", 1, [], []⟩, 2), (⟨c!"O", 16, [], []⟩, 1)], 0, st, [], [], []⟩

example : (run {} [.addSpecies (water .Gas), .clear, .addSpecies (water .Aqueous), .addSpecies (water .Gas),
      .addSpecies (water .Undefined)]).bind (fun r => .ok (r.1, r.2.species.map Species.name, r.2.elements.map (·.symbol),
        (speciesWithAggregateState r.2 .Aqueous).map Species.name)) =
    .ok ([true, true, true, true, true], [c!"H2O", c!"H2O!", c!"H2O!!"], [c!"H", c!"O"], [c!"H2O", c!"H2O!!"]) := by
  decide +kernel

end Verif.Database
