import Verif.Model.DatabaseObjects

/-!
# Specification for C119
-/

namespace Verif.DatabaseObjects

/-- What most programs do: databases come from names, files, `load` and copies, systems from phases of a database, and species are used through them.
Excluded are databases and systems made of species of other databases, other attached data, and the use of lists of species. -/
def Ordinary : Op → Prop
  | .ofSpecies _ | .attach _ | .add _ _ _ | .systemOf _ _ | .useList _ _ => False
  | _ => True

/-- The operation does not change or destroy the database variable `v`. -/
def Leaves (v : Nat) : Op → Prop
  | .assign u _ | .load u _ | .clear u | .attach u | .add u _ _ | .destroy u => u ≠ v
  | _ => True

/-- The species of a database, all of them pointing into one instance of PHREEQC that the database holds. -/
def Holds (db : Db) : Prop := ∀ s ∈ db.species, ∃ id, s.source = some id ∧ db.attached = some (.phreeqc id)

/-- The names of the embedded databases that the documentation lists (PhreeqcDatabase.hpp:33-43). -/
def Documented (name : Str) : Prop :=
  name = c!"Amm.dat" ∨ name = c!"frezchem.dat" ∨ name = c!"iso.dat" ∨ name = c!"llnl.dat" ∨ name = c!"minteq.dat" ∨ name = c!"minteq.v4.dat" ∨
  name = c!"phreeqc.dat" ∨ name = c!"pitzer.dat" ∨ name = c!"sit.dat" ∨ name = c!"wateq4f.dat"

end Verif.DatabaseObjects
