import Verif.Base

/-!
# Objects that hold a pointer to data of their own

Many classes of the library hold a `std::unique_ptr<Impl>`. The data are a list, and the objects are the
list of the addresses that they hold. Nothing is freed in the model.
-/

namespace Verif.Owned

/-- The data on the heap, and the address held by each object. -/
structure World (α : Type) where
  cells : List α
  ptr : List Nat

/-- The data of an object. -/
def World.get? {α : Type} (w : World α) (i : Nat) : Option α :=
  match w.ptr[i]? with
  | some a => w.cells[a]?
  | none => none

/-- A new object with new data. -/
def World.add {α : Type} (w : World α) (d : α) : World α :=
  { cells := w.cells ++ [d], ptr := w.ptr ++ [w.cells.length] }

/-- An object takes over the pointer to new data. -/
def World.take {α : Type} (w : World α) (i : Nat) (d : α) : World α :=
  { cells := w.cells ++ [d], ptr := w.ptr.set i w.cells.length }

end Verif.Owned
