import Verif.Model.Outputter
import Mathlib.Data.List.Forall2

/-!
# Alignment of tables
-/

namespace Verif.Outputter

/-- Two lines have their columns at the same places: they are made of cells of equal widths. -/
def Aligned (line : List Str) (header : List Str) : Prop := line.map List.length = header.map List.length

/-- The line shows the values: each cell begins with its value, and the rest of it is blank. -/
def Shows (line : List Str) (values : List Str) : Prop :=
  List.Forall₂ (fun c v => ∃ k, c = v ++ List.replicate k ' ') line values

/-- A value fits into the column of the entry. -/
def Fits (width : Nat) (entry value : Str) : Prop := value.length ≤ max width (entry.length + 4)

end Verif.Outputter
