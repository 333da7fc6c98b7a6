import Verif.Model.CoreYAML

/-!
# Specification for C122
-/

namespace Verif.CoreYAML

/-- Numbers that are written are read back as the same numbers. -/
def Numbers.Faithful (n : Numbers) : Prop := ∀ x, n.read (n.print x) = some x

/-- The map has this node for the key (the first one, if the key is repeated). -/
def Has (l : List (Str × Node)) (key : Str) (node : Node) : Prop :=
  ∃ before after, l = before ++ (key, node) :: after ∧ ∀ p ∈ before, p.1 ≠ key

/-- The map does not have the key. -/
def Lacks (l : List (Str × Node)) (key : Str) : Prop := ∀ p ∈ l, p.1 ≠ key

/-- What a document says about an element: its symbol, which is not empty, and its molar mass, which is not negative, are given; the name is the symbol if it is not given or
empty; there are no tags if they are not given. Other keys do not matter. -/
structure Describes (n : Numbers) (l : List (Str × Node)) (e : Chem.Element) : Prop where
  symbol : Has l c!"Symbol" (.scalar e.symbol) ∧ e.symbol ≠ []
  molarMass : (∃ s, Has l c!"MolarMass" (.scalar s) ∧ n.read s = some e.molarMass) ∧ 0 ≤ e.molarMass
  name : (∃ s, Has l c!"Name" (.scalar s) ∧ s ≠ [] ∧ e.name = s) ∨ (Has l c!"Name" (.scalar []) ∧ e.name = e.symbol) ∨ (Lacks l c!"Name" ∧ e.name = e.symbol)
  tags : Has l c!"Tags" (.seq (e.tags.map .scalar)) ∨ (Lacks l c!"Tags" ∧ e.tags = [])

end Verif.CoreYAML
