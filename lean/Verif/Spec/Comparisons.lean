import Verif.Model.Comparisons

/-!
# Specification for C120
-/

namespace Verif.Comparisons

/-- What a user of `==` expects: an equivalence relation. -/
structure Equivalence' {α : Type} (eq : α → α → Bool) : Prop where
  refl : ∀ a, eq a a = true
  symm : ∀ a b, eq a b = true → eq b a = true
  trans : ∀ a b c, eq a b = true → eq b c = true → eq a c = true

/-- What sorted containers and `unique` need: `<` is transitive, `==` is an equivalence, and of two items exactly one is less or they are equal. -/
structure Ordered {α : Type} (less eq : α → α → Bool) : Prop where
  equal : Equivalence' eq
  trans : ∀ a b c, less a b = true → less b c = true → less a c = true
  one : ∀ a b, (less a b = true ∧ eq a b = false ∧ less b a = false) ∨ (less a b = false ∧ eq a b = true ∧ less b a = false) ∨
    (less a b = false ∧ eq a b = false ∧ less b a = true)

/-- The same elements with the same coefficients, in any order, and the same charge. -/
def SameComposition (f g : Formula) : Prop := (∀ e c, (e, c) ∈ f.elements ↔ (e, c) ∈ g.elements) ∧ f.charge = g.charge

/-- No element is listed twice. -/
def Distinct (f : Formula) : Prop := (f.elements.map Prod.fst).Nodup

/-- The result of removing duplicates: items of the list, one for each item of the list, no two of them equal, in ascending order. -/
structure WithoutDuplicates {α : Type} (less eq : α → α → Bool) (l res : List α) : Prop where
  items : ∀ x ∈ res, x ∈ l
  all : ∀ x ∈ l, ∃ y ∈ res, eq x y = true
  distinct : res.Pairwise fun a b => eq a b = false
  sorted : res.Pairwise fun a b => less a b = true

end Verif.Comparisons
