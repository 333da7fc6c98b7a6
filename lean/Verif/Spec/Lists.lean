import Verif.Base
import Verif.Model.ValueObjects

/-!
# Specification for C98: what searches and selections in lists should give
-/

namespace Verif.Lists

/-- Position `i` holds the first item with the property. -/
def FirstAt {α : Type} (P : α → Prop) (l : List α) (i : Nat) : Prop :=
  (∃ x, l[i]? = some x ∧ P x) ∧ ∀ j x, j < i → l[j]? = some x → ¬ P x

/-- A search gives the position of the first item with the property, or the number of items. -/
def Finds {α : Type} (P : α → Prop) (l : List α) (r : Res Nat) : Prop :=
  (∃ i, r = .ok i ∧ FirstAt P l i) ∨ (r = .ok l.length ∧ ∀ x ∈ l, ¬ P x)

/-- A search that must succeed gives the position of the first item with the property, or throws. -/
def Locates {α : Type} (P : α → Prop) (l : List α) (r : Res Nat) : Prop :=
  (∃ i, r = .ok i ∧ FirstAt P l i) ∨ (r = .throw ∧ ∀ x ∈ l, ¬ P x)

/-- The first item with the property, or an exception. -/
def Gets {α : Type} (P : α → Prop) (l : List α) (r : Res α) : Prop :=
  (∃ i x, FirstAt P l i ∧ l[i]? = some x ∧ r = .ok x) ∨ (r = .throw ∧ ∀ x ∈ l, ¬ P x)

/-- For every key, in the order of the keys, the first item with the property of that key; an exception if there is none for some key. -/
def Picks {α κ : Type} (P : κ → α → Prop) (l : List α) (keys : List κ) (r : Res (List α)) : Prop :=
  (∃ out, r = .ok out ∧ out.length = keys.length ∧ ∀ (i : Nat) k, keys[i]? = some k → ∃ x, out[i]? = some x ∧ Gets (P k) l (.ok x)) ∨
    (r = .throw ∧ ∃ k ∈ keys, ∀ x ∈ l, ¬ P k x)

open scoped Classical in
/-- Exactly the items with the property, in the order of the list. -/
def Keeps {α : Type} (P : α → Prop) (l : List α) (r : Res (List α)) : Prop := r = .ok (l.filter fun x => decide (P x))

/-- Two compositions with the same elements and the same coefficients; each is a list of symbols with coefficients. -/
def SameComposition (a b : List (List Char × Rat)) : Prop := ∀ e c, (e, c) ∈ a ↔ (e, c) ∈ b

end Verif.Lists
