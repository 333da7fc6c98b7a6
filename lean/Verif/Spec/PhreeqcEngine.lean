import Verif.Model.PhreeqcEngine

/-!
# What a user expects of the chemical system that `Phreeqc` extracts
-/

namespace Verif.PhreeqcEngine

/-- The formulas of the species as PHREEQC has them, in the order of the species. -/
def formulas (g : Engine) (s : System) : List (List (Str × Rat)) :=
  s.lists.aqueous.map (fun x => (g.species x).elts) ++ s.lists.gaseous.map (·.elts) ++ s.lists.minerals.map (·.elts)

/-- The atoms of element `e` in a formula. -/
def atoms (l : List (Str × Rat)) (e : Str) : Rat := (l.map fun x => if x.1 = e then x.2 else 0).sum

/-- The atoms in a formula of the elements whose primary element is `p`. -/
def atomsOf (g : Engine) (p : Str) (l : List (Str × Rat)) : Rat :=
  (l.map fun x => if (g.element x.1).primary = p then x.2 else 0).sum

/-- The sum of the entries of a column of the formula matrix over the redox states of a primary element. -/
def columnTotal (g : Engine) (p : Str) (names : List Str) (col : List Rat) : Rat := atomsOf g p (names.zip col)

/-- The element is in two redox states among the unknowns of PHREEQC. -/
def IsRedox (g : Engine) (p : Str) : Prop :=
  ∃ (a b : List Unknown) (u v : Unknown) (e f : Str), g.unknowns = a ++ u :: b ∧ v ∈ b ∧ u.master = some e ∧ v.master = some f ∧
    (g.element e).primary = p ∧ (g.element f).primary = p

/-- What PHREEQC guarantees: an element occurs once in a formula, elements of formulas are not redox states of others, and the redox state that
is the default of an element is a state of this element. -/
structure WellFormed (g : Engine) : Prop where
  nodupS : ∀ x, ((g.species x).elts.map (·.1)).Nodup
  nodupP : ∀ p ∈ g.phases, (p.elts.map (·.1)).Nodup
  primaryS : ∀ x, ∀ e ∈ (g.species x).elts.map (·.1), (g.element e).primary = e ∨ ¬ IsRedox g (g.element e).primary
  primaryP : ∀ p ∈ g.phases, ∀ e ∈ p.elts.map (·.1), (g.element e).primary = e ∨ ¬ IsRedox g (g.element e).primary
  dflt : ∀ r d, (g.element r).dflt = some d → (g.element d).primary = r
  self : ∀ r, IsRedox g r → (g.element r).primary = r

/-- The product of a row of a matrix and a vector. -/
def dot (row u : List Rat) : Rat := ((row.zip u).map fun x => x.1 * x.2).sum

/-- What a reaction makes of a quantity `u` of the species. -/
def change (names : List Str) (u : List Rat) (r : List (Str × Rat)) : Rat := (r.map fun x => x.2 * u.getD (names.idxOf x.1) 0).sum

/-- The tokens of the reaction of a species that is more than the species itself, with another coefficient than zero of the electron. -/
def HasElectron (rxn : Option (List (Str × Rat))) : Prop :=
  ∃ pre c post, rxn = some (pre ++ (c!"e-", c) :: post) ∧ pre ++ post ≠ [] ∧ c ≠ 0 ∧ ∀ t ∈ pre, t.1 ≠ c!"e-"

/-- The reaction of a species of PHREEQC, which forms the species, is reversed; reactions of a species with itself are no reactions. -/
def DissolvedReaction (rxn : Option (List (Str × Rat))) (r : List (Str × Rat)) : Prop :=
  ∃ a b rest, rxn = some (a :: b :: rest) ∧ r = (a :: b :: rest).map fun t => (t.1, -t.2)

/-- The reaction of a phase of PHREEQC is taken as it is. There is none if the phase is not in a reaction with others. -/
def PhaseReaction (rxn : Option ((Str × Rat) × List (Str × Rat))) (r : List (Str × Rat)) : Prop :=
  (∃ a b rest, rxn = some (a, b :: rest) ∧ r = a :: b :: rest) ∨ ((∀ a b rest, rxn ≠ some (a, b :: rest)) ∧ r = [])

end Verif.PhreeqcEngine
