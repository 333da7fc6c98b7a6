import Verif.Model.Phreeqc
import Mathlib.Data.List.Forall2

/-!
# Specification for C75
-/

namespace Verif.Phreeqc

open Chem

/-- An element of Reaktoro is an element of PHREEQC: symbol, name of the master species, molar mass in kg/mol. -/
def IsElement (db : Phreeqc) (x : Element) : Prop :=
  ∃ e ∈ db.elements, x.symbol = e.name ∧ some x.name = e.master ∧ x.molarMass = e.gfw / 1000

/-- The same elements with the same coefficients, in some order. -/
def SameElements (db : Phreeqc) (elts : List (Str × Rat)) (l : List (Element × Rat)) : Prop :=
  (l.map fun q => (q.1.symbol, q.2)).Perm elts ∧ ∀ q ∈ l, IsElement db q.1

/-- A species of Reaktoro has the data of a species of PHREEQC. -/
structure SameSpecies (db : Phreeqc) (s : PSpecies) (x : Species) : Prop where
  name : x.rawName = s.name
  formula : x.formula = s.name
  charge : x.charge = s.z
  elements : SameElements db s.elts x.elements
  aqueous : x.rawState = .Aqueous ↔ s.type ∈ [.aq, .hplus, .h2o, .eminus]
  exchange : x.rawState = .IonExchange ↔ s.type = .ex
  surface : x.rawState = .Adsorbed ↔ s.type ∈ [.surf, .surfPsi, .surfPsi1, .surfPsi2]

/-- A species of Reaktoro has the data of a phase of PHREEQC; it is a gas if its name contains `(g)`. -/
structure SamePhase (db : Phreeqc) (p : PPhase) (x : Species) : Prop where
  name : x.rawName = p.name
  formula : x.formula = p.formula
  charge : x.charge = 0
  elements : SameElements db p.elts x.elements
  gas : x.rawState = .Gas ↔ ∃ a b, p.name = a ++ c!"(g)" ++ b
  mineral : x.rawState = .Solid ↔ p.type = .solid ∧ ¬ ∃ a b, p.name = a ++ c!"(g)" ++ b

/-- The other species in the reaction that PHREEQC has for a species, with their coefficients. -/
def SpeciesReaction (db : Phreeqc) (s : PSpecies) (rs : List (PSpecies × Rat)) : Prop :=
  ∃ tokens ts, s.rxn = some tokens ∧ List.Forall₂ (fun (t : Nat × Rat) (q : PSpecies × Rat) => db.species[t.1]? = some q.1 ∧ t.2 = q.2) tokens ts ∧
    rs = ts.filter fun q => q.1.name ≠ s.name

/-- The species in the reaction that PHREEQC has for a phase, with their coefficients. -/
def PhaseReaction (db : Phreeqc) (p : PPhase) (rs : List (PSpecies × Rat)) : Prop :=
  ∃ tokens, p.rxn = some tokens ∧ List.Forall₂ (fun (t : Nat × Rat) (q : PSpecies × Rat) => db.species[t.1]? = some q.1 ∧ t.2 = q.2) tokens rs

/-- A species without other species in its reaction. -/
def Master (db : Phreeqc) (s : PSpecies) : Prop := SpeciesReaction db s []

/-- The data that PHREEQC guarantees: species have different names, the elements of a species or phase are listed once, phases have names. -/
structure WellFormed (db : Phreeqc) : Prop where
  names : (db.species.map (·.name)).Nodup
  speciesElements : ∀ s ∈ db.species, (s.elts.map (·.1)).Nodup
  phaseElements : ∀ p ∈ db.phases, (p.elts.map (·.1)).Nodup
  phaseNames : ∀ p ∈ db.phases, p.name ≠ []

/-- In the order of PHREEQC, every species comes after the species of its reaction that are not masters. -/
def Ordered (db : Phreeqc) : Prop :=
  ∀ (i : Nat) s rs, db.species[i]? = some s → SpeciesReaction db s rs → ∀ q ∈ rs, Master db q.1 ∨ ∃ j, j < i ∧ db.species[j]? = some q.1

end Verif.Phreeqc
