import Verif.Model.ThermoFun
import Verif.Spec.Database

/-!
# Specification for C97: ThermoFun databases
-/

namespace Verif.ThermoFun

open Chem Database ValueObjects

/-- The composition of a substance: the elements that ThermoFun finds in the formula, without the charge `Zz`, with molar masses in kg/mol. -/
def Composition (found : List (TfElement × Rat)) (els : List (Element × Rat)) : Prop :=
  List.Forall₂ (fun p q => q.1.symbol = p.1.symbol ∧ q.1.name = p.1.name ∧ q.1.molarMass = p.1.molarMass / 1000 ∧ q.1.tags = [] ∧ q.2 = p.2)
    (found.filter fun p => p.1.symbol ≠ c!"Zz") els

/-- The species for a substance, with a given aggregate state. -/
def Describes (file : File) (s : Substance) (st : State) (sp : Species) : Prop :=
  sp.rawName = s.symbol ∧ sp.formula = s.formula ∧ sp.charge = s.charge ∧ sp.rawState = st ∧ sp.tags = [] ∧ sp.reactants = [] ∧ sp.rawSubstance = s.name ∧
  ∃ found, file.parse s.formula = .ok found ∧ Composition found sp.elements

/-- A file that ThermoFun can use: formulas are understood, and molar masses are not negative. -/
def File.Good (file : File) : Prop :=
  ∀ p ∈ file.substances, ∃ found, file.parse p.2.formula = .ok found ∧ ∀ q ∈ found, 0 ≤ q.1.molarMass

end Verif.ThermoFun
