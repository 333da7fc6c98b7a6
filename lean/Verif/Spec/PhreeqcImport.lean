import Verif.Model.PhreeqcImport

/-!
# Specification for C118
-/

namespace Verif.PhreeqcImport

open Registries (Str)

/-- The critical properties of a phase are complete: what was given (is not zero) is kept and what is missing is taken from the table, if the
table has the gas, with the pressure in atm (1 bar is 0.986923267 atm). -/
def Completed (name : Str) (before after : PhaseRec) : Prop :=
  (before.tc ≠ 0 → after.tc = before.tc) ∧ (before.pc ≠ 0 → after.pc = before.pc) ∧ (before.omega ≠ 0 → after.omega = before.omega) ∧
  (∀ t p w, criticalTable.lookup name = some (t, p, w) →
    (before.tc = 0 → after.tc = t) ∧ (before.pc = 0 → after.pc = p * (986923267 / 1000000000)) ∧ (before.omega = 0 → after.omega = w)) ∧
  (criticalTable.lookup name = none → after.tc = before.tc ∧ after.pc = before.pc ∧ after.omega = before.omega)

/-- The critical properties are the same. -/
def SameCritical (r r' : PhaseRec) : Prop := r'.tc = r.tc ∧ r'.pc = r.pc ∧ r'.omega = r.omega

/-- The amount of a phase in PHREEQC: that of the phase if it is positive, else that of its unknown, if it has one, else that of the phase. -/
def IsAmount (d : Data) (p : Str) (x : Rat) : Prop :=
  (0 < (d.phase p).molesX ∧ x = (d.phase p).molesX) ∨
  ((d.phase p).molesX ≤ 0 ∧ (∃ before after, d.unknowns = before ++ (some p, x) :: after ∧ ∀ u ∈ before, u.1 ≠ some p)) ∨
  ((d.phase p).molesX ≤ 0 ∧ (∀ u ∈ d.unknowns, u.1 ≠ some p) ∧ x = (d.phase p).molesX)

end Verif.PhreeqcImport
