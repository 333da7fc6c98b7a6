import Verif.Model.ActivityCubicEOS
import Mathlib.Topology.Order.Basic

/-!
# Specification for C92: fluids with cubic equations of state
-/

namespace Verif.ActivityCubicEOS

open CubicEOS Registries

/-- The first entry of the registry with the given name. -/
def FirstWith (registry : List Substance) (name : Str) (s : Substance) : Prop :=
  ∃ c pre post, correctName name = .ok c ∧ registry = pre ++ s :: post ∧ c ∈ s.names ∧ ∀ t ∈ pre, c ∉ t.names

/-- No entry of the registry has the given name. -/
def NoneWith (registry : List Substance) (name : Str) : Prop := ∃ c, correctName name = .ok c ∧ ∀ t ∈ registry, c ∉ t.names

/-- The critical properties of a species are those registered for its substance, if there are none for its formula, and if there are none for its name. -/
def CriticalOf (registry : List Substance) (s : Sp) (d : Data) : Prop :=
  ∃ c : Substance, c.data = d ∧
    (FirstWith registry s.substance c ∨ NoneWith registry s.substance ∧
      (FirstWith registry s.formula c ∨ NoneWith registry s.formula ∧ FirstWith registry s.name c))

/-- A fluid in which species `i` is the species `f i` of the fluid `e`: the same fluid with the species in another order, or with some species of the same
kind counted separately. -/
def relabel {n m : Nat} (f : Fin m → Fin n) (e : Eos n) : Eos m :=
  { fluidtype := e.fluidtype
    model := e.model
    method := e.method
    Tcr := fun i => e.Tcr (f i)
    Pcr := fun i => e.Pcr (f i)
    omega := fun i => e.omega (f i)
    interaction := fun T =>
      { k := (e.interaction T).k.map fun k i j => k (f i) (f j)
        kT := (e.interaction T).kT.map fun k i j => k (f i) (f j)
        kTT := (e.interaction T).kTT.map fun k i j => k (f i) (f j) } }

/-- The fraction of a species of the fluid `e` is the sum of those of its parts. -/
def total {n m : Nat} (f : Fin m → Fin n) (x : Fin m → ℝ) (j : Fin n) : ℝ := ∑ i, if f i = j then x i else 0

/-- The same numbers in an object with one entry for each species of the other fluid. -/
def relabelProps {n m : Nat} (f : Fin m → Fin n) (r : Props n) : Props m := { r with ln_phi := fun i => r.ln_phi (f i) }

/-- A solver of cubic equations that finds all real roots: one, or three (a double root counts twice). -/
def Exact (solve3 : ℝ → ℝ → ℝ → List ℝ) : Prop :=
  ∀ A B C : ℝ, ((solve3 A B C).length = 1 ∨ (solve3 A B C).length = 3) ∧ ∀ z, z ∈ solve3 A B C ↔ z ^ 3 + A * z ^ 2 + B * z + C = 0

end Verif.ActivityCubicEOS
