import Verif.Model.ChemicalProps

/-!
# Specification for C32 and C33
-/

namespace Verif.ChemicalProps

open ArraySerialization (Props)

variable {K : Type}

/-- The number of species of the system. -/
def count (phases : List (PhaseModel K)) : Nat := (phases.map PhaseModel.size).sum

/-- The arrays have one entry for each phase or species. -/
structure Shape (phases : List (PhaseModel K)) (p : Props K) : Prop where
  perPhase : ∀ l ∈ [p.Ts, p.Ps, p.nsum, p.Vex, p.VexT, p.VexP, p.Gex, p.Hex, p.Cpex, p.Cvex], l.length = phases.length
  perSpecies : ∀ l ∈ [p.n, p.x, p.G0, p.H0, p.V0, p.Cp0, p.Cv0, p.ln_g, p.ln_a, p.u], l.length = count phases

/-- Activity models write to arrays of fixed size. -/
def KeepsSize (f : K → K → List K → AProps K → AProps K × Bool) : Prop :=
  ∀ T P x a, (f T P x a).1.ln_g.length = a.ln_g.length ∧ (f T P x a).1.ln_a.length = a.ln_a.length

/-- All activity models of the system write to arrays of fixed size. -/
def ModelsOk (phases : List (PhaseModel K)) : Prop := ∀ ph ∈ phases, KeepsSize ph.activity ∧ KeepsSize ph.ideal

/-- `d` contains the properties of a phase at temperature `T`, pressure `P` and species amounts `n`. -/
structure Computed [Field K] [LinearOrder K] (R : K) (ph : PhaseModel K) (useIdeal : Bool) (T P : K) (n : List K) (d : PhaseData K) : Prop where
  temperature : d.T = T
  pressure : d.P = P
  amounts : d.n = n
  amount : d.nsum = n.sum
  fractions : n.sum ≠ 0 → d.x = n.map (fun y => y / n.sum)
  pure : n.sum = 0 → ph.size = 1 ∧ d.x = [1]
  noZero : ¬ ((0 : K) ∈ d.x ∧ ∀ z ∈ d.x, 0 ≤ z)
  standard : ∀ (i : Nat) (f : K → K → Option (Std K)), ph.species[i]? = some f → ∃ s : Std K, f T P = some s ∧ d.G0[i]? = some s.G0 ∧ d.H0[i]? = some s.H0 ∧
    d.V0[i]? = some s.V0 ∧ d.Cp0[i]? = some s.Cp0 ∧ d.Cv0[i]? = some s.Cv0
  activity : n.sum ≠ 0 → ∃ old, (if useIdeal then ph.ideal else ph.activity) T P d.x old = (d.aprops, true)
  absent : n.sum = 0 → d.aprops = ⟨0, 0, 0, 0, 0, 0, 0, [0], [0]⟩
  potential : d.u = List.zipWith (fun g a => g + R * T * a) d.G0 d.ln_a

end Verif.ChemicalProps
