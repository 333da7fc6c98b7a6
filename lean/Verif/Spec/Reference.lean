import Verif.Spec.Imposed

/-!
# Specification for C109
-/

namespace Verif.Reference

open ChemicalProps IdealEquilibrium

variable {K : Type}

/-- The standard Gibbs energy and enthalpy of species `j` of the phase `ph'` are those in `ph` plus `g j` and `h j`, at temperature `T` and pressure
`P`. Nothing else is different. -/
structure OtherPhase [Add K] (T P : K) (g h : Nat → K) (ph ph' : PhaseModel K) : Prop where
  activity : ph'.activity = ph.activity
  ideal : ph'.ideal = ph.ideal
  masses : ph'.molarMasses = ph.molarMasses
  size : ph'.species.length = ph.species.length
  standard : ∀ (j : Nat) (f f' : K → K → Option (Std K)), ph.species[j]? = some f → ph'.species[j]? = some f' →
    f' T P = (f T P).map fun s => { s with G0 := s.G0 + g j, H0 := s.H0 + h j }

/-- The same for all phases of a system; species are counted from the first one of the first phase. -/
structure Other [Add K] (T P : K) (g h : Nat → K) (phases phases' : List (PhaseModel K)) : Prop where
  length : phases'.length = phases.length
  phase : ∀ (i : Nat) (ph ph' : PhaseModel K), phases[i]? = some ph → phases'[i]? = some ph' →
    OtherPhase T P (fun j => g (before phases i + j)) (fun j => h (before phases i + j)) ph ph'

/-- What species (or titrant) `j` gets when `c i` is added for each unit of element (or charge) `i`. -/
noncomputable def added (A : List (List Rat)) (c : Nat → ℝ) (j : Nat) : ℝ :=
  ∑ i ∈ Finset.range A.length, c i * (((A.getD i []).getD j 0 : Rat) : ℝ)

/-- The same problem with energies relative to another reference: for each unit of element or charge `i` the Gibbs energies of the species
are greater by `c i` and the enthalpies by `d i`; the given chemical potentials of the titrants are greater accordingly. -/
structure OtherReference (c d : Nat → ℝ) (pr pr' : Problem) : Prop where
  phases : Other pr.T pr.P (added pr.A c) (added pr.A d) pr.phases pr'.phases
  uq : pr'.uq.length = pr.uq.length ∧ ∀ k < pr.uq.length, pr'.uq.getD k 0 = pr.uq.getD k 0 + added pr.A c (count pr.phases + k)
  rest : pr' = { pr with phases := pr'.phases, uq := pr'.uq }

/-- What a substance gets when `c i` is added for each atom of the element with index `i` of the system, and the last one for each unit of charge. -/
noncomputable def addedTo (elements : List Chem.Element) (c : Nat → ℝ) (f : EquilibriumSpecs.Formula) : ℝ :=
  ∑ i ∈ Finset.range elements.length, c i * ((EquilibriumSetup.formulaContent f ((elements.map (·.symbol)).getD i []) : Rat) : ℝ) +
    c elements.length * ((f.charge : Rat) : ℝ)

/-- The call does not fix the value of a chemical potential. -/
def NoPotential : EquilibriumSpecs.Call ℝ (ArraySerialization.Props ℝ) → Prop
  | .chemicalPotential _ | .pE | .Eh | .addUConstraint .. => False
  | _ => True

end Verif.Reference
