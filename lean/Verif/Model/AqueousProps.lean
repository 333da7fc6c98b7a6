import Mathlib.Analysis.SpecialFunctions.Log.Basic
import Verif.Model.AqueousMixture

/-!
# Model of `Reaktoro/Thermodynamics/Aqueous/AqueousProps.cpp`

Numbers are reals. What `ChemicalPropsPhase::update` computes is modelled elsewhere (C31-C33); here its result is given. The
matrix `R` and the indices of the basic variables come from the library Optima.
-/

namespace Verif.Aqueous

/-- The properties of the aqueous phase read by `AqueousProps`: temperature, amounts, ln activities, chemical potentials. -/
structure PhaseProps where
  T : ℝ
  n : List ℝ
  lnA : List ℝ
  u : List ℝ

/-- `AqueousProps::Impl` (AqueousProps.cpp:54-84). `elements` are the symbols of the elements of the system; `Aaq` has a row for each
of them and a last row for the charge; `ib` and `R` are those of the echelonizer, where `R` has as many rows and columns as
`Aaq` has rows. `props` and `aqstate` are the members that depend on the state. -/
structure Impl where
  species : List (Species ℝ)
  elements : List Str
  mix : Mixture ℝ
  iH2O : Nat
  iH : Nat
  Aaq : List (List ℝ)
  ib : List Nat
  R : Nat → Nat → ℝ
  props : PhaseProps
  aqstate : State ℝ

/-- `universalGasConstant` and `faradayConstant` (Constants.hpp:26-29). -/
noncomputable def gasConstant : ℝ := 83144621 / 10000000
noncomputable def faradayConstant : ℝ := 964853329 / 10000

/-- The state `AqueousMixtureState{}` (AqueousMixture.hpp:29-54). -/
def emptyState : State ℝ := ⟨0, 0, 0, 0, 0, 0, [], []⟩

/-- `AqueousProps(system)` (AqueousProps.cpp:87-115) for a system with an aqueous phase with these species: without such a phase it
throws (46-48, not modelled). `start` are the initial properties of the phase. -/
noncomputable def construct' (reactions : List Registries.Reaction) (rho0 eps0 : ℝ) (species : List (Species ℝ)) (elements : List Str)
    (Aaq : List (List ℝ)) (echelon : List Nat × (Nat → Nat → ℝ)) (start : PhaseProps) : Res Impl :=
  Res.bind (construct reactions rho0 eps0 species) fun mix =>
  let iH2O := findWithFormula species waterFormula
  let iH := findWithFormula species protonFormula
  if iH2O ≥ species.length then .throw
  else if iH ≥ species.length then .throw
  else .ok ⟨species, elements, mix, iH2O, iH, Aaq, echelon.1, echelon.2, start, emptyState⟩

/-- `update(state)` and `update(props)` (AqueousProps.cpp:132-147): the properties of the phase are replaced, `aqstate` is not
changed. -/
def Impl.update (a : Impl) (props : PhaseProps) : Impl := { a with props := props }

/-- `elementMolality` (AqueousProps.cpp:150-160). -/
noncomputable def Impl.elementMolality (a : Impl) (symbol : Str) : Res ℝ :=
  let idx := Chem.indexfn a.elements (fun s => s = symbol)
  if idx ≥ a.elements.length then .throw
  else
    Res.bind (at! a.Aaq idx) fun row =>
    Res.bind (at! a.props.n a.iH2O) fun nH2O =>
    if row.length < a.props.n.length then .ub
    else .ok ((List.zipWith (fun c n => c * n) row a.props.n).sum / (waterMolarMass * nH2O))

/-- `speciesMolality` (AqueousProps.cpp:163-171). -/
noncomputable def Impl.speciesMolality (a : Impl) (name : Str) : Res ℝ :=
  Res.bind (indexWithName a.species name) fun idx =>
  Res.bind (at! a.props.n idx) fun ni =>
  Res.bind (at! a.props.n a.iH2O) fun nH2O =>
  .ok (ni / (waterMolarMass * nH2O))

/-- `ionicStrength` (AqueousProps.cpp:174-177). -/
def Impl.ionicStrength (a : Impl) : ℝ := a.aqstate.Ie

/-- `ionicStrengthStoichiometric` (AqueousProps.cpp:180-183). -/
def Impl.ionicStrengthStoichiometric (a : Impl) : ℝ := a.aqstate.Is

/-- `pH` (AqueousProps.cpp:186-189). -/
def Impl.pH (a : Impl) : Res ℝ := at! a.props.lnA a.iH

/-- `pE` (AqueousProps.cpp:192-205). `R.transpose() * ub` needs as many basic variables as `R` has rows: with fewer, which happens when
the rows of the formula matrix are linearly dependent, the product is an Eigen assertion or undefined behaviour. -/
noncomputable def Impl.pE (a : Impl) : Res ℝ :=
  Res.bind (gather a.props.u a.ib) fun ub =>
  if ub.length ≠ a.Aaq.length then .ub
  else
    let E := a.elements.length
    if E ≥ a.Aaq.length then .ub
    else
      let lambdaZ := (ub.mapIdx fun k uk => -(a.R k E) * uk).sum
      .ok (lambdaZ / (gasConstant * a.props.T * Real.log 10))

/-- `Eh` (AqueousProps.cpp:208-215). -/
noncomputable def Impl.Eh (a : Impl) : Res ℝ :=
  Res.bind a.pE fun pE => .ok (Real.log 10 * (gasConstant * a.props.T) / faradayConstant * pE)

/-- `alkalinity` (AqueousProps.cpp:218-222). -/
def Impl.alkalinity (_ : Impl) : Res ℝ := .throw

end Verif.Aqueous
