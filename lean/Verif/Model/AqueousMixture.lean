import Mathlib.Algebra.Order.Field.Basic
import Mathlib.Algebra.BigOperators.Group.List.Basic
import Mathlib.Data.Rat.Cast.Defs
import Verif.Model.Registries

/-!
# Model of `Reaktoro/Thermodynamics/Aqueous/AqueousMixture.cpp`

Numbers are the elements of an ordered field `K` (exact arithmetic). The density and the dielectric constant of water, which come
from the water models, are parameters. Reading an array out of its range is undefined behaviour.
-/

namespace Verif.Aqueous

abbrev Str := List Char
abbrev Formula := EquilibriumSpecs.Formula

/-- The members of `Species` used by the aqueous classes. -/
structure Species (K : Type) where
  name : Str
  formula : Formula
  charge : K

/-- `ChemicalFormula("H2O")`. -/
def waterFormula : Formula := ⟨c!"H2O", [(c!"H", 2), (c!"O", 1)], 0⟩

/-- `ChemicalFormula("H+")`. -/
def protonFormula : Formula := ⟨c!"H+", [(c!"H", 1)], 1⟩

variable {K : Type} [Field K] [LinearOrder K]

/-- `waterMolarMass` (WaterConstants.hpp:23). -/
def waterMolarMass : K := 18015268 / 1000000000

/-- `SpeciesList::findWithFormula` (SpeciesList.hpp:107-110). -/
def findWithFormula (species : List (Species K)) (f : Formula) : Nat :=
  Chem.indexfn species fun s => f.equivalent s.formula

/-- `SpeciesList::indexWithFormula` (SpeciesList.hpp:133-138). -/
def indexWithFormula (species : List (Species K)) (f : Formula) : Res Nat :=
  let idx := findWithFormula species f
  if idx ≥ species.length then .throw else .ok idx

/-- `SpeciesList::indexWithName` (SpeciesList.hpp:125-130). -/
def indexWithName (species : List (Species K)) (name : Str) : Res Nat :=
  let idx := Chem.indexfn species fun s => s.name = name
  if idx ≥ species.length then .throw else .ok idx

/-- The index members of `AqueousMixture::Impl` filled by `initializeIndices` (AqueousMixture.cpp:63-91). -/
structure Indices (K : Type) where
  neutral : List (Species K) := []
  charged : List (Species K) := []
  cations : List (Species K) := []
  anions : List (Species K) := []
  idxNeutral : List Nat := []
  idxCharged : List Nat := []
  idxCations : List Nat := []
  idxAnions : List Nat := []

/-- One turn of the loop of `initializeIndices` (AqueousMixture.cpp:135-156). -/
def visit (water : Nat) (d : Indices K) (i : Nat) (s : Species K) : Indices K :=
  if i = water then d
  else if s.charge = 0 then { d with idxNeutral := d.idxNeutral ++ [i], neutral := d.neutral ++ [s] }
  else
    let d := { d with idxCharged := d.idxCharged ++ [i], charged := d.charged ++ [s] }
    if s.charge > 0 then { d with idxCations := d.idxCations ++ [i], cations := d.cations ++ [s] }
    else { d with idxAnions := d.idxAnions ++ [i], anions := d.anions ++ [s] }

/-- The loop of `initializeIndices` (AqueousMixture.cpp:133-157) from index `i` on. -/
def visitAll (water : Nat) (d : Indices K) (i : Nat) : List (Species K) → Indices K
  | [] => d
  | s :: rest => visitAll water (visit water d i s) (i + 1) rest

/-- `AqueousMixture::Impl` (AqueousMixture.cpp:58-100). -/
structure Mixture (K : Type) where
  species : List (Species K)
  ix : Indices K
  z : List K
  idxWater : Nat
  D : List (List K)
  rho : K → K → K
  epsilon : K → K → K

/-- `initializeDissociationMatrix` (AqueousMixture.cpp:168-187): one row for each neutral species. The species are read through
their indices (`at!`). -/
def dissociationMatrix (reactions : List Registries.Reaction) (species : List (Species K)) (d : Indices K) :
    Res (List (List K)) :=
  d.idxNeutral.mapM (m := Res) fun i => d.idxCharged.mapM (m := Res) fun j =>
    Res.bind (at! species i) fun a => Res.bind (at! species j) fun b =>
    .ok ((Registries.coefficient reactions a.formula b.formula : Rat) : K)

/-- `AqueousMixture(species)` (AqueousMixture.cpp:107-124). `reactions` is the content of the registry of dissociation reactions,
`rho0` and `eps0` are the density and the dielectric constant of water at 298.15 K and 1 bar (38-54). -/
def construct (reactions : List Registries.Reaction) (rho0 eps0 : K) (species : List (Species K)) : Res (Mixture K) :=
  Res.bind (indexWithFormula species waterFormula) fun iw =>
  let ix := visitAll iw {} 0 species
  Res.bind (dissociationMatrix reactions species ix) fun D =>
  .ok ⟨species, ix, species.map (·.charge), iw, D, fun _ _ => rho0, fun _ _ => eps0⟩

/-- `withWaterDensityFn` (AqueousMixture.cpp:257-262). -/
def Mixture.withWaterDensityFn (m : Mixture K) (rho : K → K → K) : Mixture K := { m with rho := rho }

/-- `withWaterDielectricConstantFn` (AqueousMixture.cpp:264-269). -/
def Mixture.withWaterDielectricConstantFn (m : Mixture K) (eps : K → K → K) : Mixture K := { m with epsilon := eps }

/-- `molalities` (AqueousMixture.cpp:190-196). -/
def Mixture.molalities (mix : Mixture K) (x : List K) : Res (List K) :=
  Res.bind (at! x mix.idxWater) fun xw =>
  if xw = 0 then .ok (List.replicate x.length 0) else .ok (x.map fun xi => xi / (waterMolarMass * xw))

/-- The entries of an array at given indices. -/
def gather (v : List K) (idx : List Nat) : Res (List K) := idx.mapM (m := Res) fun i => at! v i

/-- `dissociation_matrix.transpose() * mn`, entry `j` (AqueousMixture.cpp:208). -/
def transposeTimes (D : List (List K)) (mn : List K) (j : Nat) : K :=
  (List.zipWith (fun row m => row.getD j 0 * m) D mn).sum

/-- `stoichiometricMolalities` (AqueousMixture.cpp:199-211). -/
def Mixture.stoichiometricMolalities (mix : Mixture K) (m : List K) : Res (List K) :=
  Res.bind (gather m mix.ix.idxCharged) fun mc =>
  Res.bind (gather m mix.ix.idxNeutral) fun mn =>
  .ok (mc.mapIdx fun j mj => mj + transposeTimes mix.D mn j)

/-- `effectiveIonicStrength` (AqueousMixture.cpp:214-217). -/
def Mixture.effectiveIonicStrength (mix : Mixture K) (m : List K) : K :=
  1 / 2 * (List.zipWith (fun z m => z * z * m) mix.z m).sum

/-- `stoichiometricIonicStrength` (AqueousMixture.cpp:220-224). -/
def Mixture.stoichiometricIonicStrength (mix : Mixture K) (ms : List K) : Res K :=
  Res.bind (gather mix.z mix.ix.idxCharged) fun zc =>
  .ok (1 / 2 * (List.zipWith (fun z m => z * z * m) zc ms).sum)

/-- `AqueousMixtureState` (AqueousMixture.hpp:29-54). -/
structure State (K : Type) where
  T : K
  P : K
  rho : K
  epsilon : K
  Ie : K
  Is : K
  m : List K
  ms : List K

/-- `AqueousMixture::state` (AqueousMixture.cpp:227-239). -/
def Mixture.state (mix : Mixture K) (T P : K) (x : List K) : Res (State K) :=
  Res.bind (mix.molalities x) fun m =>
  Res.bind (mix.stoichiometricMolalities m) fun ms =>
  Res.bind (mix.stoichiometricIonicStrength ms) fun Is =>
  .ok ⟨T, P, mix.rho T P, mix.epsilon T P, mix.effectiveIonicStrength m, Is, m, ms⟩

end Verif.Aqueous
