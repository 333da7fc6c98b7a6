import Verif.Model.PhreeqcState

/-!
# What the properties of `Phreeqc` should be
-/

namespace Verif.PhreeqcState

/-- The functions of PHREEQC return one number for each species. -/
structure WellFormed (y : Sys) : Prop where
  water : y.iH2O < y.z.length
  vm : ∀ tc p mu, (y.kTemp tc p mu).vm.length = y.z.length
  solve : ∀ b, (y.solve b).length = y.numSpecies
  gammas : ∀ tc p mu lm, (y.gammas tc p mu lm).length = y.z.length
  pitzer : ∀ tc p mu lm, (y.pitzer tc p mu lm).1.length = y.z.length
  peng : ∀ n p t, (y.peng n p t).2.length = y.nGas

/-- The amounts of the aqueous species, and of the gases. -/
def aqueousAmounts (y : Sys) (n : List ℝ) : List ℝ := n.take y.z.length
def gasAmounts (y : Sys) (n : List ℝ) : List ℝ := (n.drop y.z.length).take y.nGas

/-- The mass of water in kg. -/
noncomputable def kgWater (y : Sys) (n : List ℝ) : ℝ := n.getD y.iH2O 0 * waterMolarMass

/-- The molalities of the aqueous species. -/
noncomputable def molalities (y : Sys) (n : List ℝ) : List ℝ := (aqueousAmounts y n).map (· / kgWater y n)

/-- The ionic strength: half of the sum of molalities times squares of charges. -/
noncomputable def ionicStrength (y : Sys) (n : List ℝ) : ℝ := (List.zipWith (fun m z => m * z ^ 2) (molalities y n) y.z).sum / 2

/-- PHREEQC's results at a temperature (K), pressure (Pa) and ionic strength. -/
noncomputable def phreeqcK (y : Sys) (T P I : ℝ) : Kinetic := y.kTemp (T - 27315 / 100) (P * pascalToAtm) I

/-- The Gibbs energies of the species from equilibrium constants at an ionic strength. -/
noncomputable def gibbs (y : Sys) (T P I : ℝ) : List ℝ := (y.solve ((phreeqcK y T P I).lk.map (· * ln10))).map fun x => -(gasConstant * T * x)

/-- The molar volumes of the species at an ionic strength: ideal gases, and aqueous species and minerals in m3/mol. -/
noncomputable def volumes (y : Sys) (T P I : ℝ) : List ℝ :=
  ((phreeqcK y T P I).vm.map (· / 1000000)) ++ List.replicate y.nGas (gasConstant * T / P) ++ y.minVol.map (· / 1000000)

/-- The decimal logarithms of the molalities. -/
noncomputable def logMolalities (y : Sys) (n : List ℝ) : List (Option ℝ) := (molalities y n).map log10E

/-- The activity coefficients of the aqueous species (decimal logarithms), and the activity of water. -/
noncomputable def coefficients (y : Sys) (T P : ℝ) (n : List ℝ) : List ℝ :=
  if y.isPitzer then (y.pitzer (T - 27315 / 100) (P * pascalToAtm) (ionicStrength y n) (logMolalities y n)).1
  else y.gammas (T - 27315 / 100) (P * pascalToAtm) (ionicStrength y n) (logMolalities y n)

noncomputable def waterActivity (y : Sys) (T P : ℝ) (n : List ℝ) : ℝ :=
  if y.isPitzer then (y.pitzer (T - 27315 / 100) (P * pascalToAtm) (ionicStrength y n) (logMolalities y n)).2
  else n.getD y.iH2O 0 / (aqueousAmounts y n).sum

/-- The gases: molar volume, fractions and fugacity coefficients. -/
noncomputable def gases (y : Sys) (T P : ℝ) (n : List ℝ) : ℝ × List (ℝ × ℝ) := y.peng (gasAmounts y n) (P * pascalToAtm) T

/-- The logarithm of the activity of species `i`, before the corrections for the ionic strength of equilibrium constants: activities of aqueous species are
coefficients times molalities, those of gases are fugacities in bar, those of minerals are one. -/
noncomputable def baseActivity (y : Sys) (T P : ℝ) (n : List ℝ) (i : Nat) : Option ℝ :=
  if i = y.iH2O then logE (waterActivity y T P n)
  else if i < y.z.length then
    if 0 < n.getD i 0 then some ((coefficients y T P n).getD i 0 * Real.log 10 + Real.log (n.getD i 0 / kgWater y n)) else some 0
  else if i < y.z.length + y.nGas then
    logE (((gases y T P n).2.getD (i - y.z.length) (0, 0)).1 * ((gases y T P n).2.getD (i - y.z.length) (0, 0)).2 * (P / 100000))
  else some 0

/-- The logarithm of the activity of species `i`: the ionic strength corrections of the equilibrium constants are moved here. -/
noncomputable def activity (y : Sys) (T P : ℝ) (n : List ℝ) (i : Nat) : Option ℝ :=
  (baseActivity y T P n i).map (· + ((gibbs y T P (ionicStrength y n)).getD i 0 - (gibbs y T P 0).getD i 0) / (gasConstant * T))

/-- The logarithm of the activity coefficient of species `i`. -/
noncomputable def coefficient (y : Sys) (T P : ℝ) (n : List ℝ) (i : Nat) : Option ℝ :=
  if i < y.z.length then some ((coefficients y T P n).getD i 0 * Real.log 10)
  else if i < y.z.length + y.nGas then logE ((gases y T P n).2.getD (i - y.z.length) (0, 0)).2
  else some 0

/-- The molar volumes of the phases: the mean of the species for the aqueous phase, the volume of the equation of state for the gaseous one, both zero for an
empty phase, and the volumes of the minerals. -/
noncomputable def phaseVolumes (y : Sys) (T P : ℝ) (n : List ℝ) : List ℝ :=
  [if 0 < (aqueousAmounts y n).sum then
      (List.zipWith (· * ·) ((phreeqcK y T P (ionicStrength y n)).vm.map (· / 1000000)) (aqueousAmounts y n)).sum / (aqueousAmounts y n).sum else 0] ++
    (if y.nGas = 0 then [] else [if 0 < (gasAmounts y n).sum then (gases y T P n).1 else 0]) ++ y.minVol.map (· / 1000000)

/-- The state has no arrays of gases if the system has no gases. -/
def NoGasLeft (y : Sys) (s : State) : Prop := y.nGas = 0 → s.lngGas = [] ∧ s.lnaGas = []

/-- The sum of numbers of species, weighted by a row of the stoichiometric matrix. -/
noncomputable def dot (row u : List ℝ) : ℝ := (List.zipWith (· * ·) row u).sum

/-- The solution of the linear system solves it. -/
def Solves (y : Sys) (nu : List (List ℝ)) (b : List ℝ) : Prop := nu.map (fun row => dot row (y.solve b)) = b

end Verif.PhreeqcState
