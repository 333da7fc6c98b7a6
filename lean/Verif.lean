import Verif.Theorems.Memoization
import Verif.Theorems.ModelMemo
import Verif.Theorems.Param
import Verif.Theorems.Strings
import Verif.Theorems.FormulaParser
import Verif.Theorems.ChargeParser
import Verif.Theorems.ReactionEquation
import Verif.Theorems.AggregateState
import Verif.Theorems.Units
import Verif.Theorems.Lagrange
import Verif.Theorems.Bilinear
import Verif.Theorems.ShermanMorrison
import Verif.Theorems.Farey
import Verif.Theorems.Cardano
import Verif.Theorems.MoleFractions
import Verif.Theorems.ArraySerialization
import Verif.Theorems.Database
import Verif.Theorems.DatabaseYAML
import Verif.Theorems.ChemicalSystem
import Verif.Theorems.Phases
import Verif.Theorems.ChemicalState
import Verif.Theorems.ChemicalProps
import Verif.Theorems.ReactionThermo
import Verif.Theorems.EquilibriumSpecs
import Verif.Theorems.Conditions
import Verif.Theorems.Restrictions
import Verif.Theorems.EquilibriumSetup
import Verif.Theorems.EquilibriumProps
import Verif.Theorems.EquilibriumHessian
import Verif.Theorems.EquilibriumSolver
import Verif.Theorems.EquilibriumPredictor
import Verif.Theorems.CubicEOS
import Verif.Theorems.CubicEOSFugacity
import Verif.Theorems.CubicEOSPhase
import Verif.Theorems.Registries
import Verif.Theorems.CriticalProps
import Verif.Theorems.AqueousMixture
import Verif.Theorems.AqueousProps
import Verif.Theorems.ActivitySolids
import Verif.Theorems.ActivityHKF
import Verif.Theorems.ActivityDebyeHuckel
import Verif.Theorems.ActivityGases
import Verif.Theorems.StandardModels
import Verif.Theorems.StandardMineral
import Verif.Theorems.WaterWagnerPruss
import Verif.Theorems.WaterHGK
import Verif.Theorems.WaterThermo
import Verif.Theorems.WaterIdealGas
import Verif.Theorems.WaterDensity
import Verif.Theorems.WaterElectro
import Verif.Theorems.HKF
import Verif.Theorems.ModelsYAML
import Verif.Theorems.NumberText
import Verif.Theorems.DatabaseSave
import Verif.Theorems.ThermoProps
import Verif.Theorems.Phreeqc
import Verif.Theorems.PhreeqcThermo
import Verif.Theorems.PhreeqcWater
import Verif.Theorems.SpycherReed
import Verif.Theorems.SpycherPruess
import Verif.Theorems.PitzerOutputs
import Verif.Theorems.SupcrtEngine
import Verif.Theorems.SupcrtDatabase
import Verif.Theorems.LU
import Verif.Theorems.Derivatives
import Verif.Theorems.MineralMechanism
import Verif.Theorems.NamingUtils
import Verif.Theorems.EquilibriumRecord
import Verif.Theorems.StateObjects
import Verif.Theorems.Outputter
import Verif.Theorems.Newton
import Verif.Theorems.Params
import Verif.Theorems.StandardMayer
import Verif.Theorems.BilinearContinuity
import Verif.Theorems.ActivityCubicEOS
import Verif.Theorems.PhreeqcEngine
import Verif.Theorems.PhreeqcState
import Verif.Theorems.CubicEOSCritical
import Verif.Theorems.Supcrtbl
import Verif.Theorems.ValueObjects
import Verif.Theorems.ThermoFun
import Verif.Theorems.Lists
import Verif.Theorems.WaterSaturation
import Verif.Theorems.EquilibriumDerivatives
import Verif.Theorems.AqueousParams
import Verif.Theorems.PhaseBuilders
import Verif.Theorems.SolverSessions
import Verif.Theorems.ShippedData
import Verif.Model.ShippedData
import Verif.Model.ShippedCompositions
import Verif.Model.ShippedSupcrt98
import Verif.Model.ShippedSupcrt07
import Verif.Model.ShippedSupcrt16
import Verif.Model.ShippedSupcrtbl
import Verif.Spec.ShippedData
import Verif.Lemmas.ShippedData
import Verif.Lemmas.ShippedCheckA
import Verif.Lemmas.ShippedCheckB
import Verif.Lemmas.ShippedCheckC
import Verif.Lemmas.ShippedCheckD
import Verif.Model.IdealEquilibrium
import Verif.Spec.IdealEquilibrium
import Verif.Lemmas.IdealEquilibrium
import Verif.Theorems.IdealEquilibrium
import Verif.Theorems.ActivityHKFExchange
import Verif.Theorems.MathUtils
import Verif.Theorems.Scaling
import Verif.Theorems.Imposed
import Verif.Theorems.Reference
import Verif.Theorems.Repeat
import Verif.Theorems.PhaseOrder
import Verif.Theorems.SpeciesOrderPhase
import Verif.Theorems.ResponseClaims
import Verif.Theorems.Existence
import Verif.Theorems.ExistenceAqueous
import Verif.Theorems.ExistencePitzer
import Verif.Theorems.Subsystems
import Verif.Theorems.Components
import Verif.Theorems.SolutionStability
import Verif.Theorems.Sensitivity
import Verif.Theorems.PredictorOrder
import Verif.Theorems.PhreeqcImport
import Verif.Theorems.DatabaseObjects
import Verif.Theorems.Comparisons
import Verif.Theorems.Copies
import Verif.Theorems.CoreYAML
import Verif.Theorems.Accessors
import Verif.Theorems.Constants
import Verif.Theorems.Details
import Verif.Theorems.ParseReaction
import Verif.Theorems.SeededProps
import Verif.Theorems.SeededMemo
import Verif.Theorems.Ln10
import Verif.Theorems.ControlNames
import Verif.Theorems.PitzerSteps
import Verif.Theorems.AqueousAssign
import Verif.Theorems.HKFWater
import Verif.Theorems.PitzerTables
import Verif.Theorems.NamingLists
import Verif.Theorems.Ranges
import Verif.Theorems.Partway
import Verif.Theorems.Defaults
import Verif.Theorems.BilinearMonotone
import Verif.Theorems.DHParams
import Verif.Theorems.TransitionEntropy
