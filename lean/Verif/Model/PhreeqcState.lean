import Verif.Base
import Mathlib.Analysis.SpecialFunctions.Log.Basic

/-!
# Model of the state and the properties of `Reaktoro/Extensions/Phreeqc/Phreeqc.cpp`

The temperature, pressure and amounts of the class `Phreeqc`, the updates by `set`, and the properties that are returned.  The calculations of
PHREEQC itself are external functions of the data that are written into it: `k_temp`, the activity coefficients and the Peng-Robinson equation
of state.  Its own caches and the amounts of minerals, which are written but not read, are left out.  Numbers are real.  A logarithm of a number
that is not positive is `none`; a division by zero is not distinguished.
-/

namespace Verif.PhreeqcState

/-- `universalGasConstant` (Constants.hpp:26). -/
noncomputable def gasConstant : ℝ := 83144621 / 10000000

/-- `waterMolarMass` (WaterConstants.hpp:23). -/
noncomputable def waterMolarMass : ℝ := 18015268 / 1000000000

/-- `pascal_to_atm` (Phreeqc.cpp:40). -/
noncomputable def pascalToAtm : ℝ := 986923267 / 100000000000000

/-- The digits of the logarithm of 10 for equilibrium constants (Phreeqc.cpp:978). -/
noncomputable def ln10 : ℝ := 230258509299 / 100000000000

/-- `std::log` with the values that are not finite. -/
noncomputable def logE (x : ℝ) : Option ℝ := if 0 < x then some (Real.log x) else none

/-- `std::log10`. -/
noncomputable def log10E (x : ℝ) : Option ℝ := if 0 < x then some (Real.log x / Real.log 10) else none

/-- What PHREEQC's `k_temp` leaves: the decimal logarithms of the equilibrium constants and the volumes of the aqueous species (in cm3/mol). -/
structure Kinetic where
  lk : List ℝ
  vm : List ℝ

/-- The chemical system and the functions of PHREEQC.  `z` are the charges of the aqueous species, `solve` the solution of the linear system with the
stoichiometric matrix, `minVol` the volumes of the minerals (in cm3/mol); `kTemp` depends on the temperature in Celsius, the pressure in atm and the ionic
strength; `gammas` are the decimal logarithms of the activity coefficients with the conventional models, `pitzer` those of the Pitzer and SIT models with
the activity of water; `peng` is `calc_PR`: the molar volume, the fractions and the fugacity coefficients of the gases. -/
structure Sys where
  z : List ℝ
  nGas : Nat
  minVol : List ℝ
  iH2O : Nat
  isPitzer : Bool
  solve : List ℝ → List ℝ
  kTemp : ℝ → ℝ → ℝ → Kinetic
  gammas : ℝ → ℝ → ℝ → List (Option ℝ) → List ℝ
  pitzer : ℝ → ℝ → ℝ → List (Option ℝ) → List ℝ × ℝ
  peng : List ℝ → ℝ → ℝ → ℝ × List (ℝ × ℝ)

/-- `numSpecies`. -/
def Sys.numSpecies (y : Sys) : Nat := y.z.length + y.nGas + y.minVol.length

/-- The members of `Phreeqc::Impl`, and the members of PHREEQC that it writes and reads. -/
structure State where
  T : ℝ
  P : ℝ
  I : ℝ
  n : List ℝ
  tc : ℝ
  patm : ℝ
  mu : ℝ
  lm : List (Option ℝ)
  k : Kinetic
  lngAq : List ℝ
  lnaAq : List (Option ℝ)
  lngGas : List (Option ℝ)
  lnaGas : List (Option ℝ)
  G0 : List ℝ
  V0 : List ℝ
  G0I : List ℝ
  V0I : List ℝ
  vAq : ℝ
  vGas : ℝ

/-- `lnEquilibriumConstants` (Phreeqc.cpp:975-994). -/
noncomputable def lnEquilibriumConstants (s : State) : List ℝ := s.k.lk.map (· * ln10)

/-- `speciesMolarGibbsEnergies` (Phreeqc.cpp:1017-1030). -/
noncomputable def molarGibbs (y : Sys) (s : State) : List ℝ := (y.solve (lnEquilibriumConstants s)).map (· * (-(gasConstant * s.T)))

/-- `speciesMolarVolumes` (Phreeqc.cpp:996-1015). -/
noncomputable def molarVolumes (y : Sys) (s : State) : List ℝ :=
  s.k.vm.map (· * (1 / 1000000)) ++ List.replicate y.nGas (gasConstant * s.T / s.P) ++ y.minVol.map (· * (1 / 1000000))

/-- `lnActivityConstants` (Phreeqc.cpp:1066-1085). -/
noncomputable def lnActivityConstants (y : Sys) (s : State) : Res (List (Option ℝ)) :=
  if y.iH2O < y.numSpecies then
    .ok ((List.replicate y.z.length (some (Real.log (55508472 / 1000000))) ++ List.replicate y.nGas (logE (s.P / 100000)) ++
      List.replicate y.minVol.length (some 0)).set y.iH2O (some 0))
  else .ub

/-- The comma initialisation of an array: the parts must fill it. -/
def fill {α : Type} (size : Nat) (l : List α) : Res (List α) := if l.length = size then .ok l else .ub

/-- `lnActivityCoefficients` (Phreeqc.cpp:1054-1064). -/
noncomputable def lnActivityCoefficients (y : Sys) (s : State) : Res (List (Option ℝ)) :=
  fill y.numSpecies (s.lngAq.map some ++ s.lngGas ++ List.replicate y.minVol.length (some 0))

/-- `lnActivities` (Phreeqc.cpp:1087-1113). -/
noncomputable def lnActivities (y : Sys) (s : State) : Res (List (Option ℝ)) :=
  (fill y.numSpecies (s.lnaAq ++ s.lnaGas ++ List.replicate y.minVol.length (some 0))).bind fun l =>
  .ok (List.zipWith (fun a d => a.map (· + d)) l (List.zipWith (fun a b => (a - b) / (gasConstant * s.T)) s.G0I s.G0))

/-- `phaseMolarVolumes` (Phreeqc.cpp:1032-1052). -/
def phaseMolarVolumes (y : Sys) (s : State) : List ℝ :=
  (if y.z.length ≠ 0 then [s.vAq] else []) ++ (if y.nGas ≠ 0 then [s.vGas] else []) ++ s.V0.drop (s.V0.length - y.minVol.length)

/-- `updateThermoProperties` (Phreeqc.cpp:721-745). -/
noncomputable def updateThermo (y : Sys) (s : State) : Res State :=
  let s := { s with mu := 0, k := y.kTemp s.tc s.patm 0 }
  let s := { s with mu := s.I }
  let s := { s with G0 := molarGibbs y s }
  let s := { s with V0 := molarVolumes y s }
  (lnActivityConstants y s).bind fun _ => .ok s

/-- `updateAqueousProperties` (Phreeqc.cpp:771-835). -/
noncomputable def updateAqueous (y : Sys) (s : State) : Res State :=
  let r := if y.isPitzer then y.pitzer s.tc s.patm s.mu s.lm else (y.gammas s.tc s.patm s.mu s.lm, 0)
  let lng := r.1.map (· * Real.log 10)
  let lna := List.zipWith (fun g m => match m with | some m => some (g + m * Real.log 10) | none => some 0) lng s.lm
  let nAq := s.n.take y.z.length
  (at! nAq y.iH2O).bind fun nw =>
  .ok { s with
    lngAq := lng
    lnaAq := lna.set y.iH2O (if y.isPitzer then logE r.2 else logE (nw / nAq.sum))
    vAq := if 0 < nAq.sum then (List.zipWith (· * ·) (s.V0I.take y.z.length) nAq).sum / nAq.sum else 0 }

/-- `updateGaseousProperties` (Phreeqc.cpp:837-881). -/
noncomputable def updateGaseous (y : Sys) (s : State) : State :=
  if y.nGas = 0 then s else
  let nGas := (s.n.drop y.z.length).take y.nGas
  let r := y.peng nGas (s.P * pascalToAtm) s.T
  { s with
    lngGas := r.2.map fun x => logE x.2
    lnaGas := r.2.map fun x => logE (x.1 * x.2 * (s.P / 100000))
    vGas := if 0 < nGas.sum then r.1 else 0 }

/-- `updateChemicalProperties` (Phreeqc.cpp:747-769): the arrays of activities are assembled, with the sizes that they have. -/
noncomputable def updateChemical (y : Sys) (s : State) : Res State :=
  let s := { s with k := y.kTemp s.tc s.patm s.mu }
  let s := { s with G0I := molarGibbs y s }
  let s := { s with V0I := molarVolumes y s }
  (updateAqueous y s).bind fun s =>
  let s := updateGaseous y s
  (lnActivityCoefficients y s).bind fun _ => (lnActivities y s).bind fun _ => .ok s

/-- `setSpeciesAmounts` (Phreeqc.cpp:903-957): without water the molalities are those of before. -/
noncomputable def setSpeciesAmounts (y : Sys) (s : State) (n : List ℝ) : Res State :=
  if n.length < y.z.length + y.nGas ∨ n.length < y.minVol.length then .ub else
  let nAq := n.take y.z.length
  (at! nAq y.iH2O).bind fun nw =>
  let massH2O := nw * waterMolarMass
  let s := { s with n := n }
  if 0 < massH2O then
    let I := (List.zipWith (fun n z => n * z * z) nAq y.z).sum * ((1 / 2) / massH2O)
    .ok { s with lm := nAq.map fun x => log10E (x / massH2O), I := I, mu := I }
  else .ok { s with I := 0, mu := 0 }

/-- The temperature and pressure of both functions `set` (Phreeqc.cpp:680-690, 699-709). -/
noncomputable def setTP0 (s : State) (T P : ℝ) : State :=
  { s with T := T, P := P, tc := T - 27315 / 100, patm := P * pascalToAtm }

/-- `set(T, P)` (Phreeqc.cpp:677-694). -/
noncomputable def setTP (y : Sys) (s : State) (T P : ℝ) : Res State := updateThermo y (setTP0 s T P)

/-- `set(T, P, n)` (Phreeqc.cpp:696-719). -/
noncomputable def setTPn (y : Sys) (s : State) (T P : ℝ) (n : List ℝ) : Res State :=
  (setSpeciesAmounts y (setTP0 s T P) n).bind fun s => (updateThermo y s).bind fun s => updateChemical y s

/-- The calls of a user: the execution of a script, which gives a system and calls `set` with the state of PHREEQC (Phreeqc.cpp:327-372, 660-675), and the two
functions `set`. -/
inductive Op where
  | execute (y : Sys) (T P : ℝ) (n : List ℝ)
  | setTP (T P : ℝ)
  | setTPn (T P : ℝ) (n : List ℝ)

/-- A call: without a system the functions `set` use arrays without elements. -/
noncomputable def step (c : Option Sys × State) : Op → Res (Option Sys × State)
  | .execute y T P n => (setTPn y c.2 T P n).bind fun s => .ok (some y, s)
  | .setTP T P => match c.1 with
    | none => .ub
    | some y => (setTP y c.2 T P).bind fun s => .ok (some y, s)
  | .setTPn T P n => match c.1 with
    | none => .ub
    | some y => (setTPn y c.2 T P n).bind fun s => .ok (some y, s)

/-- A sequence of calls. -/
noncomputable def run : Option Sys × State → List Op → Res (Option Sys × State)
  | c, [] => .ok c
  | c, o :: os => (step c o).bind fun c => run c os

end Verif.PhreeqcState
