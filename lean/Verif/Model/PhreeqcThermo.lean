import Verif.Model.Phreeqc
import Verif.Model.ReactionThermo
import Mathlib.Analysis.SpecialFunctions.Pow.Real

/-!
# Model of `Reaktoro/Extensions/Phreeqc/PhreeqcWater.cpp` and `PhreeqcThermo.cpp`, and of the standard models in `PhreeqcDatabase.cpp`

Numbers are reals, `exp`, `log`, `pow` and `sqrt` are exact; above the critical temperature `pow` gives not-a-number in C++ but not here.
The automatic derivatives of `real` and warnings are not modelled. Memoization (PhreeqcThermo.cpp:32-36) is modelled in C05: here the
properties of water are functions of temperature and pressure.
-/

namespace Verif.Phreeqc

open Chem ReactionThermo
open ChemicalProps (Std)

/-! ### Water -/

/-- `PhreeqcWaterThermoProps` (PhreeqcWater.hpp). -/
structure WaterThermo where
  rho : ℝ
  kappa : ℝ

/-- `PhreeqcWaterElectroProps` (PhreeqcWater.hpp). -/
structure WaterElectro where
  eps : ℝ
  A : ℝ
  B : ℝ
  Av : ℝ
  Z : ℝ
  Q : ℝ

/-- `pascal_to_atm` (PhreeqcWater.cpp:41, 115). -/
noncomputable def pascalToAtm : ℝ := 9.86923e-6

/-- The temperature in °C, at most 350 (PhreeqcWater.cpp:43, 50-51). -/
noncomputable def clampedCelsius (T : ℝ) : ℝ := if T - 273.15 > 350 then 350 else T - 273.15

/-- The density of saturated liquid water (PhreeqcWater.cpp:53-65); the temperature is not limited to 350 °C here. -/
noncomputable def rhoSat (T : ℝ) : ℝ :=
  let th := 1 - T / 647.096
  322.0 * (1.0 + 1.99274064 * th ^ ((1 : ℝ) / 3) + 1.09965342 * th ^ ((2 : ℝ) / 3) + -0.510839303 * th ^ ((5 : ℝ) / 3) +
    -1.75493479 * th ^ ((16 : ℝ) / 3) + -45.5170352 * th ^ ((43 : ℝ) / 3) + -6.7469445e5 * th ^ ((110 : ℝ) / 3))

/-- `p0` (PhreeqcWater.cpp:68). -/
noncomputable def coef0 (tc : ℝ) : ℝ := 5.1880000E-02 + tc * (-4.1885519E-04 + tc * (6.6780748E-06 + tc * (-3.6648699E-08 + tc * 8.3501912E-11)))
/-- `p1` (PhreeqcWater.cpp:69). -/
noncomputable def coef1 (tc : ℝ) : ℝ := -6.0251348E-06 + tc * (3.6696407E-07 + tc * (-9.2056269E-09 + tc * (6.7024182E-11 + tc * -1.5947241E-13)))
/-- `p2` (PhreeqcWater.cpp:70). -/
noncomputable def coef2 (tc : ℝ) : ℝ := -2.2983596E-09 + tc * (-4.0133819E-10 + tc * (1.2619821E-11 + tc * (-9.8952363E-14 + tc * 2.3363281E-16)))
/-- `p3` (PhreeqcWater.cpp:71). -/
noncomputable def coef3 (tc : ℝ) : ℝ := 7.0517647E-11 + tc * (6.8566831E-12 + tc * (-2.2829750E-13 + tc * (1.8113313E-15 + tc * -4.2475324E-18)))

/-- `p_sat` in atm (PhreeqcWater.cpp:75). -/
noncomputable def pSat (T : ℝ) : ℝ := Real.exp (11.6702 - 3816.44 / (T - 46.13))

/-- The pressure above saturation in atm (PhreeqcWater.cpp:44, 80-83). -/
noncomputable def pAbove (T P : ℝ) : ℝ :=
  let pa := P * pascalToAtm
  let pa := if pa < pSat T then pSat T else pa
  pa - (pSat T - 1e-6)

/-- The density in kg/m³ before and after the lower limit (PhreeqcWater.cpp:86-89). -/
noncomputable def rhoRaw (T P : ℝ) : ℝ :=
  let tc := clampedCelsius T
  let pa := pAbove T P
  rhoSat T + pa * (coef0 tc + pa * (coef1 tc + pa * (coef2 tc + √pa * coef3 tc)))

/-- `waterThermoProps` (PhreeqcWater.cpp:27-98); density in g/cm³, compressibility in 1/atm. -/
noncomputable def waterThermo (T P : ℝ) : WaterThermo :=
  let tc := clampedCelsius T
  let pa := pAbove T P
  let rho := if rhoRaw T P < 0.01 then 0.01 else rhoRaw T P
  ⟨rho / 1e3, (coef0 tc + pa * (2 * coef1 tc + pa * (3 * coef2 tc + √pa * 3.5 * coef3 tc))) / rho⟩

/-- `c` (PhreeqcWater.cpp:135). -/
noncomputable def elC (T : ℝ) : ℝ := -2.0525 + 3.1159e3 / (-1.8289e2 + T)
/-- `b` (PhreeqcWater.cpp:136). -/
noncomputable def elB (T : ℝ) : ℝ := -8.0325e3 + 4.2142e6 / T + 2.1417 * T
/-- `pb`, the pressure in bar (PhreeqcWater.cpp:118, 137). -/
noncomputable def pBar (P : ℝ) : ℝ := P * pascalToAtm * 1.01325

/-- The dielectric constant before the check of its sign (PhreeqcWater.cpp:133-139). -/
noncomputable def epsRaw (T P : ℝ) : ℝ :=
  3.4279e2 * Real.exp (T * (-5.0866e-3 + T * 9.469e-7)) + elC T * Real.log ((elB T + pBar P) / (elB T + 1e3))

/-- `pi` (PhreeqcWater.cpp:152). -/
noncomputable def piConst : ℝ := 3.14159265358979
/-- `AVOGADRO` (PhreeqcWater.cpp:154). -/
noncomputable def avogadro : ℝ := 6.02252e23
/-- `R_LITER_ATM` (PhreeqcWater.cpp:155). -/
noncomputable def rLiterAtm : ℝ := 0.0820597

/-- `waterElectroProps` (PhreeqcWater.cpp:100-171). -/
noncomputable def waterElectro (T P : ℝ) (w : WaterThermo) : WaterElectro :=
  let eps := if epsRaw T P ≤ 0 then 10.0 else epsRaw T P
  let e2 := 1.671008e-3 / (eps * T)
  let B := √(8 * piConst * avogadro * e2 * w.rho / 1e3)
  ⟨eps, B * e2 / (2 * ln10), B / 1e8,
   B * e2 * rLiterAtm * 1e3 * T * (elC T / (elB T + pBar P) * 1.01325 / eps - w.kappa / 3),
   (-1 / eps + 1.0) * 41.84004, elC T / (elB T + pBar P) / eps / eps * 41.84004⟩

/-! ### Standard volumes -/

/-- Indices of the array `logk` (the enumeration of PHREEQC). -/
abbrev logK_T0 := 0
abbrev delta_h := 1
abbrev T_A1 := 2
abbrev T_A6 := 7
abbrev vm0 := 10
abbrev vma1 := 11
abbrev vma2 := 12
abbrev vma3 := 13
abbrev vma4 := 14
abbrev wref := 15

/-- `standardVolume` of a species in cm³/mol (PhreeqcThermo.cpp:38-95). -/
noncomputable def standardVolume (s : PSpecies) (T P : ℝ) (wt : WaterThermo) (we : WaterElectro) : ℝ :=
  let tc := T - 273.15
  let pa := P * pascalToAtm
  let pb_s := 2600 + pa * 1.01325
  let TK_s := tc + 45.15
  if s.name = c!"H2O" then 18.016 / wt.rho
  else if s.logk vma1 ≠ 0 then
    s.logk vma1 + s.logk vma2 / pb_s + (s.logk vma3 + s.logk vma4 / pb_s) / TK_s - s.logk wref * we.Q
  else if s.millero 0 ≠ 0 then s.millero 0 + tc * (s.millero 1 + tc * s.millero 2)
  else 0

/-- `standardVolumeModel` of a species in m³/mol, with `waterProps` (PhreeqcThermo.cpp:32-36, 162-169, PhreeqcWater.cpp:173-178). -/
noncomputable def speciesVolume (s : PSpecies) (T P : ℝ) : ℝ :=
  let wt := waterThermo T P
  let we := waterElectro T P wt
  standardVolume s T P wt we * 1e-6

/-- `standardVolumeModel` of a phase in m³/mol (PhreeqcThermo.cpp:97-100, 171-177). -/
noncomputable def phaseVolume (p : PPhase) (_T _P : ℝ) : ℝ := p.logk vm0 * 1e-6

/-! ### Reactions -/

/-- `reactionThermoModelAux` (PhreeqcThermo.cpp:104-145). The parameters are new; they are assumed not to be changed afterwards, so they are numbers
here. The first argument says whether there are no reactants. -/
noncomputable def reactionThermoModelAux (noReactants : Bool) (logk : Nat → Rat) (sign : ℝ) : RxnModel :=
  if noReactants then fun _ props T P dV0 => constLgK 0 101325 (fun _ => 0) props T P dV0
  else if (List.range 6).any (fun i => logk (T_A1 + i) ≠ 0) then
    fun _ props T P dV0 => phreeqcLgK 0 1 2 3 4 5 101325 (fun i => sign * logk (T_A1 + i)) props T P dV0
  else fun _ props T P dV0 => vantHoff 0 1 298.15 101325 (fun i => if i = 0 then sign * logk logK_T0 else sign * logk delta_h * 1e3) props T P dV0

/-- What the standard model of an entry is made of: the volume and the reaction model with the sign for a species or a phase
(PhreeqcDatabase.cpp:173-195, PhreeqcThermo.cpp:147-160). -/
noncomputable def entryVolume (db : Phreeqc) (src : Src) (T P : ℝ) : Option ℝ :=
  match src with
  | .species i => db.species[i]?.map fun s => speciesVolume s T P
  | .phase i => db.phases[i]?.map fun p => phaseVolume p T P

/-- The reaction model of an entry; the sign is `1` for species and `-1` for phases (PhreeqcThermo.cpp:147-160). -/
noncomputable def entryReaction (db : Phreeqc) (src : Src) (noReactants : Bool) : Option RxnModel :=
  match src with
  | .species i => db.species[i]?.map fun s => reactionThermoModelAux noReactants s.logk 1
  | .phase i => db.phases[i]?.map fun p => reactionThermoModelAux noReactants p.logk (-1)

/-- A standard thermodynamic model; `none` if it throws. -/
abbrev StdModel := ℝ → ℝ → Option (Std ℝ)

/-- The model of the species with a given name among those made so far: the copies in a list of reactants have the model of the species in the list. -/
def lookup (done : List (Str × StdModel)) (name : Str) : StdModel :=
  match done.find? (fun q => q.1 = name) with
  | some q => q.2
  | none => fun _ _ => none

/-- The standard model of an entry, given those of the entries before it: `createMasterSpeciesStandardThermoModel` without reactants
(PhreeqcDatabase.cpp:183-195), otherwise that of the formation reaction (173-181, FormationReaction.cpp:45-106). -/
noncomputable def entryModel (db : Phreeqc) (done : List (Str × StdModel)) (e : Entry) : StdModel := fun T P =>
  match e.species.reactants with
  | [] => (entryVolume db e.src T P).map fun V => { G0 := 0, H0 := 0, V0 := V, Cp0 := 0, Cv0 := 0 }
  | rs =>
    match entryReaction db e.src rs.isEmpty with
    | none => none
    | some rxn =>
      productProps (rs.map fun r => ⟨r.1, fun _ => lookup done r.1, r.2⟩)
        (some fun _ T P => (entryVolume db e.src T P).getD 0) rxn (fun _ => 0) T P

/-- The standard models of all entries, in the order in which they are made. -/
noncomputable def models (db : Phreeqc) (l : List Entry) : List (Str × StdModel) :=
  l.foldl (fun done e => done ++ [(e.species.name, entryModel db done e)]) []

/-- The standard properties of the species with the given name. -/
noncomputable def standardProps (db : Phreeqc) (l : List Entry) (name : Str) : StdModel := lookup (models db l) name

end Verif.Phreeqc
