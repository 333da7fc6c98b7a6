import Verif.Model.ValueObjects
import Verif.Model.Database
import Mathlib.Analysis.Calculus.Deriv.Basic

/-!
# ThermoFun databases

Models `Reaktoro/Extensions/ThermoFun/ThermoFunDatabase.cpp` and `ThermoFunEngine.cpp`.  The ThermoFun library is external: the substances of a file, its
parser of formulas and its function for thermodynamic properties are parameters.  The aggregate state that a species has after its default constructor is not
initialised (`Verif.Model.ValueObjects`): what is in memory there is a parameter, `none` being the C++ standard, by which reading it is undefined.
-/

namespace Verif.ThermoFun

open Chem Database ValueObjects

/-- `ThermoFun::Element`: the molar mass is in g/mol. -/
structure TfElement where
  symbol : Str
  name : Str
  molarMass : Rat

/-- `ThermoFun::Substance`. -/
structure Substance where
  symbol : Str
  formula : Str
  name : Str
  charge : Rat

/-- A file that ThermoFun has read: its substances in the order of `mapSubstances`, and `parseSubstanceFormula`. -/
structure File where
  substances : List (Str × Substance)
  parse : Str → Res (List (TfElement × Rat))

/-- A model function of a species: `engine.props(T, P, symbol)` (ThermoFunDatabase.cpp:33-39); it is given by the symbol. -/
abbrev ModelOf := Str

abbrev Object := Impl ModelOf Substance

/-- `createElement` (ThermoFunDatabase.cpp:42-49). -/
def createElement (e : TfElement) : Res Element :=
  (changed elementClass.dflt (.name e.name)).bind fun c =>
  (changed c (.symbol e.symbol)).bind fun c =>
  changed c (.molarMass (e.molarMass * (1 / 1000)))
where
  /-- One `with...` method. -/
  changed (e : Element) (u : ElementWith) : Res Element := (elementClass.check u).bind fun _ => elementClass.write u e

/-- The loop of `createElements` (ThermoFunDatabase.cpp:56-61). -/
def createElementsLoop : List (TfElement × Rat) → Res (List (Element × Rat))
  | [] => .ok []
  | (e, c) :: rest =>
    if e.symbol = c!"Zz" then createElementsLoop rest
    else (createElement e).bind fun e' => (createElementsLoop rest).bind fun l => .ok ((e', c) :: l)

/-- `createElements` (ThermoFunDatabase.cpp:52-63). -/
def createElements (file : File) (s : Substance) : Res (List (Element × Rat)) := (file.parse s.formula).bind createElementsLoop

/-- One `with...` method of a species. -/
def changed (o : Object) (u : SpeciesWith ModelOf Substance) : Res Object :=
  (speciesClass.check u).bind fun _ => speciesClass.write u o

/-- `createSpecies` (ThermoFunDatabase.cpp:66-78): the line that would set the aggregate state is commented out. -/
def createSpecies (file : File) (s : Substance) : Res Object :=
  (changed speciesClass.dflt (.name s.symbol)).bind fun o =>
  (changed o (.formula s.formula)).bind fun o =>
  (changed o (.substance s.name)).bind fun o =>
  (createElements file s).bind fun els =>
  (changed o (.elements els)).bind fun o =>
  (changed o (.charge s.charge)).bind fun o =>
  (changed o (.standardThermoModel s.symbol)).bind fun o =>
  changed o (.attachedData s)

/-- The species as `Database::addSpecies` reads it; `mem` is what the memory of an uninitialised aggregate state holds. -/
def stored (mem : Option State) (o : Object) : Res Species :=
  match o.state.or mem with
  | none => .ub
  | some st => .ok ⟨o.name, o.formula, o.elements, o.charge, st, o.tags, o.reaction.reactants, o.substance⟩

/-- The loop of `fromFile` (ThermoFunDatabase.cpp:94-95); `mem` gives the contents of uninitialised memory for each substance. The objects are the
species with their models and attached data. -/
def addAll (file : File) (mem : Str → Option State) : Db × List Object → List (Str × Substance) → Res (Db × List Object)
  | r, [] => .ok r
  | (db, os), (_, s) :: rest =>
    (createSpecies file s).bind fun o => (stored (mem s.symbol) o).bind fun sp => (addSpecies db sp).bind fun db => addAll file mem (db, os ++ [o]) rest

/-- `ThermoFunDatabase::fromFile` (ThermoFunDatabase.cpp:85-98). -/
def fromFile (file : File) (mem : Str → Option State) : Res (Db × List Object) := addAll file mem ({}, []) file.substances

/-! ### The engine -/

/-- `ThermoFun::ThermoPropertiesSubstance`: the volume is in J/bar. -/
structure TfProps where
  gibbs : ℝ
  enthalpy : ℝ
  volume : ℝ
  cp : ℝ
  cv : ℝ

/-- A `real`: its value and its derivative with respect to the variable that is seeded. -/
structure Dual where
  val : ℝ
  der : ℝ

/-- A number converted to `real` has no derivative. -/
noncomputable def Dual.const (x : ℝ) : Dual := ⟨x, 0⟩

/-- `StandardThermoProps`, in SI units. -/
structure Props where
  G0 : Dual
  H0 : Dual
  V0 : Dual
  Cp0 : Dual
  Cv0 : Dual

/-- `convertProps` (ThermoFunEngine.cpp:30-39). -/
noncomputable def convertProps (p : TfProps) : Props :=
  ⟨.const p.gibbs, .const p.enthalpy, .const (p.volume * 1e-5), .const p.cp, .const p.cv⟩

/-- `ThermoFunEngine::Impl::props` (ThermoFunEngine.cpp:60-73): only the values of temperature and pressure are used. -/
noncomputable def props (file : File) (thermo : Str → ℝ → ℝ → TfProps) (T P : Dual) (species : Str) : Res Props :=
  if file.substances.any (fun p => p.1 = species) then .ok (convertProps (thermo species T.val P.val)) else .throw

end Verif.ThermoFun
