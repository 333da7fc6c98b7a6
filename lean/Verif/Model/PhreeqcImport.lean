import Verif.Model.Registries

/-!
# Model of the amounts and of the critical properties that `Reaktoro/Extensions/Phreeqc/Phreeqc.cpp` reads from and writes into PHREEQC

PHREEQC itself is external: its run is a parameter.  PHREEQC has one object for each name, so that a pointer to a species or a phase is its
name (see `Verif.Model.PhreeqcEngine`).  Numbers are rational.  What `set` computes from the amounts is in `Verif.Model.PhreeqcState`.
-/

namespace Verif.PhreeqcImport

open Registries (Str)

/-- The members `t_c`, `p_c`, `omega` and `moles_x` of a phase of PHREEQC. -/
structure PhaseRec where
  tc : Rat
  pc : Rat
  omega : Rat
  molesX : Rat
  deriving DecidableEq, Repr

/-- The data of PHREEQC that are read and written: the amounts of the species, the phases, and for each unknown its phase, if any, and its amount. -/
structure Data where
  moles : Str → Rat
  phase : Str → PhaseRec
  unknowns : List (Option Str × Rat)

/-- The lists of species of the system (Phreeqc.cpp:375-399). -/
structure Lists where
  aqueous : List Str
  gaseous : List Str
  mineral : List Str

/-- `critical_properties` (Phreeqc.cpp:45-65): temperature, pressure in bar, acentric factor. -/
def criticalTable : List (Str × Rat × Rat × Rat) := [
  (c!"Ar(g)",    1509 / 10, 4898 / 100, 0),
  (c!"CH4(g)",   1906 / 10, 4599 / 100, 12 / 1000),
  (c!"C6H6O(g)", 6943 / 10, 613 / 10, 444 / 1000),
  (c!"CO(g)",    1329 / 10, 3499 / 100, 48 / 1000),
  (c!"CO2(g)",   3042 / 10, 7383 / 100, 224 / 1000),
  (c!"C2H4(g)",  2823 / 10, 504 / 10, 87 / 1000),
  (c!"H2(g)",    3319 / 100, 1313 / 100, -216 / 1000),
  (c!"H2O(g)",   6471 / 10, 22055 / 100, 345 / 1000),
  (c!"H2S(g)",   3735 / 10, 8963 / 100, 94 / 1000),
  (c!"He(g)",    52 / 10, 228 / 100, -39 / 100),
  (c!"Kr(g)",    2094 / 10, 5502 / 100, 0),
  (c!"N2(g)",    1262 / 10, 34, 38 / 1000),
  (c!"Ne(g)",    44, 27, 0),
  (c!"NH3(g)",   4057 / 10, 1128 / 10, 253 / 1000),
  (c!"O2(g)",    1546 / 10, 5043 / 100, 22 / 1000),
  (c!"Rn(g)",    377, 628 / 10, 0),
  (c!"SO2(g)",   4308 / 10, 7884 / 100, 245 / 1000),
  (c!"Xe(g)",    2897 / 10, 584 / 10, 0)]

/-- `convertBarToAtm` (ConvertUtils.hpp:65). -/
def barToAtm (p : Rat) : Rat := p * (986923267 / 1000000000)

/-- The body of the loop over the gases (Phreeqc.cpp:646-656). -/
def fill (name : Str) (r : PhaseRec) : PhaseRec :=
  match criticalTable.lookup name with
  | none => r
  | some (t, p, w) =>
    let r := if r.tc = 0 then { r with tc := t } else r
    let r := if r.pc = 0 then { r with pc := barToAtm p } else r
    if r.omega = 0 then { r with omega := w } else r

/-- `initializeCriticalPropertiesGaseousSpecies` (Phreeqc.cpp:639-658). -/
def initCritical (d : Data) : List Str → Data
  | [] => d
  | g :: gs => initCritical { d with phase := fun p => if p = g then fill g (d.phase g) else d.phase p } gs

/-- `speciesAmounts` of species (PhreeqcUtils.cpp:422-429). -/
def speciesAmounts (d : Data) (l : List Str) : List Rat := l.map d.moles

/-- The body of the loop of `speciesAmounts` of phases (PhreeqcUtils.cpp:438-452). -/
def phaseAmount (d : Data) (p : Str) : Rat :=
  let n := (d.phase p).molesX
  if n ≤ 0 then
    match d.unknowns.find? (fun u => u.1 = some p) with
    | some u => u.2
    | none => n
  else n

/-- `speciesAmounts` of phases (PhreeqcUtils.cpp:431-456). -/
def phaseAmounts (d : Data) (l : List Str) : List Rat := l.map (phaseAmount d)

/-- The amounts that `initializeChemicalState` reads (Phreeqc.cpp:666-671). -/
def amounts (d : Data) (l : Lists) : List Rat :=
  speciesAmounts d l.aqueous ++ phaseAmounts d l.gaseous ++ phaseAmounts d l.mineral

/-- A loop that writes amounts of species (Phreeqc.cpp:926-928). -/
def writeSpecies (d : Data) : List (Str × Rat) → Data
  | [] => d
  | (s, x) :: rest => writeSpecies { d with moles := fun p => if p = s then x else d.moles p } rest

/-- A loop that writes amounts of phases (Phreeqc.cpp:930-936). -/
def writePhases (d : Data) : List (Str × Rat) → Data
  | [] => d
  | (s, x) :: rest =>
    writePhases { d with phase := fun p => if p = s then { d.phase s with molesX := x } else d.phase p } rest

/-- `setSpeciesAmounts` (Phreeqc.cpp:903-936), the part with the amounts: `head`, `segment` and `tail` of a vector that is too short are undefined. The amount of
water, which is read here too, is in `Verif.Model.PhreeqcState`. -/
def setSpeciesAmounts (d : Data) (l : Lists) (n : List Rat) : Res Data :=
  if n.length < l.aqueous.length + l.gaseous.length ∨ n.length < l.mineral.length then .ub else
  let d := writeSpecies d (l.aqueous.zip (n.take l.aqueous.length))
  let d := writePhases d (l.gaseous.zip ((n.drop l.aqueous.length).take l.gaseous.length))
  .ok (writePhases d (l.mineral.zip (n.drop (n.length - l.mineral.length))))

/-- The object: the data of PHREEQC, the lists of the last script and the amounts. -/
structure State where
  d : Data
  l : Lists
  n : List Rat

/-- `execute` (Phreeqc.cpp:327-334, 336-372, 660-675): `d` are the data of PHREEQC after it ran the script, `l` the lists that are made of them. -/
def execute (d : Data) (l : Lists) : Res State :=
  let d := initCritical d l.gaseous
  let n := amounts d l
  (setSpeciesAmounts d l n).bind fun d => .ok ⟨d, l, n⟩

/-- `set(T, P, n)` (Phreeqc.cpp:696-719), the part with the amounts. -/
def set (s : State) (n : List Rat) : Res State := (setSpeciesAmounts s.d s.l n).bind fun d => .ok ⟨d, s.l, n⟩

/-- The calls of a user: a script, whose effect on the data of PHREEQC is `run`, and new amounts. -/
inductive Op where
  | execute (run : Data → Data) (l : Lists)
  | set (n : List Rat)

/-- A call. -/
def step (s : State) : Op → Res State
  | .execute run l => execute (run s.d) l
  | .set n => set s n

/-- A sequence of calls. -/
def runAll : State → List Op → Res State
  | s, [] => .ok s
  | s, o :: os => (step s o).bind fun s => runAll s os

/-- What PHREEQC keeps of the critical properties written in a script: a number that is not given is zero. -/
def given (tc pc omega : Option Rat) : PhaseRec := ⟨tc.getD 0, pc.getD 0, omega.getD 0, 0⟩

end Verif.PhreeqcImport
