import Verif.Model.ChemicalProps

/-!
# Model of `Reaktoro/Core/ThermoProps.cpp` and `Reaktoro/Core/ThermoPropsPhase.hpp`

Numbers are the elements of a type `K` (exact values); derivatives are not modelled.  The five arrays with standard properties have the
same size and are always read and written at the same positions, they are one list of `Std` here.  A standard model
depends on the values `w : W` of the parameters in the program (`Param`), and gives nothing if it throws.
-/

namespace Verif.ThermoProps

open ArraySerialization (write)
open ChemicalProps (Std seg)

variable {K W : Type}

/-- The standard model of a species, if it has one. -/
abbrev Model (W K : Type) := Option (W → K → K → Option (Std K))

/-- `ThermoProps::Impl` (ThermoProps.cpp:28-56). -/
structure Props (K : Type) where
  T : K
  P : K
  Ts : List K
  Ps : List K
  std : List (Std K)

/-- The standard properties of species without model (ThermoPropsPhase.hpp:173, `StandardThermoProps{}`). -/
def zeroStd [Zero K] : Std K := ⟨0, 0, 0, 0, 0⟩

/-- `numSpeciesUntilPhase` (PhaseList.hpp:190-196). -/
def begin (phases : List (List (Model W K))) (i : Nat) : Nat := ((phases.take i).map List.length).sum

/-- The constructor (ThermoProps.cpp:59-72). -/
def Props.init [Zero K] (phases : List (List (Model W K))) : Props K where
  T := 0
  P := 0
  Ts := List.replicate phases.length 0
  Ps := List.replicate phases.length 0
  std := List.replicate (begin phases phases.length) zeroStd

/-- The call of the standard model of a species (ThermoPropsPhase.hpp:172-173). -/
def evalModel [Zero K] (w : W) (T P : K) (m : Model W K) : Option (Std K) :=
  match m with
  | some f => f w T P
  | none => some zeroStd

/-- The loop over the species of a phase, from species `i` on (ThermoPropsPhase.hpp:169-179). -/
def speciesLoop [Zero K] (w : W) (T P : K) : List (Model W K) → Nat → List (Std K) → List (Std K) × Bool
  | [], _, l => (l, true)
  | m :: ms, i, l =>
    match evalModel w T P m with
    | none => (l, false)
    | some s => speciesLoop w T P ms (i + 1) (l.set i s)

/-- The data of a phase that `phaseProps` refers to (ThermoProps.cpp:93-108). -/
structure PhaseData (K : Type) where
  T : K
  P : K
  std : List (Std K)

/-- `phaseProps` (ThermoProps.cpp:93-108). -/
def view [Zero K] (phases : List (List (Model W K))) (p : Props K) (i : Nat) : PhaseData K where
  T := p.Ts.getD i 0
  P := p.Ps.getD i 0
  std := seg p.std (begin phases i) ((phases.getD i []).length)

/-- Writing through the references of `phaseProps` (ThermoProps.cpp:99-107). -/
def put (phases : List (List (Model W K))) (p : Props K) (i : Nat) (d : PhaseData K) : Props K :=
  { p with
    Ts := p.Ts.set i d.T
    Ps := p.Ps.set i d.P
    std := write p.std (begin phases i) d.std }

/-- `ThermoPropsPhaseBase::update` (ThermoPropsPhase.hpp:144-180). The second component says whether it returned normally. -/
def phaseUpdate [Zero K] [DecidableEq K] (w : W) (ph : List (Model W K)) (T P : K) (d : PhaseData K) : PhaseData K × Bool :=
  if T = d.T ∧ P = d.P then (d, true) else
  let r := speciesLoop w T P ph 0 d.std
  (⟨T, P, r.1⟩, r.2)

/-- The loop over the phases, from phase `i` on (ThermoProps.cpp:79-81). -/
def phaseLoop [Zero K] [DecidableEq K] (w : W) (phases : List (List (Model W K))) (T P : K) :
    List (List (Model W K)) → Nat → Props K → Props K × Bool
  | [], _, p => (p, true)
  | ph :: rest, i, p =>
    let r := phaseUpdate w ph T P (view phases p i)
    if r.2 then phaseLoop w phases T P rest (i + 1) (put phases p i r.1) else (put phases p i r.1, false)

/-- `ThermoProps::Impl::update` (ThermoProps.cpp:75-82). -/
def update [Zero K] [DecidableEq K] (w : W) (phases : List (List (Model W K))) (p : Props K) (T P : K) : Props K × Bool :=
  phaseLoop w phases T P phases 0 { p with T := T, P := P }

/-- The events of a program : parameters get other values, or the properties are updated. -/
inductive Event (W K : Type) where
  | setParams (w : W)
  | update (T P : K)

/-- The state of the parameters and the properties. -/
structure World (W K : Type) where
  w : W
  p : Props K

/-- One event; exceptions of `update` are caught. -/
def step [Zero K] [DecidableEq K] (phases : List (List (Model W K))) (s : World W K) : Event W K → World W K
  | .setParams w => { s with w := w }
  | .update T P => { s with p := (update s.w phases s.p T P).1 }

/-- A history, beginning with new properties. -/
def run [Zero K] [DecidableEq K] (phases : List (List (Model W K))) (w : W) (events : List (Event W K)) : World W K :=
  events.foldl (step phases) ⟨w, Props.init phases⟩

/-! ### Getters -/

section Getters

variable [Field K]

/-- `standardEntropies` (ThermoProps.cpp:173-176). -/
def standardEntropies (p : Props K) : List K := p.std.map fun s => (s.H0 - s.G0) / p.T
/-- `standardInternalEnergies` (ThermoProps.cpp:178-181). -/
def standardInternalEnergies (p : Props K) : List K := p.std.map fun s => s.H0 - p.P * s.V0
/-- `standardHelmholtzEnergies` (ThermoProps.cpp:183-186). -/
def standardHelmholtzEnergies (p : Props K) : List K := p.std.map fun s => s.G0 - p.P * s.V0

end Getters

end Verif.ThermoProps
