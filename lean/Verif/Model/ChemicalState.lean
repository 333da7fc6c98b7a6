import Verif.Model.Chem
import Verif.Model.Units

/-!
# Model of the setters and getters of `Reaktoro/Core/ChemicalState.cpp`

The system is its list of species, with names and molar masses. `debug` says whether `assert` is active. Numbers are exact.
The equilibrium data and the chemical properties kept in the state are not touched by these functions and not modelled.
-/

namespace Verif.ChemicalState

open Chem

/-- The data of `ChemicalState::Impl` changed by the setters (ChemicalState.cpp:46-53). -/
structure St where
  T : Rat
  P : Rat
  n : List Rat
  deriving DecidableEq, Repr

/-- How a call ends: it returns, throws an exception, ends the program with a failed assertion, or its behaviour is undefined. -/
inductive End where
  | returned | threw | aborted | undefined
  deriving DecidableEq, Repr

/-- The state after a call and the way the call ends. -/
abbrev Out := St × End

/-- The constructor (ChemicalState.cpp:56-60, 46-50). -/
def initial (species : List Species) : St := ⟨29815 / 100, 100000, List.replicate species.length 0⟩

/-- Continue with the result of a function that does not change the state. -/
def andThen {α : Type} (st : St) (r : Res α) (f : α → Out) : Out :=
  match r with
  | .ok a => f a
  | .throw => (st, .threw)
  | .ub => (st, .undefined)

/-- `assert(c)` followed by `f`. -/
def asserted (debug : Bool) (c : Bool) (st : St) (f : Out) : Out := if debug && !c then (st, .aborted) else f

/-- `setTemperature(val)` (ChemicalState.cpp:62-67). -/
def setTemperature (st : St) (val : Rat) : Out := if val ≤ 0 then (st, .threw) else ({ st with T := val }, .returned)

/-- `setTemperature(val, unit)` (ChemicalState.cpp:69-72). -/
def setTemperatureUnit (st : St) (val : Rat) (unit : Str) : Out := andThen st (Units.convert val unit c!"K") (setTemperature st)

/-- `setPressure(val)` (ChemicalState.cpp:74-79). -/
def setPressure (st : St) (val : Rat) : Out := if val ≤ 0 then (st, .threw) else ({ st with P := val }, .returned)

/-- `setPressure(val, unit)` (ChemicalState.cpp:81-86). -/
def setPressureUnit (st : St) (val : Rat) (unit : Str) : Out :=
  if val ≤ 0 then (st, .threw) else andThen st (Units.convert val unit c!"Pa") (setPressure st)

/-- `setSpeciesAmounts(val)` (ChemicalState.cpp:88-93). -/
def setAllAmounts (st : St) (val : Rat) : Out :=
  if val < 0 then (st, .threw) else ({ st with n := List.replicate st.n.length val }, .returned)

/-- `setSpeciesAmounts(values)` (ChemicalState.cpp:95-107). `minCoeff` of an empty array fails an assertion of Eigen; the
assignment resizes the array. -/
def setAmounts (debug : Bool) (st : St) (values : List Rat) : Out :=
  asserted debug (st.n.length == values.length) st <|
  asserted debug (values != [] && values.all (fun x => 0 ≤ x)) st ({ st with n := values }, .returned)

/-- `setSpeciesAmount(ispecies, amount)` (ChemicalState.cpp:109-114). -/
def setAmount (debug : Bool) (species : List Species) (st : St) (i : Nat) (amount : Rat) : Out :=
  asserted debug (i < species.length) st <| asserted debug (0 ≤ amount) st <|
  if i < st.n.length then ({ st with n := st.n.set i amount }, .returned) else (st, .undefined)

/-- `system.species().index(name)` (SpeciesList.hpp:125-130). -/
def index (species : List Species) (name : Str) : Res Nat :=
  let idx := findWithName species name
  if idx ≥ species.length then .throw else .ok idx

/-- `setSpeciesAmount(name, amount)` (ChemicalState.cpp:116-119). -/
def setAmountName (debug : Bool) (species : List Species) (st : St) (name : Str) (amount : Rat) : Out :=
  andThen st (index species name) fun i => setAmount debug species st i amount

/-- `setSpeciesAmount(ispecies, amount, unit)` (ChemicalState.cpp:121-124). -/
def setAmountUnit (debug : Bool) (species : List Species) (st : St) (i : Nat) (amount : Rat) (unit : Str) : Out :=
  andThen st (Units.convert amount unit c!"mol") (setAmount debug species st i)

/-- `setSpeciesAmount(name, amount, unit)` (ChemicalState.cpp:126-129). -/
def setAmountNameUnit (debug : Bool) (species : List Species) (st : St) (name : Str) (amount : Rat) (unit : Str) : Out :=
  andThen st (index species name) fun i => setAmountUnit debug species st i amount unit

/-- `setSpeciesMass(ispecies, mass)` (ChemicalState.cpp:131-137); `me` is the molar mass of the electron. -/
def setMass (debug : Bool) (me : Rat) (species : List Species) (st : St) (i : Nat) (mass : Rat) : Out :=
  asserted debug (i < species.length) st <| asserted debug (0 < mass) st <|
  andThen st (at! species i) fun s => setAmount debug species st i (mass / s.molarMass me)

/-- `setSpeciesMass(name, mass)` (ChemicalState.cpp:139-142). -/
def setMassName (debug : Bool) (me : Rat) (species : List Species) (st : St) (name : Str) (mass : Rat) : Out :=
  andThen st (index species name) fun i => setMass debug me species st i mass

/-- `setSpeciesMass(ispecies, mass, unit)` (ChemicalState.cpp:144-147). -/
def setMassUnit (debug : Bool) (me : Rat) (species : List Species) (st : St) (i : Nat) (mass : Rat) (unit : Str) : Out :=
  andThen st (Units.convert mass unit c!"kg") (setMass debug me species st i)

/-- `setSpeciesMass(name, mass, unit)` (ChemicalState.cpp:149-152). -/
def setMassNameUnit (debug : Bool) (me : Rat) (species : List Species) (st : St) (name : Str) (mass : Rat) (unit : Str) : Out :=
  andThen st (index species name) fun i => setMassUnit debug me species st i mass unit

/-- The setters (ChemicalState.cpp:238-330 forward to the functions above). -/
inductive Op where
  | temperature (val : Rat)
  | temperatureUnit (val : Rat) (unit : Str)
  | pressure (val : Rat)
  | pressureUnit (val : Rat) (unit : Str)
  | allAmounts (val : Rat)
  | amounts (values : List Rat)
  | amount (i : Nat) (val : Rat)
  | amountName (name : Str) (val : Rat)
  | amountUnit (i : Nat) (val : Rat) (unit : Str)
  | amountNameUnit (name : Str) (val : Rat) (unit : Str)
  | mass (i : Nat) (val : Rat)
  | massName (name : Str) (val : Rat)
  | massUnit (i : Nat) (val : Rat) (unit : Str)
  | massNameUnit (name : Str) (val : Rat) (unit : Str)
  deriving DecidableEq, Repr

/-- One call. -/
def step (debug : Bool) (me : Rat) (species : List Species) (st : St) : Op → Out
  | .temperature v => setTemperature st v
  | .temperatureUnit v u => setTemperatureUnit st v u
  | .pressure v => setPressure st v
  | .pressureUnit v u => setPressureUnit st v u
  | .allAmounts v => setAllAmounts st v
  | .amounts vs => setAmounts debug st vs
  | .amount i v => setAmount debug species st i v
  | .amountName s v => setAmountName debug species st s v
  | .amountUnit i v u => setAmountUnit debug species st i v u
  | .amountNameUnit s v u => setAmountNameUnit debug species st s v u
  | .mass i v => setMass debug me species st i v
  | .massName s v => setMassName debug me species st s v
  | .massUnit i v u => setMassUnit debug me species st i v u
  | .massNameUnit s v u => setMassNameUnit debug me species st s v u

/-- A sequence of calls, continued after exceptions and ended by a failed assertion or undefined behaviour. -/
def run (debug : Bool) (me : Rat) (species : List Species) (st : St) : List Op → Out
  | [] => (st, .returned)
  | op :: ops =>
    match step debug me species st op with
    | (st', .returned) => run debug me species st' ops
    | (st', .threw) => run debug me species st' ops
    | (st', e) => (st', e)

/-- `speciesAmount(ispecies)` (ChemicalState.cpp:154-158). -/
def amount (debug : Bool) (species : List Species) (st : St) (i : Nat) : Res Rat :=
  if debug && !decide (i < species.length) then .throw else at! st.n i

/-- `speciesAmount(name)` (ChemicalState.cpp:160-163). -/
def amountName (debug : Bool) (species : List Species) (st : St) (name : Str) : Res Rat :=
  (index species name).bind (amount debug species st)

/-- `speciesAmount(index, unit)` (ChemicalState.cpp:165-168). -/
def amountUnit (debug : Bool) (species : List Species) (st : St) (i : Nat) (unit : Str) : Res Rat :=
  (amount debug species st i).bind fun x => Units.convert x c!"mol" unit

/-- `speciesAmount(name, unit)` (ChemicalState.cpp:170-173). -/
def amountNameUnit (debug : Bool) (species : List Species) (st : St) (name : Str) (unit : Str) : Res Rat :=
  (index species name).bind fun i => amountUnit debug species st i unit

/-- `speciesMass(ispecies)` (ChemicalState.cpp:175-179). -/
def mass (debug : Bool) (me : Rat) (species : List Species) (st : St) (i : Nat) : Res Rat :=
  if debug && !decide (i < species.length) then .throw
  else (at! st.n i).bind fun x => (at! species i).bind fun s => .ok (x * s.molarMass me)

/-- `speciesMass(name)` (ChemicalState.cpp:181-184). -/
def massName (debug : Bool) (me : Rat) (species : List Species) (st : St) (name : Str) : Res Rat :=
  (index species name).bind (mass debug me species st)

/-- `speciesMass(index, unit)` (ChemicalState.cpp:186-189). -/
def massUnit (debug : Bool) (me : Rat) (species : List Species) (st : St) (i : Nat) (unit : Str) : Res Rat :=
  (mass debug me species st i).bind fun x => Units.convert x c!"kg" unit

/-- `speciesMass(name, unit)` (ChemicalState.cpp:191-194). -/
def massNameUnit (debug : Bool) (me : Rat) (species : List Species) (st : St) (name : Str) (unit : Str) : Res Rat :=
  (index species name).bind fun i => massUnit debug me species st i unit

end Verif.ChemicalState
