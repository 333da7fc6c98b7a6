import Verif.Base
import Mathlib.Algebra.Order.Ring.Rat

/-!
# Model of unit conversion (`Reaktoro/Common/Units.cpp`, `Units.hpp`)

Numbers are exact. Recursive functions take a bound on the recursion depth; running out of it is undefined behaviour in the
model (unbounded recursion in C++) and is proved never to happen.
-/

namespace Verif.Units

abbrev Str := List Char

/-- `StringUnit` (Units.cpp:63-68). -/
structure StringUnit where
  factor : Rat
  symbol : Str
  power : Int
  deriving DecidableEq, Repr

/-- `TemperatureUnit` (Units.cpp:70-75). -/
structure TemperatureUnit where
  factor : Rat
  translate : Rat
  symbol : Str
  deriving DecidableEq, Repr

/-- `DerivedUnit` (Units.cpp:77). -/
abbrev DerivedUnit := List StringUnit

/-- `derivedUnitsMap` (Units.cpp:97-386), transcribed by a script; a repeated key keeps its first entry, as `std::map` does. -/
def derivedUnitsMap : List (Str × DerivedUnit) := [
  -- Nondimensional Unit
  (c!"1", [⟨1, c!"1", 1⟩]),
  (c!"percent", [⟨1/10^2, c!"1", 1⟩]),
  (c!"permille", [⟨1/10^3, c!"1", 1⟩]),
  (c!"ppm", [⟨1/10^6, c!"1", 1⟩]),
  (c!"ppb", [⟨1/10^9, c!"1", 1⟩]),
  (c!"ppt", [⟨1/10^12, c!"1", 1⟩]),
  -- Mass Units
  (c!"g", [⟨1, c!"g", 1⟩]),
  (c!"kg", [⟨10^3, c!"g", 1⟩]),
  (c!"mg", [⟨1/10^3, c!"g", 1⟩]),
  (c!"mcg", [⟨1/10^6, c!"g", 1⟩]),
  (c!"ug", [⟨1/10^6, c!"g", 1⟩]),
  (c!"ng", [⟨1/10^9, c!"g", 1⟩]),
  (c!"tonne", [⟨10^3, c!"kg", 1⟩]),
  (c!"lb", [⟨45359237/100000, c!"g", 1⟩]),
  (c!"amu", [⟨1660538921/1000000000/10^27, c!"kg", 1⟩]),
  (c!"ton", [⟨2000, c!"lb", 1⟩]),
  (c!"gram", [⟨1, c!"g", 1⟩]),
  (c!"kilogram", [⟨1, c!"kg", 1⟩]),
  (c!"lbm", [⟨1, c!"lb", 1⟩]),
  -- Length Units
  (c!"m", [⟨1, c!"m", 1⟩]),
  (c!"km", [⟨10^3, c!"m", 1⟩]),
  (c!"dm", [⟨1/10, c!"m", 1⟩]),
  (c!"cm", [⟨1/10^2, c!"m", 1⟩]),
  (c!"mm", [⟨1/10^3, c!"m", 1⟩]),
  (c!"um", [⟨1/10^6, c!"m", 1⟩]),
  (c!"nm", [⟨1/10^9, c!"m", 1⟩]),
  (c!"Angstrom", [⟨1/10^10, c!"m", 1⟩]),
  (c!"in", [⟨127/5, c!"mm", 1⟩]),
  (c!"mil", [⟨1/10^3, c!"in", 1⟩]),
  (c!"ft", [⟨12, c!"in", 1⟩]),
  (c!"yd", [⟨3, c!"ft", 1⟩]),
  (c!"mi", [⟨5280, c!"ft", 1⟩]),
  (c!"nauticalmile", [⟨1852, c!"m", 1⟩]),
  (c!"lightyear", [⟨9460730472580800, c!"m", 1⟩]),
  (c!"au", [⟨149597870700, c!"m", 1⟩]),
  (c!"feet", [⟨1, c!"ft", 1⟩]),
  (c!"foot", [⟨1, c!"ft", 1⟩]),
  (c!"inch", [⟨1, c!"in", 1⟩]),
  (c!"meter", [⟨1, c!"m", 1⟩]),
  (c!"mile", [⟨1, c!"mi", 1⟩]),
  (c!"yard", [⟨1, c!"yd", 1⟩]),
  -- Time Units
  (c!"s", [⟨1, c!"s", 1⟩]),
  (c!"ms", [⟨1/10^3, c!"s", 1⟩]),
  (c!"us", [⟨1/10^6, c!"s", 1⟩]),
  (c!"ns", [⟨1/10^9, c!"s", 1⟩]),
  (c!"minute", [⟨60, c!"s", 1⟩]),
  (c!"min", [⟨60, c!"s", 1⟩]),
  (c!"hour", [⟨3600, c!"s", 1⟩]),
  (c!"h", [⟨3600, c!"s", 1⟩]),
  (c!"day", [⟨24, c!"hour", 1⟩]),
  (c!"week", [⟨7, c!"day", 1⟩]),
  (c!"month", [⟨608737/20000, c!"day", 1⟩]),
  (c!"year", [⟨1826211/5000, c!"day", 1⟩]),
  (c!"yr", [⟨1826211/5000, c!"day", 1⟩]),
  (c!"second", [⟨1, c!"s", 1⟩]),
  -- Electrical Current Units
  (c!"A", [⟨1, c!"A", 1⟩]),
  (c!"MA", [⟨10^6, c!"A", 1⟩]),
  (c!"kA", [⟨10^3, c!"A", 1⟩]),
  (c!"mA", [⟨1/10^3, c!"A", 1⟩]),
  (c!"uA", [⟨1/10^6, c!"A", 1⟩]),
  (c!"nA", [⟨1/10^9, c!"A", 1⟩]),
  (c!"pA", [⟨1/10^12, c!"A", 1⟩]),
  (c!"ampere", [⟨1, c!"A", 1⟩]),
  -- Amount of Substance Units
  (c!"mol", [⟨1, c!"mol", 1⟩]),
  (c!"mmol", [⟨1/10^3, c!"mol", 1⟩]),
  (c!"umol", [⟨1/10^6, c!"mol", 1⟩]),
  (c!"mcmol", [⟨1/10^6, c!"mol", 1⟩]),
  (c!"kmol", [⟨10^3, c!"mol", 1⟩]),
  (c!"mole", [⟨1, c!"mol", 1⟩]),
  -- Luminous Intensity Units
  (c!"cd", [⟨1, c!"cd", 1⟩]),
  (c!"candela", [⟨1, c!"cd", 1⟩]),
  -- Angle Units
  (c!"radian", [⟨1, c!"radian", 1⟩]),
  (c!"mradian", [⟨1/10^3, c!"radian", 1⟩]),
  (c!"uradian", [⟨1/10^6, c!"radian", 1⟩]),
  (c!"deg", [⟨314159265359/100000000000/180, c!"radian", 1⟩]),
  (c!"degree", [⟨1, c!"deg", 1⟩]),
  -- Solid Angle Units
  (c!"sr", [⟨1, c!"sr", 1⟩]),
  (c!"steradian", [⟨1, c!"sr", 1⟩]),
  -- Area Units
  (c!"m2", [⟨1, c!"m", 2⟩]),
  (c!"m^2", [⟨1, c!"m", 2⟩]),
  (c!"nm2", [⟨1, c!"nm", 2⟩]),
  (c!"nm^2", [⟨1, c!"nm", 2⟩]),
  (c!"um2", [⟨1, c!"um", 2⟩]),
  (c!"um^2", [⟨1, c!"um", 2⟩]),
  (c!"mm2", [⟨1, c!"mm", 2⟩]),
  (c!"mm^2", [⟨1, c!"mm", 2⟩]),
  (c!"cm2", [⟨1, c!"cm", 2⟩]),
  (c!"cm^2", [⟨1, c!"cm", 2⟩]),
  (c!"dm2", [⟨1, c!"dm", 2⟩]),
  (c!"dm^2", [⟨1, c!"dm", 2⟩]),
  (c!"in2", [⟨1, c!"in", 2⟩]),
  (c!"in^2", [⟨1, c!"in", 2⟩]),
  (c!"ft2", [⟨1, c!"ft", 2⟩]),
  (c!"ft^2", [⟨1, c!"ft", 2⟩]),
  (c!"hectare", [⟨10000, c!"m2", 1⟩]),
  (c!"acre", [⟨20234363/5000, c!"m2", 1⟩]),
  (c!"barn", [⟨1/10^28, c!"m2", 1⟩]),
  -- Volume Units
  (c!"m3", [⟨1, c!"m", 3⟩]),
  (c!"m^3", [⟨1, c!"m", 3⟩]),
  (c!"nm3", [⟨1, c!"nm", 3⟩]),
  (c!"nm^3", [⟨1, c!"nm", 3⟩]),
  (c!"um3", [⟨1, c!"um", 3⟩]),
  (c!"um^3", [⟨1, c!"um", 3⟩]),
  (c!"mm3", [⟨1, c!"mm", 3⟩]),
  (c!"mm^3", [⟨1, c!"mm", 3⟩]),
  (c!"cm3", [⟨1, c!"cm", 3⟩]),
  (c!"cm^3", [⟨1, c!"cm", 3⟩]),
  (c!"dm3", [⟨1, c!"dm", 3⟩]),
  (c!"dm^3", [⟨1, c!"dm", 3⟩]),
  (c!"km3", [⟨1, c!"km", 3⟩]),
  (c!"km^3", [⟨1, c!"km", 3⟩]),
  (c!"in3", [⟨1, c!"in", 3⟩]),
  (c!"in^3", [⟨1, c!"in", 3⟩]),
  (c!"ft3", [⟨1, c!"ft", 3⟩]),
  (c!"ft^3", [⟨1, c!"ft", 3⟩]),
  (c!"l", [⟨1/10^3, c!"m3", 1⟩]),
  (c!"ml", [⟨1/10^3, c!"l", 1⟩]),
  (c!"ul", [⟨1/10^6, c!"l", 1⟩]),
  (c!"mcl", [⟨1/10^6, c!"l", 1⟩]),
  (c!"L", [⟨1/10^3, c!"m3", 1⟩]),
  (c!"mL", [⟨1/10^3, c!"L", 1⟩]),
  (c!"uL", [⟨1/10^6, c!"L", 1⟩]),
  (c!"mcL", [⟨1/10^6, c!"l", 1⟩]),
  (c!"gal", [⟨454609/100000, c!"l", 1⟩]),
  (c!"quart", [⟨1/4, c!"gal", 1⟩]),
  (c!"cc", [⟨1, c!"cm3", 1⟩]),
  (c!"gallon", [⟨1, c!"gal", 1⟩]),
  (c!"liter", [⟨1, c!"l", 1⟩]),
  (c!"litre", [⟨1, c!"l", 1⟩]),
  -- Velocity Units
  (c!"mps", [⟨1, c!"m", 1⟩, ⟨1, c!"s", -1⟩]),
  (c!"cmps", [⟨1, c!"cm", 1⟩, ⟨1, c!"s", -1⟩]),
  (c!"mph", [⟨1, c!"mile", 1⟩, ⟨1, c!"hour", -1⟩]),
  (c!"knot", [⟨1, c!"nauticalmile", 1⟩, ⟨1, c!"hour", -1⟩]),
  (c!"fps", [⟨1, c!"foot", 1⟩, ⟨1, c!"s", -1⟩]),
  -- Acceleration Units
  (c!"mpss", [⟨1, c!"mps", 1⟩, ⟨1, c!"s", -1⟩]),
  (c!"fpss", [⟨1, c!"fps", 1⟩, ⟨1, c!"s", -1⟩]),
  (c!"gravity", [⟨196133/20000, c!"mpss", 1⟩]),
  -- Frequency Units
  (c!"Hz", [⟨1, c!"s", -1⟩]),
  (c!"kHz", [⟨10^3, c!"Hz", 1⟩]),
  (c!"MHz", [⟨10^6, c!"Hz", 1⟩]),
  (c!"GHz", [⟨10^9, c!"Hz", 1⟩]),
  (c!"rpm", [⟨1, c!"minute", -1⟩]),
  (c!"hertz", [⟨1, c!"Hz", 1⟩]),
  -- Flow Rate Units
  (c!"gps", [⟨1, c!"gal", 1⟩, ⟨1, c!"s", -1⟩]),
  (c!"gpm", [⟨1, c!"gal", 1⟩, ⟨1, c!"minute", -1⟩]),
  (c!"gph", [⟨1, c!"gal", 1⟩, ⟨1, c!"hour", -1⟩]),
  (c!"cfs", [⟨1, c!"ft3", 1⟩, ⟨1, c!"s", -1⟩]),
  (c!"cfm", [⟨1, c!"ft3", 1⟩, ⟨1, c!"minute", -1⟩]),
  (c!"lps", [⟨1, c!"liter", 1⟩, ⟨1, c!"s", -1⟩]),
  (c!"lpm", [⟨1, c!"liter", 1⟩, ⟨1, c!"minute", -1⟩]),
  -- Force Units
  (c!"N", [⟨1, c!"kg", 1⟩, ⟨1, c!"m", 1⟩, ⟨1, c!"s", -2⟩]),
  (c!"kN", [⟨10^3, c!"N", 1⟩]),
  (c!"lbf", [⟨222411081/50000000, c!"N", 1⟩]),
  (c!"dyne", [⟨1/10^5, c!"N", 1⟩]),
  (c!"newton", [⟨1, c!"N", 1⟩]),
  -- Pressure Units
  (c!"Pa", [⟨1, c!"N", 1⟩, ⟨1, c!"m2", -1⟩]),
  (c!"kPa", [⟨10^3, c!"Pa", 1⟩]),
  (c!"MPa", [⟨10^6, c!"Pa", 1⟩]),
  (c!"GPa", [⟨10^9, c!"Pa", 1⟩]),
  (c!"atm", [⟨101325, c!"Pa", 1⟩]),
  (c!"mmHg", [⟨13332239/100000, c!"Pa", 1⟩]),
  (c!"inHg", [⟨16931943/5000, c!"Pa", 1⟩]),
  (c!"psi", [⟨1, c!"lbf", 1⟩, ⟨1, c!"in2", -1⟩]),
  (c!"kpsi", [⟨10^3, c!"psi", 1⟩]),
  (c!"Mpsi", [⟨10^6, c!"psi", 1⟩]),
  (c!"psf", [⟨1, c!"lbf", 1⟩, ⟨1, c!"ft2", -1⟩]),
  (c!"bar", [⟨100000, c!"Pa", 1⟩]),
  (c!"mbar", [⟨100, c!"Pa", 1⟩]),
  (c!"kbar", [⟨1000, c!"bar", 1⟩]),
  (c!"Mbar", [⟨1000000, c!"bar", 1⟩]),
  (c!"torr", [⟨2083162/15625, c!"Pa", 1⟩]),
  (c!"inH2O", [⟨24908891/100000, c!"Pa", 1⟩]),
  (c!"ftH2O", [⟨12, c!"inH2O", 1⟩]),
  (c!"pascal", [⟨1, c!"Pa", 1⟩]),
  -- Energy Units
  (c!"J", [⟨1, c!"N", 1⟩, ⟨1, c!"m", 1⟩]),
  (c!"kJ", [⟨10^3, c!"J", 1⟩]),
  (c!"MJ", [⟨10^6, c!"J", 1⟩]),
  (c!"erg", [⟨1, c!"dyne", 1⟩, ⟨1, c!"cm", 1⟩]),
  (c!"cal", [⟨523/125, c!"J", 1⟩]),
  (c!"kcal", [⟨10^3, c!"cal", 1⟩]),
  (c!"eV", [⟨160217657/100000000/10^19, c!"J", 1⟩]),
  (c!"keV", [⟨10^3, c!"eV", 1⟩]),
  (c!"MeV", [⟨10^6, c!"eV", 1⟩]),
  (c!"GeV", [⟨10^9, c!"eV", 1⟩]),
  (c!"btu", [⟨21101117/20000, c!"J", 1⟩]),
  (c!"calorie", [⟨1, c!"cal", 1⟩]),
  (c!"joule", [⟨1, c!"J", 1⟩]),
  -- Power Units
  (c!"W", [⟨1, c!"J", 1⟩, ⟨1, c!"s", -1⟩]),
  (c!"watt", [⟨1, c!"W", 1⟩]),
  -- Charge Units
  (c!"C", [⟨1, c!"A", 1⟩, ⟨1, c!"s", 1⟩]),
  (c!"coulomb", [⟨1, c!"C", 1⟩]),
  (c!"mC", [⟨1/10^3, c!"C", 1⟩]),
  -- Voltage Units
  (c!"V", [⟨1, c!"J", 1⟩, ⟨1, c!"C", -1⟩]),
  (c!"volt", [⟨1, c!"V", 1⟩]),
  (c!"mV", [⟨1/10^3, c!"V", 1⟩]),
  -- Resistance Units
  (c!"ohm", [⟨1, c!"V", 1⟩, ⟨1, c!"A", -1⟩]),
  -- Conductance Units
  (c!"S", [⟨1, c!"ohm", -1⟩]),
  (c!"siemens", [⟨1, c!"S", 1⟩]),
  -- Capacitance Units
  (c!"F", [⟨1, c!"C", 1⟩, ⟨1, c!"V", -1⟩]),
  (c!"pF", [⟨1/10^12, c!"F", 1⟩]),
  (c!"nF", [⟨1/10^9, c!"F", 1⟩]),
  (c!"uF", [⟨1/10^6, c!"F", 1⟩]),
  (c!"mF", [⟨1/10^3, c!"F", 1⟩]),
  (c!"farad", [⟨1, c!"F", 1⟩]),
  -- Magnetic Flux Units
  (c!"Wb", [⟨1, c!"V", 1⟩, ⟨1, c!"s", 1⟩]),
  (c!"weber", [⟨1, c!"Wb", 1⟩]),
  -- Magnetic Flux Density Units
  (c!"T", [⟨1, c!"Wb", 1⟩, ⟨1, c!"m", 2⟩]),
  (c!"gauss", [⟨1/10000, c!"T", 1⟩]),
  (c!"tesla", [⟨1, c!"T", 1⟩]),
  -- Inductance Units
  (c!"H", [⟨1, c!"Wb", 1⟩, ⟨1, c!"A", -1⟩]),
  (c!"mH", [⟨1/10^3, c!"H", 1⟩]),
  (c!"uH", [⟨1/10^6, c!"H", 1⟩]),
  (c!"henry", [⟨1, c!"H", 1⟩]),
  -- Molality Units
  (c!"molal", [⟨1, c!"mol", 1⟩, ⟨1, c!"kg", -1⟩]),
  (c!"mmolal", [⟨1/10^3, c!"molal", 1⟩]),
  (c!"umolal", [⟨1/10^6, c!"molal", 1⟩]),
  (c!"mcmolal", [⟨1/10^6, c!"molal", 1⟩]),
  (c!"nmolal", [⟨1/10^9, c!"molal", 1⟩]),
  -- Molarity Units
  (c!"molar", [⟨1, c!"mol", 1⟩, ⟨1, c!"liter", -1⟩]),
  (c!"mmolar", [⟨1/10^3, c!"molar", 1⟩]),
  (c!"umolar", [⟨1/10^6, c!"molar", 1⟩]),
  (c!"mcmolar", [⟨1/10^6, c!"molar", 1⟩]),
  (c!"nmolar", [⟨1/10^9, c!"molar", 1⟩]),
  -- Equivalent Units
  (c!"eq", [⟨1, c!"eq", 1⟩]),
  (c!"meq", [⟨1/10^3, c!"eq", 1⟩]),
  (c!"ueq", [⟨1/10^6, c!"eq", 1⟩]),
  (c!"mceq", [⟨1/10^6, c!"eq", 1⟩]),
  (c!"neq", [⟨1/10^9, c!"eq", 1⟩])]

/-- `temperatureUnitsMap` (Units.cpp:388-398). -/
def temperatureUnitsMap : List (Str × TemperatureUnit) := [
  (c!"K", ⟨1, 0, c!"K"⟩),
  (c!"degC", ⟨1, -27315/100, c!"K"⟩),
  (c!"degF", ⟨18/10, 32, c!"degC"⟩),
  (c!"degR", ⟨1, 45967/100, c!"degF"⟩),
  (c!"kelvin", ⟨1, 0, c!"K"⟩),
  (c!"celsius", ⟨1, 0, c!"degC"⟩),
  (c!"fahrenheit", ⟨1, 0, c!"degF"⟩),
  (c!"rankine", ⟨1, 0, c!"degR"⟩)]

/-- `map.count(key)` / `map[key]`. -/
def find {β : Type} (m : List (Str × β)) (key : Str) : Option β :=
  match m with
  | [] => none
  | (k, v) :: m => if k = key then some v else find m key

def isTemperature (s : Str) : Bool := (find temperatureUnitsMap s).isSome

/-- Recursion depth allowed. -/
def depth : Nat := 32

/-- `toKelvin` (Units.cpp:400-405). An unknown symbol inserts an entry with symbol `""`, hence unbounded recursion. -/
def toKelvin : Nat → Rat → Str → Res Rat
  | 0, _, _ => .ub
  | n + 1, value, sym =>
    if sym = c!"K" then .ok value
    else match find temperatureUnitsMap sym with
      | none => .ub
      | some unit => toKelvin n ((value - unit.translate) / unit.factor) unit.symbol

/-- `fromKelvin` (Units.cpp:407-412). -/
def fromKelvin : Nat → Rat → Str → Res Rat
  | 0, _, _ => .ub
  | n + 1, value, sym =>
    if sym = c!"K" then .ok value
    else match find temperatureUnitsMap sym with
      | none => .ub
      | some unit => (fromKelvin n value unit.symbol).bind fun x => .ok (unit.factor * x + unit.translate)

/-- `convertTemperature` (Units.cpp:432-438). -/
def convertTemperature (value : Rat) (src dst : Str) : Res Rat :=
  if !isTemperature src then .throw
  else if !isTemperature dst then .throw
  else (toKelvin depth value src).bind fun k => fromKelvin depth k dst

/-- The loop `res *= unit.factor * pow(factor(unit.symbol), unit.power)` of `factor(symbol)` (Units.cpp:446-448). -/
def factorLoop (f : Str → Res Rat) : Rat → DerivedUnit → Res Rat
  | res, [] => .ok res
  | res, u :: us => (f u.symbol).bind fun x => factorLoop f (res * (u.factor * x ^ u.power)) us

/-- `factor(symbol)` (Units.cpp:440-450). -/
def factorSymbol : Nat → Str → Res Rat
  | 0, _ => .ub
  | n + 1, symbol =>
    if isTemperature symbol then .ok 1
    else match find derivedUnitsMap symbol with
      | none => .throw
      | some [] => .ub
      | some (u :: us) =>
        if u.symbol = symbol then .ok (u.factor ^ u.power)
        else factorLoop (factorSymbol n) 1 (u :: us)

/-- `factor(derivedUnit)` (Units.cpp:452-462). -/
def factor : DerivedUnit → Res Rat
  | [] => .ok 1
  | u :: us => (factorSymbol depth u.symbol).bind fun x => (factor us).bind fun y => .ok (u.factor * x ^ u.power * y)

/-- `map<string, int>`: pairs in order of insertion. -/
abbrev DimMap := List (Str × Int)

/-- `res[key] += x`. -/
def addTo (m : DimMap) (key : Str) (x : Int) : DimMap :=
  match m with
  | [] => [(key, x)]
  | (k, v) :: m => if k = key then (k, v + x) :: m else (k, v) :: addTo m key x

/-- The loop over the parts of a derived unit in `dimension` (Units.cpp:476-477). -/
def dimLoop (f : Str → Int → DimMap → Res DimMap) (mult : Int) : DerivedUnit → DimMap → Res DimMap
  | [], res => .ok res
  | u :: us, res => (f u.symbol (u.power * mult) res).bind fun res => dimLoop f mult us res

/-- `dimension(symbol, multpower, res)` (Units.cpp:470-478). -/
def dimSymbol : Nat → Str → Int → DimMap → Res DimMap
  | 0, _, _, _ => .ub
  | n + 1, symbol, mult, res =>
    if isTemperature symbol then .ok (addTo res symbol mult)
    else match find derivedUnitsMap symbol with
      | none => .throw
      | some [] => .ub
      | some (u :: us) =>
        if u.symbol = symbol then .ok (addTo res symbol (u.power * mult))
        else dimLoop (dimSymbol n) mult (u :: us) res

/-- `dimension(derivedUnit, pos, res)` (Units.cpp:480-485). -/
def dimDerived : DerivedUnit → DimMap → Res DimMap
  | [], res => .ok res
  | u :: us, res => (dimSymbol depth u.symbol u.power res).bind fun res => dimDerived us res

/-- `removeZero` (Units.cpp:464-468). -/
def removeZero (m : DimMap) : DimMap := m.filter (fun p => p.2 ≠ 0)

/-- `dimension(derivedUnit)` (Units.cpp:495-501). -/
def dimension (du : DerivedUnit) : Res DimMap := (dimDerived du []).bind fun m => .ok (removeZero m)

/-- Equality of two `std::map`: the same keys with the same values. -/
def mapEq (a b : DimMap) : Bool :=
  a.all (fun p => find b p.1 = some p.2) && b.all (fun p => find a p.1 = some p.2)

/-- `Node` (Units.cpp:503-511); `null` is the null pointer. -/
inductive Node
  | null
  | node (str : Str) (left right : Node)
  deriving DecidableEq, Repr

/-- `findMatchedParenthesisFromRight` (Units.cpp:513-524), on the reversed text before the closing parenthesis: the reversed
text inside the parentheses and the reversed text before the opening one. -/
def matchParen : Nat → Str → Option (Str × Str)
  | _, [] => none
  | d, c :: r =>
    if c = '(' then
      match d with
      | 0 => some ([], r)
      | d + 1 => (matchParen d r).map fun p => (c :: p.1, p.2)
    else if c = ')' then (matchParen (d + 1) r).map fun p => (c :: p.1, p.2)
    else (matchParen d r).map fun p => (c :: p.1, p.2)

/-- `parseUnit(symbol, pos)` (Units.cpp:531-571) on the reversed text `symbol[pos], symbol[pos-1], ...`. `sub` says that the
text is a whole string (so that emptiness is tested and gives a null pointer); for the remaining text before an operator
(`parseUnit(symbol, found-1)` with `found = 0`) an empty text means reading outside the string. The first argument bounds the
recursion depth; the length of the text is enough. -/
def parseNode : Nat → Bool → Str → Res Node
  | 0, _, _ => .ub
  | _ + 1, true, [] => .ok .null
  | _ + 1, false, [] => .ub
  | n + 1, _, c :: r =>
    if c = ')' then
      match matchParen 0 r with
      | none => .throw
      | some (inside, []) => parseNode n true inside
      | some (inside, op :: before) =>
        (parseNode n true before).bind fun left => (parseNode n true inside).bind fun right => .ok (.node [op] left right)
    else
      let isOp := fun x => x == '*' || x == '/'
      match (c :: r).dropWhile (fun x => !isOp x) with
      | [] => .ok (.node (c :: r).reverse .null .null)
      | op :: before =>
        (parseNode n false before).bind fun left =>
          .ok (.node [op] left (.node ((c :: r).takeWhile (fun x => !isOp x)).reverse .null .null))

/-- `parseUnit(root, derivedUnit, sign)` (Units.cpp:573-589); dereferencing a null node is undefined. -/
def flatten : Node → Int → Res DerivedUnit
  | .null, _ => .ub
  | .node str left right, sign =>
    if str = c!"*" then (flatten left sign).bind fun a => (flatten right sign).bind fun b => .ok (a ++ b)
    else if str = c!"/" then (flatten left sign).bind fun a => (flatten right (-sign)).bind fun b => .ok (a ++ b)
    else .ok [⟨1, str, sign⟩]

/-- `parseUnit(symbol)` (Units.cpp:591-597). -/
def parseUnit (symbol : Str) : Res DerivedUnit :=
  (parseNode (symbol.length + 1) true symbol.reverse).bind fun root => flatten root 1

/-- `slope` (Units.cpp:612-620). -/
def slope (src dst : Str) : Res Rat :=
  if isTemperature src && isTemperature dst then
    (convertTemperature 1 src dst).bind fun a => (convertTemperature 0 src dst).bind fun b => .ok (a - b)
  else
    (parseUnit src).bind fun pf => (parseUnit dst).bind fun pt =>
    (dimension pf).bind fun df => (dimension pt).bind fun dt =>
    if !mapEq df dt then .throw
    else (factor pf).bind fun a => (factor pt).bind fun b => .ok (a / b)

/-- `intercept` (Units.cpp:622-627). -/
def intercept (src dst : Str) : Res Rat :=
  if isTemperature src && isTemperature dst then convertTemperature 0 src dst else .ok 0

/-- `convertible` (Units.cpp:629-636). -/
def convertible (src dst : Str) : Res Bool :=
  if isTemperature src && isTemperature dst then .ok true
  else (parseUnit src).bind fun pf => (parseUnit dst).bind fun pt =>
    (dimension pf).bind fun df => (dimension pt).bind fun dt => .ok (mapEq df dt)

/-- `convert` (Units.hpp:47-51). -/
def convert (value : Rat) (src dst : Str) : Res Rat :=
  if src = dst then .ok value
  else (slope src dst).bind fun a => (intercept src dst).bind fun b => .ok (value * a + b)

end Verif.Units
