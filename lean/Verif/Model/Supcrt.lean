import Verif.Model.HKF
import Verif.Model.Memoization

/-!
# The standard properties of species of SUPCRT databases

Models `Reaktoro/Extensions/Supcrt/SupcrtModels.cpp`, `SpeciesElectroStateHKF.cpp` and `SupcrtEngine.cpp`.
The parameters are in calories, bars and cubic centimetres, as in the files of SUPCRT.  Numbers are exact
reals; a division by zero gives zero here, so the theorems exclude the states where it happens.  The
automatic differentiation seeds carried by `real` are not modelled.
-/

namespace Verif.Supcrt

open Real Verif.Water
noncomputable section
open Classical

abbrev Str := List Char

/-! ### Constants -/

/-- `calorieToJoule`, `Common/Constants.hpp:38`. -/
def cal : ℝ := 4.184
/-- `barToPascal`, `Common/Constants.hpp:41`. -/
def bar : ℝ := 1.0e+05
/-- `cubicCentimeterToCubicMeter`, `Common/Constants.hpp:44`. -/
def cm3 : ℝ := 1.0e-06
/-- `universalGasConstant`, `Common/Constants.hpp:26`. -/
def R : ℝ := 8.3144621
/-- `referenceTemperature`, `SupcrtModels.cpp:48`. -/
def Tr : ℝ := 298.15
/-- `referencePressure`, `SupcrtModels.cpp:51`. -/
def Pr : ℝ := 1.0
/-- `referenceBornZ`, `SupcrtModels.cpp:57`. -/
def Zr : ℝ := -1.278055636e-02
/-- `referenceBornY`, `SupcrtModels.cpp:60`. -/
def Yr : ℝ := -5.795424563e-05
/-- `theta`, `SupcrtModels.cpp:78`. -/
def theta : ℝ := 228.0
/-- `psi`, `SupcrtModels.cpp:81`. -/
def psi : ℝ := 2600.0
/-- `eta`, `SpeciesElectroStateHKF.cpp:37`. -/
def eta : ℝ := 1.66027e+05

/-! ### Parameters -/

/-- `SupcrtParamsAqueousSoluteHKF`, `SupcrtParams.hpp:31-68`. -/
structure Solute where
  name : Str
  charge : ℝ
  Gf : ℝ
  Hf : ℝ
  Sr : ℝ
  a1 : ℝ
  a2 : ℝ
  a3 : ℝ
  a4 : ℝ
  c1 : ℝ
  c2 : ℝ
  wref : ℝ

/-- `SupcrtParamsMaierKelly`, `SupcrtParams.hpp:71-96`. -/
structure Gas where
  name : Str
  Gf : ℝ
  Hf : ℝ
  Sr : ℝ
  a : ℝ
  b : ℝ
  c : ℝ
  Tmax : ℝ

/-- `SupcrtParamsMaierKellyHKF`, `SupcrtParams.hpp:99-142`. -/
structure Mineral where
  name : Str
  Gf : ℝ
  Hf : ℝ
  Sr : ℝ
  Vr : ℝ
  nptrans : ℕ
  a : List ℝ
  b : List ℝ
  c : List ℝ
  Ttr : List ℝ
  Htr : List ℝ
  Vtr : List ℝ
  dPdTtr : List ℝ
  Tmax : ℝ

/-! ### Results -/

/-- `SpeciesThermoState`, `SpeciesThermoState.hpp:26-51`. -/
structure State where
  gibbs : ℝ
  helmholtz : ℝ
  internalEnergy : ℝ
  enthalpy : ℝ
  entropy : ℝ
  volume : ℝ
  cp : ℝ
  cv : ℝ

/-- `convert`, `SupcrtEngine.cpp:45-54`. -/
def convert (s : State) : StandardModels.Props :=
  { G0 := s.gibbs, H0 := s.enthalpy, V0 := s.volume, Cp0 := s.cp, Cv0 := s.cv }

/-! ### The solvent -/

/-- `supcrtStandardThermoPropsSolventHKF`, `SupcrtModels.cpp:98-133`. -/
def solventProps (T : ℝ) (wt : ThermoState) : State :=
  let Ttr : ℝ := 273.16
  let Str : ℝ := 15.1320 * cal
  let Gtr : ℝ := -56290.0 * cal
  let Htr : ℝ := -68767.0 * cal
  let Utr : ℝ := -67887.0 * cal
  let Atr : ℝ := -55415.0 * cal
  let Sw := Mw * wt.entropy
  let Hw := Mw * wt.enthalpy
  let Uw := Mw * wt.internalEnergy
  { entropy := Sw + Str
    enthalpy := Hw + Htr
    internalEnergy := Uw + Utr
    gibbs := Hw - T * (Sw + Str) + Ttr * Str + Gtr
    helmholtz := Uw - T * (Sw + Str) + Ttr * Str + Atr
    volume := wt.volume * Mw
    cp := wt.cp * Mw
    cv := wt.cv * Mw }

/-! ### Solutes -/

/-- `functionG`, `SpeciesElectroStateHKF.cpp:41-129`.  The text is that of `gHKF::compute`
(`SpeciesElectroPropsHKF.cpp:42-123`), so its model is used. -/
def functionG (T P : ℝ) (wts : ThermoState) : HKF.GState := HKF.gHKF T P wts

/-- The alternative names of `H+` made by `alternativeChargedSpeciesNames` (`Common/NamingUtils.cpp:48-73`,
lines 66-68 and `unique`). -/
def hydrogenNames : List Str := [c!"H+", c!"H[+]"]

/-- `speciesElectroStateHKF`, `SpeciesElectroStateHKF.cpp:131-168`. -/
def electroStateHKF (s : HKF.GState) (p : Solute) : HKF.BornState :=
  if p.charge = 0 ∨ p.name ∈ hydrogenNames then ⟨0, 0, p.wref, 0, 0, 0, 0, 0⟩
  else
    let z := p.charge
    let reref := z * z / (p.wref / eta + z / 3.082)
    let re := reref + |z| * s.g
    let X1 := (-eta) * (|z * z * z| / (re * re) - z / (3.082 + s.g) ^ 2)
    let X2 := 2 * eta * (z * z * z * z / (re * re * re) - z / (3.082 + s.g) ^ 3)
    { re := re
      reref := reref
      w := eta * (z * z / re - z / (3.082 + s.g))
      wT := X1 * s.gT
      wP := X1 * s.gP
      wTT := X1 * s.gTT + X2 * s.gT * s.gT
      wTP := X1 * s.gTP + X2 * s.gT * s.gP
      wPP := X1 * s.gPP + X2 * s.gP * s.gP }

/-- `supcrtStandardThermoPropsSoluteHKF`, `SupcrtModels.cpp:135-211`. -/
def soluteProps (p : Solute) (T P : ℝ) (aes : HKF.BornState) (wes : ElectroState) : State :=
  let Pbar := P * 1.0e-05
  let wr := p.wref
  let w := aes.w
  let Z := wes.bornZ
  let Y := wes.bornY
  let V := p.a1 + p.a2 / (psi + Pbar) + (p.a3 + p.a4 / (psi + Pbar)) / (T - theta)
    - w * wes.bornQ - (Z + 1) * aes.wP
  let G := p.Gf - p.Sr * (T - Tr) - p.c1 * (T * log (T / Tr) - T + Tr)
    + p.a1 * (Pbar - Pr) + p.a2 * log ((psi + Pbar) / (psi + Pr))
    - p.c2 * ((1 / (T - theta) - 1 / (Tr - theta)) * (theta - T) / theta
      - T / (theta * theta) * log (Tr / T * (T - theta) / (Tr - theta)))
    + 1 / (T - theta) * (p.a3 * (Pbar - Pr) + p.a4 * log ((psi + Pbar) / (psi + Pr)))
    - w * (Z + 1) + wr * (Zr + 1) + wr * Yr * (T - Tr)
  let H := p.Hf + p.c1 * (T - Tr) - p.c2 * (1 / (T - theta) - 1 / (Tr - theta))
    + p.a1 * (Pbar - Pr) + p.a2 * log ((psi + Pbar) / (psi + Pr))
    + (2 * T - theta) / (T - theta) ^ 2 * (p.a3 * (Pbar - Pr) + p.a4 * log ((psi + Pbar) / (psi + Pr)))
    - w * (Z + 1) + w * T * Y + T * (Z + 1) * aes.wT + wr * (Zr + 1) - wr * Tr * Yr
  let S := p.Sr + p.c1 * log (T / Tr) - p.c2 / theta * (1 / (T - theta)
      - 1 / (Tr - theta) + log (Tr / T * (T - theta) / (Tr - theta)) / theta)
    + 1 / (T - theta) ^ 2 * (p.a3 * (Pbar - Pr) + p.a4 * log ((psi + Pbar) / (psi + Pr)))
    + w * Y + (Z + 1) * aes.wT - wr * Yr
  let Cp := p.c1 + p.c2 / (T - theta) ^ 2
    - 2 * T / (T - theta) ^ 3 * (p.a3 * (Pbar - Pr) + p.a4 * log ((psi + Pbar) / (psi + Pr)))
    + w * T * wes.bornX + 2 * T * Y * aes.wT + T * (Z + 1) * aes.wTT
  let U := H - Pbar * V
  let A := U - T * S
  { volume := V * (cal / bar)
    gibbs := G * cal
    enthalpy := H * cal
    entropy := S * cal
    internalEnergy := U * cal
    helmholtz := A * cal
    cp := Cp * cal
    cv := Cp * cal }

/-! ### Gases -/

/-- `checkTemperatureValidityHKF`, `SupcrtModels.cpp:83-94`; after the test the minimum changes nothing. -/
def checkTemperature (T Tmax : ℝ) : Res Unit := if T ≤ 0 ∨ T > Tmax then .throw else .ok ()

/-- The body of `supcrtStandardThermoPropsMaierKelly`, `SupcrtModels.cpp:231-273`. -/
def gasState (p : Gas) (T P : ℝ) : State :=
  let Pbar := P * 1.0e-5
  let CpdT := p.a * (T - Tr) + 0.5 * p.b * (T * T - Tr * Tr) - p.c * (1 / T - 1 / Tr)
  let CpdlnT := p.a * log (T / Tr) + p.b * (T - Tr) - 0.5 * p.c * (1 / (T * T) - 1 / (Tr * Tr))
  let V := R * T / P
  let G := p.Gf - p.Sr * (T - Tr) + CpdT - T * CpdlnT
  let H := p.Hf + CpdT
  let S := p.Sr + CpdlnT
  let U := H - Pbar * V
  let A := U - T * S
  let Cp := p.a + p.b * T + p.c / (T * T)
  { volume := V
    gibbs := G * cal
    enthalpy := H * cal
    entropy := S * cal
    internalEnergy := U * cal
    helmholtz := A * cal
    cp := Cp * cal
    cv := Cp * cal - R }

/-- `supcrtStandardThermoPropsMaierKelly`, `SupcrtModels.cpp:226-274`. -/
def gasProps (p : Gas) (T P : ℝ) : Res State :=
  (checkTemperature T p.Tmax).bind fun _ => .ok (gasState p T P)

/-! ### Minerals -/

/-- `Ti`, `SupcrtModels.cpp:299-306`. -/
def Mineral.Ti (p : Mineral) (T : ℝ) : List ℝ :=
  (Tr :: (p.Ttr.take p.nptrans).filter (fun x => decide (T > x))) ++ [T]

/-- `Pt`, `SupcrtModels.cpp:309-314`. -/
def Mineral.Pt (p : Mineral) (T : ℝ) : List ℝ :=
  ((List.range p.nptrans).filter (fun i => decide (p.dPdTtr.getD i 0 ≠ 0))).map
    (fun i => Pr + p.dPdTtr.getD i 0 * (T - p.Ttr.getD i 0))

/-- `Cp`, `SupcrtModels.cpp:317-320`. -/
def Mineral.Cp (p : Mineral) (T : ℝ) : ℝ :=
  (List.range ((p.Ti T).length - 1)).foldl
    (fun Cp i => if (p.Ti T).getD i 0 ≤ T ∧ T ≤ (p.Ti T).getD (i + 1) 0
      then p.a.getD i 0 + p.b.getD i 0 * T + p.c.getD i 0 / (T * T) else Cp) 0

/-- `CpdT`, `SupcrtModels.cpp:323-330`. -/
def Mineral.CpdT (p : Mineral) (T : ℝ) : ℝ :=
  ∑ i ∈ Finset.range ((p.Ti T).length - 1),
    let T0 := (p.Ti T).getD i 0
    let T1 := (p.Ti T).getD (i + 1) 0
    p.a.getD i 0 * (T1 - T0) + 0.5 * p.b.getD i 0 * (T1 * T1 - T0 * T0) - p.c.getD i 0 * (1 / T1 - 1 / T0)

/-- `CpdlnT`, `SupcrtModels.cpp:324-331`. -/
def Mineral.CpdlnT (p : Mineral) (T : ℝ) : ℝ :=
  ∑ i ∈ Finset.range ((p.Ti T).length - 1),
    let T0 := (p.Ti T).getD i 0
    let T1 := (p.Ti T).getD (i + 1) 0
    p.a.getD i 0 * log (T1 / T0) + p.b.getD i 0 * (T1 - T0) - 0.5 * p.c.getD i 0 * (1 / (T1 * T1) - 1 / (T0 * T0))

/-- `GdH`, `SupcrtModels.cpp:336,341` (the loop index is shifted by one). -/
def Mineral.GdH (p : Mineral) (T : ℝ) : ℝ :=
  ∑ i ∈ Finset.range ((p.Ti T).length - 2), p.Htr.getD i 0 * (T - (p.Ti T).getD (i + 1) 0) / (p.Ti T).getD (i + 1) 0
/-- `HdH`, `SupcrtModels.cpp:337,342`. -/
def Mineral.HdH (p : Mineral) (T : ℝ) : ℝ := ∑ i ∈ Finset.range ((p.Ti T).length - 2), p.Htr.getD i 0
/-- `SdH`, `SupcrtModels.cpp:338,343`. -/
def Mineral.SdH (p : Mineral) (T : ℝ) : ℝ :=
  ∑ i ∈ Finset.range ((p.Ti T).length - 2), p.Htr.getD i 0 / (p.Ti T).getD (i + 1) 0
/-- `V` after the first loop, `SupcrtModels.cpp:335,345`. -/
def Mineral.Vbase (p : Mineral) (T : ℝ) : ℝ :=
  p.Vr + ∑ i ∈ Finset.range ((p.Ti T).length - 2), p.Vtr.getD i 0

/-- The condition of `SupcrtModels.cpp:352`. -/
def Mineral.crossed (p : Mineral) (T Pb : ℝ) (j : ℕ) : Prop := 0 < (p.Pt T).getD j 0 ∧ (p.Pt T).getD j 0 < Pb

/-- `V` at the end, `SupcrtModels.cpp:350-357`. -/
def Mineral.V (p : Mineral) (T Pb : ℝ) : ℝ :=
  p.Vbase T - ∑ j ∈ Finset.range (p.Pt T).length, if p.crossed T Pb j then p.Vtr.getD j 0 else 0
/-- `VdP`, `SupcrtModels.cpp:349-357`. -/
def Mineral.VdP (p : Mineral) (T Pb : ℝ) : ℝ :=
  0.023901488 * p.Vbase T * (Pb - Pr) - ∑ j ∈ Finset.range (p.Pt T).length,
    if p.crossed T Pb j then 0.023901488 * p.Vtr.getD j 0 * (Pb - (p.Pt T).getD j 0) else 0

/-- No read is past the end of a vector : `Tt[i]` (lines 304, 313), `dPdT[i]` (line 312), `a[i]`, `b[i]`, `c[i]`
(lines 330-331), `dHt[i-1]` and `dVt[i-1]` (lines 341-345) and `dVt[i]` (lines 354-355). -/
def Mineral.InRange (p : Mineral) (T Pb : ℝ) : Prop :=
  p.nptrans ≤ p.Ttr.length ∧ p.nptrans ≤ p.dPdTtr.length ∧
  (p.Ti T).length - 1 ≤ p.a.length ∧ (p.Ti T).length - 1 ≤ p.b.length ∧ (p.Ti T).length - 1 ≤ p.c.length ∧
  (p.Ti T).length - 2 ≤ p.Htr.length ∧ (p.Ti T).length - 2 ≤ p.Vtr.length ∧
  ∀ j < (p.Pt T).length, p.crossed T Pb j → j < p.Vtr.length

/-- The body of `supcrtStandardThermoPropsMaierKellyHKF`, `SupcrtModels.cpp:281-385`. -/
def mineralState (p : Mineral) (T P : ℝ) : State :=
  let Pb := P * 1.0e-5
  let V := p.V T Pb
  let G := p.Gf - p.Sr * (T - Tr) + p.CpdT T - T * p.CpdlnT T + p.VdP T Pb - p.GdH T
  let H := p.Hf + p.CpdT T + p.VdP T Pb + p.HdH T
  let S := p.Sr + p.CpdlnT T + p.SdH T
  let U := H - Pb * V
  let A := U - T * S
  { volume := V * cm3
    gibbs := G * cal
    enthalpy := H * cal
    entropy := S * cal
    internalEnergy := U * cal
    helmholtz := A * cal
    cp := p.Cp T * cal
    cv := p.Cp T * cal }

/-- `supcrtStandardThermoPropsMaierKellyHKF`, `SupcrtModels.cpp:276-386`. -/
def mineralProps (p : Mineral) (T P : ℝ) : Res State :=
  (checkTemperature T p.Tmax).bind fun _ => if p.InRange T (P * 1.0e-5) then .ok (mineralState p T P) else .ub

/-! ### The engine -/

/-- The kinds of parameters attached to species, the overloads of `SupcrtEngine::props`
(`SupcrtEngine.cpp:102-132`). -/
inductive Params where
  | solvent
  | solute (p : Solute)
  | gas (p : Gas)
  | mineral (p : Mineral)

/-- `SupcrtEngine::props` without the memory of earlier calls, `SupcrtEngine.cpp:102-132`; `water` is
`waterThermoStateWagnerPruss` for the liquid (`SupcrtEngine.cpp:84-87`) and the electrostatic state is that of
`SupcrtEngine.cpp:92-96`. -/
def props (water : ℝ × ℝ → Res ThermoState) (k : Params) (T P : ℝ) : Res StandardModels.Props :=
  match k with
  | .solvent => (water (T, P)).bind fun wts => .ok (convert (solventProps T wts))
  | .solute p => (water (T, P)).bind fun wts =>
      .ok (convert (soluteProps p T P (electroStateHKF (functionG T P wts) p) (electroState T wts)))
  | .gas p => (gasProps p T P).bind fun s => .ok (convert s)
  | .mineral p => (mineralProps p T P).bind fun s => .ok (convert s)

/-- `waterThermoStateWagnerPruss(T, P, StateOfMatter::Liquid)`, `SupcrtEngine.cpp:86`. -/
def wagnerPrussLiquid (x : ℝ × ℝ) : Res ThermoState := thermoStateWagnerPruss x.1 x.2 .liquid

/-- The mutable state of a `SupcrtEngine` : the memory of `water_thermo_props_wagner_pruss_fn`, the copy of it
captured by `water_eletro_props_fn` (`[=]`, `SupcrtEngine.cpp:92`) and the memory of `water_eletro_props_fn`.  The
engine of Haar, Gallagher and Kell is never called. -/
structure Engine where
  thermo : Memo.Cell (ℝ × ℝ) ThermoState
  inner : Memo.Cell (ℝ × ℝ) ThermoState
  electro : Memo.Cell (ℝ × ℝ) ElectroState

/-- `sameValues` on two numbers (`Memoization.hpp:55-66,82-95`). -/
def same (x y : ℝ × ℝ) : Bool := decide (x = y)

/-- The body of `water_eletro_props_fn` before it is memoized, `SupcrtEngine.cpp:92-96`. -/
def electroBody (water : ℝ × ℝ → Res ThermoState) (enabled : Bool) (inner : Memo.Cell (ℝ × ℝ) ThermoState) (x : ℝ × ℝ) :
    Memo.Cell (ℝ × ℝ) ThermoState × Res ElectroState :=
  let r := Memo.callLast water same enabled inner x
  (r.1, r.2.bind fun wts => .ok (electroState x.1 wts))

/-- The call of `water_eletro_props_fn`, memoized by `memoizeLast` (`SupcrtEngine.cpp:98`, `Memoization.hpp:163-172`) :
the body runs, and changes its captured memory, only when the value is not remembered. -/
def callElectro (water : ℝ × ℝ → Res ThermoState) (enabled : Bool) (e : Engine) (x : ℝ × ℝ) : Engine × Res ElectroState :=
  let b := electroBody water enabled e.inner x
  if enabled = false then ({ e with inner := b.1 }, b.2)
  else if same e.electro.cache x && !e.electro.first then (e, .ok e.electro.result)
  else
    let c : Memo.Cell (ℝ × ℝ) ElectroState := { e.electro with cache := x, first := false }
    match b.2 with
    | .ok r => ({ e with inner := b.1, electro := { c with result := r } }, .ok r)
    | .throw => ({ e with inner := b.1, electro := c }, .throw)
    | .ub => ({ e with inner := b.1, electro := c }, .ub)

/-- `SupcrtEngine::props` with the memory of earlier calls, `SupcrtEngine.cpp:102-132`. -/
def Engine.call (water : ℝ × ℝ → Res ThermoState) (enabled : Bool) (e : Engine) (k : Params) (T P : ℝ) :
    Engine × Res StandardModels.Props :=
  match k with
  | .solvent =>
    let r := Memo.callLast water same enabled e.thermo (T, P)
    ({ e with thermo := r.1 }, r.2.bind fun wts => .ok (convert (solventProps T wts)))
  | .solute p =>
    let r := Memo.callLast water same enabled e.thermo (T, P)
    let e := { e with thermo := r.1 }
    match r.2 with
    | .throw => (e, .throw)
    | .ub => (e, .ub)
    | .ok wts =>
      let q := callElectro water enabled e (T, P)
      (q.1, q.2.bind fun wes =>
        .ok (convert (soluteProps p T P (electroStateHKF (functionG T P wts) p) wes)))
  | .gas p => (e, (gasProps p T P).bind fun s => .ok (convert s))
  | .mineral p => (e, (mineralProps p T P).bind fun s => .ok (convert s))

/-- Calls of one engine one after the other, continued after exceptions; `true` or `false` in front of a call is the
state of the global switch of memoization. -/
def Engine.run (water : ℝ × ℝ → Res ThermoState) : Engine → List (Bool × Params × ℝ × ℝ) → Engine × List (Res StandardModels.Props)
  | e, [] => (e, [])
  | e, (on, k, T, P) :: rest =>
    let r := e.call water on k T P
    let s := Engine.run water r.1 rest
    (s.1, r.2 :: s.2)

/-- A new engine : default-constructed arguments and results (`Memoization.hpp:160-162`). -/
def Engine.new (t0 : ThermoState) (e0 : ElectroState) : Engine :=
  ⟨Memo.Cell.init (0, 0) t0, Memo.Cell.init (0, 0) t0, Memo.Cell.init (0, 0) e0⟩

end
end Verif.Supcrt
