import Verif.Model.WaterThermo
import Verif.Model.StandardModels

/-!
# The HKF model of aqueous species

Models `Reaktoro/Models/Support/SpeciesElectroPropsHKF.cpp`, `Reaktoro/Models/StandardThermoModelHKF.cpp`
and `StandardThermoModelWaterHKF.cpp`.  Numbers are exact reals; a division by zero gives zero here, so
the theorems exclude the states where it happens.  The memoization of water properties, the serializers
and the automatic differentiation seeds are not modelled; `Tmax` is never read and is left out.
-/

namespace Verif.HKF

open Real Verif.Water
noncomputable section
open Classical

/-- `StandardThermoModelParamsHKF`, `StandardThermoModelHKF.hpp:26-63`. -/
structure Params where
  Gf : ℝ
  Hf : ℝ
  Sr : ℝ
  a1 : ℝ
  a2 : ℝ
  a3 : ℝ
  a4 : ℝ
  c1 : ℝ
  c2 : ℝ
  wref : ℝ
  charge : ℝ

/-- `gHKF`, `SpeciesElectroPropsHKF.hpp:31-53`. -/
structure GState where
  g : ℝ
  gT : ℝ
  gP : ℝ
  gTT : ℝ
  gTP : ℝ
  gPP : ℝ

/-- `ag`, `SpeciesElectroPropsHKF.cpp:58-66`. -/
def ag (T : ℝ) : ℝ := -2.037662 + 5.747000e-03 * (T - 273.15) + -6.557892e-06 * (T - 273.15) * (T - 273.15)
/-- `bg`, `SpeciesElectroPropsHKF.cpp:62-67`. -/
def bg (T : ℝ) : ℝ := 6.107361 + -1.074377e-02 * (T - 273.15) + 1.268348e-05 * (T - 273.15) * (T - 273.15)
/-- `agT`, `SpeciesElectroPropsHKF.cpp:69`. -/
def agT (T : ℝ) : ℝ := 5.747000e-03 + 2 * -6.557892e-06 * (T - 273.15)
/-- `bgT`, `SpeciesElectroPropsHKF.cpp:70`. -/
def bgT (T : ℝ) : ℝ := -1.074377e-02 + 2 * 1.268348e-05 * (T - 273.15)
/-- `agTT`, `SpeciesElectroPropsHKF.cpp:72`. -/
def agTT : ℝ := 2 * -6.557892e-06
/-- `bgTT`, `SpeciesElectroPropsHKF.cpp:73`. -/
def bgTT : ℝ := 2 * 1.268348e-05

/-- The function `g` of region I, `SpeciesElectroPropsHKF.cpp:75-88`. -/
def gRegionI (T : ℝ) (wts : ThermoState) : GState :=
  let a := ag T
  let b := bg T
  let aT := agT T
  let bT := bgT T
  let r := wts.density / 1000
  let alpha := (-wts.densityT) / wts.density
  let beta := wts.densityP / wts.density
  let alphaT := (-wts.densityTT) / wts.density + alpha * alpha
  let alphaP := (-wts.densityTP) / wts.density - alpha * beta
  let betaP := wts.densityPP / wts.density - beta * beta
  let g := a * (1 - r) ^ b
  let gT := g * (aT / a + bT * log (1 - r) + r * alpha * b / (1 - r))
  let gP := (-g) * r * beta * b / (1 - r)
  { g := g
    gT := gT
    gP := gP
    gTT := g * (agTT / a - (aT / a) ^ 2 + bgTT * log (1 - r)
      + r * alpha * b / (1 - r) * (2 * bT / b + alphaT / alpha - alpha - r * alpha / (1 - r))) + gT * gT / g
    gTP := gP * (bT / b - alpha - alphaP / beta - r * alpha / (1 - r)) + gP * gT / g
    gPP := gP * (gP / g + beta + betaP / beta + r * beta / (1 - r)) }

/-- `ft` and its derivatives, `SpeciesElectroPropsHKF.cpp:94-108`. -/
def ft (T : ℝ) : ℝ × ℝ × ℝ :=
  let af1 : ℝ := 3.666660e+01
  let auxT := ((T - 273.15) - 155) / 300
  let auxT1 := auxT ^ (4.8 : ℝ)
  let auxT2 := auxT ^ 16
  (auxT1 + af1 * auxT2, (4.8 * auxT1 + 16 * af1 * auxT2) / (300 * auxT),
    (18.24 * auxT1 + 240 * af1 * auxT2) / (300 * auxT) ^ 2)

/-- `fp` and its derivatives, `SpeciesElectroPropsHKF.cpp:95-112`. -/
def fp (P : ℝ) : ℝ × ℝ × ℝ :=
  let af2 : ℝ := -1.504956e-10
  let af3 : ℝ := 5.017990e-14
  let auxP := 1000 - P * 1.0e-5
  let auxP1 := auxP ^ 3
  let auxP2 := auxP ^ 4
  (af2 * auxP1 + af3 * auxP2, (-(3 * af2 * auxP1 + 4 * af3 * auxP2)) / (auxP * 1e5),
    (6 * af2 * auxP1 + 12 * af3 * auxP2) / (auxP * 1e5) ^ 2)

/-- The test for region II, `SpeciesElectroPropsHKF.cpp:91`. -/
def RegionII (T P : ℝ) : Prop := 155 < T - 273.15 ∧ T - 273.15 < 355 ∧ P * 1.0e-5 < 1000

/-- `gHKF::compute`, `SpeciesElectroPropsHKF.cpp:42-123`. -/
def gHKF (T P : ℝ) (wts : ThermoState) : GState :=
  if wts.density > 1000 ∨ wts.density < 350 then ⟨0, 0, 0, 0, 0, 0⟩
  else
    let s := gRegionI T wts
    if RegionII T P then
      let t := ft T
      let p := fp P
      { g := s.g - t.1 * p.1
        gT := s.gT - p.1 * t.2.1
        gP := s.gP - t.1 * p.2.1
        gTT := s.gTT - p.1 * t.2.2
        gTP := s.gTP - t.2.1 * p.2.1
        gPP := s.gPP - t.1 * p.2.2 }
    else s

/-- `SpeciesElectroProps`, `SpeciesElectroProps.hpp:26-51`. -/
structure BornState where
  re : ℝ
  reref : ℝ
  w : ℝ
  wT : ℝ
  wP : ℝ
  wTT : ℝ
  wTP : ℝ
  wPP : ℝ

/-- `eta`, `SpeciesElectroPropsHKF.cpp:38`. -/
def eta : ℝ := 6.94656968e+05

/-- `speciesElectroPropsHKF`, `SpeciesElectroPropsHKF.cpp:125-169`. -/
def bornHKF (s : GState) (p : Params) : BornState :=
  if p.charge = 0 then ⟨0, 0, p.wref, 0, 0, 0, 0, 0⟩
  else
    let z := p.charge
    let reref := z * z / (p.wref / eta + z / 3.082)
    let re := reref + |z| * s.g
    let X1 := (-eta) * (|z * z * z| / (re * re) - z / (3.082 + s.g) ^ 2)
    let X2 := 2 * eta * (z * z * z * z / (re * re * re) - z / (3.082 + s.g) ^ 3)
    { re := re
      reref := reref
      w := eta * (z * z / re - z / (3.082 + s.g))
      wT := X1 * s.gT
      wP := X1 * s.gP
      wTT := X1 * s.gTT + X2 * s.gT * s.gT
      wTP := X1 * s.gTP + X2 * s.gT * s.gP
      wPP := X1 * s.gPP + X2 * s.gP * s.gP }

/-- `Tr`, `StandardThermoModelHKF.cpp:39`. -/
def Tr : ℝ := 298.15
/-- `Pr`, `StandardThermoModelHKF.cpp:42`. -/
def Pr : ℝ := 1.0e5
/-- `Zr`, `StandardThermoModelHKF.cpp:45`. -/
def Zr : ℝ := -1.278055636e-02
/-- `Yr`, `StandardThermoModelHKF.cpp:48`. -/
def Yr : ℝ := -5.795424563e-05
/-- `theta`, `StandardThermoModelHKF.cpp:51`. -/
def theta : ℝ := 228
/-- `psi`, `StandardThermoModelHKF.cpp:54`. -/
def psi : ℝ := 2600.0e5

/-- The evaluation function of `StandardThermoModelHKF`, `StandardThermoModelHKF.cpp:96-147`, for given
properties of water and of the electrostatics of the species. -/
def hkfProps (p : Params) (T P : ℝ) (wes : ElectroState) (aes : BornState) : StandardModels.Props :=
  let w := aes.w
  let Z := wes.bornZ
  let Tth := T - theta
  let Tth2 := Tth * Tth
  let Tth3 := Tth * Tth2
  let wr := p.wref
  let Cp0 := p.c1 + p.c2 / Tth2
    - 2 * T / Tth3 * (p.a3 * (P - Pr) + p.a4 * log ((psi + P) / (psi + Pr)))
    + w * T * wes.bornX + 2 * T * wes.bornY * aes.wT + T * (Z + 1) * aes.wTT
  { V0 := p.a1 + p.a2 / (psi + P) + (p.a3 + p.a4 / (psi + P)) / (T - theta) - w * wes.bornQ - (Z + 1) * aes.wP
    G0 := p.Gf - p.Sr * (T - Tr) - p.c1 * (T * log (T / Tr) - T + Tr)
      + p.a1 * (P - Pr) + p.a2 * log ((psi + P) / (psi + Pr))
      - p.c2 * ((1 / (T - theta) - 1 / (Tr - theta)) * (theta - T) / theta
        - T / (theta * theta) * log (Tr / T * (T - theta) / (Tr - theta)))
      + 1 / (T - theta) * (p.a3 * (P - Pr) + p.a4 * log ((psi + P) / (psi + Pr)))
      - w * (Z + 1) + wr * (Zr + 1) + wr * Yr * (T - Tr)
    H0 := p.Hf + p.c1 * (T - Tr) - p.c2 * (1 / (T - theta) - 1 / (Tr - theta))
      + p.a1 * (P - Pr) + p.a2 * log ((psi + P) / (psi + Pr))
      + (2 * T - theta) / Tth2 * (p.a3 * (P - Pr) + p.a4 * log ((psi + P) / (psi + Pr)))
      - w * (Z + 1) + w * T * wes.bornY + T * (Z + 1) * aes.wT + wr * (Zr + 1) - wr * Tr * Yr
    Cp0 := Cp0
    Cv0 := Cp0 }

/-- The properties of the species from the thermodynamic state of water, `StandardThermoModelHKF.cpp:101-104`. -/
def hkf (p : Params) (T P : ℝ) (wts : ThermoState) : StandardModels.Props :=
  hkfProps p T P (electroState T wts) (bornHKF (gHKF T P wts) p)

/-- `StandardThermoModelHKF` with the water properties of Wagner and Pruss, `StandardThermoModelHKF.cpp:94-150`;
fails when the density of water is not found. -/
def standardHKF (p : Params) (T P : ℝ) : Res StandardModels.Props :=
  (thermoStateWagnerPruss T P .liquid).bind fun wts => .ok (hkf p T P wts)

/-- `StandardThermoModelParamsWaterHKF`, `StandardThermoModelWaterHKF.hpp:27-40`. -/
structure WaterParams where
  Ttr : ℝ
  Str : ℝ
  Gtr : ℝ
  Htr : ℝ

/-- The evaluation function of `StandardThermoModelWaterHKF`, `StandardThermoModelWaterHKF.cpp:47-68`, for
a given thermodynamic state of water. -/
def waterHKF (p : WaterParams) (T : ℝ) (wtp : ThermoState) : StandardModels.Props :=
  let Sw := Mw * wtp.entropy
  let Hw := Mw * wtp.enthalpy
  { H0 := Hw + p.Htr
    G0 := Hw - T * (Sw + p.Str) + p.Ttr * p.Str + p.Gtr
    V0 := wtp.volume * Mw
    Cp0 := wtp.cp * Mw
    Cv0 := wtp.cv * Mw }

/-- `StandardThermoModelWaterHKF` with the water properties of Wagner and Pruss, `StandardThermoModelWaterHKF.cpp:45-71`. -/
def standardWaterHKF (p : WaterParams) (T P : ℝ) : Res StandardModels.Props :=
  (thermoStateWagnerPruss T P .liquid).bind fun wts => .ok (waterHKF p T wts)

end
end Verif.HKF
