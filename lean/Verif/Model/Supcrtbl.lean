import Verif.Model.Supcrt

/-!
# The standard properties of species of SUPCRTBL databases

Models `Reaktoro/Extensions/Supcrtbl/SupcrtblModels.cpp` (18-196; the rest of the file is commented out) with the parameters of
`SupcrtblParams.hpp`.  Numbers are exact reals; a division by zero gives zero here.  `exp` and `pow` are the real functions.
-/

namespace Verif.Supcrtbl

open Real Verif.Water
noncomputable section

/-- `cal_to_kJ`, `SupcrtblModels.cpp:49`. -/
def calToKJ : ℝ := 4.184e-3
/-- `kJ_to_cal`, `SupcrtblModels.cpp:50`. -/
def kJToCal : ℝ := 1 / calToKJ
/-- `kJ_to_J`, `SupcrtblModels.cpp:51`. -/
def kJToJ : ℝ := 1e+3
/-- `J_to_kJ`, `SupcrtblModels.cpp:52`. -/
def JToKJ : ℝ := 1e-3
/-- `Pa_to_bar`, `SupcrtblModels.cpp:53`. -/
def PaToBar : ℝ := 1e-5
/-- `Tr`, `SupcrtblModels.cpp:55`. -/
def Tr : ℝ := 298.15

/-- `SupcrtblParamsAqueousSolventHKF`, `SupcrtblParams.hpp:27-46`. -/
structure Solvent where
  Ttr : ℝ := 273.16
  Str : ℝ := 63.312288
  Gtr : ℝ := -235.51736
  Htr : ℝ := -287.721128
  Utr : ℝ := -284.039208
  Atr : ℝ := -231.85636

/-- `supcrtblStandardThermoPropsSolventHKF`, `SupcrtblModels.cpp:62-72`: the lines that would use the parameters are commented out. -/
def solventProps (_p : Solvent) (T : ℝ) (wts : ThermoState) : Supcrt.State := Supcrt.solventProps T wts

/-- `SupcrtblParamsAqueousSoluteHKF`, `SupcrtblParams.hpp:49-86`. -/
structure Solute where
  name : List Char
  charge : ℝ
  Gf : ℝ
  Hf : ℝ
  Sr : ℝ
  a1 : ℝ
  a2 : ℝ
  a3 : ℝ
  a4 : ℝ
  c1 : ℝ
  c2 : ℝ
  wref : ℝ

/-- `cparams`, `SupcrtblModels.cpp:76-88`. -/
def Solute.cparams (p : Solute) : Supcrt.Solute :=
  { name := p.name
    charge := p.charge
    Gf := p.Gf * kJToCal
    Hf := p.Hf * kJToCal
    Sr := p.Sr
    a1 := p.a1 * kJToCal * 1e-1
    a2 := p.a2 * kJToCal * 1e+2
    a3 := p.a3 * kJToCal
    a4 := p.a4 * kJToCal * 1e+4
    c1 := p.c1 * kJToCal
    c2 := p.c2 * kJToCal * 1e+4
    wref := p.wref * 1e+5 }

/-- `supcrtblStandardThermoPropsSoluteHKF`, `SupcrtblModels.cpp:74-90`. -/
def soluteProps (p : Solute) (T P : ℝ) (aes : HKF.BornState) (wes : ElectroState) : Supcrt.State :=
  Supcrt.soluteProps p.cparams T P aes wes

/-- `SupcrtblParamsFluidHollandPowell`, `SupcrtblParams.hpp:89-117`. -/
structure Fluid where
  Gf : ℝ
  Hf : ℝ
  Sr : ℝ
  Vr : ℝ
  a : ℝ
  b : ℝ
  c : ℝ
  d : ℝ
  Tmax : ℝ := 0

/-- `Cp`, `SupcrtblModels.cpp:101,171`. -/
def cp (a b c d T : ℝ) : ℝ := a + b * T + c / (T * T) + d / √T
/-- `CpdT`, `SupcrtblModels.cpp:102,172`. -/
def cpdT (a b c d T : ℝ) : ℝ :=
  a * (T - Tr) + b / 2 * (T * T - Tr * Tr) - c * (1 / T - 1 / Tr) + d / 0.5 * (√T - √Tr)
/-- `CpdlnT`, `SupcrtblModels.cpp:103,173`. -/
def cpdlnT (a b c d T : ℝ) : ℝ :=
  a * log (T / Tr) + b * (T - Tr) - c / 2 * (1 / (T * T) - 1 / (Tr * Tr)) - d / 0.5 * (1 / √T - 1 / √Tr)

/-- `supcrtblStandardThermoPropsFluidHollandPowell`, `SupcrtblModels.cpp:92-130`. -/
def fluidProps (p : Fluid) (T _P : ℝ) : Supcrt.State :=
  let STrPr := p.Sr * JToKJ
  let CpdT := cpdT p.a p.b p.c p.d T
  let CpdlnT := cpdlnT p.a p.b p.c p.d T
  let S := STrPr + CpdlnT
  let H := p.Hf + CpdT
  let G := p.Gf - STrPr * (T - Tr) + CpdT - T * CpdlnT
  let U := H
  let A := U - T * S
  { volume := 0
    gibbs := G * kJToJ
    enthalpy := H * kJToJ
    entropy := S * kJToJ
    internalEnergy := U * kJToJ
    helmholtz := A * kJToJ
    cp := cp p.a p.b p.c p.d T
    cv := cp p.a p.b p.c p.d T - Supcrt.R }

/-- `SupcrtblParamsMineralHollandPowell`, `SupcrtblParams.hpp:120-163`. -/
structure Mineral where
  Gf : ℝ
  Hf : ℝ
  Sr : ℝ
  Vr : ℝ
  a : ℝ
  b : ℝ
  c : ℝ
  d : ℝ
  alpha : ℝ
  kappa : ℝ
  kappap : ℝ
  kappapp : ℝ
  numatoms : ℝ
  Tmax : ℝ := 0

/-- `ka`, `SupcrtblModels.cpp:142`. -/
def Mineral.ka (p : Mineral) : ℝ := (1 + p.kappap) / (1 + p.kappap + p.kappa * p.kappapp)
/-- `kb`, `SupcrtblModels.cpp:143`. -/
def Mineral.kb (p : Mineral) : ℝ := p.kappap / p.kappa - p.kappapp / (1 + p.kappap)
/-- `kc`, `SupcrtblModels.cpp:144`. -/
def Mineral.kc (p : Mineral) : ℝ :=
  (1 + p.kappap + p.kappa * p.kappapp) / (p.kappap * (1 + p.kappap) - p.kappa * p.kappapp)
/-- `theta`, `SupcrtblModels.cpp:145`. -/
def Mineral.theta (p : Mineral) : ℝ := 10636 / (p.Sr / p.numatoms + 6.44)
/-- `E0`, `SupcrtblModels.cpp:147-153`. -/
def Mineral.E0 (p : Mineral) : ℝ :=
  let u0 := p.theta / Tr
  let w0 := u0 / (exp u0 - 1)
  w0 * w0 * exp u0
/-- `Pth`, `SupcrtblModels.cpp:154`. -/
def Mineral.Pth (p : Mineral) (T : ℝ) : ℝ :=
  p.alpha * p.kappa * (p.theta / p.E0) * (1 / (exp (p.theta / T) - 1) - 1 / (exp (p.theta / Tr) - 1))

/-- `aux1` and `aux3`, `SupcrtblModels.cpp:156,158`. -/
def Mineral.aux1 (p : Mineral) (T : ℝ) : ℝ := 1 - p.kb * p.Pth T
/-- `aux3`, `SupcrtblModels.cpp:158`. -/
def Mineral.aux3 (p : Mineral) (T Pbar : ℝ) : ℝ := 1 + p.kb * (Pbar - p.Pth T)

/-- `VdP`, `SupcrtblModels.cpp:157-164`. -/
def Mineral.VdP (p : Mineral) (T Pbar : ℝ) : ℝ :=
  let aux2 := (p.aux1 T) ^ (1 - p.kc)
  let aux4 := (p.aux3 T Pbar) ^ (1 - p.kc)
  let aux5 := p.kb * (p.kc - 1) * Pbar
  Pbar * p.Vr * (1 - p.ka + p.ka * (aux2 - aux4) / aux5)

/-- `V`, `SupcrtblModels.cpp:162,166`; `alpha` and `kappa` (168-169) are computed and never used. -/
def Mineral.V (p : Mineral) (T Pbar : ℝ) : ℝ := p.Vr * (1 - p.ka * (1 - 1 / (p.aux3 T Pbar) ^ p.kc))

/-- `supcrtblStandardThermoPropsMineralHollandPowell`, `SupcrtblModels.cpp:132-192`. -/
def mineralProps (p : Mineral) (T P : ℝ) : Supcrt.State :=
  let STrPr := p.Sr * JToKJ
  let Pbar := P * PaToBar
  let VdP := p.VdP T Pbar
  let V := p.V T Pbar
  let Cp := cp p.a p.b p.c p.d T
  let CpdT := cpdT p.a p.b p.c p.d T
  let CpdlnT := cpdlnT p.a p.b p.c p.d T
  let S := STrPr + CpdlnT
  let H := p.Hf + CpdT + VdP
  let G := p.Gf - STrPr * (T - Tr) + CpdT - T * CpdlnT + VdP
  let U := H - Pbar * V
  let A := U - T * S
  { volume := V * 1e-5
    gibbs := G * kJToJ
    enthalpy := H * kJToJ
    entropy := S * kJToJ
    internalEnergy := U * kJToJ
    helmholtz := A * kJToJ
    cp := Cp * kJToJ
    cv := Cp * kJToJ }

end
end Verif.Supcrtbl
