import Verif.Model.Water

/-!
# Thermodynamic and electrostatic state of water

Models `Reaktoro/Thermodynamics/Water/WaterThermoStateUtils.cpp`, `WaterUtils.cpp` and
`WaterElectroStateJohnsonNorton.cpp`.  Numbers are exact reals; the square root of a negative number and
a division by zero, which give `NaN` or an infinity in the code, give zero here, so the theorems exclude
the states where they happen.  The memoization of the last call (`WaterThermoStateUtils.cpp:38-55`) and
the automatic differentiation seeds are not modelled.
-/

namespace Verif.Water

open Real
noncomputable section
open Classical

/-- `WaterThermoState`, `WaterThermoState.hpp:25-89`. -/
structure ThermoState where
  temperature : ℝ
  volume : ℝ
  entropy : ℝ
  helmholtz : ℝ
  internalEnergy : ℝ
  enthalpy : ℝ
  gibbs : ℝ
  cv : ℝ
  cp : ℝ
  density : ℝ
  densityT : ℝ
  densityP : ℝ
  densityTT : ℝ
  densityTP : ℝ
  densityPP : ℝ
  pressure : ℝ
  pressureT : ℝ
  pressureD : ℝ
  pressureTT : ℝ
  pressureTD : ℝ
  pressureDD : ℝ

/-- `waterThermoState`, `WaterThermoStateUtils.cpp:85-137`. -/
def thermoState (T P : ℝ) (whs : HState) : ThermoState :=
  let D := sqrt (P / whs.hD)
  let pressureD := 2 * D * whs.hD + D * D * whs.hDD
  let pressureT := D * D * whs.hTD
  let pressureDD := 2 * whs.hD + 4 * D * whs.hDD + D * D * whs.hDDD
  let pressureTD := 2 * D * whs.hTD + D * D * whs.hTDD
  let pressureTT := D * D * whs.hTTD
  let densityT := (-pressureT) / pressureD
  let densityP := 1 / pressureD
  let entropy := -whs.hT
  let internalEnergy := whs.h + T * entropy
  let enthalpy := internalEnergy + P / D
  let cv := (-T) * whs.hTT
  { temperature := T
    pressure := D * D * whs.hD
    pressureD := pressureD
    pressureT := pressureT
    pressureDD := pressureDD
    pressureTD := pressureTD
    pressureTT := pressureTT
    density := D
    densityT := densityT
    densityP := densityP
    densityTT := (-densityT) * densityP * (densityT * pressureDD + 2 * pressureTD + pressureTT / densityT)
    densityTP := (-densityP) * densityP * (densityT * pressureDD + pressureTD)
    densityPP := (-densityP) * densityP * densityP * pressureDD
    volume := 1 / D
    entropy := entropy
    helmholtz := whs.h
    internalEnergy := internalEnergy
    enthalpy := enthalpy
    gibbs := enthalpy - T * entropy
    cv := cv
    cp := cv + T / (D * D) * pressureT * pressureT / pressureD }

/-! ### Density from pressure -/

/-- The states of matter, `Reaktoro/Core/StateOfMatter.hpp:26-29`. -/
inductive StateOfMatter | solid | liquid | gas | plasma
  deriving DecidableEq

/-- `tolerance`, `WaterUtils.cpp:41`. -/
def densityTol : ℝ := 1e-8

/-- `universalGasConstant`, `Reaktoro/Common/Constants.hpp:26`. -/
def Rgas : ℝ := 8.3144621

/-- The initial guess, `WaterUtils.cpp:43-64`. -/
def densityGuess (T P : ℝ) : StateOfMatter → ℝ
  | .liquid => 10 * Dcr
  | _ => Mw / (Rgas * T / P)

/-- `f` of `WaterUtils.cpp:71`. -/
def densityResidual (P D : ℝ) (h : HState) : ℝ := (D * D * h.hD - P) / Pcr

/-- `df` of `WaterUtils.cpp:72`. -/
def densitySlope (D : ℝ) (h : HState) : ℝ := (2 * D * h.hD + D * D * h.hDD) / Pcr

/-- The update of `WaterUtils.cpp:74`. -/
def densityStep (P D : ℝ) (h : HState) : ℝ :=
  let q := densityResidual P D h / densitySlope D h
  if D > q then D - q else P / (D * h.hD)

/-- The loop of `WaterUtils.cpp:67-78` with the number of iterations left; without any left the function
throws, lines 80-84. -/
def densityLoop (model : ℝ → HState) (P : ℝ) : ℕ → ℝ → Res ℝ
  | 0, _ => .throw
  | n + 1, D =>
    let h := model D
    let D' := densityStep P D h
    if |densityResidual P D h| < densityTol then .ok D' else densityLoop model P n D'

/-- `waterDensity`, `WaterUtils.cpp:36-87`. -/
def waterDensity (T P : ℝ) (model : ℝ → ℝ → HState) (som : StateOfMatter) : Res ℝ :=
  densityLoop (model T) P 100 (densityGuess T P som)

/-- `waterDensityHGK`, `WaterUtils.cpp:89-92`. -/
def waterDensityHGK (T P : ℝ) (som : StateOfMatter) : Res ℝ := waterDensity T P hgk som

/-- `waterDensityWagnerPruss`, `WaterUtils.cpp:104-107`. -/
def waterDensityWagnerPruss (T P : ℝ) (som : StateOfMatter) : Res ℝ := waterDensity T P wagnerPruss som

/-- `waterThermoStateWagnerPruss`, `WaterThermoStateUtils.cpp:72-77`. -/
def thermoStateWagnerPruss (T P : ℝ) (som : StateOfMatter) : Res ThermoState :=
  (waterDensityWagnerPruss T P som).bind fun D => .ok (thermoState T P (wagnerPruss T D))

/-- `waterThermoStateHGK`, `WaterThermoStateUtils.cpp:59-64`. -/
def thermoStateHGK (T P : ℝ) (som : StateOfMatter) : Res ThermoState :=
  (waterDensityHGK T P som).bind fun D => .ok (thermoState T P (hgk T D))

/-! ### Pressure from density -/

/-- `waterPressure`, `WaterUtils.cpp:119-124`. -/
def waterPressure (T D : ℝ) (model : ℝ → ℝ → HState) : ℝ := D * D * (model T D).hD

/-- `waterPressureHGK`, `WaterUtils.cpp:126-129`. -/
def waterPressureHGK (T D : ℝ) : ℝ := waterPressure T D hgk

/-- `waterPressureWagnerPruss`, `WaterUtils.cpp:131-134`.  The code passes the other equation of state. -/
def waterPressureWagnerPruss (T D : ℝ) : ℝ := waterPressure T D hgk

/-! ### Saturation -/

/-- `waterSaturatedPressureWagnerPruss`, `WaterUtils.cpp:136-156`. -/
def saturatedPressure (T : ℝ) : ℝ :=
  let t := 1 - T / Tcr
  let t15 := t ^ (1.5 : ℝ)
  let t30 := t15 * t15
  let t35 := t15 * t * t
  let t40 := t30 * t
  let t75 := t35 * t40
  Pcr * exp (Tcr / T * (-7.85951783 * t + 1.84408259 * t15 + -11.7866497 * t30 + 22.6807411 * t35 + -15.9618719 * t40 + 1.80122502 * t75))

/-- `waterSaturatedLiquidDensityWagnerPruss`, `WaterUtils.cpp:158-179`. -/
def saturatedLiquidDensity (T : ℝ) : ℝ :=
  let t := 1 - T / Tcr
  let t13 := t ^ (1 / 3 : ℝ)
  let t23 := t13 * t13
  let t53 := t13 * t23 * t23
  let t163 := t13 * t53 * t53 * t53
  let t433 := t163 * t163 * t53 * t * t
  let t1103 := t433 * t433 * t163 * t53 * t
  Dcr * (1 + 1.99274064 * t13 + 1.09965342 * t23 + -0.510839303 * t53 + -1.75493479 * t163 + -45.5170352 * t433 + -6.74694450e5 * t1103)

/-- `waterSaturatedVapourDensityWagnerPruss`, `WaterUtils.cpp:181-203`. -/
def saturatedVapourDensity (T : ℝ) : ℝ :=
  let t := 1 - T / Tcr
  let t16 := t ^ (1 / 6 : ℝ)
  let t26 := t16 * t16
  let t46 := t26 * t26
  let t86 := t46 * t46
  let t186 := t86 * t86 * t26
  let t376 := t186 * t186 * t16
  let t716 := t376 * t186 * t86 * t86
  Dcr * exp (Tcr / T * (-2.03150240 * t26 + -2.68302940 * t46 + -5.38626492 * t86 + -17.2991605 * t186 + -44.7586581 * t376 + -63.9201063 * t716))

/-! ### Dielectric constant -/

/-- `WaterElectroState`, `WaterElectroState.hpp:25-62`. -/
structure ElectroState where
  epsilon : ℝ
  epsilonT : ℝ
  epsilonP : ℝ
  epsilonTT : ℝ
  epsilonTP : ℝ
  epsilonPP : ℝ
  bornZ : ℝ
  bornY : ℝ
  bornQ : ℝ
  bornN : ℝ
  bornU : ℝ
  bornX : ℝ

/-- The coefficients `a`, `WaterElectroStateJohnsonNorton.cpp:44-57`. -/
def jnA : List ℝ :=
  [0, 0.1470333593e2, 0.2128462733e3, -0.1154445173e3, 0.1955210915e2, -0.8330347980e2, 0.3213240048e2,
    -0.6694098645e1, -0.3786202045e2, 0.6887359646e2, -0.2729401652e2]

/-- The functions `k0` to `k4`, `WaterElectroStateJohnsonNorton.cpp:59-63`. -/
def jnK (i : ℕ) (t : ℝ) : ℝ :=
  let a := fun j => jnA.getD j 0
  match i with
  | 0 => 1
  | 1 => a 1 / t
  | 2 => a 2 / t + a 3 + a 4 * t
  | 3 => a 5 / t + a 6 * t + a 7 * t * t
  | _ => a 8 / t / t + a 9 / t + a 10

/-- Their first derivatives, `WaterElectroStateJohnsonNorton.cpp:65-69`. -/
def jnKt (i : ℕ) (t : ℝ) : ℝ :=
  let a := fun j => jnA.getD j 0
  match i with
  | 0 => 0
  | 1 => (-a 1) / (t * t)
  | 2 => (-a 2) / (t * t) + a 4
  | 3 => (-a 5) / (t * t) + a 6 + 2 * a 7 * t
  | _ => (-2) * a 8 / (t * t * t) - a 9 / (t * t)

/-- Their second derivatives, `WaterElectroStateJohnsonNorton.cpp:71-75`. -/
def jnKtt (i : ℕ) (t : ℝ) : ℝ :=
  let a := fun j => jnA.getD j 0
  match i with
  | 0 => 0
  | 1 => 2 * a 1 / (t * t * t)
  | 2 => 2 * a 2 / (t * t * t)
  | 3 => 2 * a 5 / (t * t * t) + 2 * a 7
  | _ => 6 * a 8 / (t * t * t * t) + 2 * a 9 / (t * t * t)

/-- The six numbers accumulated by the loop of `WaterElectroStateJohnsonNorton.cpp:99-112`. -/
structure Epsilon where
  e : ℝ
  eT : ℝ
  eP : ℝ
  eTT : ℝ
  eTP : ℝ
  ePP : ℝ

/-- `kReferenceTemperature`, `WaterElectroStateJohnsonNorton.cpp:41`. -/
def jnTr : ℝ := 298.15
/-- `kReferenceDensity`, `WaterElectroStateJohnsonNorton.cpp:42`. -/
def jnDr : ℝ := 1000

/-- The terms added by iteration `i` of the loop, `WaterElectroStateJohnsonNorton.cpp:87-111`. -/
def jnTerm (i : ℕ) (T : ℝ) (wt : ThermoState) : Epsilon :=
  let alpha := (-wt.densityT) / wt.density
  let beta := wt.densityP / wt.density
  let alphaT := (-wt.densityTT) / wt.density + alpha * alpha
  let betaT := wt.densityTP / wt.density + alpha * beta
  let betaP := wt.densityPP / wt.density - beta * beta
  let t := T / jnTr
  let r := wt.density / jnDr
  let ri := r ^ i
  let ki := jnK i t
  let ki_t := jnKt i t / jnTr
  let ki_tt := jnKtt i t / jnTr / jnTr
  { e := ki * ri
    eT := ri * (ki_t - i * alpha * ki)
    eP := ri * ki * i * beta
    eTT := ri * (ki_tt - i * (alpha * ki_t + ki * alphaT) - i * alpha * (ki_t - i * alpha * ki))
    eTP := ri * ki * i * beta * (ki_t / ki - i * alpha + betaT / beta)
    ePP := ri * ki * i * beta * (i * beta + betaP / beta) }

/-- A sum of the five iterations of the loop. -/
def sum5 (f : ℕ → ℝ) : ℝ := f 0 + f 1 + f 2 + f 3 + f 4

/-- The Born functions, `WaterElectroStateJohnsonNorton.cpp:114-121`. -/
def bornFunctions (x : Epsilon) : ElectroState :=
  let epsilon2 := x.e * x.e
  let bornY := x.eT / epsilon2
  let bornQ := x.eP / epsilon2
  { epsilon := x.e, epsilonT := x.eT, epsilonP := x.eP, epsilonTT := x.eTT, epsilonTP := x.eTP, epsilonPP := x.ePP
    bornZ := (-1) / x.e
    bornY := bornY
    bornQ := bornQ
    bornU := x.eTP / epsilon2 - 2 * bornY * bornQ * x.e
    bornN := x.ePP / epsilon2 - 2 * bornQ * bornQ * x.e
    bornX := x.eTT / epsilon2 - 2 * bornY * bornY * x.e }

/-- `waterElectroStateJohnsonNorton`, `WaterElectroStateJohnsonNorton.cpp:83-124`.  The pressure argument
is not used by the code. -/
def electroState (T : ℝ) (wt : ThermoState) : ElectroState :=
  bornFunctions
    { e := sum5 fun i => (jnTerm i T wt).e
      eT := sum5 fun i => (jnTerm i T wt).eT
      eP := sum5 fun i => (jnTerm i T wt).eP
      eTT := sum5 fun i => (jnTerm i T wt).eTT
      eTP := sum5 fun i => (jnTerm i T wt).eTP
      ePP := sum5 fun i => (jnTerm i T wt).ePP }

end
end Verif.Water
