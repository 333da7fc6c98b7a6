import Verif.Base
import Mathlib.Analysis.SpecialFunctions.Log.Basic
import Mathlib.Analysis.SpecialFunctions.Pow.Real
import Mathlib.Analysis.SpecialFunctions.Sqrt

/-!
# Standard thermodynamic models

Models the evaluation functions of `Reaktoro/Models/StandardThermoModelMaierKelley.cpp`,
`StandardThermoModelHollandPowell.cpp`, `StandardThermoModelMineralHKF.cpp` and
`StandardThermoModelConstant.cpp`.  Numbers are exact reals; the automatic differentiation seeds
carried by `real`, the memoization and the serializers are not modelled.  Parameters of type
`Param` are read through their current value, so they appear as plain reals.
-/

namespace Verif.StandardModels

open Real
noncomputable section
open Classical

/-- `StandardThermoProps`, `Reaktoro/Core/StandardThermoProps.hpp:27-43` : the five standard
properties a model fills. -/
structure Props where
  G0 : ℝ
  H0 : ℝ
  V0 : ℝ
  Cp0 : ℝ
  Cv0 : ℝ

/-- The reference temperature of 25 °C, `StandardThermoModelMaierKelley.cpp:57`,
`StandardThermoModelHollandPowell.cpp:63`, `StandardThermoModelMineralHKF.cpp:64`. -/
def Tr : ℝ := 298.15
/-- The reference pressure of 1 bar, `StandardThermoModelMaierKelley.cpp:58`,
`StandardThermoModelHollandPowell.cpp:62`, `StandardThermoModelMineralHKF.cpp:65`. -/
def Pr : ℝ := 100000
/-- `universalGasConstant`, `Reaktoro/Common/Constants.hpp:26`. -/
def R : ℝ := 8.3144621

/-! ### Constant model -/

/-- `StandardThermoModelConstant`, `StandardThermoModelConstant.cpp:43-57` : the parameters are
copied to the properties whatever the temperature and pressure. -/
def constant (p : Props) (_T _P : ℝ) : Res Props := .ok p

/-! ### Maier–Kelley -/

/-- `StandardThermoModelParamsMaierKelley`, `StandardThermoModelMaierKelley.hpp:26-51`
(`Tmax` is never read by the evaluation function and is left out). -/
structure MaierKelley where
  Gf : ℝ
  Hf : ℝ
  Sr : ℝ
  Vr : ℝ
  a : ℝ
  b : ℝ
  c : ℝ

/-- The evaluation function of `StandardThermoModelMaierKelley`,
`StandardThermoModelMaierKelley.cpp:48-73`.  `isgas` is computed once, when the model is built,
from the value the parameter `Vr` has at that moment (line 50), so it is an argument here. -/
def maierKelleyEval (isgas : Bool) (p : MaierKelley) (T P : ℝ) : Res Props :=
  let CpdT := p.a * (T - Tr) + 0.5 * p.b * (T * T - Tr * Tr) - p.c * (1 / T - 1 / Tr)
  let CpdlnT := p.a * log (T / Tr) + p.b * (T - Tr) - 0.5 * p.c * (1 / (T * T) - 1 / (Tr * Tr))
  let VdP := p.Vr * (P - Pr)
  let Cp0 := p.a + p.b * T + p.c / (T * T)
  .ok { V0 := p.Vr
        G0 := p.Gf - p.Sr * (T - Tr) + CpdT - T * CpdlnT + VdP
        H0 := p.Hf + CpdT + VdP
        Cp0 := Cp0
        Cv0 := if isgas then Cp0 - R else Cp0 }

/-- `StandardThermoModelMaierKelley`, `StandardThermoModelMaierKelley.cpp:48-73` : the substance is
a gas when its reference volume is zero. -/
def maierKelley (p : MaierKelley) : ℝ → ℝ → Res Props := maierKelleyEval (decide (p.Vr = 0)) p

/-! ### Holland–Powell -/

/-- `StandardThermoModelParamsHollandPowell`, `StandardThermoModelHollandPowell.hpp:26-82`
(`Tmax` is never read by the evaluation function and is left out). -/
structure HollandPowell where
  Gf : ℝ
  Hf : ℝ
  Sr : ℝ
  Vr : ℝ
  a : ℝ
  b : ℝ
  c : ℝ
  d : ℝ
  alpha0 : ℝ
  kappa0 : ℝ
  kappa0p : ℝ
  kappa0pp : ℝ
  numatoms : ℝ

/-- `ka`, `StandardThermoModelHollandPowell.cpp:94`. -/
def HollandPowell.ka (p : HollandPowell) : ℝ :=
  (1 + p.kappa0p) / (1 + p.kappa0p + p.kappa0 * p.kappa0pp)
/-- `kb`, `StandardThermoModelHollandPowell.cpp:95`. -/
def HollandPowell.kb (p : HollandPowell) : ℝ :=
  p.kappa0p / p.kappa0 - p.kappa0pp / (1 + p.kappa0p)
/-- `kc`, `StandardThermoModelHollandPowell.cpp:96`. -/
def HollandPowell.kc (p : HollandPowell) : ℝ :=
  (1 + p.kappa0p + p.kappa0 * p.kappa0pp) / (p.kappa0p * (1 + p.kappa0p) - p.kappa0 * p.kappa0pp)
/-- `theta`, `StandardThermoModelHollandPowell.cpp:99`. -/
def HollandPowell.theta (p : HollandPowell) : ℝ := 10636 / (p.Sr / p.numatoms + 6.44)
/-- `E` and `E0`, `StandardThermoModelHollandPowell.cpp:101-115` at the temperature `T`. -/
def HollandPowell.E (p : HollandPowell) (T : ℝ) : ℝ :=
  let u := p.theta / T
  let w := u / (exp u - 1)
  w * w * exp u
/-- `Pth`, `StandardThermoModelHollandPowell.cpp:118`. -/
def HollandPowell.Pth (p : HollandPowell) (T : ℝ) : ℝ :=
  p.alpha0 * p.kappa0 * (p.theta / p.E Tr) * (1 / (exp (p.theta / T) - 1) - 1 / (exp (p.theta / Tr) - 1))

/-- `aux1`, `StandardThermoModelHollandPowell.cpp:121`. -/
def HollandPowell.aux1 (p : HollandPowell) (T : ℝ) : ℝ := 1 - p.kb * p.Pth T
/-- `aux3`, `StandardThermoModelHollandPowell.cpp:123`. -/
def HollandPowell.aux3 (p : HollandPowell) (T P : ℝ) : ℝ := 1 + p.kb * (P - p.Pth T)

/-- `V`, `StandardThermoModelHollandPowell.cpp:77,86,136`; `alpha` and `kappa` (lines
129-133) are computed and never used. -/
def HollandPowell.V (p : HollandPowell) (T P : ℝ) : ℝ :=
  if p.kappa0 = 0 then p.Vr else p.Vr * (1 - p.ka * (1 - 1 / (p.aux3 T P) ^ p.kc))

/-- `VdP`, `StandardThermoModelHollandPowell.cpp:80,89,120-125,139`. -/
def HollandPowell.VdP (p : HollandPowell) (T P : ℝ) : ℝ :=
  if p.kappa0 = 0 then p.Vr * (P - Pr)
  else
    let aux2 := (p.aux1 T) ^ (1 - p.kc)
    let aux4 := (p.aux3 T P) ^ (1 - p.kc)
    let aux5 := p.kb * (p.kc - 1) * P
    P * p.Vr * (1 - p.ka + p.ka * (aux2 - aux4) / aux5)

/-- `CpdT`, `StandardThermoModelHollandPowell.cpp:73`. -/
def HollandPowell.CpdT (p : HollandPowell) (T : ℝ) : ℝ :=
  p.a * (T - Tr) + 0.5 * p.b * (T * T - Tr * Tr) - p.c * (1 / T - 1 / Tr) + 2 * p.d * (sqrt T - sqrt Tr)
/-- `CpdlnT`, `StandardThermoModelHollandPowell.cpp:74`. -/
def HollandPowell.CpdlnT (p : HollandPowell) (T : ℝ) : ℝ :=
  p.a * log (T / Tr) + p.b * (T - Tr) - 0.5 * p.c * (1 / (T * T) - 1 / (Tr * Tr))
    - 2 * p.d * (1 / sqrt T - 1 / sqrt Tr)
/-- `Cp`, `StandardThermoModelHollandPowell.cpp:72`. -/
def HollandPowell.Cp (p : HollandPowell) (T : ℝ) : ℝ :=
  p.a + p.b * T + p.c / (T * T) + p.d / sqrt T

/-- `StandardThermoModelHollandPowell`, `StandardThermoModelHollandPowell.cpp:51-152`. -/
def hollandPowell (p : HollandPowell) (T P : ℝ) : Res Props :=
  .ok { G0 := p.Gf - p.Sr * (T - Tr) + p.CpdT T - T * p.CpdlnT T + p.VdP T P
        H0 := p.Hf + p.CpdT T + p.VdP T P
        V0 := p.V T P
        Cp0 := p.Cp T
        Cv0 := p.Cp T }

/-! ### Minerals with phase transitions -/

/-- `StandardThermoModelParamsMineralHKF`, `StandardThermoModelMineralHKF.hpp:26-66` (`Tmax` is never
read by the evaluation function and is left out). -/
structure Mineral where
  Gf : ℝ
  Hf : ℝ
  Sr : ℝ
  Vr : ℝ
  ntr : ℕ
  a : List ℝ
  b : List ℝ
  c : List ℝ
  Ttr : List ℝ
  Htr : List ℝ
  Vtr : List ℝ
  dPdTtr : List ℝ

/-- The transition temperatures below `T`, in the order they are listed,
`StandardThermoModelMineralHKF.cpp:70-71`. -/
def Mineral.passed (p : Mineral) (T : ℝ) : List ℝ :=
  (p.Ttr.take p.ntr).filter (fun x => decide (x < T))

/-- `Ti`, `StandardThermoModelMineralHKF.cpp:68-72`. -/
def Mineral.Ti (p : Mineral) (T : ℝ) : List ℝ := (Tr :: p.passed T) ++ [T]

/-- The transitions that have an entry in `Ptr` : those whose slope is not zero,
`StandardThermoModelMineralHKF.cpp:76-80`. -/
def Mineral.sloped (p : Mineral) : List ℕ :=
  (List.range p.ntr).filter (fun i => decide (p.dPdTtr.getD i 0 ≠ 0))

/-- `Ptr`, `StandardThermoModelMineralHKF.cpp:75-80`. -/
def Mineral.Ptr (p : Mineral) (T : ℝ) : List ℝ :=
  p.sloped.map (fun i => Pr + p.dPdTtr.getD i 0 * (T - p.Ttr.getD i 0))

/-- `Cp`, `StandardThermoModelMineralHKF.cpp:83-86` : zero, overwritten by every interval that
contains `T`. -/
def Mineral.Cp (p : Mineral) (T : ℝ) : ℝ :=
  (List.range ((p.Ti T).length - 1)).foldl
    (fun Cp i => if (p.Ti T).getD i 0 ≤ T ∧ T ≤ (p.Ti T).getD (i + 1) 0
      then p.a.getD i 0 + p.b.getD i 0 * T + p.c.getD i 0 / (T * T) else Cp) 0

/-- The summand of `CpdT`, `StandardThermoModelMineralHKF.cpp:96`. -/
def Mineral.cpT (p : Mineral) (i : ℕ) (T0 T1 : ℝ) : ℝ :=
  p.a.getD i 0 * (T1 - T0) + 0.5 * p.b.getD i 0 * (T1 * T1 - T0 * T0) - p.c.getD i 0 * (1 / T1 - 1 / T0)
/-- The summand of `CpdlnT`, `StandardThermoModelMineralHKF.cpp:97`. -/
def Mineral.cplnT (p : Mineral) (i : ℕ) (T0 T1 : ℝ) : ℝ :=
  p.a.getD i 0 * log (T1 / T0) + p.b.getD i 0 * (T1 - T0)
    - 0.5 * p.c.getD i 0 * (1 / (T1 * T1) - 1 / (T0 * T0))

/-- `CpdT`, `StandardThermoModelMineralHKF.cpp:89-98`. -/
def Mineral.CpdT (p : Mineral) (T : ℝ) : ℝ :=
  ∑ i ∈ Finset.range ((p.Ti T).length - 1), p.cpT i ((p.Ti T).getD i 0) ((p.Ti T).getD (i + 1) 0)
/-- `CpdlnT`, `StandardThermoModelMineralHKF.cpp:89-98`. -/
def Mineral.CpdlnT (p : Mineral) (T : ℝ) : ℝ :=
  ∑ i ∈ Finset.range ((p.Ti T).length - 1), p.cplnT i ((p.Ti T).getD i 0) ((p.Ti T).getD (i + 1) 0)

/-- `GdH`, `StandardThermoModelMineralHKF.cpp:102,107` (the loop index is shifted by one). -/
def Mineral.GdH (p : Mineral) (T : ℝ) : ℝ :=
  ∑ i ∈ Finset.range ((p.Ti T).length - 2),
    p.Htr.getD i 0 * (T - (p.Ti T).getD (i + 1) 0) / (p.Ti T).getD (i + 1) 0
/-- `HdH`, `StandardThermoModelMineralHKF.cpp:103,108`. -/
def Mineral.HdH (p : Mineral) (T : ℝ) : ℝ :=
  ∑ i ∈ Finset.range ((p.Ti T).length - 2), p.Htr.getD i 0
/-- `SdH`, `StandardThermoModelMineralHKF.cpp:104,109` (only used by the commented-out entropy). -/
def Mineral.SdH (p : Mineral) (T : ℝ) : ℝ :=
  ∑ i ∈ Finset.range ((p.Ti T).length - 2), p.Htr.getD i 0 / (p.Ti T).getD (i + 1) 0
/-- `V` after the loop `StandardThermoModelMineralHKF.cpp:101-112`. -/
def Mineral.Vbase (p : Mineral) (T : ℝ) : ℝ :=
  p.Vr + ∑ i ∈ Finset.range ((p.Ti T).length - 2), p.Vtr.getD i 0

/-- The condition of `StandardThermoModelMineralHKF.cpp:118`. -/
def Mineral.crossed (p : Mineral) (T P : ℝ) (j : ℕ) : Prop :=
  0 < (p.Ptr T).getD j 0 ∧ (p.Ptr T).getD j 0 < P

/-- `V` at the end, `StandardThermoModelMineralHKF.cpp:116-123`. -/
def Mineral.V (p : Mineral) (T P : ℝ) : ℝ :=
  p.Vbase T - ∑ j ∈ Finset.range (p.Ptr T).length,
    if p.crossed T P j then p.Vtr.getD j 0 else 0
/-- `VdP`, `StandardThermoModelMineralHKF.cpp:115-123`. -/
def Mineral.VdP (p : Mineral) (T P : ℝ) : ℝ :=
  p.Vbase T * (P - Pr) - ∑ j ∈ Finset.range (p.Ptr T).length,
    if p.crossed T P j then p.Vtr.getD j 0 * (P - (p.Ptr T).getD j 0) else 0

/-- No read of the evaluation function is past the end of a vector : `Ttr[i]` (lines 71 and 79) and
`dPdTtr[i]` (line 78) for every transition, `a[i]`, `b[i]`, `c[i]` (lines 96-97) for every interval,
`Htr[i-1]` and `Vtr[i-1]` (lines 107-111) for every transition passed, and `Vtr[i]` (lines 120-121)
for every boundary crossed. -/
def Mineral.InRange (p : Mineral) (T P : ℝ) : Prop :=
  p.ntr ≤ p.Ttr.length ∧ p.ntr ≤ p.dPdTtr.length ∧
  (p.passed T).length + 1 ≤ p.a.length ∧ (p.passed T).length + 1 ≤ p.b.length ∧
  (p.passed T).length + 1 ≤ p.c.length ∧
  (p.passed T).length ≤ p.Htr.length ∧ (p.passed T).length ≤ p.Vtr.length ∧
  ∀ j < (p.Ptr T).length, p.crossed T P j → j < p.Vtr.length

/-- `StandardThermoModelMineralHKF`, `StandardThermoModelMineralHKF.cpp:56-135`.  Reading past the
end of a vector is undefined behaviour. -/
def mineral (p : Mineral) (T P : ℝ) : Res Props :=
  if p.InRange T P then
    .ok { V0 := p.V T P
          G0 := p.Gf - p.Sr * (T - Tr) + p.CpdT T - T * p.CpdlnT T + p.VdP T P - p.GdH T
          H0 := p.Hf + p.CpdT T + p.VdP T P + p.HdH T
          Cp0 := p.Cp T
          Cv0 := p.Cp T }
  else .ub

end
end Verif.StandardModels
