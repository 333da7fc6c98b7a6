import Verif.Base
import Verif.Model.Cardano
import Mathlib.Analysis.SpecialFunctions.Log.Basic
import Mathlib.Analysis.SpecialFunctions.Sqrt

/-!
# Model of `Reaktoro/Thermodynamics/Fluids/CubicEOS.cpp` and `PhaseIdentification.cpp`

Numbers are reals. Arrays of species are functions of `Fin n`. The solver of quartic equations of Eigen is a parameter. Where the code takes
the logarithm of a negative number it gets NaN; the model's logarithm is that of the absolute value, so the theorems about quantities with logarithms
assume `Z > beta`, and the only comparison of such quantities in the code (`gibbsComparison`) is modelled with NaN.
-/

namespace Verif.CubicEOS

/-- `universalGasConstant` (Common/Constants.hpp). -/
noncomputable def R : ℝ := 8.3144621

/-- `CubicEOSModel` (CubicEOS.hpp:59-65). -/
inductive Kind where
  | vanDerWaals | redlichKwong | soaveRedlichKwong | pengRobinson
  deriving DecidableEq

/-- `CubicEOSFluidType` (PhaseIdentification.hpp). -/
inductive Fluid where
  | vapor | liquid
  deriving DecidableEq

/-- `PhaseIdentificationMethod` (PhaseIdentification.hpp). -/
inductive Method where
  | none | volume | isothermalCompressibility | gibbsEnergyAndEquationOfState
  deriving DecidableEq

/-- `alphaSRK` and `alphaPR` after the computation of `m` (CubicEOS.cpp:84-93, 108-117). -/
noncomputable def alphaSoave (m Tr TrT : ℝ) : ℝ × ℝ × ℝ :=
  let sqrtTr := √Tr
  let sqrtTrT := 0.5 / sqrtTr * TrT
  let sqrtTrTT := -0.5 / Tr * sqrtTrT * TrT
  let aux := 1 + m * (1 - sqrtTr)
  let auxT := -m * sqrtTrT
  let auxTT := -m * sqrtTrTT
  (aux * aux, 2 * aux * auxT, 2 * (auxT * auxT + aux * auxTT))

open Classical in
/-- `alpha` (CubicEOS.cpp:58-125). -/
noncomputable def alpha (k : Kind) (Tr TrT omega : ℝ) : ℝ × ℝ × ℝ :=
  match k with
  | .vanDerWaals => (1, 0, 0)
  | .redlichKwong =>
    let alpha := 1 / √Tr
    let alphaT := -0.5 / Tr * alpha * TrT
    (alpha, alphaT, 0.5 / Tr * (alpha / Tr * TrT - alphaT) * TrT)
  | .soaveRedlichKwong => alphaSoave (0.480 + 1.574 * omega - 0.176 * omega * omega) Tr TrT
  | .pengRobinson => alphaSoave (if omega ≤ 0.491 then 0.374640 + 1.54226 * omega - 0.269920 * omega * omega else
      0.379642 + 1.48503 * omega - 0.164423 * omega * omega + 0.016666 * omega * omega * omega) Tr TrT

/-- `sigma` (CubicEOS.cpp:127-137). -/
noncomputable def sigma : Kind → ℝ
  | .vanDerWaals => 0
  | .redlichKwong => 1
  | .soaveRedlichKwong => 1
  | .pengRobinson => 1 + 1.4142135623730951

/-- `epsilon` (CubicEOS.cpp:139-149). -/
noncomputable def epsilon : Kind → ℝ
  | .vanDerWaals => 0
  | .redlichKwong => 0
  | .soaveRedlichKwong => 0
  | .pengRobinson => 1 - 1.4142135623730951

/-- `Omega` (CubicEOS.cpp:151-161). -/
noncomputable def Omega : Kind → ℝ
  | .vanDerWaals => 1 / 8
  | .redlichKwong => 0.08664
  | .soaveRedlichKwong => 0.08664
  | .pengRobinson => 0.0777960739

/-- `Psi` (CubicEOS.cpp:163-173). -/
noncomputable def Psi : Kind → ℝ
  | .vanDerWaals => 27 / 64
  | .redlichKwong => 0.42748
  | .soaveRedlichKwong => 0.42748
  | .pengRobinson => 0.457235529

/-- `CubicEOSInteractionParams` (CubicEOS.hpp:67-75); `none` is an empty matrix. -/
structure Ip (n : Nat) where
  k : Option (Fin n → Fin n → ℝ) := none
  kT : Option (Fin n → Fin n → ℝ) := none
  kTT : Option (Fin n → Fin n → ℝ) := none

/-- `CubicEOS::Impl` (CubicEOS.cpp:177-208). The function for the interaction parameters is given `T` only: the arrays passed with it are
functions of `T` (CubicEOS.cpp:267). An empty function is one that returns empty matrices. -/
structure Eos (n : Nat) where
  fluidtype : Fluid
  model : Kind
  method : Method
  Tcr : Fin n → ℝ
  Pcr : Fin n → ℝ
  omega : Fin n → ℝ
  interaction : ℝ → Ip n

variable {n : Nat}

/-! ## Parameters of species and mixture -/

/-- `a[k]`, `aT[k]` and `aTT[k]` (CubicEOS.cpp:252-261). -/
noncomputable def factor (e : Eos n) (k : Fin n) : ℝ := Psi e.model * R * R * (e.Tcr k * e.Tcr k) / e.Pcr k
noncomputable def a (e : Eos n) (T : ℝ) (k : Fin n) : ℝ := factor e k * (alpha e.model (T * (1 / e.Tcr k)) (1 / e.Tcr k) (e.omega k)).1
noncomputable def aT (e : Eos n) (T : ℝ) (k : Fin n) : ℝ := factor e k * (alpha e.model (T * (1 / e.Tcr k)) (1 / e.Tcr k) (e.omega k)).2.1
noncomputable def aTT (e : Eos n) (T : ℝ) (k : Fin n) : ℝ := factor e k * (alpha e.model (T * (1 / e.Tcr k)) (1 / e.Tcr k) (e.omega k)).2.2

/-- `b[k]` (CubicEOS.cpp:261). -/
noncomputable def b (e : Eos n) (k : Fin n) : ℝ := Omega e.model * R * e.Tcr k / e.Pcr k

/-- `bbar[i]` (CubicEOS.cpp:313). -/
noncomputable def bbar (e : Eos n) (i : Fin n) : ℝ := Omega e.model * R * e.Tcr i / e.Pcr i

/-- `r`, `rT`, `rTT` (CubicEOS.cpp:279-281). -/
noncomputable def r (e : Eos n) (T : ℝ) (i j : Fin n) : ℝ := match (e.interaction T).k with | some k => 1 - k i j | none => 1
noncomputable def rT (e : Eos n) (T : ℝ) (i j : Fin n) : ℝ := match (e.interaction T).kT with | some k => - k i j | none => 0
noncomputable def rTT (e : Eos n) (T : ℝ) (i j : Fin n) : ℝ := match (e.interaction T).kTT with | some k => - k i j | none => 0

/-- `s`, `sT`, `sTT` (CubicEOS.cpp:283-285). -/
noncomputable def s (e : Eos n) (T : ℝ) (i j : Fin n) : ℝ := √(a e T i * a e T j)
noncomputable def sT (e : Eos n) (T : ℝ) (i j : Fin n) : ℝ := 0.5 * s e T i j / (a e T i * a e T j) * (aT e T i * a e T j + a e T i * aT e T j)
noncomputable def sTT (e : Eos n) (T : ℝ) (i j : Fin n) : ℝ :=
  0.5 * s e T i j / (a e T i * a e T j) * (aTT e T i * a e T j + 2 * aT e T i * aT e T j + a e T i * aTT e T j) - sT e T i j * sT e T i j / s e T i j

/-- `aij`, `aijT`, `aijTT` (CubicEOS.cpp:287-289). -/
noncomputable def aij (e : Eos n) (T : ℝ) (i j : Fin n) : ℝ := r e T i j * s e T i j
noncomputable def aijT (e : Eos n) (T : ℝ) (i j : Fin n) : ℝ := rT e T i j * s e T i j + r e T i j * sT e T i j
noncomputable def aijTT (e : Eos n) (T : ℝ) (i j : Fin n) : ℝ := rTT e T i j * s e T i j + 2 * rT e T i j * sT e T i j + r e T i j * sTT e T i j

/-- `amix`, `amixT`, `amixTT` (CubicEOS.cpp:269-293). -/
noncomputable def amix (e : Eos n) (T : ℝ) (x : Fin n → ℝ) : ℝ := ∑ i, ∑ j, x i * x j * aij e T i j
noncomputable def amixT (e : Eos n) (T : ℝ) (x : Fin n → ℝ) : ℝ := ∑ i, ∑ j, x i * x j * aijT e T i j
noncomputable def amixTT (e : Eos n) (T : ℝ) (x : Fin n → ℝ) : ℝ := ∑ i, ∑ j, x i * x j * aijTT e T i j

/-- `abar[i]` (CubicEOS.cpp:295, 303). -/
noncomputable def abar (e : Eos n) (T : ℝ) (x : Fin n → ℝ) (i : Fin n) : ℝ := (∑ j, 2 * x j * aij e T i j) - amix e T x

/-- `bmix` (CubicEOS.cpp:310-315). -/
noncomputable def bmix (e : Eos n) (x : Fin n → ℝ) : ℝ := ∑ i, x i * bbar e i

/-- `beta`, `betaT`, `betaP` (CubicEOS.cpp:322-324). -/
noncomputable def beta (e : Eos n) (T P : ℝ) (x : Fin n → ℝ) : ℝ := P * bmix e x / (R * T)
noncomputable def betaT (e : Eos n) (T P : ℝ) (x : Fin n → ℝ) : ℝ := -beta e T P x / T
noncomputable def betaP (e : Eos n) (T P : ℝ) (x : Fin n → ℝ) : ℝ := beta e T P x / P

/-- `q`, `qT`, `qTT` (CubicEOS.cpp:327-329); `qP` is 0 (330). -/
noncomputable def q (e : Eos n) (T : ℝ) (x : Fin n → ℝ) : ℝ := amix e T x / (bmix e x * R * T)
noncomputable def qT (e : Eos n) (T : ℝ) (x : Fin n → ℝ) : ℝ := q e T x * (amixT e T x / amix e T x - 1 / T)
noncomputable def qTT (e : Eos n) (T : ℝ) (x : Fin n → ℝ) : ℝ :=
  qT e T x * qT e T x / q e T x + q e T x * (amixTT e T x / amix e T x - amixT e T x * amixT e T x / (amix e T x * amix e T x) + 1 / (T * T))

/-! ## The cubic polynomial, as functions of `epsilon`, `sigma`, `beta` and `q` -/

/-- `A`, `B`, `C` (CubicEOS.cpp:333-335). -/
noncomputable def cA (ε σ β : ℝ) : ℝ := (ε + σ - 1) * β - 1
noncomputable def cB (ε σ β q : ℝ) : ℝ := (ε * σ - ε - σ) * β * β - (ε + σ - q) * β
noncomputable def cC (ε σ β q : ℝ) : ℝ := -ε * σ * β * β * β - (ε * σ + q) * β * β

/-- `AT`, `BT`, `CT` and `AP`, `BP`, `CP` (CubicEOS.cpp:338-345) for the derivatives `β'` and `q'` of `beta` and `q`. -/
noncomputable def cA' (ε σ β' : ℝ) : ℝ := (ε + σ - 1) * β'
noncomputable def cB' (ε σ β q β' q' : ℝ) : ℝ := (ε * σ - ε - σ) * (2 * β * β') + q' * β - (ε + σ - q) * β'
noncomputable def cC' (ε σ β q β' q' : ℝ) : ℝ := -ε * σ * (3 * β * β * β') - q' * β * β - (ε * σ + q) * (2 * β * β')

/-- `ZT` and `ZP` (CubicEOS.cpp:410-411). -/
noncomputable def cZ' (ε σ β q β' q' Z : ℝ) : ℝ :=
  -(cA' ε σ β' * Z * Z + cB' ε σ β q β' q' * Z + cC' ε σ β q β' q') / (3 * Z * Z + 2 * cA ε σ β * Z + cB ε σ β q)

open Classical in
/-- `I` (CubicEOS.cpp:422, 428). -/
noncomputable def cI (ε σ β Z : ℝ) : ℝ := if ε ≠ σ then Real.log ((Z + σ * β) / (Z + ε * β)) / (σ - ε) else β / (Z + ε * β)

open Classical in
/-- `IT` and `IP` (CubicEOS.cpp:423-424, 429-430). -/
noncomputable def cI' (ε σ β Z β' Z' : ℝ) : ℝ :=
  if ε ≠ σ then ((Z' + σ * β') / (Z + σ * β) - (Z' + ε * β') / (Z + ε * β)) / (σ - ε)
  else cI ε σ β Z * (β' / β - (Z' + ε * β') / (Z + ε * β))

/-- `Gres/(R*T)` (CubicEOS.cpp:456). -/
noncomputable def cG (ε σ β q Z : ℝ) : ℝ := Z - 1 - Real.log (Z - β) - q * cI ε σ β Z

open Classical in
/-- The logarithm of a fugacity coefficient (CubicEOS.cpp:466-477) from `betak` and `qk`. -/
noncomputable def cLnPhi (ε σ β q Z βk qk : ℝ) : ℝ :=
  let A := cA ε σ β
  let B := cB ε σ β q
  let C := cC ε σ β q
  let I := cI ε σ β Z
  let Ak := (ε + σ - 1) * βk - 1
  let Bk := ((ε * σ - ε - σ) * (2 * βk - β) + qk - q) * β - (ε + σ - q) * βk
  let Ck := (ε * σ * (2 * β + 1) + 2 * q - qk) * β * β - (2 * (ε * σ + q) + 3 * ε * σ * β) * β * βk
  let Zk := -(Ak * Z * Z + (B + Bk) * Z + 2 * C + Ck) / (3 * Z * Z + 2 * A * Z + B)
  let Ik := if ε ≠ σ then I + ((Zk + σ * βk) / (Z + σ * β) - (Zk + ε * βk) / (Z + ε * β)) / (σ - ε)
    else I * (1 + βk / β - (Zk + ε * βk) / (Z + ε * β))
  Zk - (Zk - βk) / (Z - β) - Real.log (Z - β) + q * I - qk * I - q * Ik

/-! ## Phase identification -/

open Classical in
/-- `identifyPhaseUsingVolume` (PhaseIdentification.cpp:33-41). -/
noncomputable def byVolume (T P Z b : ℝ) : Fluid := if Z * R * T / P / b > 1.75 then .vapor else .liquid

/-- The pressure of the equation of state (PhaseIdentification.cpp:76-79). -/
noncomputable def pressure (ε σ T amix bmix V : ℝ) : ℝ := R * T / (V - bmix) - amix / ((V + ε * bmix) * (V + σ * bmix))

/-- The coefficients `EP`, `DP`, `CP`, `BP`, `AP` (PhaseIdentification.cpp:81-92), lowest degree first. -/
noncomputable def quartic (ε σ T amix bmix : ℝ) : List ℝ :=
  let k1 := ε * bmix
  let k2 := σ * bmix
  [R * T * k1 * k1 * k2 * k2 - amix * (k1 + k2) * bmix * bmix,
   2 * R * T * (k1 * k2 * k2 + k1 * k1 * k2) - 2 * amix * (bmix * bmix - k2 * bmix - k1 * bmix),
   R * T * (k2 * k2 + 4 * k1 * k2 + k1 * k1) - amix * (k1 + k2 - 4 * bmix),
   2 * R * T * (k2 + k1) - 2 * amix,
   R * T]

/-- `std::min_element` and `std::max_element`: the first smallest or largest element. -/
noncomputable def minOf (l : List ℝ) : ℝ := l.foldl min (l.headD 0)
noncomputable def maxOf (l : List ℝ) : ℝ := l.foldl max (l.headD 0)

open Classical in
/-- `pressureComparison` (PhaseIdentification.cpp:55-127). `solve4` finds the real roots of a quartic polynomial. -/
noncomputable def pressureComparison (solve4 : List ℝ → List ℝ) (P T amix bmix ε σ : ℝ) : Res Fluid :=
  let roots := (solve4 (quartic ε σ T amix bmix)).filter fun v => ¬ v < bmix
  if roots = [] then .ok .vapor
  else
    let pressures := roots.map (pressure ε σ T amix bmix)
    if P < minOf pressures then .ok .vapor
    else if P > maxOf pressures then .ok .liquid
    else .throw

open Classical in
/-- `gibbsResidualEnergyComparison` (PhaseIdentification.cpp:130-166). The comparison is false when one of the logarithms is not a number. -/
noncomputable def gibbsComparison (P T amix bmix Zmin Zmax ε σ : ℝ) : Fluid :=
  let β := P * bmix / (R * T)
  let G := fun Z => R * T * cG ε σ β (amix / (bmix * R * T)) Z
  let number := fun Z => 0 < Z - β ∧ (ε ≠ σ → 0 < (Z + σ * β) / (Z + ε * β))
  if number Zmax ∧ number Zmin ∧ G Zmax < G Zmin then .vapor else .liquid

open Classical in
/-- `identifyPhaseUsingGibbsEnergyAndEos` (PhaseIdentification.cpp:169-198). -/
noncomputable def byGibbs (solve4 : List ℝ → List ℝ) (P T amix bmix : ℝ) (Zs : List ℝ) (ε σ : ℝ) : Res Fluid :=
  match Zs with
  | [_] => pressureComparison solve4 P T amix bmix ε σ
  | [z0, z1] => .ok (gibbsComparison P T amix bmix (if z0 < z1 then z0 else z1) (if z0 < z1 then z1 else z0) ε σ)
  | _ => .throw

/-! ## `compute` -/

/-- `CubicEOSProps` (CubicEOS.hpp:30-57). -/
structure Props (n : Nat) where
  Vres : ℝ := 0
  VresT : ℝ := 0
  VresP : ℝ := 0
  Gres : ℝ := 0
  Hres : ℝ := 0
  Cpres : ℝ := 0
  Cvres : ℝ := 0
  ln_phi : Fin n → ℝ

/-- The properties at a given compressibility factor (CubicEOS.cpp:409-478), written to an object with the properties of an earlier
evaluation. -/
noncomputable def evaluate (e : Eos n) (props : Props n) (T P : ℝ) (x : Fin n → ℝ) (Z : ℝ) : Props n :=
  let ε := epsilon e.model
  let σ := sigma e.model
  let β := beta e T P x
  let q' := q e T x
  let ZT := cZ' ε σ β q' (betaT e T P x) (qT e T x) Z
  let ZP := cZ' ε σ β q' (betaP e T P x) 0 Z
  let I := cI ε σ β Z
  let IT := cI' ε σ β Z (betaT e T P x) ZT
  let V0 := R * T / P
  let V0T := V0 / T
  let V0P := -V0 / P
  let V := Z * V0
  let VT := ZT * V0 + Z * V0T
  let VP := ZP * V0 + Z * V0P
  let Hres := R * T * (Z - 1 + T * qT e T x * I)
  let Cpres := Hres / T + R * T * (ZT + qT e T x * I + T * qTT e T x * I + T * qT e T x * IT)
  { Vres := V - props.Vres
    VresT := VT - props.VresT
    VresP := VP - props.VresP
    Gres := R * T * cG ε σ β q' Z
    Hres := Hres
    Cpres := Cpres
    Cvres := Cpres + R + T * VT * VT / VP
    ln_phi := fun k => cLnPhi ε σ β q' Z (bbar e k / b e k * β) ((1 + abar e T x k / amix e T x - bbar e k / bmix e x) * q') }

/-- The compressibility factor (CubicEOS.cpp:368-373). -/
noncomputable def selectZ (f : Fluid) (roots : List ℝ) : ℝ :=
  match f with
  | .vapor => maxOf roots
  | .liquid => minOf roots

/-- Phase identification (CubicEOS.cpp:375-398) for the real roots of the cubic polynomial. -/
noncomputable def identify (solve4 : List ℝ → List ℝ) (e : Eos n) (T P : ℝ) (x : Fin n → ℝ) (roots : List ℝ) : Res Fluid :=
  let Zs := match roots with
    | [z] => [z]
    | [z0, _, z2] => [z0, z2]
    | _ => []
  match e.method with
  | .none => .ok e.fluidtype
  | .volume => .ok (byVolume T P (selectZ e.fluidtype roots) (bmix e x))
  | .isothermalCompressibility => .throw
  | .gibbsEnergyAndEquationOfState => byGibbs solve4 P T (amix e T x) (bmix e x) Zs (epsilon e.model) (sigma e.model)

open Classical in
/-- `compute` (CubicEOS.cpp:236-479). `solve3` gives the real roots of the cubic polynomial (`realRoots(cardano(A, B, C))`). -/
noncomputable def compute (solve3 : ℝ → ℝ → ℝ → List ℝ) (solve4 : List ℝ → List ℝ) (e : Eos n) (props : Props n) (T P : ℝ) (x : Fin n → ℝ) : Res (Props n) :=
  if ∀ i, x i ≤ 0 then .ok props
  else
    let ε := epsilon e.model
    let σ := sigma e.model
    let β := beta e T P x
    let roots := solve3 (cA ε σ β) (cB ε σ β (q e T x)) (cC ε σ β (q e T x))
    if roots.length = 1 ∨ roots.length = 3 then
      match identify solve4 e T P x roots with
      | .ok f =>
        if f ≠ e.fluidtype then .ok { props with ln_phi := fun _ => 100 }
        else .ok (evaluate e props T P x (selectZ e.fluidtype roots))
      | .throw => .throw
      | .ub => .ub
    else .throw

/-- Evaluations one after the other with the same object for the properties (ActivityModelCubicEOS.cpp:74-87). -/
noncomputable def computes (solve3 : ℝ → ℝ → ℝ → List ℝ) (solve4 : List ℝ → List ℝ) (e : Eos n) (props : Props n) : List (ℝ × ℝ × (Fin n → ℝ)) → Res (Props n)
  | [] => .ok props
  | (T, P, x) :: rest => (compute solve3 solve4 e props T P x).bind fun props => computes solve3 solve4 e props rest

end Verif.CubicEOS
