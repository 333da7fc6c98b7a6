import Verif.Base
import Mathlib.Analysis.SpecialFunctions.Log.Basic
import Mathlib.Analysis.SpecialFunctions.Pow.Real
import Mathlib.Analysis.SpecialFunctions.Sqrt

/-!
# Equations of state of water

Models `Reaktoro/Thermodynamics/Water/WaterHelmholtzStateWagnerPruss.cpp` and
`WaterHelmholtzStateHGK.cpp` : the Helmholtz energy of water as a function of temperature and density
together with all its partial derivatives up to third order, as the code computes them.  Numbers are
exact reals; a division by zero, which gives `NaN` or an infinity in the code, gives zero here, so the
theorems exclude the states where it happens.  The coefficient tables are copied from the source.
The order in which the terms of a sum are added is not modelled.
-/

namespace Verif.Water

open Real
noncomputable section

/-- `WaterHelmholtzState`, `WaterHelmholtzState.hpp:25-56` : the Helmholtz energy and its partial
derivatives with respect to temperature and density. -/
@[ext] structure HState where
  h : ℝ
  hT : ℝ
  hD : ℝ
  hTT : ℝ
  hTD : ℝ
  hDD : ℝ
  hTTT : ℝ
  hTTD : ℝ
  hTDD : ℝ
  hDDD : ℝ

/-- Adding the contributions of two terms field by field, e.g. `WaterHelmholtzStateWagnerPruss.cpp:201-210`. -/
instance : Add HState where
  add a b := ⟨a.h + b.h, a.hT + b.hT, a.hD + b.hD, a.hTT + b.hTT, a.hTD + b.hTD, a.hDD + b.hDD,
    a.hTTT + b.hTTT, a.hTTD + b.hTTD, a.hTDD + b.hTDD, a.hDDD + b.hDDD⟩

/-- All derivatives zero, the initial values of `WaterHelmholtzStateWagnerPruss.cpp:177-186`. -/
def HState.zero : HState := ⟨0, 0, 0, 0, 0, 0, 0, 0, 0, 0⟩

/-- A loop that adds one term for each index of a list. -/
def sumStates (l : List ℕ) (f : ℕ → HState) : HState := l.foldl (fun s i => s + f i) HState.zero

/-- `waterCriticalTemperature`, `WaterConstants.hpp:26`. -/
def Tcr : ℝ := 647.096
/-- `waterCriticalPressure`, `WaterConstants.hpp:29`. -/
def Pcr : ℝ := 22.064e6
/-- `waterCriticalDensity`, `WaterConstants.hpp:32`. -/
def Dcr : ℝ := 322.0
/-- `waterMolarMass`, `WaterConstants.hpp:23`. -/
def Mw : ℝ := 0.018015268

/-! ### Wagner and Pruss (1995) -/

/-- Coefficients of the ideal part, `WaterHelmholtzStateWagnerPruss.cpp:32-35`. -/
def wpNo : List ℝ :=
  [0, -8.32044648201, 6.6832105268, 3.00632, 0.012436, 0.97315, 1.27950, 0.96956, 0.24873]

/-- Exponents of the ideal part, `WaterHelmholtzStateWagnerPruss.cpp:37-40`. -/
def wpGammao : List ℝ :=
  [1.28728967, 3.53734222, 7.74073708, 9.24437796, 27.5075105]

/-- Exponents `c`, `WaterHelmholtzStateWagnerPruss.cpp:42-47`. -/
def wpC : List ℝ :=
  [0, 0, 0, 0, 0, 0, 0, 0, 1, 1, 1, 1, 1, 1, 1, 1, 1, 1, 1, 1, 1, 1, 1, 2, 2, 2, 2, 2, 2, 2,
    2, 2, 2, 2, 2, 2, 2, 2, 2, 2, 2, 2, 2, 3, 3, 3, 3, 4, 6, 6, 6, 6, 0, 0, 0]

/-- Exponents `d`, `WaterHelmholtzStateWagnerPruss.cpp:49-54`. -/
def wpD : List ℝ :=
  [0, 1, 1, 1, 2, 2, 3, 4, 1, 1, 1, 2, 2, 3, 4, 4, 5, 7, 9, 10, 11, 13, 15, 1, 2, 2, 2, 3, 4,
    4, 4, 5, 6, 6, 7, 9, 9, 9, 9, 9, 10, 10, 12, 3, 4, 4, 5, 14, 3, 6, 6, 6, 3, 3, 3]

/-- Exponents `t`, `WaterHelmholtzStateWagnerPruss.cpp:57-62`. -/
def wpT : List ℝ :=
  [0, -0.5, 0.875, 1, 0.5, 0.75, 0.375, 1, 4, 6, 12, 1, 5, 4, 2, 13, 9, 3, 4, 11, 4, 13, 1, 7,
    1, 9, 10, 10, 3, 7, 10, 10, 6, 10, 10, 1, 2, 3, 4, 8, 6, 9, 8, 16, 22, 23, 23, 10, 50, 44,
    46, 50, 0, 1, 4]

/-- Coefficients `n`, `WaterHelmholtzStateWagnerPruss.cpp:64-123`. -/
def wpN : List ℝ :=
  [0, 0.12533547935523e-1, 0.78957634722828e1, -0.87803203303561e1, 0.31802509345418,
    -0.26145533859358, -0.78199751687981e-2, 0.88089493102134e-2, -0.66856572307965,
    0.20433810950965, -0.66212605039687e-4, -0.19232721156002, -0.25709043003438,
    0.16074868486251, -0.40092828925807e-1, 0.39343422603254e-6, -0.75941377088144e-5,
    0.56250979351888e-3, -0.15608652257135e-4, 0.11537996422951e-8, 0.36582165144204e-6,
    -0.13251180074668e-11, -0.62639586912454e-9, -0.10793600908932, 0.17611491008752e-1,
    0.22132295167546, -0.40247669763528, 0.58083399985759, 0.49969146990806e-2,
    -0.31358700712549e-1, -0.74315929710341, 0.47807329915480, 0.20527940895948e-1,
    -0.13636435110343, 0.14180634400617e-1, 0.83326504880713e-2, -0.29052336009585e-1,
    0.38615085574206e-1, -0.20393486513704e-1, -0.16554050063734e-2, 0.19955571979541e-2,
    0.15870308324157e-3, -0.16388568342530e-4, 0.43613615723811e-1, 0.34994005463765e-1,
    -0.76788197844621e-1, 0.22446277332006e-1, -0.62689710414685e-4, -0.55711118565645e-9,
    -0.19905718354408, 0.31777497330738, -0.11841182425981, -0.31306260323435e2,
    0.31546140237781e2, -0.25213154341695e4, -0.14874640856724, 0.31806110878444]

/-- Parameters `alpha`, `WaterHelmholtzStateWagnerPruss.cpp:125-125`. -/
def wpAlpha : List ℝ :=
  [20, 20, 20]

/-- Parameters `beta`, `WaterHelmholtzStateWagnerPruss.cpp:127-127`. -/
def wpBeta : List ℝ :=
  [150, 150, 250]

/-- Parameters `gamma`, `WaterHelmholtzStateWagnerPruss.cpp:129-129`. -/
def wpGamma : List ℝ :=
  [1.21, 1.21, 1.25]

/-- Parameters `epsilon`, `WaterHelmholtzStateWagnerPruss.cpp:131-131`. -/
def wpEpsilon : List ℝ :=
  [1, 1, 1]

/-- Parameters `a`, `WaterHelmholtzStateWagnerPruss.cpp:133-133`. -/
def wpa : List ℝ :=
  [3.5, 3.5]

/-- Parameters `b`, `WaterHelmholtzStateWagnerPruss.cpp:135-135`. -/
def wpb : List ℝ :=
  [0.85, 0.95]

/-- Parameters `A`, `WaterHelmholtzStateWagnerPruss.cpp:137-137`. -/
def wpA : List ℝ :=
  [0.32, 0.32]

/-- Parameters `B`, `WaterHelmholtzStateWagnerPruss.cpp:139-139`. -/
def wpB : List ℝ :=
  [0.2, 0.2]

/-- Parameters `C`, `WaterHelmholtzStateWagnerPruss.cpp:141-141`. -/
def wpCc : List ℝ :=
  [28, 32]

/-- Parameters `F`, `WaterHelmholtzStateWagnerPruss.cpp:143-143`. -/
def wpF : List ℝ :=
  [700, 800]

/-- Parameters `E`, `WaterHelmholtzStateWagnerPruss.cpp:145-145`. -/
def wpE : List ℝ :=
  [0.3, 0.3]

/-- The first terms of the ideal part, `WaterHelmholtzStateWagnerPruss.cpp:154-163`. -/
def wpIdeal0 (tau delta : ℝ) : HState where
  h := log delta + wpNo.getD 1 0 + wpNo.getD 2 0 * tau + wpNo.getD 3 0 * log tau
  hD := 1 / delta
  hT := wpNo.getD 2 0 + wpNo.getD 3 0 / tau
  hDD := (-1) / delta ^ 2
  hTT := (-wpNo.getD 3 0) / tau ^ 2
  hTD := 0
  hDDD := 2 / delta ^ 3
  hTTT := 2 * wpNo.getD 3 0 / tau ^ 3
  hTTD := 0
  hTDD := 0

/-- One of the five exponential terms of the ideal part, with coefficient `no` and exponent `g`,
`WaterHelmholtzStateWagnerPruss.cpp:165-175`. -/
def wpIdeal (no g tau _delta : ℝ) : HState :=
  let ee := exp (g * tau)
  { h := no * log (1 - 1 / ee)
    hT := no * (g / (ee - 1))
    hTT := -(no * ee * (g / (ee - 1)) ^ 2)
    hTTT := no * ee * (1 + ee) * (g / (ee - 1)) ^ 3
    hD := 0, hDD := 0, hTD := 0, hDDD := 0, hTTD := 0, hTDD := 0 }

/-- A polynomial term, `WaterHelmholtzStateWagnerPruss.cpp:188-211`. -/
def wpPoly (n d t tau delta : ℝ) : HState :=
  let A := n * delta ^ d * tau ^ t
  let A_d := d / delta * A
  let A_t := t / tau * A
  let A_dd := (d - 1) / delta * A_d
  let A_tt := (t - 1) / tau * A_t
  let A_dt := t * d / (tau * delta) * A
  let A_ddd := (d - 2) / delta * A_dd
  let A_ttt := (t - 2) / tau * A_tt
  let A_dtt := d / delta * A_tt
  let A_ddt := t / tau * A_dd
  ⟨A, A_t, A_d, A_tt, A_dt, A_dd, A_ttt, A_dtt, A_ddt, A_ddd⟩

/-- An exponential term, `WaterHelmholtzStateWagnerPruss.cpp:213-238`. -/
def wpExp (n c d t tau delta : ℝ) : HState :=
  let dci := delta ^ c
  let B := n * delta ^ d * tau ^ t * exp (-dci)
  let B_d := (d - c * dci) / delta * B
  let B_t := t / tau * B
  let B_dd := (d - c * dci - 1) / delta * B_d - dci * (c / delta) ^ 2 * B
  let B_tt := (t - 1) / tau * B_t
  let B_dt := t / tau * B_d
  let B_ddd := (d - c * dci - 1) / delta * B_dd - ((d - c * dci - 1) + 2 * c * c * dci) / delta ^ 2 * B_d
    - c * c * dci * (c - 2) / delta ^ 3 * B
  let B_ttt := (t - 2) / tau * B_tt
  let B_dtt := (t - 1) / tau * B_dt
  let B_ddt := (d - c * dci - 1) / delta * B_dt - c * c * dci / delta ^ 2 * B_t
  ⟨B, B_t, B_d, B_tt, B_dt, B_dd, B_ttt, B_dtt, B_ddt, B_ddd⟩

/-- A Gaussian term, `WaterHelmholtzStateWagnerPruss.cpp:240-271`. -/
def wpGauss (n d t al be ga ep tau delta : ℝ) : HState :=
  let aux1d := d / delta - 2 * al * (delta - ep)
  let aux1t := t / tau - 2 * be * (tau - ga)
  let aux2d := d / delta ^ 2 + 2 * al
  let aux2t := t / tau ^ 2 + 2 * be
  let C := n * delta ^ d * tau ^ t * exp ((-al) * (delta - ep) ^ 2 - be * (tau - ga) ^ 2)
  let C_d := aux1d * C
  let C_t := aux1t * C
  let C_dd := aux1d * C_d - aux2d * C
  let C_tt := aux1t * C_t - aux2t * C
  let C_dt := aux1d * aux1t * C
  let C_ddd := aux1d * C_dd - 2 * aux2d * C_d + 2 * d / delta ^ 3 * C
  let C_ttt := aux1t * C_tt - 2 * aux2t * C_t + 2 * t / tau ^ 3 * C
  let C_dtt := aux1t * C_dt - aux2t * C_d
  let C_ddt := aux1d * C_dt - aux2d * C_t
  ⟨C, C_t, C_d, C_tt, C_dt, C_dd, C_ttt, C_dtt, C_ddt, C_ddd⟩

/-- `theta` and its derivatives, `WaterHelmholtzStateWagnerPruss.cpp:278-283` (as functions of the
exponent `0.5/E` of `dd`).  Only the derivatives the code computes are filled; the others are zero or
one in the code below. -/
def wpTheta (A E tau delta : ℝ) : HState :=
  let dd := (delta - 1) ^ 2
  let theta := (1 - tau) + A * dd ^ (0.5 / E)
  let theta_d := (theta + tau - 1) / (delta - 1) / E
  let theta_dd := (1 / E - 1) * theta_d / (delta - 1)
  let theta_ddd := (1 / E - 1) * (theta_dd / (delta - 1) - theta_d / dd)
  { h := theta, hD := theta_d, hDD := theta_dd, hDDD := theta_ddd
    hT := -1, hTT := 0, hTD := 0, hTTT := 0, hTTD := 0, hTDD := 0 }

/-- `psi` and its derivatives, `WaterHelmholtzStateWagnerPruss.cpp:285-294`. -/
def wpPsi (C F tau delta : ℝ) : HState :=
  let dd := (delta - 1) ^ 2
  let tt := (tau - 1) ^ 2
  let psi := exp ((-C) * dd - F * tt)
  let psi_d := (-2) * C * (delta - 1) * psi
  let psi_t := (-2) * F * (tau - 1) * psi
  let psi_dd := (-2) * C * (psi + (delta - 1) * psi_d)
  let psi_tt := (-2) * F * (psi + (tau - 1) * psi_t)
  let psi_dt := 4 * C * F * (delta - 1) * (tau - 1) * psi
  let psi_ddd := (-2) * C * (2 * psi_d + (delta - 1) * psi_dd)
  let psi_ttt := (-2) * F * (2 * psi_t + (tau - 1) * psi_tt)
  let psi_dtt := (-2) * F * (psi_d + (tau - 1) * psi_dt)
  let psi_ddt := (-2) * C * (psi_t + (delta - 1) * psi_dt)
  ⟨psi, psi_t, psi_d, psi_tt, psi_dt, psi_dd, psi_ttt, psi_dtt, psi_ddt, psi_ddd⟩

/-- `Delta` and its derivatives, `WaterHelmholtzStateWagnerPruss.cpp:296-305`. -/
def wpDelta (A B E a tau delta : ℝ) : HState :=
  let dd := (delta - 1) ^ 2
  let th := wpTheta A E tau delta
  let Delta := th.h * th.h + B * dd ^ a
  let Delta_d := 2 * (th.h * th.hD + a * (Delta - th.h * th.h) / (delta - 1))
  let Delta_t := (-2) * th.h
  let Delta_dd := 2 * (th.hD * th.hD + th.h * th.hDD
    + a * ((Delta_d - 2 * th.h * th.hD) / (delta - 1) - (Delta - th.h * th.h) / (delta - 1) ^ 2))
  let Delta_tt := 2
  let Delta_dt := (-2) * th.hD
  let Delta_ddd := 2 * (3 * th.hD * th.hDD + th.h * th.hDDD
    + a * ((Delta_dd - 2 * th.hD * th.hD - 2 * th.h * th.hDD) / (delta - 1)
      - 2 * (Delta_d - 2 * th.h * th.hD) / (delta - 1) ^ 2 + 2 * (Delta - th.h * th.h) / (delta - 1) ^ 3))
  let Delta_ttt := 0
  let Delta_dtt := 0
  let Delta_ddt := (-2) * th.hDD
  ⟨Delta, Delta_t, Delta_d, Delta_tt, Delta_dt, Delta_dd, Delta_ttt, Delta_dtt, Delta_ddt, Delta_ddd⟩

/-- `DeltaPow` and its derivatives, `WaterHelmholtzStateWagnerPruss.cpp:307-316`. -/
def wpDeltaPow (b : ℝ) (D : HState) : HState :=
  let P := D.h ^ b
  { h := P
    hD := b * D.hD / D.h * P
    hT := b * D.hT / D.h * P
    hDD := (b * D.hDD / D.h + b * (b - 1) * (D.hD / D.h) ^ 2) * P
    hTT := (b * D.hTT / D.h + b * (b - 1) * (D.hT / D.h) ^ 2) * P
    hTD := (b * D.hTD / D.h + b * (b - 1) * D.hD * D.hT / D.h / D.h) * P
    hDDD := (b * D.hDDD / D.h + 3 * b * (b - 1) * D.hD * D.hDD / D.h / D.h
      + b * (b - 1) * (b - 2) * (D.hD / D.h) ^ 3) * P
    hTTT := (b * D.hTTT / D.h + 3 * b * (b - 1) * D.hT * D.hTT / D.h / D.h
      + b * (b - 1) * (b - 2) * (D.hT / D.h) ^ 3) * P
    hTTD := (b * D.hTTD / D.h + b * (b - 1) * (D.hD * D.hTT + 2 * D.hT * D.hTD) / D.h / D.h
      + b * (b - 1) * (b - 2) * D.hT * D.hT * D.hD / D.h ^ 3) * P
    hTDD := (b * D.hTDD / D.h + b * (b - 1) * (D.hT * D.hDD + 2 * D.hD * D.hTD) / D.h / D.h
      + b * (b - 1) * (b - 2) * D.hD * D.hD * D.hT / D.h ^ 3) * P }

/-- A non-analytic term, `WaterHelmholtzStateWagnerPruss.cpp:318-338`, from `DeltaPow` and `psi`. -/
def wpNonAnalytic (n : ℝ) (Q psi : HState) (delta : ℝ) : HState where
  h := n * Q.h * delta * psi.h
  hD := n * (Q.h * (psi.h + delta * psi.hD) + Q.hD * delta * psi.h)
  hT := n * delta * (Q.hT * psi.h + Q.h * psi.hT)
  hDD := n * (Q.h * (2 * psi.hD + delta * psi.hDD) + 2 * Q.hD * (psi.h + delta * psi.hD) + Q.hDD * delta * psi.h)
  hTT := n * delta * (Q.hTT * psi.h + 2 * Q.hT * psi.hT + Q.h * psi.hTT)
  hTD := n * (Q.h * (psi.hT + delta * psi.hTD) + delta * Q.hD * psi.hT + Q.hT * (psi.h + delta * psi.hD)
    + Q.hTD * delta * psi.h)
  hDDD := n * (Q.hDDD * delta * psi.h + 3 * Q.hDD * (psi.h + delta * psi.hD)
    + 3 * Q.hD * (2 * psi.hD + delta * psi.hDD) + Q.h * (3 * psi.hDD + delta * psi.hDDD))
  hTTT := n * delta * (Q.hTTT * psi.h + 3 * Q.hTT * psi.hT + 3 * Q.hT * psi.hTT + Q.h * psi.hTTT)
  hTTD := n * (Q.hTT * psi.h + 2 * Q.hT * psi.hT + Q.h * psi.hTT)
    + n * delta * (Q.hTTD * psi.h + Q.hTT * psi.hD + 2 * Q.hTD * psi.hT + 2 * Q.hT * psi.hTD
      + Q.hD * psi.hTT + Q.h * psi.hTTD)
  hTDD := n * (Q.hTDD * delta * psi.h + 2 * Q.hTD * (psi.h + delta * psi.hD) + Q.hDD * delta * psi.hT
    + Q.hT * (2 * psi.hD + delta * psi.hDD) + 2 * Q.hD * (psi.hT + delta * psi.hTD)
    + Q.h * (2 * psi.hTD + delta * psi.hTDD))

/-- The dimensionless Helmholtz energy `phi` and its derivatives with respect to `tau` and `delta`,
`WaterHelmholtzStateWagnerPruss.cpp:154-350`. -/
def wpPhi (tau delta : ℝ) : HState :=
  (wpIdeal0 tau delta +
    sumStates (List.range' 4 5) (fun i => wpIdeal (wpNo.getD i 0) (wpGammao.getD (i - 4) 0) tau delta)) +
  (sumStates (List.range' 1 7) (fun i => wpPoly (wpN.getD i 0) (wpD.getD i 0) (wpT.getD i 0) tau delta) +
   sumStates (List.range' 8 44) (fun i => wpExp (wpN.getD i 0) (wpC.getD i 0) (wpD.getD i 0) (wpT.getD i 0) tau delta) +
   sumStates (List.range' 52 3) (fun i => wpGauss (wpN.getD i 0) (wpD.getD i 0) (wpT.getD i 0)
      (wpAlpha.getD (i - 52) 0) (wpBeta.getD (i - 52) 0) (wpGamma.getD (i - 52) 0) (wpEpsilon.getD (i - 52) 0) tau delta) +
   sumStates (List.range' 55 2) (fun i => wpNonAnalytic (wpN.getD i 0)
      (wpDeltaPow (wpb.getD (i - 55) 0) (wpDelta (wpA.getD (i - 55) 0) (wpB.getD (i - 55) 0) (wpE.getD (i - 55) 0)
        (wpa.getD (i - 55) 0) tau delta))
      (wpPsi (wpCc.getD (i - 55) 0) (wpF.getD (i - 55) 0) tau delta) delta))

/-- The specific gas constant of `WaterHelmholtzStateWagnerPruss.cpp:371`. -/
def wpR : ℝ := 461.51805

/-- The conversion of the dimensionless energy to `helmholtz`, `WaterHelmholtzStateWagnerPruss.cpp:352-386`. -/
def wpDimension (phi : HState) (T : ℝ) : HState :=
  let tT := (-Tcr) / (T * T)
  let tTT := 2 * Tcr / (T * T * T)
  let tTTT := (-6) * Tcr / (T * T * T * T)
  let dD := 1 / Dcr
  let phiT := phi.hT * tT
  let phiD := phi.hD * dD
  let phiTT := phi.hTT * tT * tT + phi.hT * tTT
  let phiTD := phi.hTD * tT * dD
  let phiDD := phi.hDD * dD * dD
  let phiTTT := phi.hTTT * tT * tT * tT + 3 * phi.hTT * tT * tTT + phi.hT * tTTT
  let phiTTD := phi.hTTD * tT * tT * dD + phi.hTD * tTT * dD
  let phiTDD := phi.hTDD * tT * dD * dD
  let phiDDD := phi.hDDD * dD * dD * dD
  let R := wpR
  { h := R * T * phi.h
    hT := R * T * phiT + R * phi.h
    hD := R * T * phiD
    hTT := R * T * phiTT + 2 * R * phiT
    hTD := R * T * phiTD + R * phiD
    hDD := R * T * phiDD
    hTTT := R * T * phiTTT + 3 * R * phiTT
    hTTD := R * T * phiTTD + 2 * R * phiTD
    hTDD := R * T * phiTDD + R * phiDD
    hDDD := R * T * phiDDD }

/-- `waterHelmholtzStateWagnerPruss`, `WaterHelmholtzStateWagnerPruss.cpp:149-387`. -/
def wagnerPruss (T D : ℝ) : HState := wpDimension (wpPhi (Tcr / T) (D / Dcr)) T

/-! ### Haar, Gallagher and Kell (1984) -/

/-- `referenceTemperature`, `WaterHelmholtzStateHGK.cpp:33`. -/
def hgkTref : ℝ := 647.27
/-- `referenceDensity`, `WaterHelmholtzStateHGK.cpp:36`. -/
def hgkDref : ℝ := 317.763
/-- `referenceHelmholtz`, `WaterHelmholtzStateHGK.cpp:54`. -/
def hgkFref : ℝ := 69595.89
/-- `A20`, `WaterHelmholtzStateHGK.cpp:93`. -/
def hgkA20 : ℝ := 0.42923415e1
/-- `z0`, `WaterHelmholtzStateHGK.cpp:103`. -/
def hgkz0 : ℝ := 0.317763

/-- Coefficients of the first contribution, `WaterHelmholtzStateHGK.cpp:62-82`. -/
def hgkA0 : List ℝ :=
  [-0.130840393653e2, -0.857020420940e2, 0.765192919131e-2, -0.620600116069e0,
    -0.106924329402e2, -0.280671377296e1, 0.119843634845e3, -0.823907389256e2,
    0.555864146443e2, -0.310698122980e2, 0.136200239305e2, -0.457116129409e1, 0.115382128188e1,
    -0.214242224683e0, 0.282800597384e-1, -0.250384152737e-2, 0.132952679669e-3,
    -0.319277411208e-5]

/-- Coefficients of the second contribution, `WaterHelmholtzStateHGK.cpp:84-91`. -/
def hgkA1 : List ℝ :=
  [0.15383053e1, -0.81048367e0, -0.68305748e1, 0.00000000e0, 0.86756271e0]

/-- Coefficients of `y`, `WaterHelmholtzStateHGK.cpp:95-101`. -/
def hgkYc : List ℝ :=
  [0.59402227e-1, -0.28128238e-1, 0.56826674e-3, -0.27987451e-3]

/-- Exponents `ki`, `WaterHelmholtzStateHGK.cpp:105-112`. -/
def hgkKi : List ℕ :=
  [1, 1, 1, 1, 2, 2, 2, 2, 3, 3, 3, 3, 4, 4, 4, 4, 5, 5, 5, 5, 6, 6, 6, 6, 7, 7, 7, 7, 9, 9,
    9, 9, 3, 3, 1, 5]

/-- Exponents `li`, `WaterHelmholtzStateHGK.cpp:114-121`. -/
def hgkLi : List ℕ :=
  [1, 2, 4, 6, 1, 2, 4, 6, 1, 2, 4, 6, 1, 2, 4, 6, 1, 2, 4, 6, 1, 2, 4, 6, 1, 2, 4, 6, 1, 2,
    4, 6, 0, 3, 3, 3]

/-- Coefficients of the fourth contribution, `WaterHelmholtzStateHGK.cpp:123-161`. -/
def hgkA3 : List ℝ :=
  [-0.76221190138079e1, 0.32661493707555e2, 0.11305763156821e2, -0.10015404767712e1,
    0.12830064355028e3, -0.28371416789846e3, 0.24256279839182e3, -0.99357645626725e2,
    -0.12275453013171e4, 0.23077622506234e4, -0.16352219929859e4, 0.58436648297764e3,
    0.42365441415641e4, -0.78027526961828e4, 0.38855645739589e4, -0.91225112529381e3,
    -0.90143895703666e4, 0.15196214817734e5, -0.39616651358508e4, -0.72027511617558e3,
    0.11147126705990e5, -0.17412065252210e5, 0.99918281207782e3, 0.33504807153854e4,
    -0.64752644922631e4, 0.98323730907847e4, 0.83877854108422e3, -0.27919349903103e4,
    0.11112410081192e4, -0.17287587261807e4, -0.36233262795423e3, 0.61139429010144e3,
    0.32968064728562e2, 0.10411239605066e3, -0.38225874712590e2, -0.20307478607599e3]

/-- Exponents `mi`, `WaterHelmholtzStateHGK.cpp:163-163`. -/
def hgkMi : List ℕ :=
  [2, 2, 2, 4]

/-- Exponents `ni`, `WaterHelmholtzStateHGK.cpp:165-165`. -/
def hgkNi : List ℕ :=
  [0, 2, 0, 0]

/-- Parameters `alpha`, `WaterHelmholtzStateHGK.cpp:167-167`. -/
def hgkAlpha : List ℝ :=
  [34, 40, 30, 1050]

/-- Parameters `beta`, `WaterHelmholtzStateHGK.cpp:169-169`. -/
def hgkBeta : List ℝ :=
  [20000, 20000, 40000, 25]

/-- Parameters `ri`, `WaterHelmholtzStateHGK.cpp:171-177`. -/
def hgkRi : List ℝ :=
  [0.10038928e1, 0.10038928e1, 0.10038928e1, 0.48778492e1]

/-- Parameters `ti`, `WaterHelmholtzStateHGK.cpp:179-185`. -/
def hgkTi : List ℝ :=
  [0.98876821e0, 0.98876821e0, 0.99124013e0, 0.41713659e0]

/-- Coefficients of the fifth contribution, `WaterHelmholtzStateHGK.cpp:187-193`. -/
def hgkA4 : List ℝ :=
  [-0.32329494e-2, -0.24139355e-1, 0.79027651e-3, -0.13362857e1]

/-- The part of `calculateWaterHelmholtzStateHGK0` before its loop, `WaterHelmholtzStateHGK.cpp:199-204`. -/
def hgk0log (t _d : ℝ) : HState :=
  let A := hgkA0.getD 0 0
  let B := hgkA0.getD 1 0
  { h := (A + B * t) * log t
    hT := A / t + B * (log t + 1)
    hTT := (-A) / (t * t) + B / t
    hTTT := 2 * A / (t * t * t) - B / (t * t)
    hD := 0, hTD := 0, hDD := 0, hTTD := 0, hTDD := 0, hDDD := 0 }

/-- A term of the loop of `calculateWaterHelmholtzStateHGK0`, `WaterHelmholtzStateHGK.cpp:206-214`;
the exponent `i - 4` is an integer that may be negative. -/
def hgk0term (A : ℝ) (i : ℤ) (t _d : ℝ) : HState :=
  let aux := A * t ^ (i - 4)
  { h := aux
    hT := aux * (i - 4) / t
    hTT := aux * (i - 4) * (i - 5) / (t * t)
    hTTT := aux * (i - 4) * (i - 5) * (i - 6) / (t * t * t)
    hD := 0, hTD := 0, hDD := 0, hTTD := 0, hTDD := 0, hDDD := 0 }

/-- `calculateWaterHelmholtzStateHGK0`, `WaterHelmholtzStateHGK.cpp:195-217`. -/
def hgk0 (t d : ℝ) : HState :=
  hgk0log t d + sumStates (List.range' 2 16) (fun i => hgk0term (hgkA0.getD i 0) i t d)

/-- A term of the loop of `calculateWaterHelmholtzStateHGK1`, `WaterHelmholtzStateHGK.cpp:223-231`,
with the derivatives with respect to density of lines 233-235, which divide the sums by `d` after the
loop; here every term is divided. -/
def hgk1term (A : ℝ) (i : ℤ) (t d : ℝ) : HState :=
  let aux := d * A * t ^ (1 - i)
  let f := aux
  let fT := -(aux * (i - 1) / t)
  let fTT := aux * (i - 1) * i / (t * t)
  { h := f
    hT := fT
    hTT := fTT
    hTTT := -(aux * (i - 1) * i * (i + 1) / (t * t * t))
    hD := f / d
    hTD := fT / d
    hTTD := fTT / d
    hDD := 0, hTDD := 0, hDDD := 0 }

/-- `calculateWaterHelmholtzStateHGK1`, `WaterHelmholtzStateHGK.cpp:219-238`. -/
def hgk1 (t d : ℝ) : HState :=
  sumStates (List.range 5) (fun i => hgk1term (hgkA1.getD i 0) i t d)

/-- `y` and its derivatives, `WaterHelmholtzStateHGK.cpp:244-257`. -/
def hgkY (t d : ℝ) : HState :=
  let t3 := t ^ (-3 : ℤ)
  let t5 := t ^ (-5 : ℤ)
  let y0 := hgkYc.getD 0 0
  let y1 := hgkYc.getD 1 0
  let y2 := hgkYc.getD 2 0
  let y3 := hgkYc.getD 3 0
  let y := d * (y0 + y1 * log t + y2 * t3 + y3 * t5)
  let y_r := y / d
  let y_t := d * (y1 - 3 * y2 * t3 - 5 * y3 * t5) / t
  let y_rr := 0
  let y_tt := d * (-y1 + 12 * y2 * t3 + 30 * y3 * t5) / (t * t)
  let y_rt := y_t / d
  let y_rrr := 0
  let y_rrt := y_rt / d - y_t / (d * d)
  let y_rtt := y_tt / d
  let y_ttt := d * (2 * y1 - 60 * y2 * t3 - 210 * y3 * t5) / (t * t * t)
  ⟨y, y_t, y_r, y_tt, y_rt, y_rr, y_ttt, y_rtt, y_rrt, y_rrr⟩

/-- `x = 1/(1 - y)` and its derivatives, `WaterHelmholtzStateHGK.cpp:259-269`. -/
def hgkX (y : HState) : HState :=
  let x := 1 / (1 - y.h)
  let x2 := x * x
  let x_r := y.hD * x2
  let x_t := y.hT * x2
  let x_rr := y.hDD * x2 + 2 * y.hD * x_r * x
  let x_tt := y.hTT * x2 + 2 * y.hT * x_t * x
  let x_rt := y.hTD * x2 + 2 * y.hD * x_t * x
  let x_rrr := y.hDDD * x2 + 4 * y.hDD * x_r * x + 2 * y.hD * (x_rr * x + x_r * x_r)
  let x_rrt := y.hTDD * x2 + 2 * (y.hTD * x_r + y.hDD * x_t) + 2 * y.hD * (x_rt * x + x_r * x_t)
  let x_rtt := y.hTTD * x2 + 4 * y.hTD * x_t * x + 2 * y.hD * (x_tt * x + x_t * x_t)
  let x_ttt := y.hTTT * x2 + 4 * y.hTT * x_t * x + 2 * y.hT * (x_tt * x + x_t * x_t)
  ⟨x, x_t, x_r, x_tt, x_rt, x_rr, x_ttt, x_rtt, x_rrt, x_rrr⟩

/-- `u = log(d x)` and its derivatives, `WaterHelmholtzStateHGK.cpp:271-280`. -/
def hgkU (x : HState) (d : ℝ) : HState where
  h := log (d * x.h)
  hD := x.hD / x.h + 1 / d
  hT := x.hT / x.h
  hDD := x.hDD / x.h - x.hD * x.hD / (x.h * x.h) - 1 / (d * d)
  hTD := x.hTD / x.h - x.hD * x.hT / (x.h * x.h)
  hTT := x.hTT / x.h - x.hT * x.hT / (x.h * x.h)
  hDDD := x.hDDD / x.h - 3 * x.hDD * x.hD / (x.h * x.h) + 2 * x.hD * x.hD * x.hD / (x.h * x.h * x.h) + 2 / (d * d * d)
  hTDD := x.hTDD / x.h - (2 * x.hTD * x.hD + x.hDD * x.hT) / (x.h * x.h) + 2 * x.hD * x.hD * x.hT / (x.h * x.h * x.h)
  hTTD := x.hTTD / x.h - (2 * x.hTD * x.hT + x.hTT * x.hD) / (x.h * x.h) + 2 * x.hT * x.hT * x.hD / (x.h * x.h * x.h)
  hTTT := x.hTTT / x.h - 3 * x.hTT * x.hT / (x.h * x.h) + 2 * x.hT * x.hT * x.hT / (x.h * x.h * x.h)

/-- `c1`, `c2`, `c3`, `WaterHelmholtzStateHGK.cpp:282-284`. -/
def hgkc1 : ℝ := -130 / 3
/-- See `hgkc1`. -/
def hgkc2 : ℝ := 169 / 6
/-- See `hgkc1`. -/
def hgkc3 : ℝ := -14

/-- The last lines of `calculateWaterHelmholtzStateHGK2`, `WaterHelmholtzStateHGK.cpp:286-295`. -/
def hgk2of (y x u : HState) (t : ℝ) : HState :=
  let A20 := hgkA20
  let c1 := hgkc1
  let c2 := hgkc2
  let c3 := hgkc3
  let f := A20 * t * (u.h + c1 * x.h + c2 * x.h * x.h + c3 * y.h)
  let fD := A20 * t * (u.hD + c1 * x.hD + 2 * c2 * x.h * x.hD + c3 * y.hD)
  let fT := A20 * t * (u.hT + c1 * x.hT + 2 * c2 * x.h * x.hT + c3 * y.hT) + f / t
  let fDD := A20 * t * (u.hDD + c1 * x.hDD + 2 * c2 * (x.h * x.hDD + x.hD * x.hD) + c3 * y.hDD)
  let fTD := A20 * t * (u.hTD + c1 * x.hTD + 2 * c2 * (x.h * x.hTD + x.hD * x.hT) + c3 * y.hTD) + fD / t
  let fTT := A20 * t * (u.hTT + c1 * x.hTT + 2 * c2 * (x.h * x.hTT + x.hT * x.hT) + c3 * y.hTT)
    + 2 * (fT / t - f / (t * t))
  let fDDD := A20 * t * (u.hDDD + c1 * x.hDDD + 2 * c2 * (3 * x.hD * x.hDD + x.h * x.hDDD) + c3 * y.hDDD)
  let fTDD := A20 * t * (u.hTDD + c1 * x.hTDD + 2 * c2 * (x.hT * x.hDD + 2 * x.hD * x.hTD + x.h * x.hTDD) + c3 * y.hTDD)
    + fDD / t
  let fTTD := A20 * t * (u.hTTD + c1 * x.hTTD + 2 * c2 * (x.hD * x.hTT + 2 * x.hT * x.hTD + x.h * x.hTTD) + c3 * y.hTTD)
    + 2 * (fTD - fD / t) / t
  let fTTT := A20 * t * (u.hTTT + c1 * x.hTTT + 2 * c2 * (3 * x.hT * x.hTT + x.h * x.hTTT) + c3 * y.hTTT)
    + 3 * (fTT - 2 * fT / t + f / (t * t)) / t
  ⟨f, fT, fD, fTT, fTD, fDD, fTTT, fTTD, fTDD, fDDD⟩

/-- `calculateWaterHelmholtzStateHGK2`, `WaterHelmholtzStateHGK.cpp:240-298`. -/
def hgk2 (t d : ℝ) : HState :=
  let y := hgkY t d
  let x := hgkX y
  hgk2of y x (hgkU x d) t

/-- A term of the loop of `calculateWaterHelmholtzStateHGK3`, `WaterHelmholtzStateHGK.cpp:304-332`. -/
def hgk3term (A : ℝ) (l k : ℕ) (t d : ℝ) : HState :=
  let z := 1 - exp ((-hgkz0) * d)
  let z_r := hgkz0 * (1 - z)
  let z_rr := (-hgkz0) * z_r
  let z_rrr := (-hgkz0) * z_rr
  let lam := A * t ^ (-(l : ℤ)) * z ^ k
  let lam_r := k * z_r * lam / z
  let lam_t := -(l * lam / t)
  let lam_rr := lam_r * (z_rr / z_r + lam_r / lam - z_r / z)
  let lam_rt := lam_r * lam_t / lam
  let lam_tt := lam_t * (lam_t / lam - 1 / t)
  let lam_rrr := lam_rr * (z_rr / z_r + lam_r / lam - z_r / z)
    + lam_r * (z_rrr / z_r - (z_rr / z_r) ^ 2 + lam_rr / lam - (lam_r / lam) ^ 2 - z_rr / z + (z_r / z) ^ 2)
  let lam_rrt := -((lam_r / lam) ^ 2 * lam_t) + (lam_rr * lam_t + lam_rt * lam_r) / lam
  let lam_rtt := -((lam_t / lam) ^ 2 * lam_r) + (lam_tt * lam_r + lam_rt * lam_t) / lam
  let lam_ttt := lam_tt * (lam_t / lam - 1 / t) + lam_t * (lam_tt / lam - (lam_t / lam) ^ 2 + 1 / (t * t))
  ⟨lam, lam_t, lam_r, lam_tt, lam_rt, lam_rr, lam_ttt, lam_rtt, lam_rrt, lam_rrr⟩

/-- `calculateWaterHelmholtzStateHGK3`, `WaterHelmholtzStateHGK.cpp:300-335`. -/
def hgk3 (t d : ℝ) : HState :=
  sumStates (List.range 36) (fun i => hgk3term (hgkA3.getD i 0) (hgkLi.getD i 0) (hgkKi.getD i 0) t d)

/-- A term of the loop of `calculateWaterHelmholtzStateHGK4`, `WaterHelmholtzStateHGK.cpp:341-376`. -/
def hgk4term (A al be r0 t0 : ℝ) (m n : ℕ) (t d : ℝ) : HState :=
  let delta := (d - r0) / r0
  let tau := (t - t0) / t0
  let delta_r := 1 / r0
  let tau_t := 1 / t0
  let delta_m := delta ^ m
  let delta_n := delta ^ n
  let psi := (n - al * m * delta_m) * delta_r / delta
  let psi_r := -((n + al * m * (m - 1) * delta_m) * (delta_r / delta) ^ 2)
  let psi_rr := (2 * n - al * m * (m - 1) * (m - 2) * delta_m) * (delta_r / delta) ^ 3
  let theta := A * delta_n * exp ((-al) * delta_m - be * tau * tau)
  let theta_r := psi * theta
  let theta_t := (-2) * be * tau * tau_t * theta
  let theta_rr := psi_r * theta + psi * theta_r
  let theta_tt := 2 * be * (2 * be * tau * tau - 1) * tau_t * tau_t * theta
  let theta_rt := (-2) * be * tau * tau_t * theta_r
  let theta_rrr := psi_rr * theta + 2 * psi_r * theta_r + psi * theta_rr
  let theta_rrt := psi_r * theta_r + psi * theta_rt
  let theta_rtt := psi * theta_tt
  let theta_ttt := (-2) * be * (2 * tau_t * tau_t * theta_t + tau * tau_t * theta_tt)
  ⟨theta, theta_t, theta_r, theta_tt, theta_rt, theta_rr, theta_ttt, theta_rtt, theta_rrt, theta_rrr⟩

/-- `calculateWaterHelmholtzStateHGK4`, `WaterHelmholtzStateHGK.cpp:337-379`. -/
def hgk4 (t d : ℝ) : HState :=
  sumStates (List.range 4) (fun i => hgk4term (hgkA4.getD i 0) (hgkAlpha.getD i 0) (hgkBeta.getD i 0)
    (hgkRi.getD i 0) (hgkTi.getD i 0) (hgkMi.getD i 0) (hgkNi.getD i 0) t d)

/-- The conversion to dimensioned form, `WaterHelmholtzStateHGK.cpp:410-419`. -/
def hgkDimension (s : HState) : HState where
  h := s.h * hgkFref
  hD := s.hD * (hgkFref / hgkDref)
  hT := s.hT * (hgkFref / hgkTref)
  hDD := s.hDD * (hgkFref / hgkDref / hgkDref)
  hTD := s.hTD * (hgkFref / hgkDref / hgkTref)
  hTT := s.hTT * (hgkFref / hgkTref / hgkTref)
  hDDD := s.hDDD * (hgkFref / hgkDref / hgkDref / hgkDref)
  hTDD := s.hTDD * (hgkFref / hgkDref / hgkDref / hgkTref)
  hTTD := s.hTTD * (hgkFref / hgkDref / hgkTref / hgkTref)
  hTTT := s.hTTT * (hgkFref / hgkTref / hgkTref / hgkTref)

/-- `waterHelmholtzStateHGK`, `WaterHelmholtzStateHGK.cpp:383-422`. -/
def hgk (T D : ℝ) : HState :=
  let t := T / hgkTref
  let r := D / hgkDref
  hgkDimension (hgk0 t r + hgk1 t r + hgk2 t r + hgk3 t r + hgk4 t r)

end
end Verif.Water
