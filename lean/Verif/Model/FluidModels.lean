import Verif.Model.ActivityModels
import Verif.Model.Cardano
import Mathlib.Algebra.BigOperators.Fin
import Mathlib.Data.Fin.VecNotation

/-!
# Model of the activity models for fluids

`Reaktoro/Thermodynamics/Fluids/ActivityModelSpycherReed.cpp` and `ActivityModelSpycherPruessEnnis.cpp`.

Numbers are reals. Warnings are printed, and have no other effect; they are left out. The formulas of the species are assumed to have been
parsed from the given text.
-/

namespace Verif.Activity

open Verif.Aqueous Verif.ChemicalProps

/-- `ChemicalFormula("CO2")`. -/
def co2Formula : Formula := ⟨c!"CO2", [(c!"C", 1), (c!"O", 2)], 0⟩

/-- `ChemicalFormula("CH4")`. -/
def ch4Formula : Formula := ⟨c!"CH4", [(c!"C", 1), (c!"H", 4)], 0⟩

/-! ## Spycher and Reed -/

/-- The gases with number 0, 1 and 2 in the tables (ActivityModelSpycherReed.cpp:214-217). -/
def gasFormula : Fin 3 → Formula := ![waterFormula, co2Formula, ch4Formula]

/-- The table `a` (ActivityModelSpycherReed.cpp:36-109). -/
noncomputable def srA : Fin 3 → Fin 3 → ℝ :=
  ![![-6191.41, -1954.70, -1103.20], ![-1954.70, -1430.87, -800.592], ![-1103.20, -800.592, -537.779]]

/-- The table `b` (ActivityModelSpycherReed.cpp:36-116). -/
noncomputable def srB : Fin 3 → Fin 3 → ℝ :=
  ![![14.8528, 7.74805, 4.52871], ![7.74805, 3.598, 2.28990], ![4.52871, 2.28990, 1.54946]]

/-- The table `c` (ActivityModelSpycherReed.cpp:36-123). -/
noncomputable def srC : Fin 3 → Fin 3 → ℝ :=
  ![![-914.267e-05, -1.02901e-02, -0.507784e-02], ![-1.02901e-02, -227.376e-05, -0.153917e-02],
    ![-0.507784e-02, -0.153917e-02, -92.7827e-05]]

/-- The table `d` (ActivityModelSpycherReed.cpp:36-138). -/
noncomputable def srD : Fin 3 → Fin 3 → Fin 3 → ℝ :=
  ![![![-6633.26e-02, 104.453, 0], ![104.453, -8.28426, 0], ![0, 0, 0]],
    ![![104.453, -8.28426, 0], ![-8.28426, 347.644e-02, 2.99160], ![0, 2.99160, 1.58384]],
    ![![0, 0, 0], ![0, 2.99160, 1.58384], ![0, 1.58384, 120.861e-02]]]

/-- The table `e` (ActivityModelSpycherReed.cpp:36-153). -/
noncomputable def srE : Fin 3 → Fin 3 → Fin 3 → ℝ :=
  ![![![18277.0e-05, -38.4283e-02, 0], ![-38.4283e-02, 1.19097e-02, 0], ![0, 0, 0]],
    ![![-38.4283e-02, 1.19097e-02, 0], ![1.19097e-02, -1042.47e-05, -1.04893e-02], ![0, -1.04893e-02, -0.492077e-02]],
    ![![0, 0, 0], ![0, -1.04893e-02, -0.492077e-02], ![0, -0.492077e-02, -370.814e-05]]]

/-- The table `f` (ActivityModelSpycherReed.cpp:36-168). -/
noncomputable def srF : Fin 3 → Fin 3 → Fin 3 → ℝ :=
  ![![![-13274.0e-08, 36.5858e-05, 0], ![36.5858e-05, 0.808886e-05, 0], ![0, 0, 0]],
    ![![36.5858e-05, 0.808886e-05, 0], ![0.808886e-05, 846.271e-08, 1.02627e-05], ![0, 1.02627e-05, 0.430104e-05]],
    ![![0, 0, 0], ![0, 1.02627e-05, 0.430104e-05], ![0, 0.430104e-05, 333.804e-08]]]

/-- `computeB` (ActivityModelSpycherReed.cpp:170-173). -/
noncomputable def computeB (T : ℝ) (i j : Fin 3) : ℝ := srA i j / (T * T) + srB i j / T + srC i j

/-- `computeBT` (ActivityModelSpycherReed.cpp:175-178). -/
noncomputable def computeBT (T : ℝ) (i j : Fin 3) : ℝ := -(2 * srA i j / T + srB i j) / (T * T)

/-- `computeBTT` (ActivityModelSpycherReed.cpp:180-183). -/
noncomputable def computeBTT (T : ℝ) (i j : Fin 3) : ℝ := (6 * srA i j / T + 2 * srB i j) / (T * T * T)

/-- `computeC` (ActivityModelSpycherReed.cpp:185-188). -/
noncomputable def computeC (T : ℝ) (i j k : Fin 3) : ℝ := srD i j k / (T * T) + srE i j k / T + srF i j k

/-- `computeCT` (ActivityModelSpycherReed.cpp:190-193). -/
noncomputable def computeCT (T : ℝ) (i j k : Fin 3) : ℝ := -(2 * srD i j k / T + srE i j k) / (T * T)

/-- `computeCTT` (ActivityModelSpycherReed.cpp:195-198). -/
noncomputable def computeCTT (T : ℝ) (i j k : Fin 3) : ℝ := (6 * srD i j k / T + 2 * srE i j k) / (T * T * T)

/-- The loops for `Bmix`, `BmixT` and `BmixTT` (ActivityModelSpycherReed.cpp:268-277). -/
noncomputable def mix2 (y : Fin 3 → ℝ) (B : Fin 3 → Fin 3 → ℝ) : ℝ := ∑ i, ∑ k, y i * y k * B i k

/-- The loops for `Cmix`, `CmixT` and `CmixTT` (ActivityModelSpycherReed.cpp:279-288). -/
noncomputable def mix3 (y : Fin 3 → ℝ) (C : Fin 3 → Fin 3 → Fin 3 → ℝ) : ℝ := ∑ i, ∑ k, ∑ l, y i * y k * y l * C i k l

/-- The loop for `ln_phi[i]` (ActivityModelSpycherReed.cpp:296-306). -/
noncomputable def srLnPhi (T Pbar Z : ℝ) (y : Fin 3 → ℝ) (i : Fin 3) : ℝ :=
  1 - Z + ∑ k, (2 * y k * computeB T i k * Pbar + ∑ l, 1.5 * y k * y l * computeC T i k l * Pbar * Pbar)

/-- `if(i < nspecies) ln_g[i] = value` (ActivityModelSpycherReed.cpp:347-349). -/
def setIf (l : List ℝ) (i : Nat) (v : ℝ) : List ℝ := if i < l.length then l.set i v else l

/-- The body of the lambda (ActivityModelSpycherReed.cpp:227-353); `idx g` is the index of gas `g` in the phase. -/
noncomputable def srEval (idx : Fin 3 → Nat) (n : Nat) (T P : ℝ) (x : List ℝ) (p : AProps ℝ) : AProps ℝ :=
  let R := gasConstant
  let Pbar := 1e-5 * P
  let y : Fin 3 → ℝ := fun g => if idx g < n then x.getD (idx g) 0 else 0
  let Bmix := mix2 y (computeB T)
  let BmixT := mix2 y (computeBT T)
  let BmixTT := mix2 y (computeBTT T)
  let Cmix := mix3 y (computeC T)
  let CmixT := mix3 y (computeCT T)
  let CmixTT := mix3 y (computeCTT T)
  let Z := 1 + Bmix * Pbar + Cmix * Pbar * Pbar
  let ZT := BmixT * Pbar + CmixT * Pbar * Pbar
  let ZP := (Bmix + 2 * Cmix * Pbar) * 1e-5
  let V0 := R * T / P
  let V0T := V0 / T
  let V0P := -V0 / P
  let V := Z * V0
  let VT := ZT * V0 + Z * V0T
  let VP := ZP * V0 + Z * V0P
  let Hres := -R * T * T * (BmixT + 0.5 * CmixT * Pbar) * Pbar
  let Cpres := 2 * Hres / T - R * T * T * (BmixTT + 0.5 * CmixTT * Pbar) * Pbar
  let ln_g := setIf p.ln_g (idx 0) (srLnPhi T Pbar Z y 0)
  let ln_g := setIf ln_g (idx 1) (srLnPhi T Pbar Z y 1)
  let ln_g := setIf ln_g (idx 2) (srLnPhi T Pbar Z y 2)
  { Vex := V - V0
    VexT := VT - V0T
    VexP := VP - V0P
    Gex := R * T * (Bmix + 0.5 * Cmix * Pbar) * Pbar
    Hex := Hres
    Cpex := Cpres
    Cvex := Cpres + R + T * VT * VT / VP
    ln_g := ln_g
    ln_a := List.zipWith (fun g xi => g + Real.log xi + Real.log Pbar) ln_g x }

/-- `activityPropsFnSpycherReed` (ActivityModelSpycherReed.cpp:202-356). -/
noncomputable def spycherReed : Model := fun species =>
  if !Chem.contained (species.map fun s => s.formula.str) [c!"H2O", c!"CO2", c!"CH4"] then .throw
  else .ok fun T P x m =>
    if !m.fits species.length || x.length ≠ species.length then .ub
    else .ok { m with props := srEval (fun g => findWithFormula species (gasFormula g)) species.length T P x m.props }

/-! ## Spycher, Pruess and Ennis-King -/

/-- `R` (ActivityModelSpycherPruessEnnis.cpp:34). -/
noncomputable def speR : ℝ := 83.1447

/-- `aCO2` (ActivityModelSpycherPruessEnnis.cpp:37-40). -/
noncomputable def speA (T : ℝ) : ℝ := 7.54e7 - 4.13e4 * T

/-- `bCO2` (ActivityModelSpycherPruessEnnis.cpp:43). -/
noncomputable def speB : ℝ := 27.80

/-- `bH2O` (ActivityModelSpycherPruessEnnis.cpp:44). -/
noncomputable def speBw : ℝ := 18.18

/-- `aH2OCO2` (ActivityModelSpycherPruessEnnis.cpp:45). -/
noncomputable def speAw : ℝ := 7.89e7

/-- The coefficients `b`, `c`, `d` of the cubic equation (ActivityModelSpycherPruessEnnis.cpp:55-57). -/
noncomputable def speCubic (T Pb : ℝ) : ℝ × ℝ × ℝ :=
  (-speR * T / Pb, -(speR * T * speB / Pb - speA T / (Pb * √T) + speB * speB), -speA T * speB / (Pb * √T))

open Classical in
/-- `volumeCO2` (ActivityModelSpycherPruessEnnis.cpp:48-80); `eps` is the tolerance of `cardano`. The logarithm of a negative number is not
a number, and comparisons with it are false: the volume is then that of the gas. The arguments of the logarithms are not zero when the
temperature and pressure are positive and `aCO2` is not zero. -/
noncomputable def volumeCO2 (eps T Pb : ℝ) : ℝ :=
  let q := speCubic T Pb
  let r := Cardano.cardano eps q.1 q.2.1 q.2.2
  if r.2.1.im ≠ 0 then r.1.re
  else
    let Vliq := min r.1.re (min r.2.1.re r.2.2.re)
    let Vgas := max r.1.re (max r.2.1.re r.2.2.re)
    let r1 := (Vgas - speB) / (Vliq - speB)
    let r2 := (Vgas + speB) / (Vliq + speB) * Vliq / Vgas
    let w1 := Pb * (Vgas - Vliq)
    let w2 := speR * T * Real.log r1 + speA T / (√T * speB) * Real.log r2
    if 0 < r1 ∧ 0 < r2 ∧ w2 < w1 then Vliq else Vgas

/-- `ln_phiH2O` (ActivityModelSpycherPruessEnnis.cpp:113-130) with the molar volume `v`. -/
noncomputable def speLnPhiH2O (T Pb v : ℝ) : ℝ :=
  let T15 := T * √T
  let aux1 := Real.log (v / (v - speB))
  let aux2 := Real.log ((v + speB) / v) * 2 / (speR * T15 * speB)
  let aux3 := speA T / (speR * T15 * speB * speB)
  let aux4 := Real.log (Pb * v / (speR * T))
  aux1 + speBw / (v - speB) - speAw * aux2 + speBw * aux3 * (Real.log ((v + speBw) / v) - speB / (v + speB)) - aux4

/-- `ln_phiCO2` (ActivityModelSpycherPruessEnnis.cpp:113-133) with the molar volume `v`. -/
noncomputable def speLnPhiCO2 (T Pb v : ℝ) : ℝ :=
  let T15 := T * √T
  let aux1 := Real.log (v / (v - speB))
  let aux2 := Real.log ((v + speB) / v) * 2 / (speR * T15 * speB)
  let aux3 := speA T / (speR * T15 * speB * speB)
  let aux4 := Real.log (Pb * v / (speR * T))
  aux1 + speB / (v - speB) - speA T * aux2 + speB * aux3 * (Real.log ((v + speB) / v) - speB / (v + speB)) - aux4

/-- `activityPropsFnSpycherPruessEnnis` (ActivityModelSpycherPruessEnnis.cpp:84-156). -/
noncomputable def spycherPruessEnnis (eps : ℝ) : Model := fun species =>
  let iH2O := findWithFormula species waterFormula
  let iCO2 := findWithFormula species co2Formula
  .ok fun T P x m =>
    if !m.fits species.length || x.length ≠ species.length then .ub
    else
      let Pb := P * 1e-5
      let v := volumeCO2 eps T Pb
      let gH2O := speLnPhiH2O T Pb v
      let gCO2 := speLnPhiCO2 T Pb v
      let ideal := x.map fun xi => Real.log xi + Real.log Pb
      let ln_a := setIf ideal iH2O (ideal.getD iH2O 0 + gH2O)
      let ln_a := setIf ln_a iCO2 (ln_a.getD iCO2 0 + gCO2)
      .ok { m with props := { m.props with
        Vex := v * 1e-6 - speR * T / P
        ln_g := setIf (setIf m.props.ln_g iH2O gH2O) iCO2 gCO2
        ln_a := ln_a } }

end Verif.Activity
