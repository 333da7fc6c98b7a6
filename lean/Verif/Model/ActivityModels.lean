import Verif.Model.AqueousMixture
import Verif.Model.ChemicalProps
import Mathlib.Analysis.SpecialFunctions.Pow.Real

/-!
# Model of the activity models

`Reaktoro/Core/ActivityModel.cpp`, `Reaktoro/Thermodynamics/Ideal/*.cpp`, `Reaktoro/Thermodynamics/Solids/ActivityModelRedlichKister.cpp`,
and `ActivityModelDebyeHuckel.cpp`, `ActivityModelHKF.cpp`, `ActivityModelSetschenow.cpp`, `ActivityModelDrummond.cpp`,
`ActivityModelRumpf.cpp`, `ActivityModelDuanSun.cpp` in `Reaktoro/Thermodynamics/Aqueous`.

Numbers are reals; logarithms of zero, which `ChemicalProps` excludes (ChemicalPropsPhase.hpp:535), are not meaningful here. The memory an
evaluation reads and writes consists of the properties of the phase, the `extra` vector of the arguments, and the function-local static
variables of the process. The `extra` vector holds an aqueous mixture and its state if a base aqueous model has been evaluated before, and
is empty otherwise. The arrays of activity coefficients and activities must have one entry per species; otherwise the behaviour is
undefined.
-/

namespace Verif.Activity

open Verif.Aqueous Verif.ChemicalProps

/-- The static variables of the lambdas in ActivityModelRumpf.cpp:46-50 and ActivityModelDuanSun.cpp:96-101, once initialised. -/
structure World where
  rumpf : Option (List Nat) := none
  duan : Option (List Nat) := none

/-- What an evaluation reads and writes. -/
structure Mem where
  props : AProps ℝ
  extra : Option (Mixture ℝ × State ℝ) := none
  world : World := {}

/-- `ActivityPropsFn` (ActivityProps.hpp:136): temperature, pressure, mole fractions. -/
abbrev Fn := ℝ → ℝ → List ℝ → Mem → Res Mem

/-- `ActivityModel` (ActivityModel.hpp). -/
abbrev Model := List (Species ℝ) → Res Fn

/-- The loop over the functions of a chain (ActivityModel.cpp:33-34). -/
def runAll (T P : ℝ) (x : List ℝ) : List Fn → Mem → Res Mem
  | [], m => .ok m
  | f :: fs, m => Res.bind (f T P x m) (runAll T P x fs)

/-- `chain` (ActivityModel.cpp:25-41). -/
def chain (models : List Model) : Model := fun species =>
  Res.bind (models.mapM (m := Res) fun model => model species) fun fns => .ok fun T P x m => runAll T P x fns m

/-- The arrays have one entry per species. -/
def Mem.fits (m : Mem) (n : Nat) : Bool := m.props.ln_g.length = n && m.props.ln_a.length = n

/-- `ActivityModelIdealSolution` (ActivityModelIdealSolution.cpp:22-36). -/
noncomputable def idealSolution : Model := fun species => .ok fun _ _ x m =>
  if !m.fits species.length || x.length ≠ species.length then .ub
  else .ok { m with props := { m.props.zero with ln_a := x.map Real.log } }

/-- `ActivityModelIdealGas` (ActivityModelIdealGas.cpp:24-39). -/
noncomputable def idealGas : Model := fun species => .ok fun _ P x m =>
  if !m.fits species.length || x.length ≠ species.length then .ub
  else .ok { m with props := { m.props.zero with ln_a := x.map fun xi => Real.log xi + Real.log (P * (1 / 100000)) } }

/-- `ActivityModelIdealAqueous` (ActivityModelIdealAqueous.cpp:27-47). -/
noncomputable def idealAqueous : Model := fun species =>
  Res.bind (indexWithFormula species waterFormula) fun iH2O => .ok fun _ _ x m =>
  if !m.fits species.length || x.length ≠ species.length then .ub
  else
    let xw := x.getD iH2O 0
    .ok { m with props := { m.props.zero with
      ln_a := (x.map fun xi => Real.log (xi / (waterMolarMass * xw))).set iH2O (Real.log xw) } }

/-- `universalGasConstant` (Constants.hpp:26). -/
noncomputable def gasConstant : ℝ := 83144621 / 10000000

/-- `ActivityModelRedlichKister` (ActivityModelRedlichKister.cpp:29-61). -/
noncomputable def redlichKister (a0 a1 a2 : ℝ) : Model := fun species =>
  if species.length ≠ 2 then .throw
  else .ok fun T _ x m =>
    if !m.fits species.length || x.length ≠ species.length then .ub
    else
      let RT := gasConstant * T
      let x1 := x.getD 0 0
      let x2 := x.getD 1 0
      let ln_g := m.props.ln_g.set 0 (x2 * x2 * (a0 + a1 * (3 * x1 - x2) + a2 * (x1 - x2) * (5 * x1 - x2)))
      let ln_g := ln_g.set 1 (x1 * x1 * (a0 - a1 * (3 * x2 - x1) + a2 * (x2 - x1) * (5 * x2 - x1)))
      let Gex := x1 * x2 * (a0 + a1 * (x1 - x2) + a2 * (x1 - x2) ^ 2) * RT
      .ok { m with props := { m.props with
        ln_g := ln_g, ln_a := List.zipWith (fun g xi => g + Real.log xi) ln_g x, Gex := Gex, Hex := Gex } }

/-! ## Debye–Hückel -/

/-- `get` (ActivityModelDebyeHuckel.cpp:275-281); the keys of the map are formulas, in their order in the map. -/
def getParam (f : Formula) (params : List (Formula × ℝ)) (default : ℝ) : ℝ :=
  match params.find? (fun q => f.equivalent q.1) with
  | some q => q.2
  | none => default

/-- `ActivityModelDebyeHuckelParams` (ActivityModelDebyeHuckel.hpp): the maps and defaults. -/
structure DHParams where
  aiondefault : ℝ := 0
  biondefault : ℝ := 0
  bneutraldefault : ℝ := 1 / 10
  aions : List (Formula × ℝ) := []
  bions : List (Formula × ℝ) := []
  bneutrals : List (Formula × ℝ) := []

def DHParams.aion (p : DHParams) (f : Formula) : ℝ := getParam f p.aions p.aiondefault
def DHParams.bion (p : DHParams) (f : Formula) : ℝ := getParam f p.bions p.biondefault
def DHParams.bneutral (p : DHParams) (f : Formula) : ℝ := getParam f p.bneutrals p.bneutraldefault

/-- The numbers an evaluation derives from the state of the mixture (ActivityModelDebyeHuckel.cpp:353-365). -/
structure DHState where
  I : ℝ
  A : ℝ
  B : ℝ

/-- ActivityModelDebyeHuckel.cpp:340-364. -/
noncomputable def dhState (st : State ℝ) : DHState :=
  let rho := st.rho / 1000
  let Te := st.T * st.epsilon
  ⟨st.Is, 1824829238 / 1000 * √rho / (Te * √Te), 5029158649 / 100000000 * √rho / √Te⟩

/-- The ln activity coefficient of an ion of charge `z` (ActivityModelDebyeHuckel.cpp:383, 389). -/
noncomputable def dhIon (d : DHState) (a b z : ℝ) : ℝ :=
  let Lambda := 1 + a * d.B * √d.I
  Real.log 10 * (-d.A * z * z * √d.I / Lambda + b * d.I)

/-- The sigma parameter of an ion (ActivityModelDebyeHuckel.cpp:386). -/
noncomputable def dhSigma (d : DHState) (a : ℝ) : ℝ :=
  let Lambda := 1 + a * d.B * √d.I
  if a ≠ 0 then 3 * ((Lambda - 1) ^ 3)⁻¹ * ((Lambda - 1) * (Lambda - 3) + 2 * Real.log Lambda) else 2

/-- The data of one ion in the loop over the ions: its index in the phase, its stoichiometric molality, charge and parameters. -/
structure Ion where
  index : Nat
  ms : ℝ
  z : ℝ
  a : ℝ
  b : ℝ

/-- One turn of the loop over the ions (ActivityModelDebyeHuckel.cpp:371-396): the arrays `ln_g` and `ln_a`. -/
noncomputable def dhTurn (d : DHState) (m : List ℝ) (iw : Nat) (acc : List ℝ × List ℝ) (ion : Ion) : List ℝ × List ℝ :=
  let sigmacoeff := 2 / 3 * d.A * d.I * √d.I
  let g := dhIon d ion.a ion.b ion.z
  let ln_g := acc.1.set ion.index g
  let ln_a := acc.2.set ion.index (g + Real.log (m.getD ion.index 0))
  (ln_g, ln_a.set iw (ln_a.getD iw 0 + (ion.ms * g + sigmacoeff * dhSigma d ion.a * Real.log 10
    - d.I * d.I * ion.b / (ion.z * ion.z) * Real.log 10)))

/-- One turn of the loop over the neutral species (ActivityModelDebyeHuckel.cpp:411-421). -/
noncomputable def dhNeutral (d : DHState) (m : List ℝ) (acc : List ℝ × List ℝ) (q : Nat × ℝ) : List ℝ × List ℝ :=
  let g := Real.log 10 * q.2 * d.I
  (acc.1.set q.1 g, acc.2.set q.1 (g + Real.log (m.getD q.1 0)))

/-- The ions of the mixture with their parameters (ActivityModelDebyeHuckel.cpp:308-330, 371-380). -/
def dhIons (p : DHParams) (mix : Mixture ℝ) (ms : List ℝ) : List Ion :=
  (mix.ix.idxCharged.zip mix.ix.charged).mapIdx fun k q =>
    ⟨q.1, ms.getD k 0, q.2.charge, p.aion q.2.formula, p.bion q.2.formula⟩

/-- `activityPropsFnDebyeHuckel` (ActivityModelDebyeHuckel.cpp:284-425). `reactions`, `rho0` and `eps0` are those of the constructor of
the mixture. -/
noncomputable def debyeHuckel (reactions : List Registries.Reaction) (rho0 eps0 : ℝ) (p : DHParams) : Model := fun species =>
  Res.bind (construct reactions rho0 eps0 species) fun mix => .ok fun T P x m =>
  if !m.fits species.length || x.length ≠ species.length then .ub
  else
    Res.bind (mix.state T P x) fun st =>
    let nwo := 1 / waterMolarMass
    let iw := mix.idxWater
    let xw := x.getD iw 0
    let d := dhState st
    let r := (dhIons p mix st.ms).foldl (dhTurn d st.m iw) (m.props.ln_g, m.props.ln_a.set iw (nwo * (1 - xw) / xw))
    let ln_a := r.2.set iw (r.2.getD iw 0 * (-1 / nwo))
    let ln_g := r.1.set iw (ln_a.getD iw 0 - Real.log xw)
    let r := ((mix.ix.idxNeutral.zip mix.ix.neutral).map fun q => (q.1, p.bneutral q.2.formula)).foldl (dhNeutral d st.m) (ln_g, ln_a)
    .ok { m with props := { m.props with ln_g := r.1, ln_a := r.2 }, extra := some (mix, st) }

/-! ## Helgeson–Kirkham–Flowers -/

/-- The interpolated parameters (ActivityModelHKF.cpp:253-279). -/
structure HKFParams where
  A : ℝ → ℝ → ℝ
  B : ℝ → ℝ → ℝ
  bNaCl : ℝ → ℝ → ℝ
  bNapClm : ℝ → ℝ → ℝ
  radius : Species ℝ → ℝ

/-- The numbers used in one evaluation (ActivityModelHKF.cpp:356-377). -/
structure HKFState where
  I : ℝ
  xw : ℝ
  A : ℝ
  B : ℝ
  bNaCl : ℝ
  bNapClm : ℝ

/-- The ion size parameter (ActivityModelHKF.cpp:424-426). -/
noncomputable def hkfSize (radius z : ℝ) : ℝ :=
  if z < 0 then 2 * (radius + 191 / 100 * |z|) / (|z| + 1) else 2 * (radius + 181 / 100 * |z|) / (|z| + 1)

/-- The ln activity coefficient of an ion (ActivityModelHKF.cpp:412-436). -/
noncomputable def hkfIon (d : HKFState) (radius z : ℝ) : ℝ :=
  let omegaAbs := 166027 * (z * z) / radius
  let lambda := 1 + hkfSize radius z * d.B * √d.I
  (-(d.A * (z * z) * √d.I) / lambda + Real.log d.xw / Real.log 10
    + (omegaAbs * d.bNaCl + d.bNapClm - 19 / 100 * (|z| - 1)) * d.I) * Real.log 10

/-- The contribution of an ion to the osmotic coefficient (ActivityModelHKF.cpp:417-449). -/
noncomputable def hkfPsi (d : HKFState) (radius z : ℝ) : ℝ :=
  let omega := 166027 * (z * z) / radius - z * 53870
  let a := hkfSize radius z
  let lambda := 1 + a * d.B * √d.I
  let sigma := 3 / (a * d.B * √d.I) ^ 3 * (lambda - 1 / lambda - 2 * Real.log lambda)
  let alpha := d.xw / (1 - d.xw) * (Real.log d.xw / Real.log 10)
  d.A * (z * z) * √d.I * sigma / 3 + alpha - 1 / 2 * (omega * d.bNaCl + d.bNapClm - 19 / 100 * (|z| - 1)) * d.I

/-- One turn of the loop over the ions (ActivityModelHKF.cpp:396-450): the array `ln_g` and the osmotic coefficient. -/
noncomputable def hkfTurn (d : HKFState) (acc : List ℝ × ℝ) (ion : Ion) : List ℝ × ℝ :=
  if ion.ms = 0 then acc
  else (acc.1.set ion.index (hkfIon d ion.a ion.z), if d.xw ≠ 1 then acc.2 + ion.ms * hkfPsi d ion.a ion.z else acc.2)

/-- The ions of the mixture; the field `a` is the effective radius (ActivityModelHKF.cpp:340-346). -/
def hkfIons (p : HKFParams) (mix : Mixture ℝ) (ms : List ℝ) : List Ion :=
  (mix.ix.idxCharged.zip mix.ix.charged).mapIdx fun k q => ⟨q.1, ms.getD k 0, q.2.charge, p.radius q.2, 0⟩

/-- `activityPropsFnHKF` (ActivityModelHKF.cpp:306-466). -/
noncomputable def hkf (reactions : List Registries.Reaction) (rho0 eps0 : ℝ) (p : HKFParams) : Model := fun species =>
  Res.bind (construct reactions rho0 eps0 species) fun mix => .ok fun T P x m =>
  if !m.fits species.length || x.length ≠ species.length then .ub
  else
    Res.bind (mix.state T P x) fun st =>
    let iw := mix.idxWater
    let xw := x.getD iw 0
    let d : HKFState := ⟨st.Is, xw, p.A T P, p.B T P, p.bNaCl T P, p.bNapClm T P⟩
    let ln_g := mix.ix.idxNeutral.foldl (fun g i => g.set i (Real.log 10 * (1 / 10) * d.I)) m.props.ln_g
    let r := (hkfIons p mix st.ms).foldl (hkfTurn d) (ln_g, 0)
    let ln_a := List.zipWith (fun g m => g + Real.log m) r.1 st.m
    let ln_a := ln_a.set iw (if xw ≠ 1 then Real.log 10 * waterMolarMass * r.2 else Real.log xw)
    let ln_g := r.1.set iw (ln_a.getD iw 0 - Real.log xw)
    .ok { m with props := { m.props with ln_g := ln_g, ln_a := ln_a }, extra := some (mix, st) }

/-! ## Models for one dissolved species, evaluated after a base model -/

/-- Writing the activity coefficient of one species and its activity from the molality in the exported state. -/
noncomputable def overwrite (m : Mem) (st : State ℝ) (i : Nat) (g : ℝ) : Mem :=
  { m with props := { m.props with
    ln_g := m.props.ln_g.set i g, ln_a := m.props.ln_a.set i (g + Real.log (st.m.getD i 0)) } }

/-- `ActivityModelSetschenow` (ActivityModelSetschenow.cpp:28-50). Reading the empty `extra` throws. -/
noncomputable def setschenow (neutral : Formula) (b : ℝ) : Model := fun species =>
  Res.bind (indexWithFormula species neutral) fun i => .ok fun _ _ x m =>
  if !m.fits species.length || x.length ≠ species.length then .ub
  else match m.extra with
    | none => .throw
    | some (_, st) => .ok (overwrite m st i (Real.log 10 * b * st.Is))

/-- `ActivityModelDrummondParams` (ActivityModelDrummond.hpp). -/
structure DrummondParams where
  a1 : ℝ
  a2 : ℝ
  a3 : ℝ
  a4 : ℝ
  a5 : ℝ

/-- `ActivityModelDrummond` (ActivityModelDrummond.cpp:32-58). -/
noncomputable def drummond (gas : Formula) (p : DrummondParams) : Model := fun species =>
  Res.bind (indexWithFormula species gas) fun i => .ok fun _ _ x m =>
  if !m.fits species.length || x.length ≠ species.length then .ub
  else match m.extra with
    | none => .throw
    | some (_, st) =>
      let c1 := p.a1 + p.a2 * st.T + p.a3 / st.T
      let c2 := p.a4 + p.a5 * st.T
      .ok (overwrite m st i (c1 * st.Is - c2 * st.Is / (st.Is + 1)))

/-- The formulas of the ions looked up by the models of Rumpf and of Duan and Sun. -/
def naPlus : Formula := ⟨c!"Na+", [(c!"Na", 1)], 1⟩
def kPlus : Formula := ⟨c!"K+", [(c!"K", 1)], 1⟩
def caPlus : Formula := ⟨c!"Ca++", [(c!"Ca", 1)], 2⟩
def mgPlus : Formula := ⟨c!"Mg++", [(c!"Mg", 1)], 2⟩
def clMinus : Formula := ⟨c!"Cl-", [(c!"Cl", 1)], -1⟩
def so4Minus : Formula := ⟨c!"SO4--", [(c!"S", 1), (c!"O", 4)], -2⟩

/-- `mixture.charged().findWithFormula(...)` for each formula. -/
def ionIndices (mix : Mixture ℝ) (fs : List Formula) : List Nat := fs.map fun f => findWithFormula mix.ix.charged f

/-- `(i < nions) ? ms[i] : 0` for the `k`-th index. -/
def ionMolality (mix : Mixture ℝ) (ms : List ℝ) (idx : List Nat) (k : Nat) : ℝ :=
  if idx.getD k 0 < mix.ix.charged.length then ms.getD (idx.getD k 0) 0 else 0

/-- The ln activity coefficient in `ActivityModelRumpf` (ActivityModelRumpf.cpp:52-69). -/
noncomputable def rumpfValue (T : ℝ) (ms : Nat → ℝ) : ℝ :=
  let B := 254 / 1000 - 7682 / 100 / T - 10656 / (T * T) + 6312000 / (T * T * T)
  let Gamma := -28 / 10000
  2 * B * (ms 0 + ms 1 + 2 * ms 2 + 2 * ms 3) + 3 * Gamma * (ms 0 + ms 1 + ms 2 + ms 3) * ms 4

/-- `ActivityModelRumpf` (ActivityModelRumpf.cpp:28-75). The static variables are initialised by the first evaluation in the process. -/
noncomputable def rumpf (gas : Formula) : Model := fun species =>
  Res.bind (indexWithFormula species gas) fun i => .ok fun _ _ x m =>
  if !m.fits species.length || x.length ≠ species.length then .ub
  else match m.extra with
    | none => .throw
    | some (mix, st) =>
      let idx := m.world.rumpf.getD (ionIndices mix [naPlus, kPlus, caPlus, mgPlus, clMinus])
      .ok (overwrite { m with world := { m.world with rumpf := some idx } } st i
        (rumpfValue st.T (ionMolality mix st.ms idx)))

/-- `paramDuanSun` (ActivityModelDuanSun.cpp:60-81). -/
noncomputable def paramDuanSun (T P : ℝ) (c : List ℝ) : ℝ :=
  let Pbar := 1 / 100000 * P
  let c := fun k => c.getD k 0
  c 0 + c 1 * T + c 2 / T + c 3 * T * T + c 4 / (630 - T) +
    c 5 * Pbar + c 6 * Pbar * Real.log T + c 7 * Pbar / T + c 8 * Pbar / (630 - T) +
    c 9 * Pbar * Pbar / (630 - T) / (630 - T) + c 10 * T * Real.log Pbar

/-- `lambda_coeffs` (ActivityModelDuanSun.cpp:29-42). -/
noncomputable def lambdaCoeffs : List ℝ :=
  [-411370585 / 1000000000, 607632013 / 1000000000000, 975347708 / 10000000, 0, 0, 0, 0, -237622469 / 10000000000,
    170656236 / 10000000000, 0, 141335834 / 10000000000000]

/-- `zeta_coeffs` (ActivityModelDuanSun.cpp:45-58). -/
noncomputable def zetaCoeffs : List ℝ :=
  [336389723 / 1000000000000, -198298980 / 10000000000000, 0, 0, 0, 0, 0, 212220830 / 100000000000, -524873303 / 100000000000, 0, 0]

/-- The ln activity coefficient in `ActivityModelDuanSun` (ActivityModelDuanSun.cpp:103-119). -/
noncomputable def duanSunValue (T P : ℝ) (ms : Nat → ℝ) : ℝ :=
  let lambda := paramDuanSun T P lambdaCoeffs
  let zeta := paramDuanSun T P zetaCoeffs
  2 * lambda * (ms 0 + ms 1 + 2 * ms 2 + 2 * ms 3) + zeta * (ms 0 + ms 1 + ms 2 + ms 3) * ms 4 - 7 / 100 * ms 5

/-- `ActivityModelDuanSun` (ActivityModelDuanSun.cpp:85-129). -/
noncomputable def duanSun (gas : Formula) : Model := fun species =>
  Res.bind (indexWithFormula species gas) fun i => .ok fun _ _ x m =>
  if !m.fits species.length || x.length ≠ species.length then .ub
  else match m.extra with
    | none => .throw
    | some (mix, st) =>
      let idx := m.world.duan.getD (ionIndices mix [naPlus, kPlus, caPlus, mgPlus, clMinus, so4Minus])
      .ok (overwrite { m with world := { m.world with duan := some idx } } st i
        (duanSunValue st.T st.P (ionMolality mix st.ms idx)))

end Verif.Activity
