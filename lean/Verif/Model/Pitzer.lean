import Verif.Model.ActivityModels
import Verif.Model.Bilinear
import Verif.Model.PitzerData
import Mathlib.Algebra.Order.Floor.Semiring

/-!
# Model of `Reaktoro/Thermodynamics/Aqueous/ActivityModelPitzerHMW.cpp`

Numbers are reals. The tables of interaction parameters that the code fills once per pair and triple of indices (517-541, 620-664,
756-797) are replaced by a lookup with the formulas of the species concerned, which is how the code fills them. At zero ionic strength the
code divides zero by zero; a division by zero gives 0 here, so the model is meaningful for positive ionic strength only. The order in
which a sum is accumulated is ignored, except for exceptions and undefined behaviour.
-/

namespace Verif.Pitzer

open Verif.Aqueous Verif.ChemicalProps Verif.Activity

/-! ## Interaction parameters -/

/-- The function made from the coefficients of one line (ActivityModelPitzerHMW.cpp:495-503); `none` is the error at 504. -/
noncomputable def saltFunction (c : List ℚ) : Option (ℝ → ℝ) :=
  let Tr : ℝ := 29815 / 100
  match c with
  | [c0] => some fun _ => c0
  | [c0, c1] => some fun T => c0 + c1 * (T - Tr)
  | [c0, c1, c2, c3, c4] => some fun T =>
    c0 + c1 * (1 / T - 1 / Tr) + c2 * Real.log (T / Tr) + c3 * (T - Tr) + c4 * (T * T - Tr * Tr)
  | _ => none

/-- `createSingleSaltParamFunction` (ActivityModelPitzerHMW.cpp:487-512). The error for a line with another number of coefficients, which
no line of the tables has, is replaced by 0. -/
noncomputable def salt (data : List (Formula × Formula × List ℚ)) (cation anion : Formula) (T : ℝ) : ℝ :=
  match data.find? (fun l => cation.equivalent l.1 && anion.equivalent l.2.1) with
  | some l => ((saltFunction l.2.2).getD fun _ => 0) T
  | none => 0

/-- `identical` (Algorithms.hpp:172-176) with `contained` (117-124); formulas are equal if their strings are (ChemicalFormula.cpp:147). -/
def identical (a b : List Formula) : Bool :=
  a.all (fun x => b.any fun y => x.str == y.str) && b.all (fun x => a.any fun y => x.str == y.str)

/-- `theta` and `lambda` (ActivityModelPitzerHMW.cpp:548-564, 584-600). -/
def pairParam (data : List (Formula × Formula × List ℚ)) (f g : Formula) : ℚ :=
  match data.find? (fun l => identical [f, g] [l.1, l.2.1]) with
  | some l => l.2.2.headD 0
  | none => 0

/-- `psi` and `zeta` (ActivityModelPitzerHMW.cpp:566-582, 602-618). -/
def tripleParam (data : List (Formula × Formula × Formula × List ℚ)) (f g h : Formula) : ℚ :=
  match data.find? (fun l => identical [f, g, h] [l.1, l.2.1, l.2.2.1]) with
  | some l => l.2.2.2.headD 0
  | none => 0

/-- `theta` (ActivityModelPitzerHMW.cpp:548-564). -/
def theta (f g : Formula) : ℚ := pairParam thetaData f g

/-- `psi` (ActivityModelPitzerHMW.cpp:566-582). -/
def psi (f g h : Formula) : ℚ := tripleParam psiData f g h

/-- `lambda` (ActivityModelPitzerHMW.cpp:584-600). -/
def lambda (f g : Formula) : ℚ := pairParam lambdaData f g

/-- `zeta` (ActivityModelPitzerHMW.cpp:602-618). -/
def zeta (f g h : Formula) : ℚ := tripleParam zetaData f g h

/-! ## The functions J0 and J1 -/

/-- `interpolate` (ActivityModelPitzerHMW.cpp:666-673). The index is unsigned, so that it is never negative. -/
noncomputable def interpolate (x x0 x1 : ℝ) (ypoints : List ℚ) : Res ℝ :=
  let N := ypoints.length
  let dx := (x1 - x0) / ((N : ℝ) - 1)
  let i := ⌊(x - x0) / dx⌋₊
  if i > N then .ok (ypoints.getLastD 0 : ℚ) else Res.bind (at! ypoints i) fun y => .ok (y : ℝ)

/-- The five regions shared by `J0` and `J1` (ActivityModelPitzerHMW.cpp:676-706). -/
noncomputable def regions (t1 t2 t3 t4 t5 : List ℚ) (x : ℝ) : Res ℝ :=
  if 0 ≤ x ∧ x ≤ 1 then interpolate x 0 1 t1
  else if 1 ≤ x ∧ x ≤ 10 then interpolate x 1 10 t2
  else if 10 ≤ x ∧ x ≤ 100 then interpolate x 10 100 t3
  else if 100 ≤ x ∧ x ≤ 1000 then interpolate x 100 1000 t4
  else if 1000 ≤ x ∧ x ≤ 10000 then interpolate x 1000 10000 t5
  else .throw

/-- The two functions of the electrostatic mixing terms. -/
structure Screening where
  J0 : ℝ → Res ℝ
  J1 : ℝ → Res ℝ

/-- `J0` (ActivityModelPitzerHMW.cpp:676-690) and `J1` (692-706). -/
noncomputable def tabulated : Screening where
  J0 := regions J0region1 J0region2 J0region3 J0region4 J0region5
  J1 := regions J1region1 J1region2 J1region3 J1region4 J1region5

/-! ## One evaluation -/

/-- A solute: formula, charge and molality. -/
structure Solute where
  formula : Formula
  z : ℝ
  m : ℝ

/-- What the functions read from the state of the mixture and from the parameters: temperature, effective ionic strength, `Aphi`, the sum
`Z` (`computeZ`), and the solutes. `sum` is `sum(m) - m[iH2O]` (ActivityModelPitzerHMW.cpp:1324). -/
structure Solution where
  T : ℝ
  I : ℝ
  A : ℝ
  Z : ℝ
  sum : ℝ
  cations : List Solute
  anions : List Solute
  neutrals : List Solute

/-- A loop that adds a number for each item. -/
noncomputable def sumM {α : Type} (f : α → Res ℝ) : List α → Res ℝ
  | [] => .ok 0
  | x :: xs => Res.bind (f x) fun a => Res.bind (sumM f xs) fun b => .ok (a + b)

/-- The turns of a loop over the pairs of distinct items, in the order of the indices. -/
noncomputable def pairs {α : Type} (f : α → α → Res ℝ) : List α → Res ℝ
  | [] => .ok 0
  | x :: xs => Res.bind (sumM (f x) xs) fun a => Res.bind (pairs f xs) fun b => .ok (a + b)

/-- `for(auto i = 0; i < n - 1; ++i) for(auto j = i + 1; j < n; ++j)` with unsigned `n` and signed `i`: for `n = 0` the bound is the
largest unsigned number, and the signed counter overflows, which is undefined. -/
noncomputable def pairLoop {α : Type} (f : α → α → Res ℝ) (l : List α) : Res ℝ :=
  if l.length = 0 then .ub else pairs f l

/-- `thetaE` (ActivityModelPitzerHMW.cpp:799-816). -/
noncomputable def thetaE (S : Screening) (d : Solution) (zi zj : ℝ) : Res ℝ :=
  if zi = zj then .ok 0
  else
    let x := fun (a b : ℝ) => 6 * a * b * d.A * √d.I
    Res.bind (S.J0 (x zi zj)) fun ij => Res.bind (S.J0 (x zi zi)) fun ii => Res.bind (S.J0 (x zj zj)) fun jj =>
    .ok (zi * zj / (4 * d.I) * (ij - 1 / 2 * ii - 1 / 2 * jj))

/-- `thetaE_prime` (ActivityModelPitzerHMW.cpp:818-835). -/
noncomputable def thetaEPrime (S : Screening) (d : Solution) (zi zj : ℝ) : Res ℝ :=
  if zi = zj then .ok 0
  else
    let x := fun (a b : ℝ) => 6 * a * b * d.A * √d.I
    Res.bind (S.J1 (x zi zj)) fun ij => Res.bind (S.J1 (x zi zi)) fun ii => Res.bind (S.J1 (x zj zj)) fun jj =>
    Res.bind (thetaE S d zi zj) fun t =>
    .ok (zi * zj / (8 * d.I * d.I) * (ij - 1 / 2 * ii - 1 / 2 * jj) - t / d.I)

/-- `Phi_cc` and `Phi_aa` (ActivityModelPitzerHMW.cpp:865-875). -/
noncomputable def Phi (S : Screening) (d : Solution) (i j : Solute) : Res ℝ :=
  Res.bind (thetaE S d i.z j.z) fun t => .ok ((theta i.formula j.formula : ℚ) + t)

/-- `Phi_phi_cc` and `Phi_phi_aa` (ActivityModelPitzerHMW.cpp:877-889). -/
noncomputable def PhiPhi (S : Screening) (d : Solution) (i j : Solute) : Res ℝ :=
  Res.bind (thetaE S d i.z j.z) fun t => Res.bind (thetaEPrime S d i.z j.z) fun t' =>
  .ok ((theta i.formula j.formula : ℚ) + t + d.I * t')

/-- `Phi_prime_cc` and `Phi_prime_aa` (ActivityModelPitzerHMW.cpp:891-899). -/
noncomputable def PhiPrime (S : Screening) (d : Solution) (i j : Solute) : Res ℝ := thetaEPrime S d i.z j.z

/-- `g` (ActivityModelPitzerHMW.cpp:901-904). -/
noncomputable def g (x : ℝ) : ℝ := 2 * (1 - (1 + x) * Real.exp (-x)) / (x * x)

/-- `g_prime` (ActivityModelPitzerHMW.cpp:906-909). -/
noncomputable def gPrime (x : ℝ) : ℝ := -2 * (1 - (1 + x + 1 / 2 * x * x) * Real.exp (-x)) / (x * x)

/-- `abs(zc) == 2 && abs(za) == 2` (ActivityModelPitzerHMW.cpp:926, 943, 959). -/
def twoTwo (c a : Solute) : Prop := |c.z| = 2 ∧ |a.z| = 2

/-- `B_phi` (ActivityModelPitzerHMW.cpp:915-930). -/
noncomputable def BPhi (d : Solution) (c a : Solute) : ℝ :=
  open Classical in
  let b0 := salt beta0Data c.formula a.formula d.T
  let b1 := salt beta1Data c.formula a.formula d.T
  let b2 := salt beta2Data c.formula a.formula d.T
  if twoTwo c a then b0 + b1 * Real.exp (-(14 / 10) * √d.I) + b2 * Real.exp (-12 * √d.I)
  else b0 + b1 * Real.exp (-2 * √d.I)

/-- `B` (ActivityModelPitzerHMW.cpp:932-947). -/
noncomputable def B (d : Solution) (c a : Solute) : ℝ :=
  open Classical in
  let b0 := salt beta0Data c.formula a.formula d.T
  let b1 := salt beta1Data c.formula a.formula d.T
  let b2 := salt beta2Data c.formula a.formula d.T
  if twoTwo c a then b0 + b1 * g (14 / 10 * √d.I) + b2 * g (12 * √d.I) else b0 + b1 * g (2 * √d.I)

/-- `B_prime` (ActivityModelPitzerHMW.cpp:949-963). -/
noncomputable def BPrime (d : Solution) (c a : Solute) : ℝ :=
  open Classical in
  let b1 := salt beta1Data c.formula a.formula d.T
  let b2 := salt beta2Data c.formula a.formula d.T
  if twoTwo c a then b1 * gPrime (14 / 10 * √d.I) / d.I + b2 * gPrime (12 * √d.I) / d.I else b1 * gPrime (2 * √d.I) / d.I

/-- `C` (ActivityModelPitzerHMW.cpp:965-972). -/
noncomputable def C (d : Solution) (c a : Solute) : ℝ :=
  1 / 2 * salt cphiData c.formula a.formula d.T / √|c.z * a.z|

/-- A sum over a list. -/
noncomputable def total {α : Type} (l : List α) (f : α → ℝ) : ℝ := (l.map f).sum

/-- `computeF` (ActivityModelPitzerHMW.cpp:974-1017). -/
noncomputable def computeF (S : Screening) (d : Solution) : Res ℝ :=
  let b : ℝ := 12 / 10
  let F := -d.A * (√d.I / (1 + b * √d.I) + 2 / b * Real.log (1 + b * √d.I))
    + total d.cations fun c => total d.anions fun a => c.m * a.m * BPrime d c a
  Res.bind (pairLoop (fun i j => Res.bind (PhiPrime S d i j) fun p => .ok (i.m * j.m * p)) d.cations) fun cc =>
  Res.bind (pairLoop (fun i j => Res.bind (PhiPrime S d i j) fun p => .ok (i.m * j.m * p)) d.anions) fun aa =>
  .ok (F + cc + aa)

/-- The part shared by `lnActivityCoefficientCation` (ActivityModelPitzerHMW.cpp:1030-1116) and `lnActivityCoefficientAnion`
(1122-1208), which differ by the exchange of cations and anions: `same` are the ions of the sign of the ion `M`, `other` those of the other
sign; `virial` and `third` are `B` and `C` with the arguments in the order of the ion and the other ion. -/
noncomputable def lnGammaIon (S : Screening) (d : Solution) (same other : List Solute) (virial third : Solute → Solute → ℝ)
    (M : Solute) : Res ℝ :=
  Res.bind (computeF S d) fun F =>
  let first := total other fun a => a.m * (2 * virial M a + d.Z * third M a)
  Res.bind (sumM (fun c => Res.bind (Phi S d M c) fun p =>
    .ok (c.m * (2 * p + total other fun a => a.m * (psi M.formula c.formula a.formula : ℚ)))) same) fun second =>
  Res.bind (pairLoop (fun i j => .ok (i.m * j.m * (psi i.formula j.formula M.formula : ℚ))) other) fun triple =>
  let cubic := total d.cations fun c => total d.anions fun a => |M.z| * c.m * a.m * C d c a
  let neutral := total d.neutrals fun n => 2 * n.m * (lambda n.formula M.formula : ℚ)
  .ok (first + second + triple + cubic + neutral + M.z * M.z * F)

/-- `lnActivityCoefficientCation` (ActivityModelPitzerHMW.cpp:1030-1116). -/
noncomputable def lnGammaCation (S : Screening) (d : Solution) (M : Solute) : Res ℝ :=
  lnGammaIon S d d.cations d.anions (B d) (C d) M

/-- `lnActivityCoefficientAnion` (ActivityModelPitzerHMW.cpp:1122-1208). -/
noncomputable def lnGammaAnion (S : Screening) (d : Solution) (X : Solute) : Res ℝ :=
  lnGammaIon S d d.anions d.cations (fun a c => B d c a) (fun a c => C d c a) X

/-- `lnActivityCoefficientNeutral` (ActivityModelPitzerHMW.cpp:1338-1371). -/
noncomputable def lnGammaNeutral (d : Solution) (N : Solute) : ℝ :=
  (total d.cations fun c => 2 * c.m * (lambda N.formula c.formula : ℚ))
    + (total d.anions fun a => 2 * a.m * (lambda N.formula a.formula : ℚ))
    + total d.cations fun c => total d.anions fun a => c.m * a.m * (zeta N.formula c.formula a.formula : ℚ)

/-- The loop over pairs of cations, or of anions, in `lnActivityWater` (ActivityModelPitzerHMW.cpp:1263-1305). -/
noncomputable def waterPairs (S : Screening) (d : Solution) (same other : List Solute) : Res ℝ :=
  pairLoop (fun i j => Res.bind (PhiPhi S d i j) fun p =>
    .ok (i.m * j.m * (p + total other fun a => a.m * (psi i.formula j.formula a.formula : ℚ)))) same

/-- `lnActivityWater` (ActivityModelPitzerHMW.cpp:1214-1332). -/
noncomputable def lnActivityWater (S : Screening) (d : Solution) : Res ℝ :=
  let b : ℝ := 12 / 10
  let phi := -d.A * d.I * √d.I / (1 + b * √d.I)
    + total d.cations fun c => total d.anions fun a => c.m * a.m * (BPhi d c a + d.Z * C d c a)
  Res.bind (waterPairs S d d.cations d.anions) fun cc =>
  Res.bind (waterPairs S d d.anions d.cations) fun aa =>
  let phi := phi + cc + aa
    + (total d.neutrals fun n => total d.cations fun c => n.m * c.m * (lambda n.formula c.formula : ℚ))
    + (total d.neutrals fun n => total d.anions fun a => n.m * a.m * (lambda n.formula a.formula : ℚ))
    + total d.neutrals fun n => total d.cations fun c => total d.anions fun a =>
        n.m * c.m * a.m * (zeta n.formula c.formula a.formula : ℚ)
  let phi := 1 + 2 / d.sum * phi
  .ok (-phi * d.sum * waterMolarMass)

/-! ## The activity model -/

/-- The interpolator of `Aphi` (ActivityModelPitzerHMW.cpp:790-797): kelvin and pascal. -/
noncomputable def aphi : Bilinear.Interpolator ℝ where
  xs := aphiTemperatures.map fun t : ℚ => (t : ℝ) + 27315 / 100
  ys := aphiPressures.map fun p : ℚ => (p : ℝ) * 100000
  data := aphiData.map fun a : ℚ => (a : ℝ)

/-- The solutes with given species and indices. -/
noncomputable def solutes (species : List (Species ℝ)) (idx : List Nat) (m : List ℝ) : List Solute :=
  (idx.zip species).map fun q => ⟨q.2.formula, q.2.charge, m.getD q.1 0⟩

/-- What the functions read, from the state of the mixture; `Z` is `computeZ` (ActivityModelPitzerHMW.cpp:1019-1024). -/
noncomputable def solutionOf (mix : Mixture ℝ) (st : State ℝ) (A : ℝ) : Solution where
  T := st.T
  I := st.Ie
  A := A
  Z := total (solutes mix.ix.charged mix.ix.idxCharged st.m) fun q => q.m * |q.z|
  sum := st.m.sum - st.m.getD mix.idxWater 0
  cations := solutes mix.ix.cations mix.ix.idxCations st.m
  anions := solutes mix.ix.anions mix.ix.idxAnions st.m
  neutrals := solutes mix.ix.neutral mix.ix.idxNeutral st.m

/-- A loop that sets the activity coefficients of the solutes of one kind (ActivityModelPitzerHMW.cpp:1401-1431). -/
noncomputable def setAll (f : Solute → Res ℝ) : List (Nat × Solute) → List ℝ → Res (List ℝ)
  | [], v => .ok v
  | (i, s) :: rest, v => Res.bind (f s) fun y => setAll f rest (v.set i y)

/-- The loops over the cations, the anions and the neutral species and the assignments after them
(ActivityModelPitzerHMW.cpp:1401-1446). -/
noncomputable def evaluate (S : Screening) (mix : Mixture ℝ) (st : State ℝ) (A xw : ℝ) (p : AProps ℝ) : Res (AProps ℝ) :=
  let d := solutionOf mix st A
  Res.bind (setAll (lnGammaCation S d) (mix.ix.idxCations.zip d.cations) p.ln_g) fun v =>
  Res.bind (setAll (lnGammaAnion S d) (mix.ix.idxAnions.zip d.anions) v) fun v =>
  Res.bind (setAll (fun s => .ok (lnGammaNeutral d s)) (mix.ix.idxNeutral.zip d.neutrals) v) fun v =>
  Res.bind (lnActivityWater S d) fun ln_aw =>
  let ln_a := (List.zipWith (fun g m => g + Real.log m) v st.m).set mix.idxWater ln_aw
  .ok { p with ln_g := v.set mix.idxWater (ln_aw - Real.log xw), ln_a := ln_a }

/-- `activityPropsFnPitzerHMW` (ActivityModelPitzerHMW.cpp:1375-1450). `Aphi` is computed at the beginning of each function that uses it;
here it is computed once before the loops, since its value does not depend on the ion. -/
noncomputable def pitzer (reactions : List Registries.Reaction) (rho0 eps0 : ℝ) : Model := fun species =>
  Res.bind (construct reactions rho0 eps0 species) fun mix => .ok fun T P x m =>
  if !m.fits species.length || x.length ≠ species.length then .ub
  else
    Res.bind (mix.state T P x) fun st =>
    Res.bind (Bilinear.eval aphi T P) fun A =>
    Res.bind (evaluate tabulated mix st A (x.getD mix.idxWater 0) m.props) fun p =>
    .ok { m with props := p, extra := some (mix, st) }

end Verif.Pitzer
