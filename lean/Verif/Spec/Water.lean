import Verif.Model.WaterThermo
import Mathlib.Analysis.Calculus.FDeriv.Prod
import Mathlib.Analysis.Calculus.Deriv.Basic

/-!
# What a Helmholtz state means

Ten numbers computed at every temperature and density form the Helmholtz energy and its partial
derivatives up to third order : every field is the partial derivative of the field one order below it,
and each field below third order is differentiable as a function of both variables.  Each mixed
derivative is required along every path that leads to it.
-/

namespace Verif.Water

/-- `f` is differentiable at `(x, y)` as a function of two variables, with partial derivatives `fx` and
`fy`. -/
def HasPartials (f : ℝ → ℝ → ℝ) (fx fy x y : ℝ) : Prop :=
  HasFDerivAt (fun p : ℝ × ℝ => f p.1 p.2)
    (fx • ContinuousLinearMap.fst ℝ ℝ ℝ + fy • ContinuousLinearMap.snd ℝ ℝ ℝ) (x, y)

/-- At temperature `T` and density `D` every field of `F` is the partial derivative its name says. -/
structure IsJet (F : ℝ → ℝ → HState) (T D : ℝ) : Prop where
  h : HasPartials (fun t d => (F t d).h) (F T D).hT (F T D).hD T D
  hT : HasPartials (fun t d => (F t d).hT) (F T D).hTT (F T D).hTD T D
  hD : HasPartials (fun t d => (F t d).hD) (F T D).hTD (F T D).hDD T D
  hTT : HasPartials (fun t d => (F t d).hTT) (F T D).hTTT (F T D).hTTD T D
  hTD : HasPartials (fun t d => (F t d).hTD) (F T D).hTTD (F T D).hTDD T D
  hDD : HasPartials (fun t d => (F t d).hDD) (F T D).hTDD (F T D).hDDD T D

/-- A thermodynamic state of water computed at every temperature and pressure is consistent at `(T, P)` :
the derivative fields are the partial derivatives of the density, and the energies obey the laws of
thermodynamics. -/
structure ThermoConsistent (W : ℝ → ℝ → ThermoState) (T P : ℝ) : Prop where
  /-- `∂ρ/∂T` and `∂ρ/∂P` -/
  density : HasPartials (fun t p => (W t p).density) (W T P).densityT (W T P).densityP T P
  /-- `∂²ρ/∂T²` and `∂²ρ/∂T∂P` -/
  densityT : HasPartials (fun t p => (W t p).densityT) (W T P).densityTT (W T P).densityTP T P
  /-- `∂²ρ/∂P∂T` and `∂²ρ/∂P²` -/
  densityP : HasPartials (fun t p => (W t p).densityP) (W T P).densityTP (W T P).densityPP T P
  /-- the specific volume is the inverse of the density at every temperature and pressure -/
  volume : ∀ t p, (W t p).volume = 1 / (W t p).density
  /-- `dG = -S dT + V dP` -/
  gibbs : HasPartials (fun t p => (W t p).gibbs) (-(W T P).entropy) (W T P).volume T P
  /-- `dH = Cp dT + (V - T ∂V/∂T) dP`, with `∂V/∂T = -(∂ρ/∂T)/ρ²` -/
  enthalpy : HasPartials (fun t p => (W t p).enthalpy) (W T P).cp
    ((W T P).volume + T * ((W T P).densityT / (W T P).density ^ 2)) T P
  /-- `dS = Cp/T dT - ∂V/∂T dP` -/
  entropy : HasPartials (fun t p => (W t p).entropy) ((W T P).cp / T) ((W T P).densityT / (W T P).density ^ 2) T P
  /-- `A = U - T S` -/
  helmholtz : (W T P).helmholtz = (W T P).internalEnergy - T * (W T P).entropy
  /-- `H = U + P V` -/
  enthalpyEq : (W T P).enthalpy = (W T P).internalEnergy + P * (W T P).volume
  /-- `G = H - T S` -/
  gibbsEq : (W T P).gibbs = (W T P).enthalpy - T * (W T P).entropy

/-- A dielectric state computed at every temperature and pressure is consistent at `(T, P)` : the
derivative fields are the partial derivatives of the dielectric constant, and the Born functions are
`Z = -1/ε` and its partial derivatives `Y`, `Q`, `X`, `U`, `N`. -/
structure ElectroConsistent (E : ℝ → ℝ → ElectroState) (T P : ℝ) : Prop where
  /-- `∂ε/∂T` and `∂ε/∂P` -/
  epsilon : HasPartials (fun t p => (E t p).epsilon) (E T P).epsilonT (E T P).epsilonP T P
  /-- `∂²ε/∂T²` and `∂²ε/∂T∂P` -/
  epsilonT : HasPartials (fun t p => (E t p).epsilonT) (E T P).epsilonTT (E T P).epsilonTP T P
  /-- `∂²ε/∂P∂T` and `∂²ε/∂P²` -/
  epsilonP : HasPartials (fun t p => (E t p).epsilonP) (E T P).epsilonTP (E T P).epsilonPP T P
  /-- `Z = -1/ε` -/
  bornZ : (E T P).bornZ = -1 / (E T P).epsilon
  /-- `Y = ∂Z/∂T` and `Q = ∂Z/∂P` -/
  bornYQ : HasPartials (fun t p => (E t p).bornZ) (E T P).bornY (E T P).bornQ T P
  /-- `X = ∂Y/∂T` and `U = ∂Y/∂P` -/
  bornXU : HasPartials (fun t p => (E t p).bornY) (E T P).bornX (E T P).bornU T P
  /-- `U = ∂Q/∂T` and `N = ∂Q/∂P` -/
  bornUN : HasPartials (fun t p => (E t p).bornQ) (E T P).bornU (E T P).bornN T P

end Verif.Water
