import Verif.Spec.Water
import Verif.Model.HKF

/-!
# What the HKF model must satisfy
-/

namespace Verif.HKF

open Verif.Water

/-- The fields `g`, `gT`, ... computed at every temperature and pressure are a function and its first and
second partial derivatives at `(T, P)`. -/
structure GConsistent (G : ℝ → ℝ → GState) (T P : ℝ) : Prop where
  g : HasPartials (fun t p => (G t p).g) (G T P).gT (G T P).gP T P
  gT : HasPartials (fun t p => (G t p).gT) (G T P).gTT (G T P).gTP T P
  gP : HasPartials (fun t p => (G t p).gP) (G T P).gTP (G T P).gPP T P

/-- The same for the Born coefficient of a species. -/
structure BornConsistent (B : ℝ → ℝ → BornState) (T P : ℝ) : Prop where
  w : HasPartials (fun t p => (B t p).w) (B T P).wT (B T P).wP T P
  wT : HasPartials (fun t p => (B t p).wT) (B T P).wTT (B T P).wTP T P
  wP : HasPartials (fun t p => (B t p).wP) (B T P).wTP (B T P).wPP T P

/-- Standard properties computed at every temperature and pressure obey the laws of thermodynamics at
`(T, P)` : with an entropy `S`, `dG = -S dT + V dP`, `G = H - T S + K` with a constant `K` of the substance,
and `dH = Cp dT + (V - T ∂V/∂T) dP`. -/
structure StandardConsistent (F : ℝ → ℝ → StandardModels.Props) (K T P : ℝ) : Prop where
  gibbs : ∃ S, HasPartials (fun t p => (F t p).G0) (-S) (F T P).V0 T P ∧ (F T P).G0 = (F T P).H0 - T * S + K
  enthalpy : ∃ VT, HasDerivAt (fun t => (F t P).V0) VT T ∧
    HasPartials (fun t p => (F t p).H0) (F T P).Cp0 ((F T P).V0 - T * VT) T P

end Verif.HKF
