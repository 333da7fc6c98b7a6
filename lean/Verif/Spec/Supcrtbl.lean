import Verif.Model.Supcrtbl
import Verif.Spec.StandardModels

/-!
# Specification of the SUPCRTBL functions

The units in which `SupcrtblParams.hpp` says that the parameters are given, converted to those of the models they are for: the
SUPCRT model of solutes, with calories (`Verif/Model/Supcrt.lean`), and the model of Holland and Powell, in SI units (`Verif/Model/StandardModels.lean`).
-/

namespace Verif.Supcrtbl

open Verif.Water
noncomputable section

/-- The properties of liquid water for given values at the triple point (entropy in J/(mol K), energies in kJ/mol). -/
structure Solvent.Expected (p : Solvent) (T : ℝ) (w : ThermoState) (s : Supcrt.State) : Prop where
  entropy : s.entropy = Mw * w.entropy + p.Str
  enthalpy : s.enthalpy = Mw * w.enthalpy + 1000 * p.Htr
  internalEnergy : s.internalEnergy = Mw * w.internalEnergy + 1000 * p.Utr
  gibbs : s.gibbs = Mw * w.enthalpy - T * (Mw * w.entropy + p.Str) + p.Ttr * p.Str + 1000 * p.Gtr
  helmholtz : s.helmholtz = Mw * w.internalEnergy - T * (Mw * w.entropy + p.Str) + p.Ttr * p.Str + 1000 * p.Atr

/-- Kilojoules in calories. -/
def kJ (x : ℝ) : ℝ := x * 1000 / 4.184

/-- The parameters of a solute in calories: the entropy is given in J/(mol K), energies in kJ, `a1` times 10, `a2` times 1e-2, `a4`, `c2`
times 1e-4 and `wref` times 1e-5. -/
def Solute.documented (p : Solute) : Supcrt.Solute :=
  { name := p.name
    charge := p.charge
    Gf := kJ p.Gf
    Hf := kJ p.Hf
    Sr := p.Sr / 4.184
    a1 := kJ (p.a1 / 10)
    a2 := kJ (p.a2 * 100)
    a3 := kJ p.a3
    a4 := kJ (p.a4 * 10000)
    c1 := kJ p.c1
    c2 := kJ (p.c2 * 10000)
    wref := kJ (p.wref * 100000) }

/-- The parameters of a fluid in SI units: `Vr` is given in J/bar and `b` times 1e5. A fluid has no coefficients for compression. -/
def Fluid.documented (p : Fluid) : StandardModels.HollandPowell :=
  { Gf := 1000 * p.Gf
    Hf := 1000 * p.Hf
    Sr := p.Sr
    Vr := p.Vr / 100000
    a := 1000 * p.a
    b := 1000 * (p.b / 100000)
    c := 1000 * p.c
    d := 1000 * p.d
    alpha0 := 0
    kappa0 := 0
    kappa0p := 0
    kappa0pp := 0
    numatoms := 1 }

/-- The parameters of a mineral in SI units: `Vr` is given in J/bar, `kappa` in kbar, `kappapp` in 1/kbar, `alpha` and `b` times 1e5. -/
def Mineral.documented (p : Mineral) : StandardModels.HollandPowell :=
  { Gf := 1000 * p.Gf
    Hf := 1000 * p.Hf
    Sr := p.Sr
    Vr := p.Vr / 100000
    a := 1000 * p.a
    b := 1000 * (p.b / 100000)
    c := 1000 * p.c
    d := 1000 * p.d
    alpha0 := p.alpha / 100000
    kappa0 := p.kappa * 100000000
    kappa0p := p.kappap
    kappa0pp := p.kappapp / 100000000
    numatoms := p.numatoms }

/-- The parameters that the function for minerals uses in fact: `kappa` in bar, `alpha` and `b` unscaled, and a volume a thousand times too large. -/
def Mineral.asUsed (p : Mineral) : StandardModels.HollandPowell :=
  { Gf := 1000 * p.Gf
    Hf := 1000 * p.Hf
    Sr := p.Sr
    Vr := p.Vr / 100
    a := 1000 * p.a
    b := 1000 * p.b
    c := 1000 * p.c
    d := 1000 * p.d
    alpha0 := p.alpha
    kappa0 := p.kappa * 100000
    kappa0p := p.kappap
    kappa0pp := p.kappapp / 100000
    numatoms := p.numatoms }

end
end Verif.Supcrtbl
