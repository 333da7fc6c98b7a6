import Verif.Model.Supcrt
import Verif.Spec.HKF
import Verif.Spec.StandardModels

/-!
# What the properties of SUPCRT species must be

The same parameters in joules, pascals and cubic metres: 1 cal = 4.184 J, 1 bar = 10⁵ Pa, 1 cm³ = 10⁻⁶ m³.
-/

namespace Verif.Supcrt

noncomputable section

/-- The parameters of a solute in SI units. -/
def Solute.toSI (p : Solute) : HKF.Params :=
  { Gf := p.Gf * 4.184, Hf := p.Hf * 4.184, Sr := p.Sr * 4.184
    a1 := p.a1 * 4.184 / 100000, a2 := p.a2 * 4.184, a3 := p.a3 * 4.184 / 100000, a4 := p.a4 * 4.184
    c1 := p.c1 * 4.184, c2 := p.c2 * 4.184, wref := p.wref * 4.184, charge := p.charge }

/-- The parameters of a gas in SI units. -/
def Gas.toSI (p : Gas) : StandardModels.MaierKelley :=
  { Gf := p.Gf * 4.184, Hf := p.Hf * 4.184, Sr := p.Sr * 4.184, Vr := 0
    a := p.a * 4.184, b := p.b * 4.184, c := p.c * 4.184 }

/-- The parameters of a mineral in SI units. -/
def Mineral.toSI (p : Mineral) : StandardModels.Mineral :=
  { Gf := p.Gf * 4.184, Hf := p.Hf * 4.184, Sr := p.Sr * 4.184, Vr := p.Vr / 1000000, ntr := p.nptrans
    a := p.a.map (· * 4.184), b := p.b.map (· * 4.184), c := p.c.map (· * 4.184)
    Ttr := p.Ttr, Htr := p.Htr.map (· * 4.184), Vtr := p.Vtr.map (· / 1000000), dPdTtr := p.dPdTtr.map (· * 100000) }

/-- The default parameters of water in SI units (Helgeson and Kirkham, 1974). -/
def waterSI : HKF.WaterParams := ⟨273.16, 63.312288, -235517.36, -287721.128⟩

end
end Verif.Supcrt
