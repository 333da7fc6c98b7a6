import Mathlib.Analysis.SpecialFunctions.Trigonometric.Inverse
import Mathlib.Analysis.SpecialFunctions.Pow.Real
import Mathlib.Analysis.Complex.Basic

/-!
# Model of `cardano` and `realRoots` (`Reaktoro/Math/Roots.hpp:45-136`)

Numbers are reals, `sqrt`, `cbrt`, `cos`, `acos` and π are exact. `eps` is the tolerance `100*epsilon` (Roots.hpp:63).
-/

namespace Verif.Cardano

open Complex

/-- `std::cbrt`: the real cube root. -/
noncomputable def cbrt (x : ℝ) : ℝ := if 0 ≤ x then x ^ (1 / 3 : ℝ) else -((-x) ^ (1 / 3 : ℝ))

/-- `xn` (Roots.hpp:54). -/
noncomputable def xn (b : ℝ) : ℝ := -b / 3

/-- `yn` (Roots.hpp:55). -/
noncomputable def yn (b c d : ℝ) : ℝ := d + xn b * (c + xn b * (b + xn b))

/-- `delta2` (Roots.hpp:57). -/
noncomputable def delta2 (b c : ℝ) : ℝ := (b * b - 3 * c) / 9

/-- `discr` (Roots.hpp:59-62). -/
noncomputable def discr (b c d : ℝ) : ℝ := yn b c d * yn b c d - 4 * delta2 b c * delta2 b c * delta2 b c

/-- `cardano` (Roots.hpp:45-95). -/
noncomputable def cardano (eps b c d : ℝ) : ℂ × ℂ × ℂ :=
  let xn := xn b
  let yn := yn b c d
  let delta2 := delta2 b c
  let discr := discr b c d
  if discr > eps then
    let sqrtdiscr := √discr
    let aux1 := cbrt ((1 / 2) * (-yn + sqrtdiscr))
    let aux2 := cbrt ((1 / 2) * (-yn - sqrtdiscr))
    let alpha := xn + aux1 + aux2
    let z1 := alpha - xn
    let aux3 := (1 / 2) * √(3 * (z1 * z1 - 4 * delta2))
    let aux4 := xn - (1 / 2) * z1
    ((alpha : ℂ), ⟨aux4, -aux3⟩, ⟨aux4, aux3⟩)
  else if discr < -eps then
    let delta := √delta2
    let h := 2 * delta2 * delta
    let theta := Real.arccos (-yn / h) / 3
    let alpha := xn + 2 * delta * Real.cos theta
    let beta := xn + 2 * delta * Real.cos (2 * Real.pi / 3 - theta)
    let gamma := xn + 2 * delta * Real.cos (2 * Real.pi / 3 + theta)
    ((gamma : ℂ), (beta : ℂ), (alpha : ℂ))
  else
    let delta := cbrt ((1 / 2) * yn)
    let alpha := xn + delta
    let gamma := xn - 2 * delta
    if alpha < gamma then ((alpha : ℂ), (alpha : ℂ), (gamma : ℂ)) else ((gamma : ℂ), (alpha : ℂ), (alpha : ℂ))

open Classical in
/-- `realRoots` (Roots.hpp:125-136). -/
noncomputable def realRoots (r : ℂ × ℂ × ℂ) : List ℝ :=
  (if r.1.im = 0 then [r.1.re] else []) ++ (if r.2.1.im = 0 then [r.2.1.re] else []) ++
  (if r.2.2.im = 0 then [r.2.2.re] else [])

end Verif.Cardano
