import Mathlib.Data.Real.Basic
import Mathlib.Data.Fintype.Basic

import Mathlib.Algebra.BigOperators.Group.Finset.Basic

/-!
# Model of `Reaktoro/Common/MoleFractionUtils.hpp`

Numbers are reals (exact arithmetic).
-/

namespace Verif.MoleFractions

variable {N : Nat}

open Classical in
/-- `moleFractions` (MoleFractionUtils.hpp:30-53). -/
noncomputable def moleFractions (n : Fin N → ℝ) : Fin N → ℝ :=
  if N = 1 then fun _ => 1
  else
    let nsum := ∑ i, n i
    if nsum ≠ 0 then fun i => n i / nsum else fun _ => 0

open Classical in
/-- `moleFractionsJacobian` (MoleFractionUtils.hpp:59-93). -/
noncomputable def moleFractionsJacobian (n : Fin N → ℝ) : Fin N → Fin N → ℝ :=
  let nsum := ∑ i, n i
  if nsum = 0 then fun _ _ => 0
  else fun i j =>
    let xi := n i / nsum
    let aux := -xi / nsum
    if j = i then (1 - xi) / nsum else aux

open Classical in
/-- `lnMoleFractionsJacobian` (MoleFractionUtils.hpp:99-133). -/
noncomputable def lnMoleFractionsJacobian (n : Fin N → ℝ) : Fin N → Fin N → ℝ :=
  let nsum := ∑ i, n i
  if nsum = 0 then fun _ _ => 0
  else fun i j =>
    let xi := n i / nsum
    let aux := -xi / n i
    if j = i then (1 - xi) / n i else aux

end Verif.MoleFractions
