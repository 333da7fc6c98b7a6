import Verif.Theorems.PitzerOutputs
import Verif.Model.Lists

/-!
# C80: the tables of the model of Pitzer
-/

namespace Verif.Pitzer

open Verif.Aqueous

/-- The formulas in the tables. -/
def tableFormulas : List Formula :=
  (beta0Data ++ beta1Data ++ beta2Data ++ cphiData ++ thetaData ++ lambdaData).flatMap (fun l => [l.1, l.2.1]) ++
    (psiData ++ zetaData).flatMap fun l => [l.1, l.2.1, l.2.2.1]

/-- **C80**, formulas of the tables: each text in the tables is read as the formula used for it. -/
theorem C80_formulas (f : Formula) (h : f ∈ tableFormulas) :
    ∃ g, Lists.Formula.ofString f.str = .ok g ∧ g.elements = f.elements ∧ g.charge = f.charge := by
  have key : ∀ f ∈ tableFormulas, Lists.Formula.ofString f.str = .ok ⟨f.str, f.elements, f.charge⟩ := by decide +kernel
  exact ⟨_, key f h, rfl, rfl⟩

example : fB4O5_OH_4mm ∈ tableFormulas := by decide +kernel

/-- **C80**, tables of salts: every line is of a cation and an anion, and is the one that is found for them. -/
theorem C80_salts (data : List (Formula × Formula × List ℚ)) (hd : data ∈ [beta0Data, beta1Data, beta2Data, cphiData]) (l : Formula × Formula × List ℚ) (h : l ∈ data) :
    0 < l.1.charge ∧ l.2.1.charge < 0 ∧ ∀ T, some (salt data l.1 l.2.1 T) = (saltFunction l.2.2).map fun f => f T := by
  have key : ∀ data ∈ [beta0Data, beta1Data, beta2Data, cphiData], ∀ l ∈ data, 0 < l.1.charge ∧ l.2.1.charge < 0 ∧
      data.find? (fun k => l.1.equivalent k.1 && l.2.1.equivalent k.2.1) = some l := by decide +kernel
  obtain ⟨h1, h2, h3⟩ := key data hd l h
  refine ⟨h1, h2, fun T => ?_⟩
  have hs : (saltFunction l.2.2).isSome = true := C80_lines l (by
    simp only [List.mem_cons, List.not_mem_nil, or_false] at hd
    rcases hd with rfl | rfl | rfl | rfl <;> simp [h])
  obtain ⟨f, hf⟩ := Option.isSome_iff_exists.1 hs
  simp [salt, h3, hf]

/-- **C80**, tables of mixtures: every line of theta is of two different ions of one sign, every line of lambda of a neutral solute and an ion, every line of psi of three
ions not all of one sign, every line of zeta of a neutral solute, a cation and an anion in any order; each has one value, and it is the one found for these species. -/
theorem C80_mixtures :
    (∀ l ∈ thetaData, 0 < l.1.charge * l.2.1.charge ∧ l.1.str ≠ l.2.1.str ∧ l.2.2 = [theta l.1 l.2.1]) ∧
    (∀ l ∈ lambdaData, l.1.charge = 0 ∧ l.2.1.charge ≠ 0 ∧ l.2.2 = [lambda l.1 l.2.1]) ∧
    (∀ l ∈ psiData, l.1.charge ≠ 0 ∧ l.2.1.charge ≠ 0 ∧ l.2.2.1.charge ≠ 0 ∧ (l.1.charge * l.2.1.charge < 0 ∨ l.1.charge * l.2.2.1.charge < 0) ∧
      l.1.str ≠ l.2.1.str ∧ l.1.str ≠ l.2.2.1.str ∧ l.2.1.str ≠ l.2.2.1.str ∧ l.2.2.2 = [psi l.1 l.2.1 l.2.2.1]) ∧
    (∀ l ∈ zetaData, l.1.charge = 0 ∧ l.2.1.charge * l.2.2.1.charge < 0 ∧ l.2.2.2 = [zeta l.1 l.2.1 l.2.2.1]) := by
  refine ⟨?_, ?_, ?_, ?_⟩ <;> decide +kernel

end Verif.Pitzer
