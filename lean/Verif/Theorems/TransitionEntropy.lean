import Verif.Theorems.SupcrtEngine
import Verif.Theorems.Units

/-!
# C81, C15: the entropy of minerals with phase transitions, and the parts of one
-/

namespace Verif.Supcrt

/-- C81, energies of minerals: when the temperatures of the transitions are not zero, the Gibbs energy, the enthalpy and
the entropy agree, `G = H - T S` up to a constant of the mineral, whatever transitions are passed at `T`. -/
theorem C81_mineral_entropy (p : Mineral) (T P : ℝ) (h : ∀ x ∈ p.Ttr, x ≠ 0) :
    let s := mineralState p T P
    s.gibbs = s.enthalpy - T * s.entropy + (p.Gf - p.Hf + Tr * p.Sr) * cal := by
  intro s
  have key : p.GdH T + p.HdH T = T * p.SdH T := by
    unfold Mineral.GdH Mineral.HdH Mineral.SdH
    rw [← Finset.sum_add_distrib, Finset.mul_sum]
    refine Finset.sum_congr rfl fun i hi => ?_
    have hx : (p.Ti T).getD (i + 1) 0 ≠ 0 := by
      rw [Finset.mem_range] at hi
      unfold Mineral.Ti at hi ⊢
      simp only [List.cons_append, List.length_cons, List.length_append, List.length_nil] at hi
      have hl : i < ((p.Ttr.take p.nptrans).filter (fun x => decide (T > x))).length := by omega
      rw [List.cons_append, List.getD_cons_succ, List.getD_append _ _ _ _ hl, List.getD_eq_getElem _ _ hl]
      exact h _ (List.mem_of_mem_take (List.mem_of_mem_filter (List.getElem_mem hl)))
    field_simp
    ring
  simp only [s, mineralState]
  linear_combination (-cal) * key

/-- A mineral with one transition at 848 K, below the temperature, meets the hypothesis, and the transition counts. -/
example : ∃ p : Mineral, (∀ x ∈ p.Ttr, x ≠ 0) ∧ p.SdH 900 ≠ 0 := by
  refine ⟨⟨[], 0, 0, 0, 0, 1, [0, 0], [0, 0], [0, 0], [848], [290], [0], [0], 2000⟩, ?_, ?_⟩
  · simp
  · norm_num [Mineral.SdH, Mineral.Ti]

end Verif.Supcrt

namespace Verif.Units

/-- C15, parts of one: a percent, a permille, a part per million, per billion and per trillion are the powers of ten that
their names say, for every value. -/
theorem C15_parts (x : Rat) :
    convert x c!"percent" c!"1" = .ok (x / 10 ^ 2) ∧ convert x c!"permille" c!"1" = .ok (x / 10 ^ 3) ∧
    convert x c!"ppm" c!"1" = .ok (x / 10 ^ 6) ∧ convert x c!"ppb" c!"1" = .ok (x / 10 ^ 9) ∧
    convert x c!"ppt" c!"1" = .ok (x / 10 ^ 12) := by
  have h1 : slope c!"percent" c!"1" = .ok (1 / 10 ^ 2) := by decide +kernel
  have h2 : slope c!"permille" c!"1" = .ok (1 / 10 ^ 3) := by decide +kernel
  have h3 : slope c!"ppm" c!"1" = .ok (1 / 10 ^ 6) := by decide +kernel
  have h4 : slope c!"ppb" c!"1" = .ok (1 / 10 ^ 9) := by decide +kernel
  have h5 : slope c!"ppt" c!"1" = .ok (1 / 10 ^ 12) := by decide +kernel
  refine ⟨?_, ?_, ?_, ?_, ?_⟩ <;> rw [convert_eq _ _ _ (by decide) (by decide)] <;>
    first
    | (rw [h1]; exact congrArg Res.ok (by ring))
    | (rw [h2]; exact congrArg Res.ok (by ring))
    | (rw [h3]; exact congrArg Res.ok (by ring))
    | (rw [h4]; exact congrArg Res.ok (by ring))
    | (rw [h5]; exact congrArg Res.ok (by ring))

/-- Twelve parts per million. -/
example : convert 12 c!"ppm" c!"1" = .ok (12 / 10 ^ 6) := (C15_parts 12).2.2.1

end Verif.Units
