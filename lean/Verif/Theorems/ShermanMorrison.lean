import Verif.Model.ShermanMorrison
import Mathlib.LinearAlgebra.Matrix.NonsingularInverse
import Mathlib.Tactic.FieldSimp
import Mathlib.Tactic.Ring
import Mathlib.Tactic.LinearCombination
import Mathlib.Data.Matrix.Basis

/-!
# Theorem C19: inverse of a matrix plus a diagonal
-/

namespace Verif.ShermanMorrison

variable {K : Type} [Field K] [DecidableEq K] {n : Nat}

open Matrix

/-- `A` plus the first `k` entries of the diagonal increment. -/
def leading (A : Matrix (Fin n) (Fin n) K) (D : Fin n → K) (k : Nat) : Matrix (Fin n) (Fin n) K :=
  A + Matrix.diagonal (fun j => if j.val < k then D j else 0)

theorem leading_succ (A : Matrix (Fin n) (Fin n) K) (D : Fin n → K) (i : Fin n) :
    leading A D (i.val + 1) = leading A D i.val + D i • Matrix.single i i (1 : K) := by
  unfold leading
  rw [add_assoc]
  congr 1
  ext r s
  by_cases hrs : r = s
  · subst hrs
    simp only [diagonal_apply_eq, Matrix.add_apply, Matrix.smul_apply, smul_eq_mul]
    by_cases hri : r = i
    · subst hri; simp
    · have : (i = r) = False := by simp [Ne.symm hri]
      have hv : r.val ≠ i.val := fun h => hri (Fin.ext h)
      rw [Matrix.single_apply]
      simp only [this, false_and, if_false, mul_zero, add_zero]
      by_cases h : r.val < i.val
      · rw [if_pos h, if_pos (by omega)]
      · rw [if_neg h, if_neg (by omega)]
  · simp only [Matrix.add_apply, Matrix.smul_apply, diagonal_apply_ne _ hrs, smul_eq_mul]
    rw [Matrix.single_apply]
    rw [if_neg (by rintro ⟨rfl, rfl⟩; exact hrs rfl)]
    simp

theorem colrow (M : Matrix (Fin n) (Fin n) K) (i : Fin n) :
    Matrix.vecMulVec (fun r => M r i) (fun s => M i s) = M * Matrix.single i i (1 : K) * M := by
  ext r s
  simp [Matrix.vecMulVec_apply, Matrix.mul_apply, Matrix.single_apply, ite_and]

theorem pmp (M : Matrix (Fin n) (Fin n) K) (i : Fin n) :
    Matrix.single i i (1 : K) * M * Matrix.single i i (1 : K) = M i i • Matrix.single i i (1 : K) := by
  rw [Matrix.single_mul_mul_single]; simp [Matrix.smul_single]

/-- One update, when the denominator does not vanish. -/
theorem step_ok (B M : Matrix (Fin n) (Fin n) K) (D : Fin n → K) (i : Fin n) (hB : B * M = 1) (h : 1 + D i * M i i ≠ 0) :
    (B + D i • Matrix.single i i (1 : K)) *
      (M - (D i / (1 + D i * M i i)) • Matrix.vecMulVec (fun r => M r i) (fun s => M i s)) = 1 := by
  rw [colrow]
  have hp := pmp M i
  generalize hP : Matrix.single i i (1 : K) = P at *
  generalize hc : D i / (1 + D i * M i i) = c
  have hcd : c * (1 + D i * M i i) = D i := by rw [← hc]; field_simp
  have e1 : B * (M * P * M) = P * M := by rw [← Matrix.mul_assoc, ← Matrix.mul_assoc, hB, Matrix.one_mul]
  have e2 : P * (M * P * M) = M i i • (P * M) := by
    rw [← Matrix.mul_assoc, ← Matrix.mul_assoc, hp, Matrix.smul_mul]
  rw [Matrix.add_mul, Matrix.mul_sub, Matrix.mul_sub, Matrix.mul_smul, Matrix.mul_smul, hB, e1, Matrix.smul_mul, Matrix.smul_mul, e2]
  rw [show (1 : Matrix (Fin n) (Fin n) K) - c • (P * M) + (D i • (P * M) - c • D i • M i i • (P * M)) =
    1 + (D i - c * (1 + D i * M i i)) • (P * M) by
      rw [smul_smul, smul_smul, sub_smul, mul_add, add_smul, mul_one]
      rw [mul_assoc c]
      abel]
  rw [hcd, sub_self, zero_smul, add_zero]

/-- One update, when the denominator vanishes: the updated matrix is singular. -/
theorem step_none (B M : Matrix (Fin n) (Fin n) K) (D : Fin n → K) (i : Fin n) (hB : B * M = 1) (h : 1 + D i * M i i = 0) :
    ¬ IsUnit (B + D i • Matrix.single i i (1 : K)) := by
  intro hu
  have e : (B + D i • Matrix.single i i (1 : K)) * (M * Matrix.single i i (1 : K)) = 0 := by
    rw [Matrix.add_mul, Matrix.smul_mul, ← Matrix.mul_assoc, hB, Matrix.one_mul, ← Matrix.mul_assoc, pmp, smul_smul]
    rw [show Matrix.single i i (1 : K) + (D i * M i i) • Matrix.single i i (1 : K) =
      (1 + D i * M i i) • Matrix.single i i (1 : K) by rw [add_smul, one_smul]]
    rw [h, zero_smul]
  have e2 : M * Matrix.single i i (1 : K) = 0 := by
    have := hu.mul_right_inj (b := M * Matrix.single i i (1 : K)) (c := 0)
    rw [e, Matrix.mul_zero] at this
    exact this.1 rfl
  have e3 : Matrix.single i i (1 : K) = 0 := by
    have := congrArg (fun X => B * X) e2
    simpa [← Matrix.mul_assoc, hB] using this
  have := congrFun (congrFun e3 i) i
  simp at this

theorem foldlM_finRange (A : Matrix (Fin n) (Fin n) K) (D : Fin n → K) :
    ∀ (l : List (Fin n)) (k : Nat) (M : Matrix (Fin n) (Fin n) K), l.map Fin.val = List.range' k l.length → leading A D k * M = 1 →
      (∀ M', l.foldlM (step D) M = some M' → leading A D (k + l.length) * M' = 1 ∧
        ∀ j, k < j → j ≤ k + l.length → IsUnit (leading A D j)) ∧
      (l.foldlM (step D) M = none → ∃ j, k < j ∧ j ≤ k + l.length ∧ ¬ IsUnit (leading A D j)) := by
  intro l
  induction l with
  | nil =>
    intro k M _ hM
    refine ⟨?_, ?_⟩
    · intro M' hM'
      simp only [List.foldlM_nil, Option.pure_def, Option.some.injEq] at hM'
      subst hM'
      refine ⟨by simpa using hM, ?_⟩
      intro j h1 h2
      simp at h2; omega
    · intro h'; simp at h'
  | cons i l ih =>
    intro k M hl hM
    rw [List.map_cons, List.length_cons, List.range'_succ] at hl
    injection hl with hik hl'
    have hs := leading_succ A D i
    rw [hik] at hs
    rw [List.foldlM_cons]
    by_cases hd : 1 + D i * M i i = 0
    · have : step D M i = none := by unfold step; rw [if_pos hd]
      rw [this]
      refine ⟨by intro M' hM'; simp at hM', fun _ => ⟨k + 1, by omega, by simp, ?_⟩⟩
      rw [hs]
      exact step_none _ M D i hM hd
    · have hst : step D M i = some (M - (D i / (1 + D i * M i i)) • Matrix.vecMulVec (fun r => M r i) (fun s => M i s)) := by
        unfold step; rw [if_neg hd]
      rw [hst]
      have hM1 := step_ok _ M D i hM hd
      rw [← hs] at hM1
      have hu : IsUnit (leading A D (k + 1)) := (Matrix.isUnit_iff_isUnit_det _).2
        (Matrix.isUnit_det_of_right_inverse hM1)
      obtain ⟨i1, i2⟩ := ih (k + 1) _ hl' hM1
      refine ⟨?_, ?_⟩
      · intro M' hM'
        obtain ⟨j1, j2⟩ := i1 M' hM'
        refine ⟨by rw [List.length_cons, ← j1]; congr 2; omega, ?_⟩
        intro j hj1 hj2
        rcases Nat.eq_or_lt_of_le hj1 with hh | hh
        · rw [← hh]; exact hu
        · exact j2 j (by omega) (by simp at hj2; omega)
      · intro hn
        obtain ⟨j, a1, a2, a3⟩ := i2 hn
        exact ⟨j, by omega, by simp; omega, a3⟩

theorem finRange_vals (n : Nat) : (List.finRange n).map Fin.val = List.range' 0 (List.finRange n).length := by
  rw [List.length_finRange, ← List.range_eq_range']
  simp

theorem leading_zero (A : Matrix (Fin n) (Fin n) K) (D : Fin n → K) : leading A D 0 = A := by
  unfold leading
  have : Matrix.diagonal (fun j : Fin n => if j.val < 0 then D j else 0) = 0 := by
    ext r s; simp [Matrix.diagonal_apply]
  rw [this, add_zero]

theorem leading_full (A : Matrix (Fin n) (Fin n) K) (D : Fin n → K) : leading A D n = A + Matrix.diagonal D := by
  unfold leading
  simp

/-- **C19.** Whenever no denominator vanishes, the result is the inverse of `A + diag(D)`, for every size, field, invertible
`A` and increment `D`. -/
theorem C19_inverse (A invA M : Matrix (Fin n) (Fin n) K) (D : Fin n → K) (h : A * invA = 1)
    (hM : inverseShermanMorrison invA D = some M) : M = (A + Matrix.diagonal D)⁻¹ ∧ (A + Matrix.diagonal D) * M = 1 := by
  have := (foldlM_finRange A D (List.finRange n) 0 invA (finRange_vals n) (by rw [leading_zero]; exact h)).1 M hM
  rw [List.length_finRange, Nat.zero_add, leading_full] at this
  exact ⟨(Matrix.inv_eq_right_inv this.1).symm, this.1⟩

/-- **C19 (when it applies).** No denominator vanishes exactly when all matrices obtained by adding the first `k` entries of
the increment are invertible. -/
theorem C19_defined_iff (A invA : Matrix (Fin n) (Fin n) K) (D : Fin n → K) (h : A * invA = 1) :
    (∃ M, inverseShermanMorrison invA D = some M) ↔ ∀ k ≤ n, IsUnit (leading A D k) := by
  obtain ⟨h1, h2⟩ := foldlM_finRange A D (List.finRange n) 0 invA (finRange_vals n) (by rw [leading_zero]; exact h)
  rw [List.length_finRange, Nat.zero_add] at h1 h2
  constructor
  · rintro ⟨M, hM⟩ k hk
    rcases Nat.eq_zero_or_pos k with rfl | hp
    · rw [leading_zero]
      exact (Matrix.isUnit_iff_isUnit_det _).2 (Matrix.isUnit_det_of_right_inverse h)
    · exact (h1 M hM).2 k hp hk
  · intro hk
    cases hf : inverseShermanMorrison invA D with
    | some M => exact ⟨M, rfl⟩
    | none =>
      obtain ⟨j, _, a2, a3⟩ := h2 hf
      exact absurd (hk j a2) a3

/-- The condition is not implied by `A + diag(D)` being invertible: an intermediate matrix can be singular. -/
theorem C19_intermediate_singular :
    inverseShermanMorrison (!![1, 1; 1, 0] : Matrix (Fin 2) (Fin 2) ℚ) ![-1, 1] = none ∧
    (!![0, 1; 1, -1] : Matrix (Fin 2) (Fin 2) ℚ) * !![1, 1; 1, 0] = 1 ∧
    ∃ X : Matrix (Fin 2) (Fin 2) ℚ, ((!![0, 1; 1, -1] : Matrix (Fin 2) (Fin 2) ℚ) + Matrix.diagonal ![-1, 1]) * X = 1 := by
  refine ⟨by decide +kernel, by decide +kernel, !![0, 1; 1, 1], by decide +kernel⟩

example : inverseShermanMorrison (!![1/2, 0; 0, 1/4] : Matrix (Fin 2) (Fin 2) ℚ) ![3, 1] = some !![1/5, 0; 0, 1/5] := by
  decide +kernel

end Verif.ShermanMorrison
