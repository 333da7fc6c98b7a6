import Verif.Theorems.CubicEOS
import Mathlib.Data.Fin.VecNotation

/-!
# Theorem C46: the critical point of a substance
-/

namespace Verif.CubicEOS

variable {n : Nat}

/-- The compressibility factor at the critical point according to each equation of state, in the literature. -/
noncomputable def criticalZ : Kind → ℝ
  | .vanDerWaals => 3 / 8
  | .redlichKwong => 1 / 3
  | .soaveRedlichKwong => 1 / 3
  | .pengRobinson => 0.307401

theorem alpha_one (k : Kind) (d w : ℝ) : (alpha k 1 d w).1 = 1 := by
  cases k <;> simp [alpha, alphaSoave]

/-- **C46 (critical point).** For a pure substance at the critical temperature and pressure that were given for it, vapor and liquid are the same: the cubic
polynomial is, up to the rounding of the constants, the one with a triple root at the critical compressibility factor. -/
theorem C46_critical (e : Eos n) (k : Fin n) (hT : 0 < e.Tcr k) (hP : 0 < e.Pcr k) (hk : kij e (e.Tcr k) k k = 0) (Z : ℝ) :
    |poly e (e.Tcr k) (e.Pcr k) (Pi.single k 1) Z - (Z - criticalZ e.model) ^ 3| ≤ 0.00001 * (1 + |Z| + Z ^ 2) := by
  have hR := R_pos
  have hb : bmix e (Pi.single k 1) = bbar e k := by
    unfold bmix
    rw [Finset.sum_eq_single k (fun j _ hj => by simp [Pi.single_eq_of_ne hj]) (by simp)]
    simp
  have ha : amix e (e.Tcr k) (Pi.single k 1) = aij e (e.Tcr k) k k := by
    unfold amix
    rw [Finset.sum_eq_single k (fun j _ hj => by simp [Pi.single_eq_of_ne hj]) (by simp),
      Finset.sum_eq_single k (fun j _ hj => by simp [Pi.single_eq_of_ne hj]) (by simp)]
    simp
  have hr : r e (e.Tcr k) k k = 1 := by
    unfold r
    unfold kij at hk
    cases h : (e.interaction (e.Tcr k)).k with
    | none => rfl
    | some f =>
      rw [h] at hk
      simp only [Option.map_some, Option.getD_some] at hk
      simp [hk]
  have hf : 0 ≤ factor e k := by
    unfold factor
    have : 0 ≤ Psi e.model := by cases e.model <;> norm_num [Psi]
    positivity
  have haa : a e (e.Tcr k) k = factor e k := by
    unfold a
    rw [mul_one_div_cancel hT.ne', alpha_one, mul_one]
  have haij : aij e (e.Tcr k) k k = factor e k := by
    unfold aij s
    rw [hr, haa, Real.sqrt_mul_self hf, one_mul]
  have hO : Omega e.model ≠ 0 := by cases e.model <;> norm_num [Omega]
  have hbeta : beta e (e.Tcr k) (e.Pcr k) (Pi.single k 1) = Omega e.model := by
    unfold beta
    rw [hb]
    unfold bbar
    field_simp
  have hq : q e (e.Tcr k) (Pi.single k 1) = Psi e.model / Omega e.model := by
    unfold q
    rw [ha, haij, hb]
    unfold factor bbar
    field_simp
  unfold poly
  rw [hbeta, hq]
  have hsq : ∀ a b c : ℝ, |a| ≤ 0.00001 → |b| ≤ 0.00001 → |c| ≤ 0.00001 → |a * Z ^ 2 + b * Z + c| ≤ 0.00001 * (1 + |Z| + Z ^ 2) := by
    intro a b c h1 h2 h3
    calc |a * Z ^ 2 + b * Z + c| ≤ |a * Z ^ 2 + b * Z| + |c| := abs_add_le _ _
      _ ≤ |a * Z ^ 2| + |b * Z| + |c| := by gcongr; exact abs_add_le _ _
      _ = |a| * Z ^ 2 + |b| * |Z| + |c| := by rw [abs_mul, abs_mul, abs_of_nonneg (sq_nonneg Z)]
      _ ≤ 0.00001 * Z ^ 2 + 0.00001 * |Z| + 0.00001 := by gcongr
      _ = _ := by ring
  have hA := hsq (cA (epsilon e.model) (sigma e.model) (Omega e.model) + 3 * criticalZ e.model)
    (cB (epsilon e.model) (sigma e.model) (Omega e.model) (Psi e.model / Omega e.model) - 3 * criticalZ e.model ^ 2)
    (cC (epsilon e.model) (sigma e.model) (Omega e.model) (Psi e.model / Omega e.model) + criticalZ e.model ^ 3)
    (by rw [abs_le]; cases e.model <;> norm_num [cA, epsilon, sigma, Omega, criticalZ])
    (by rw [abs_le]; cases e.model <;> norm_num [cB, epsilon, sigma, Omega, Psi, criticalZ])
    (by rw [abs_le]; cases e.model <;> norm_num [cC, epsilon, sigma, Omega, Psi, criticalZ])
  convert hA using 2
  ring

/-- The hypotheses hold for a mixture with the critical properties of methane and carbon dioxide. -/
example :
    let e : Eos 2 := ⟨.vapor, .pengRobinson, .none, ![190.6, 304.2], ![4599000, 7383000], ![0.012, 0.224], fun _ => {}⟩
    0 < e.Tcr 1 ∧ 0 < e.Pcr 1 ∧ kij e (e.Tcr 1) 1 1 = 0 := by
  norm_num [kij]

end Verif.CubicEOS
