import Verif.Spec.CubicEOS
import Verif.Lemmas.CubicEOS
import Mathlib.Data.Fin.VecNotation
import Mathlib.Tactic.FinCases

/-!
# A concrete state: a mixture of two species with the van der Waals equation
-/

namespace Verif.CubicEOS.Ex

/-- Two species with critical temperatures 1 and 3 and critical pressures 1. -/
noncomputable def mix : Eos 2 :=
  { fluidtype := .vapor, model := .vanDerWaals, method := .none, Tcr := ![1, 3], Pcr := ![1, 1], omega := ![0, 0], interaction := fun _ => {} }

noncomputable def T : ℝ := 81 / 32
noncomputable def P : ℝ := 243 / 16
noncomputable def x : Fin 2 → ℝ := ![1 / 2, 1 / 2]
noncomputable def Z : ℝ := 2

theorem bbar_eq (i : Fin 2) : bbar mix i = R / 8 * mix.Tcr i := by
  fin_cases i <;> simp [bbar, mix, Omega] <;> ring

theorem a_eq (T : ℝ) (i : Fin 2) : a mix T i = 27 / 64 * R * R * mix.Tcr i * mix.Tcr i := by
  fin_cases i <;> simp [a, factor, alpha, mix, Psi]
  ring

theorem s_eq (T : ℝ) (i j : Fin 2) : s mix T i j = 27 / 64 * R * R * mix.Tcr i * mix.Tcr j := by
  have hR := R_pos
  have hi : 0 < mix.Tcr i := by fin_cases i <;> simp [mix]
  have hj : 0 < mix.Tcr j := by fin_cases j <;> simp [mix]
  unfold s
  rw [a_eq, a_eq, show 27 / 64 * R * R * mix.Tcr i * mix.Tcr i * (27 / 64 * R * R * mix.Tcr j * mix.Tcr j) = (27 / 64 * R * R * mix.Tcr i * mix.Tcr j) ^ 2 by ring]
  exact Real.sqrt_sq (by positivity)

theorem bmix_eq : bmix mix x = R / 4 := by
  unfold bmix
  simp only [bbar_eq, Fin.sum_univ_two]
  simp [mix, x]
  ring

theorem amix_eq (T : ℝ) : amix mix T x = 27 / 16 * R ^ 2 := by
  unfold amix aij
  simp only [s_eq, Fin.sum_univ_two]
  simp [mix, x, r]
  ring

theorem beta_eq : beta mix T P x = 3 / 2 := by
  have := R_ne
  unfold beta
  rw [bmix_eq]
  unfold T P
  field_simp
  norm_num

theorem q_eq : q mix T x = 8 / 3 := by
  have := R_ne
  unfold q
  rw [bmix_eq, amix_eq]
  unfold T
  field_simp
  norm_num

theorem admissible (T : ℝ) (hT : 0 < T) : Admissible mix T := by
  have hR := R_pos
  have hTcr : ∀ i, 0 < mix.Tcr i := by intro i; fin_cases i <;> simp [mix]
  refine ⟨hT, hTcr, ?_, ?_, ?_⟩
  · intro i
    rw [a_eq]
    have := hTcr i
    positivity
  · intro i j
    have h1 : (fun T => kij mix T i j) = fun _ => 0 := by funext T; simp [kij, mix]
    rw [h1, show kijT mix T i j = 0 by simp [kijT, mix]]
    exact hasDerivAt_const T 0
  · intro i j
    have h1 : (fun T => kijT mix T i j) = fun _ => 0 := by funext T; simp [kijT, mix]
    rw [h1, show kijTT mix T i j = 0 by simp [kijTT, mix]]
    exact hasDerivAt_const T 0

theorem T_pos : 0 < T := by norm_num [T]

theorem P_pos : 0 < P := by norm_num [P]

theorem regular : Regular mix T P x Z := by
  have hR := R_pos
  refine ⟨T_pos, P_pos, ?_, ?_, ?_⟩
  · rw [amix_eq]
    positivity
  · rw [bmix_eq]
    positivity
  · rw [beta_eq]
    norm_num [Z]

theorem poly_eq (z : ℝ) : poly mix T P x z = (z - 2) * (z ^ 2 - z / 2 + 3) := by
  unfold poly
  rw [cubic_factored, beta_eq, q_eq]
  simp [mix, epsilon, sigma]
  ring

/-- The only real root is 2. -/
theorem root_iff (z : ℝ) : poly mix T P x z = 0 ↔ z = Z := by
  rw [poly_eq]
  unfold Z
  constructor
  · intro h
    rcases mul_eq_zero.1 h with h | h
    · linarith
    · nlinarith [sq_nonneg (z - 1 / 4)]
  · rintro rfl
    norm_num

theorem root : poly mix T P x Z = 0 := (root_iff Z).2 rfl

theorem simple : Simple mix T P x Z := by
  unfold Simple cA cB
  rw [beta_eq, q_eq]
  simp [mix, epsilon, sigma, Z]
  norm_num

/-! ## A state with three roots -/

/-- A pure fluid with the van der Waals equation. -/
noncomputable def pure : Eos 1 :=
  { fluidtype := .vapor, model := .vanDerWaals, method := .gibbsEnergyAndEquationOfState, Tcr := fun _ => 1, Pcr := fun _ => 1, omega := fun _ => 0, interaction := fun _ => {} }

noncomputable def T3 : ℝ := 1215 / 1331
noncomputable def P3 : ℝ := 972 / 1331

theorem pure_bmix : bmix pure (fun _ => 1) = R / 8 := by
  simp [bmix, bbar, pure, Omega]
  ring

theorem pure_amix (T : ℝ) : amix pure T (fun _ => 1) = 27 / 64 * R ^ 2 := by
  have hR := R_pos
  have ha : ∀ k, a pure T k = 27 / 64 * R ^ 2 := by
    intro k
    simp [a, factor, alpha, pure, Psi]
    ring
  have hs : ∀ i j, s pure T i j = 27 / 64 * R ^ 2 := by
    intro i j
    unfold s
    rw [ha, ha]
    exact Real.sqrt_mul_self (by positivity)
  unfold amix aij
  simp only [hs]
  simp [r, pure]

theorem pure_beta : beta pure T3 P3 (fun _ => 1) = 1 / 10 := by
  have := R_ne
  unfold beta
  rw [pure_bmix]
  unfold T3 P3
  field_simp
  norm_num

theorem pure_q : q pure T3 (fun _ => 1) = 1331 / 360 := by
  have := R_ne
  unfold q
  rw [pure_bmix, pure_amix]
  unfold T3
  field_simp
  norm_num

theorem pure_roots (z : ℝ) : poly pure T3 P3 (fun _ => 1) z = 0 ↔ z = 11 / 60 ∨ z = 22 / 60 ∨ z = 33 / 60 := by
  have h : poly pure T3 P3 (fun _ => 1) z = (z - 11 / 60) * ((z - 22 / 60) * (z - 33 / 60)) := by
    unfold poly
    rw [cubic_factored, pure_beta, pure_q]
    simp [pure, epsilon, sigma]
    ring
  rw [h, mul_eq_zero, mul_eq_zero, sub_eq_zero, sub_eq_zero, sub_eq_zero]

theorem pure_regular : Regular pure T3 P3 (fun _ => 1) (11 / 60) := by
  have hR := R_pos
  refine ⟨by norm_num [T3], by norm_num [P3], ?_, ?_, ?_⟩
  · rw [pure_amix]; positivity
  · rw [pure_bmix]; positivity
  · rw [pure_beta]; norm_num

end Verif.CubicEOS.Ex
