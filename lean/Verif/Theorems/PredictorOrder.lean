import Verif.Theorems.Sensitivity
import Verif.Theorems.EquilibriumPredictor

/-!
# C44 and C117: the error of predictions, and matter and scale in sensitivities
-/

namespace Verif.Sensitivity

open EquilibriumSolver (head tail beside HasJacobian lin)
open Matrix Filter Topology Asymptotics

variable {Nn Nq Np Nw Nb Nu : Nat}

theorem beside_mulVec {N : Nat} (A : Matrix (Fin N) (Fin Nw) ℝ) (B : Matrix (Fin N) (Fin Nb) ℝ) (c : Fin (Nw + Nb) → ℝ) :
    beside A B *ᵥ c = A *ᵥ head c + B *ᵥ tail c := by
  funext i
  simp [mulVec, dotProduct, beside, Fin.sum_univ_add, head, tail]

/-- **C44 (first order).** If the sensitivities are the derivatives of a quantity `v` of the equilibrium state with respect to `c = (w, b)` at the
reference (C117), then the error of its prediction is of smaller order than the change of the inputs and of the amounts of components. -/
theorem C44_first_order {N : Nat} (v : (Fin (Nw + Nb) → ℝ) → Fin N → ℝ) (dvdw : Matrix (Fin N) (Fin Nw) ℝ) (dvdb : Matrix (Fin N) (Fin Nb) ℝ)
    (c0 : Fin (Nw + Nb) → ℝ) (h : HasJacobian v (beside dvdw dvdb) c0) :
    (fun c => EquilibriumPredictor.predicted N (v c0) dvdw dvdb (head c0) (head c) (tail c0) (tail c) - v c) =o[𝓝 c0] fun c => c - c0 := by
  have h1 := (hasFDerivAt_iff_isLittleO.1 h).neg_left
  refine h1.congr_left fun c => ?_
  have e : lin (beside dvdw dvdb) (c - c0) = dvdw *ᵥ (head c - head c0) + dvdb *ᵥ (tail c - tail c0) := by
    show beside dvdw dvdb *ᵥ (c - c0) = _
    rw [beside_mulVec]
    rfl
  rw [e]
  unfold EquilibriumPredictor.predicted
  abel

/-- Predictions around one mole of each of two isomers. -/
example (s : EquilibriumDerivatives.Setup 2 0 2 0) :
    ∃ (dndw : Matrix (Fin 2) (Fin 2) ℝ) (dndb : Matrix (Fin 2) (Fin 1) ℝ) (X : (Fin (2 + 1) → ℝ) → Fin 2 → ℝ) (Y : (Fin (2 + 1) → ℝ) → Fin 1 → ℝ),
      (∀ᶠ c in 𝓝 isomersAt, EquilibriumAt isomers (head c) (tail c) (X c) Fin.elim0 (Y c)) ∧
      (fun c => EquilibriumPredictor.predicted 2 (X isomersAt) dndw dndb (head isomersAt) (head c) (tail isomersAt) (tail c) - X c) =o[𝓝 isomersAt] fun c => c - isomersAt := by
  obtain ⟨dndw, dndb, X, Y, -, h2, h3⟩ := isomers_sensitivities s
  exact ⟨dndw, dndb, X, Y, h2, C44_first_order X dndw dndb isomersAt h3⟩

/-- **C117 (scale).** Without control variables, if the potentials do not change when all amounts change in proportion (Gibbs-Duhem), and the species that
are kept at bounds are absent, then the sensitivities give back the amounts: `dn/db` times the amounts of components are the amounts of the species. -/
theorem C117_scale (Aex : Matrix (Fin Nb) (Fin (Nn + 0)) ℝ) (Aep : Matrix (Fin Nb) (Fin 0) ℝ) (free : Fin (Nn + 0) → Prop)
    (fxx : Matrix (Fin (Nn + 0)) (Fin (Nn + 0)) ℝ) (fxp : Matrix (Fin (Nn + 0)) (Fin 0) ℝ) (fxw : Matrix (Fin (Nn + 0)) (Fin Nw) ℝ)
    (vx : Matrix (Fin 0) (Fin (Nn + 0)) ℝ) (vp : Matrix (Fin 0) (Fin 0) ℝ) (vw : Matrix (Fin 0) (Fin Nw) ℝ)
    (n : Fin (Nn + 0) → ℝ) (b : Fin Nb → ℝ) (hb : Aex *ᵥ n = b) (hfree : ∀ j, ¬ free j → n j = 0) (hGD : fxx *ᵥ n = 0)
    (hreg : Regular Aex Aep free fxx fxp vx vp)
    (xc : Matrix (Fin (Nn + 0)) (Fin (Nw + Nb)) ℝ) (pc : Matrix (Fin 0) (Fin (Nw + Nb)) ℝ) (yc : Matrix (Fin Nb) (Fin (Nw + Nb)) ℝ)
    (hlin : ∀ k, Linear Aex Aep free fxx fxp vx vp (fun j => beside fxw 0 j k) (fun i => beside vw 0 i k)
      (fun i => EquilibriumSolver.bec i k) (fun j => xc j k) (fun i => pc i k) (fun i => yc i k))
    (dudn : Matrix (Fin Nu) (Fin Nn) ℝ) (dudp : Matrix (Fin Nu) (Fin 0) ℝ) (dudw : Matrix (Fin Nu) (Fin Nw) ℝ) :
    (EquilibriumSolver.sensitivity (Nq := 0) xc pc dudn dudp dudw).dndb *ᵥ b = n := by
  have hz : ∀ m : Nat, ∀ (M : Matrix (Fin m) (Fin 0) ℝ) (z : Fin 0 → ℝ), M *ᵥ z = 0 := fun m M z => by rw [Subsingleton.elim z 0, mulVec_zero]
  obtain ⟨dx, hdx⟩ : ∃ dx : Fin (Nn + 0) → ℝ, dx = fun j => ∑ k, xc j (Fin.natAdd Nw k) * b k := ⟨_, rfl⟩
  have hl : Linear Aex Aep free fxx fxp vx vp 0 0 0 (dx - n) 0 (fun i => ∑ k, yc i (Fin.natAdd Nw k) * b k) := by
    refine ⟨fun j hj => ?_, fun j hj => ?_, Subsingleton.elim _ _, ?_⟩
    · rw [hz, Pi.zero_apply, add_zero, add_zero, mulVec_sub, hGD, sub_zero]
      have h1 : ∀ k : Fin Nb, ∑ l, fxx j l * xc l (Fin.natAdd Nw k) = ∑ i, yc i (Fin.natAdd Nw k) * Aex i j := by
        intro k
        have := (hlin (Fin.natAdd Nw k)).gradient j hj
        rw [hz] at this
        simpa [beside, mulVec, dotProduct] using this
      calc (fxx *ᵥ dx) j = ∑ k, (∑ l, fxx j l * xc l (Fin.natAdd Nw k)) * b k := by
            simp only [mulVec, dotProduct, hdx, Finset.mul_sum, Finset.sum_mul]
            rw [Finset.sum_comm]
            exact Finset.sum_congr rfl fun k _ => Finset.sum_congr rfl fun l _ => by ring
        _ = ∑ i, (∑ k, yc i (Fin.natAdd Nw k) * b k) * Aex i j := by
            simp only [h1, Finset.sum_mul]
            rw [Finset.sum_comm]
            exact Finset.sum_congr rfl fun i _ => Finset.sum_congr rfl fun k _ => by ring
    · have h1 : ∀ k, xc j k = 0 := fun k => (hlin k).fixed j hj
      simp [hdx, h1, hfree j hj]
    · rw [hz, add_zero, mulVec_sub, hb]
      have h1 : ∀ i k, ∑ l, Aex i l * xc l (Fin.natAdd Nw k) = if k = i then 1 else 0 := by
        intro i k
        have := congrFun (hlin (Fin.natAdd Nw k)).balances i
        rw [hz, add_zero] at this
        simpa [mulVec, dotProduct, EquilibriumSolver.bec, Fin.natAdd_inj] using this
      funext i
      have : (Aex *ᵥ dx) i = ∑ k, (∑ l, Aex i l * xc l (Fin.natAdd Nw k)) * b k := by
        simp only [mulVec, dotProduct, hdx, Finset.mul_sum, Finset.sum_mul]
        rw [Finset.sum_comm]
        exact Finset.sum_congr rfl fun k _ => Finset.sum_congr rfl fun l _ => by ring
      rw [Pi.sub_apply, this, Finset.sum_congr rfl fun k _ => congrArg (· * b k) (h1 i k)]
      simp
  have h0 := (hreg _ _ _ hl).1
  have : dx = n := sub_eq_zero.1 h0
  rw [← this, hdx]
  rfl

/-- Two isomers of which there is one mole each, in an ideal solution: half of every mole that is added becomes each of them. -/
example : (EquilibriumSolver.sensitivity (Nw := 0) (Nb := 1) (Nu := 0) (Nq := 0) (fun (_ : Fin (2 + 0)) (_ : Fin (0 + 1)) => (1 / 2 : ℝ)) (fun i => i.elim0) (fun i => i.elim0)
    (fun i => i.elim0) (fun i => i.elim0)).dndb *ᵥ (fun _ => (2 : ℝ)) = fun _ => 1 := by
  refine C117_scale (Nw := 0) (Nu := 0) (fun _ _ => 1) (fun _ i => i.elim0) (fun _ => True) !![1 / 2, -1 / 2; -1 / 2, 1 / 2] (fun _ i => i.elim0) (fun _ i => i.elim0) (fun i => i.elim0)
    (fun i => i.elim0) (fun i => i.elim0) (fun _ => 1) (fun _ => 2) ?_ (fun _ h => absurd trivial h) ?_ ?_ _ _ (fun _ _ => 0) ?_ _ _ _
  · funext i
    simp [mulVec, dotProduct]
  · funext i
    fin_cases i <;> simp [mulVec, dotProduct, Fin.sum_univ_two] <;> norm_num
  · refine C117_regular (Nq := 0) _ _ _ _ _ _ _ (fun d hd _ hne => ?_) fun y hy => ?_
    · have h1 : d 0 + d 1 = 0 := by simpa [mulVec, dotProduct, Fin.sum_univ_two] using congrFun hd 0
      have h2 : d 0 ≠ 0 := by
        intro h
        apply hne
        funext i
        fin_cases i
        · exact h
        · show d 1 = 0
          linarith
      have h3 : d 1 = -d 0 := by linarith
      have : d ⬝ᵥ (!![1 / 2, -1 / 2; -1 / 2, 1 / 2] *ᵥ d) = 2 * d 0 ^ 2 := by
        simp [dotProduct, mulVec, Fin.sum_univ_two, h3]
        ring
      rw [this]
      positivity
    · funext i
      rw [Subsingleton.elim i 0]
      simpa using hy 0 trivial
  · intro k
    refine ⟨fun j _ => ?_, fun _ h => absurd trivial h, Subsingleton.elim _ _, ?_⟩
    · have h0 : beside (fun (_ : Fin (2 + 0)) (i : Fin 0) => i.elim0) (0 : Matrix (Fin (2 + 0)) (Fin 1) ℝ) j k = 0 := Fin.addCases (fun i => i.elim0) (fun i => by unfold beside; rw [Fin.addCases_right]; rfl) k
      rw [h0]
      fin_cases j <;> simp [mulVec, dotProduct, Fin.sum_univ_two] <;> norm_num
    · funext i
      have : k = Fin.natAdd 0 i := Fin.ext (by have := k.2; have := i.2; simp only [Fin.val_natAdd]; omega)
      rw [this]
      simp [mulVec, dotProduct, EquilibriumSolver.bec]

end Verif.Sensitivity
