import Verif.Model.EquilibriumHessian
import Verif.Theorems.MoleFractions
import Mathlib.Tactic.NormNum

/-!
# Theorem C43: `EquilibriumHessian`
-/

namespace Verif.EquilibriumHessian

open MoleFractions

variable {N : Nat}

/-- **C43 (diagonal), proved part.** For species that make up one phase, the diagonal approximation has, for the properties given,
RT times the derivative of `ln x_i` with respect to `n_i` on the diagonal and zero elsewhere. -/
theorem C43_diagonal_partial (R : ℝ) (o : Obj N) (props0 : Props N) (hn : ∑ k, props0.n k ≠ 0) (hx : props0.x = moleFractions props0.n) (i j : Fin N) :
    (j ≠ i → (diagonalApprox R o props0).H i j = 0) ∧
    (0 < moleFractions props0.n i → ∃ d, (diagonalApprox R o props0).H i i = R * props0.T * d ∧
      HasDerivAt (fun t => Real.log (moleFractions (Function.update props0.n i t) i)) d (props0.n i)) := by
  refine ⟨fun h => by simp [diagonalApprox, h], fun hpos => ?_⟩
  refine ⟨lnMoleFractionsJacobian props0.n i i, ?_, C22_ln_jacobian props0.n hn i i hpos⟩
  simp only [diagonalApprox, if_true]
  unfold lnMoleFractionsJacobian
  rw [if_neg hn]
  simp only [if_true]
  rw [hx, moleFractions_of_total _ hn, mul_div_assoc]

theorem fold_rows (D : Deriv N) (T P : ℝ) (n : Fin N → ℝ) : ∀ (l : List (Fin N)) (o : Obj N), l.Nodup →
    let r := l.foldl (rowPass D T P n) (o, fun _ => 0)
    r.2 = (fun _ => 0) ∧ (∀ i ∈ l, ∀ k, r.1.H i k = D T P n i k) ∧ ∀ i ∉ l, r.1.H i = o.H i := by
  intro l
  induction l with
  | nil => intro o _; exact ⟨rfl, by simp, fun _ _ => rfl⟩
  | cons a l ih =>
    intro o hnd
    rw [List.nodup_cons] at hnd
    have hz : Function.update (Function.update (fun _ : Fin N => (0 : ℝ)) a 1) a 0 = fun _ => 0 := by
      funext j
      by_cases hj : j = a
      · subst hj; simp
      · simp [Function.update_of_ne hj]
    have hrow : ∀ k, gradPotentials D T P n (Function.update (fun _ : Fin N => (0 : ℝ)) a 1) k = D T P n a k := by
      intro k
      unfold gradPotentials
      rw [Finset.sum_eq_single a]
      · simp
      · intro b _ hb; simp [Function.update_of_ne hb]
      · simp
    simp only [List.foldl_cons]
    have hp : ∃ o1 : Obj N, rowPass D T P n (o, fun _ => 0) a = (o1, fun _ => 0) ∧
        o1.H = Function.update o.H a (gradPotentials D T P n (Function.update (fun _ => 0) a 1)) := by
      refine ⟨_, Prod.ext rfl ?_, rfl⟩
      unfold rowPass
      dsimp only
      exact hz
    obtain ⟨o1, hp, hH⟩ := hp
    rw [hp]
    obtain ⟨h1, h2, h3⟩ := ih o1 hnd.2
    rw [hH] at h3
    refine ⟨h1, ?_, ?_⟩
    · intro i hi k
      rcases List.mem_cons.1 hi with rfl | hi
      · rw [h3 i hnd.1]
        simp only [Function.update_self]
        exact hrow k
      · exact h2 i hi k
    · intro i hi
      rw [List.mem_cons, not_or] at hi
      rw [h3 i hi.2]
      simp only [Function.update_of_ne hi.1]

/-- **C43 (exact), partial.** The first call on an object gives the derivatives at the temperature, pressure and amounts stored in the object. Missing: at
those given, which are never read (`C43_exact_ignores_argument`), and later calls (`C43_second_call`). -/
theorem C43_exact_partial (D : Deriv N) (o : Obj N) (props0 : Props N) (h : o.props.grads = fun _ => 0) (i k : Fin N) :
    (exact D o props0).H i k = D o.props.T o.props.P o.props.n i k := by
  unfold exact
  rw [h]
  exact (fold_rows D _ _ _ (List.finRange N) o (List.nodup_finRange N)).2.1 i (List.mem_finRange i) k

/-- **C43 (partially exact), partial.** The rows with the given indices have the derivatives at the stored properties, the other rows are zero. -/
theorem C43_partiallyExact_partial (D : Deriv N) (o : Obj N) (props0 : Props N) (h : o.props.grads = fun _ => 0) (indices : List (Fin N))
    (hnd : indices.Nodup) (i k : Fin N) :
    (partiallyExact D o props0 indices).H i k = if i ∈ indices then D o.props.T o.props.P o.props.n i k else 0 := by
  unfold partiallyExact approx
  dsimp only
  rw [h]
  obtain ⟨-, h2, h3⟩ := fold_rows D o.props.T o.props.P o.props.n indices { o with H := fun _ _ => 0 } hnd
  split_ifs with hi
  · exact h2 i hi k
  · rw [h3 i hi]

/-- **C43, counterexample.** The properties given to `exact` and `partiallyExact` have no effect on the result: a new object gives the derivatives at
zero temperature, pressure and amounts. -/
theorem C43_exact_ignores_argument (D : Deriv N) (props0 : Props N) (indices : List (Fin N)) :
    (∀ o props1, exact D o props0 = exact D o props1 ∧ partiallyExact D o props0 indices = partiallyExact D o props1 indices) ∧
    ∀ i k, (exact D (initial N) props0).H i k = D 0 0 (fun _ => 0) i k :=
  ⟨fun _ _ => ⟨rfl, rfl⟩, fun i k => C43_exact_partial D (initial N) props0 rfl i k⟩

/-- **C43, counterexample.** The last seed stays in the object, so a second call adds its derivatives to other rows. -/
theorem C43_second_call : let D : Deriv 2 := fun _ _ _ j _ => if j = 0 then 1 else 10
    let p : Props 2 := ⟨300, 5, fun _ => 1, fun _ => 0, fun _ => 1⟩
    (exact D (initial 2) p).H 0 0 = 1 ∧ (exact D (exact D (initial 2) p) p).H 0 0 = 11 := by
  intro D p
  constructor
  · exact C43_exact_partial D (initial 2) p rfl 0 0
  · simp [exact, initial, rowPass, gradPotentials, List.finRange_succ, D, Function.update]
    norm_num

/-- **C43, counterexample.** The approximation is zero for all properties, while the derivative of `ln x` for two species with one mole each is one half. -/
theorem C43_approx_zero (o : Obj N) (props0 : Props N) :
    (∀ i j, (approx o props0).H i j = 0) ∧ lnMoleFractionsJacobian (fun _ : Fin 2 => 1) 0 0 = 1 / 2 := by
  refine ⟨fun _ _ => rfl, ?_⟩
  unfold lnMoleFractionsJacobian
  norm_num

/-- The hypotheses of `C43_diagonal_partial` are met. -/
example : ∑ k : Fin 2, (fun _ : Fin 2 => (1 : ℝ)) k ≠ 0 ∧ 0 < moleFractions (fun _ : Fin 2 => (1 : ℝ)) 0 := by
  have h : ∑ k : Fin 2, (fun _ : Fin 2 => (1 : ℝ)) k ≠ 0 := by norm_num
  refine ⟨h, ?_⟩
  rw [moleFractions_of_total _ h]
  norm_num

end Verif.EquilibriumHessian
