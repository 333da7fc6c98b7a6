import Mathlib.MeasureTheory.Function.Jacobian
import Mathlib.Analysis.Calculus.InverseFunctionTheorem.ApproximatesLinearOn
import Mathlib.Analysis.Calculus.MeanValue
import Mathlib.Analysis.InnerProductSpace.Calculus
import Mathlib.Analysis.InnerProductSpace.PiL2
import Mathlib.LinearAlgebra.Lagrange
import Mathlib.LinearAlgebra.Matrix.Polynomial
import Mathlib.MeasureTheory.Measure.Haar.InnerProductSpace
import Mathlib.Topology.ContinuousMap.StoneWeierstrass
import Mathlib.Analysis.InnerProductSpace.Projection.Minimal
import Mathlib.Analysis.SpecialFunctions.Sqrt

/-!
# Brouwer's fixed point theorem, and variational inequalities

The proof is the one of J. Milnor and C. A. Rogers: a differentiable retraction of a ball to its boundary would change a volume.
-/

namespace Verif.Brouwer

open Metric Set MeasureTheory

variable {N : Nat}

/-- Euclidean space. -/
abbrev E (N : Nat) := EuclideanSpace ℝ (Fin N)

/-- The determinant of `1 + t M` is a polynomial in `t` of degree at most `N`. -/
theorem det_polynomial (M : E N →L[ℝ] E N) : ∃ p : Polynomial ℝ, p.natDegree ≤ N ∧ ∀ t : ℝ, p.eval t = (ContinuousLinearMap.id ℝ (E N) + t • M).det := by
  let b := (EuclideanSpace.basisFun (Fin N) ℝ).toBasis
  let A := LinearMap.toMatrix b b (M : E N →ₗ[ℝ] E N)
  refine ⟨((Polynomial.X : Polynomial ℝ) • A.map Polynomial.C + (1 : Matrix (Fin N) (Fin N) ℝ).map Polynomial.C).det, ?_, ?_⟩
  · simpa using Polynomial.natDegree_det_X_add_C_le A 1
  · intro t
    have h1 : (ContinuousLinearMap.id ℝ (E N) + t • M).det = (1 + t • A).det := by
      show LinearMap.det ((ContinuousLinearMap.id ℝ (E N) + t • M : E N →L[ℝ] E N) : E N →ₗ[ℝ] E N) = _
      rw [← LinearMap.det_toMatrix b]
      congr 1
      simp [A, map_add, map_smul]
    rw [h1, ← Polynomial.coe_evalRingHom, RingHom.map_det]
    congr 1
    ext i j
    simp [Matrix.one_apply]
    split_ifs <;> simp <;> ring

/-- The value of a polynomial of degree at most `N` at 1 is a fixed combination of its values at `N + 1` points of an interval. -/
theorem interpolation (N : Nat) (s : ℝ) (hs : 0 < s) : ∃ (w τ : Fin (N + 1) → ℝ), (∀ i, 0 ≤ τ i ∧ τ i ≤ s) ∧
    ∀ p : Polynomial ℝ, p.natDegree ≤ N → p.eval 1 = ∑ i, w i * p.eval (τ i) := by
  have hN : (0 : ℝ) < N + 1 := by positivity
  let τ : Fin (N + 1) → ℝ := fun i => s * ((i : ℕ) / (N + 1))
  have hinj : Set.InjOn τ (Finset.univ : Finset (Fin (N + 1))) := by
    intro i _ j _ h
    have : ((i : ℕ) : ℝ) / (N + 1) = ((j : ℕ) : ℝ) / (N + 1) := mul_left_cancel₀ hs.ne' h
    rw [div_left_inj' hN.ne'] at this
    exact Fin.ext (by exact_mod_cast this)
  refine ⟨fun i => (Lagrange.basis Finset.univ τ i).eval 1, τ, ?_, ?_⟩
  · intro i
    have h1 : ((i : ℕ) : ℝ) ≤ N + 1 := by exact_mod_cast i.2.le
    have h2 : ((i : ℕ) : ℝ) / (N + 1) ≤ 1 := by rw [div_le_one hN]; exact h1
    refine ⟨by positivity, ?_⟩
    calc s * (((i : ℕ) : ℝ) / (N + 1)) ≤ s * 1 := by gcongr
      _ = s := mul_one s
  · intro p hp
    have hdeg : p.degree < (Finset.univ : Finset (Fin (N + 1))).card := by
      rw [Finset.card_univ, Fintype.card_fin]
      exact lt_of_le_of_lt Polynomial.degree_le_natDegree (by exact_mod_cast Nat.lt_succ_of_le hp)
    conv_lhs => rw [Lagrange.eq_interpolate hinj hdeg]
    rw [Lagrange.interpolate_apply, Polynomial.eval_finsetSum]
    refine Finset.sum_congr rfl fun i _ => ?_
    rw [Polynomial.eval_mul, Polynomial.eval_C, mul_comm]

/-- A small perturbation of the identity has a positive determinant. -/
theorem det_pos (M : E N →L[ℝ] E N) (t : ℝ) (ht : 0 ≤ t) (h : t * ‖M‖ ≤ 1 / 2) : 0 < (ContinuousLinearMap.id ℝ (E N) + t • M).det := by
  have hne : ∀ s ∈ Icc 0 t, (ContinuousLinearMap.id ℝ (E N) + s • M).det ≠ 0 := by
    intro s hs h0
    have := LinearMap.bot_lt_ker_of_det_eq_zero h0
    obtain ⟨v, hv, hv0⟩ := (Submodule.ne_bot_iff _).1 this.ne'
    have hv : v + s • M v = 0 := by simpa using hv
    have h1 : ‖v‖ = s * ‖M v‖ := by
      have : v = -(s • M v) := by rw [← sub_eq_zero, sub_neg_eq_add, hv]
      calc ‖v‖ = ‖-(s • M v)‖ := by rw [← this]
        _ = s * ‖M v‖ := by rw [norm_neg, norm_smul, Real.norm_of_nonneg hs.1]
    have h2 : s * ‖M v‖ ≤ 1 / 2 * ‖v‖ := by
      calc s * ‖M v‖ ≤ s * (‖M‖ * ‖v‖) := mul_le_mul_of_nonneg_left (M.le_opNorm v) hs.1
        _ = s * ‖M‖ * ‖v‖ := by ring
        _ ≤ t * ‖M‖ * ‖v‖ := by gcongr; exact hs.2
        _ ≤ 1 / 2 * ‖v‖ := by gcongr
    have h3 : 0 < ‖v‖ := norm_pos_iff.2 hv0
    linarith
  have hc : ContinuousOn (fun s : ℝ => (ContinuousLinearMap.id ℝ (E N) + s • M).det) (Icc 0 t) := by
    apply Continuous.continuousOn
    exact ContinuousLinearMap.continuous_det.comp (by fun_prop)
  by_contra hn
  push Not at hn
  have h0 : (ContinuousLinearMap.id ℝ (E N) + (0 : ℝ) • M).det = 1 := by
    have e : ContinuousLinearMap.id ℝ (E N) + (0 : ℝ) • M = ContinuousLinearMap.id ℝ (E N) := by
      ext v
      simp
    rw [e]
    exact LinearMap.det_id
  have := intermediate_value_Icc' ht hc
  obtain ⟨s, hs, hs0⟩ := this ⟨hn, by rw [h0]; exact zero_le_one⟩
  exact hne s hs hs0

/-- There is no differentiable retraction of the ball to its boundary. -/
theorem no_retraction (U : Set (E N)) (hU : IsOpen U) (hK : closedBall 0 1 ⊆ U) (r : E N → E N) (hr : ContDiffOn ℝ 1 r U) (hone : ∀ x ∈ closedBall (0 : E N) 1, ‖r x‖ = 1)
    (hid : ∀ x ∈ sphere (0 : E N) 1, r x = x) : False := by
  let h : E N → E N := fun x => r x - x
  have hh : ContDiffOn ℝ 1 h U := hr.sub contDiffOn_id
  have hdiff : ∀ x ∈ closedBall (0 : E N) 1, DifferentiableAt ℝ h x := fun x hx =>
    (hh.differentiableOn (by norm_num)).differentiableAt (hU.mem_nhds (hK hx))
  have hdiffr : ∀ x ∈ closedBall (0 : E N) 1, DifferentiableAt ℝ r x := fun x hx =>
    (hr.differentiableOn (by norm_num)).differentiableAt (hU.mem_nhds (hK hx))
  have hcompact : IsCompact (closedBall (0 : E N) 1) := isCompact_closedBall 0 1
  have hcd : ContinuousOn (fderiv ℝ h) (closedBall 0 1) := (hh.continuousOn_fderiv_of_isOpen hU (by norm_num)).mono hK
  obtain ⟨C, hC⟩ := hcompact.exists_bound_of_continuousOn hcd
  have hC0 : 0 ≤ C := (norm_nonneg _).trans (hC 0 (by simp))
  have hlip : ∀ x ∈ closedBall (0 : E N) 1, ∀ y ∈ closedBall (0 : E N) 1, ‖h x - h y‖ ≤ C * ‖x - y‖ := fun x hx y hy =>
    (convex_closedBall (0 : E N) 1).norm_image_sub_le_of_norm_fderiv_le hdiff hC hy hx
  let s : ℝ := 1 / (2 * (C + 1))
  have hs : 0 < s := by positivity
  have hsC : ∀ t, 0 ≤ t → t ≤ s → t * C ≤ 1 / 2 := by
    intro t ht0 ht
    calc t * C ≤ s * (C + 1) := by gcongr; linarith
      _ = 1 / 2 := by simp only [s]; field_simp
  have hs1 : s ≤ 1 := by
    have := hsC s hs.le le_rfl
    simp only [s]
    rw [div_le_one (by positivity)]
    linarith
  -- the maps between the identity and the retraction
  let f : ℝ → E N → E N := fun t x => x + t • h x
  have fball : ∀ t, 0 ≤ t → t ≤ s → ∀ x ∈ closedBall (0 : E N) 1, f t x ∈ closedBall (0 : E N) 1 := by
    intro t ht0 ht x hx
    have e : f t x = (1 - t) • x + t • r x := by simp only [f, h]; module
    rw [e]
    exact (convex_closedBall (0 : E N) 1) hx (by simpa using (hone x hx).le) (by linarith) ht0 (by ring)
  have finj : ∀ t, 0 ≤ t → t ≤ s → InjOn (f t) (closedBall (0 : E N) 1) := by
    intro t ht0 ht x hx y hy hxy
    have e : x - y = -(t • (h x - h y)) := by
      have : x + t • h x = y + t • h y := hxy
      rw [smul_sub, neg_sub, sub_eq_sub_iff_add_eq_add, this, add_comm]
    have h1 : ‖x - y‖ = t * ‖h x - h y‖ := by rw [e, norm_neg, norm_smul, Real.norm_of_nonneg ht0]
    have h2 : t * ‖h x - h y‖ ≤ 1 / 2 * ‖x - y‖ := by
      calc t * ‖h x - h y‖ ≤ t * (C * ‖x - y‖) := mul_le_mul_of_nonneg_left (hlip x hx y hy) ht0
        _ = t * C * ‖x - y‖ := by ring
        _ ≤ 1 / 2 * ‖x - y‖ := by gcongr; exact hsC t ht0 ht
    have h3 := norm_nonneg (x - y)
    have : ‖x - y‖ = 0 := by linarith
    exact sub_eq_zero.1 (norm_eq_zero.1 this)
  have fopen : ∀ t, 0 ≤ t → t ≤ s → IsOpen (f t '' ball (0 : E N) 1) := by
    intro t ht0 ht
    have ha : ApproximatesLinearOn (f t) (ContinuousLinearMap.id ℝ (E N)) (ball 0 1) (1 / 2) := by
      intro x hx y hy
      have e : f t x - f t y - (ContinuousLinearMap.id ℝ (E N)) (x - y) = t • (h x - h y) := by
        simp only [f, ContinuousLinearMap.id_apply]; module
      rw [e, norm_smul, Real.norm_of_nonneg ht0]
      calc t * ‖h x - h y‖ ≤ t * (C * ‖x - y‖) := mul_le_mul_of_nonneg_left (hlip x (ball_subset_closedBall hx) y (ball_subset_closedBall hy)) ht0
        _ = t * C * ‖x - y‖ := by ring
        _ ≤ 1 / 2 * ‖x - y‖ := by gcongr; exact hsC t ht0 ht
        _ = ((1 / 2 : NNReal) : ℝ) * ‖x - y‖ := by norm_num
    refine ha.open_image ⟨id, 1, fun y => by simp, fun y => rfl⟩ isOpen_ball (Or.inr ?_)
    show (1 / 2 : NNReal) < 1⁻¹
    rw [inv_one, ← NNReal.coe_lt_coe]
    norm_num
  have fimage : ∀ t, 0 ≤ t → t ≤ s → f t '' ball (0 : E N) 1 = ball (0 : E N) 1 := by
    intro t ht0 ht
    have hsub : f t '' ball (0 : E N) 1 ⊆ ball 0 1 := by
      have : f t '' ball (0 : E N) 1 ⊆ closedBall 0 1 := by
        rintro _ ⟨x, hx, rfl⟩
        exact fball t ht0 ht x (ball_subset_closedBall hx)
      have := interior_maximal this (fopen t ht0 ht)
      rwa [interior_closedBall (0 : E N) one_ne_zero] at this
    apply Subset.antisymm
    · exact hsub
    · have hcont : ContinuousOn (f t) (closedBall 0 1) := fun x hx =>
        (continuousAt_id.add ((hdiff x hx).continuousAt.const_smul t)).continuousWithinAt
      refine (convex_ball (0 : E N) 1).isPreconnected.subset_of_closure_inter_subset (fopen t ht0 ht) ⟨f t 0, hsub ⟨0, by simp, rfl⟩, ⟨0, by simp, rfl⟩⟩ ?_
      rintro y ⟨hy, hy1⟩
      have hcl : closure (f t '' ball (0 : E N) 1) ⊆ f t '' closedBall 0 1 :=
        closure_minimal (image_mono ball_subset_closedBall) (hcompact.image_of_continuousOn hcont).isClosed
      obtain ⟨x, hx, rfl⟩ := hcl hy
      refine ⟨x, ?_, rfl⟩
      rcases (mem_closedBall_zero_iff.1 hx).lt_or_eq with hlt | heq
      · simpa using hlt
      · have hxs : x ∈ sphere (0 : E N) 1 := by simpa using heq
        have : f t x = x := by simp only [f, h, hid x hxs]; simp
        rw [this] at hy1
        simpa using hy1
  -- the volumes of the images
  have fderiv' : ∀ t, ∀ x ∈ ball (0 : E N) 1, HasFDerivWithinAt (f t) (ContinuousLinearMap.id ℝ (E N) + t • fderiv ℝ h x) (ball 0 1) x := by
    intro t x hx
    exact ((hasFDerivAt_id x).add ((hdiff x (ball_subset_closedBall hx)).hasFDerivAt.const_smul t)).hasFDerivWithinAt
  have vol : ∀ t, 0 ≤ t → t ≤ s → ∫ x in ball (0 : E N) 1, (ContinuousLinearMap.id ℝ (E N) + t • fderiv ℝ h x).det = (volume (ball (0 : E N) 1)).toReal := by
    intro t ht0 ht
    have := integral_image_eq_integral_abs_det_fderiv_smul (volume : Measure (E N)) measurableSet_ball (fderiv' t) ((finj t ht0 ht).mono ball_subset_closedBall) (fun _ => (1 : ℝ))
    rw [fimage t ht0 ht] at this
    simp only [smul_eq_mul, mul_one, integral_const, MeasurableSet.univ, measureReal_restrict_apply, univ_inter] at this
    rw [Measure.real] at this
    rw [this]
    refine setIntegral_congr_fun measurableSet_ball fun x hx => ?_
    have := det_pos (fderiv ℝ h x) t ht0 (by
      calc t * ‖fderiv ℝ h x‖ ≤ t * C := mul_le_mul_of_nonneg_left (hC x (ball_subset_closedBall hx)) ht0
        _ ≤ 1 / 2 := hsC t ht0 ht)
    exact (abs_of_pos this).symm
  have hint : ∀ t : ℝ, IntegrableOn (fun x => (ContinuousLinearMap.id ℝ (E N) + t • fderiv ℝ h x).det) (ball (0 : E N) 1) := by
    intro t
    have : ContinuousOn (fun x => (ContinuousLinearMap.id ℝ (E N) + t • fderiv ℝ h x).det) (closedBall (0 : E N) 1) :=
      ContinuousLinearMap.continuous_det.comp_continuousOn (continuousOn_const.add (hcd.const_smul t))
    exact (this.integrableOn_compact hcompact).mono_set ball_subset_closedBall
  obtain ⟨w, τ, hτ, hp⟩ := interpolation N s hs
  have point : ∀ x, (ContinuousLinearMap.id ℝ (E N) + (1 : ℝ) • fderiv ℝ h x).det = ∑ i, w i * (ContinuousLinearMap.id ℝ (E N) + τ i • fderiv ℝ h x).det := by
    intro x
    obtain ⟨p, p1, p2⟩ := det_polynomial (fderiv ℝ h x)
    rw [← p2 1, hp p p1]
    exact Finset.sum_congr rfl fun i _ => by rw [p2]
  have hw : ∑ i, w i = 1 := by
    have := hp 1 (by simp)
    simpa using this.symm
  have total : ∫ x in ball (0 : E N) 1, (ContinuousLinearMap.id ℝ (E N) + (1 : ℝ) • fderiv ℝ h x).det = (volume (ball (0 : E N) 1)).toReal := by
    simp only [point]
    rw [integral_finsetSum _ fun i _ => (hint (τ i)).const_mul (w i)]
    simp only [integral_const_mul]
    rw [Finset.sum_congr rfl fun i _ => by rw [vol (τ i) (hτ i).1 (hτ i).2], ← Finset.sum_mul, hw, one_mul]
  have zero : ∀ x ∈ ball (0 : E N) 1, (ContinuousLinearMap.id ℝ (E N) + (1 : ℝ) • fderiv ℝ h x).det = 0 := by
    intro x hx
    have hxc := ball_subset_closedBall hx
    have e : ContinuousLinearMap.id ℝ (E N) + (1 : ℝ) • fderiv ℝ h x = fderiv ℝ r x := by
      have : fderiv ℝ h x = fderiv ℝ r x - ContinuousLinearMap.id ℝ (E N) := ((hdiffr x hxc).hasFDerivAt.sub (hasFDerivAt_id x)).fderiv
      rw [this, one_smul]
      abel
    rw [e]
    by_contra hne
    have hsurj : Function.Surjective (fderiv ℝ r x) := by
      intro y
      have := (LinearMap.equivOfDetNeZero ((fderiv ℝ r x : E N →L[ℝ] E N) : E N →ₗ[ℝ] E N) hne).surjective y
      obtain ⟨z, hz⟩ := this
      exact ⟨z, hz⟩
    obtain ⟨v, hv⟩ := hsurj (r x)
    have hconst : (fun y => inner ℝ (r y) (r y)) =ᶠ[nhds x] fun _ => (1 : ℝ) := by
      filter_upwards [isOpen_ball.mem_nhds hx] with y hy
      rw [real_inner_self_eq_norm_sq, hone y (ball_subset_closedBall hy)]
      norm_num
    have h1 : fderiv ℝ (fun y => inner ℝ (r y) (r y)) x = 0 := by
      rw [hconst.fderiv_eq]
      simp
    have h2 := fderiv_inner_apply ℝ (hdiffr x hxc) (hdiffr x hxc) v
    rw [h1, hv, real_inner_self_eq_norm_sq, hone x hxc] at h2
    norm_num at h2
  rw [setIntegral_congr_fun measurableSet_ball zero] at total
  simp only [integral_zero] at total
  have hpos : 0 < volume (ball (0 : E N) 1) := measure_ball_pos _ _ one_pos
  have hfin : volume (ball (0 : E N) 1) ≠ ⊤ := measure_ball_lt_top.ne
  have := ENNReal.toReal_pos hpos.ne' hfin
  linarith

/-- A differentiable map of the ball into itself has a fixed point. -/
theorem smooth_fixed (g : E N → E N) (hg : ContDiff ℝ 1 g) (hball : ∀ x ∈ closedBall (0 : E N) 1, g x ∈ closedBall (0 : E N) 1) : ∃ x ∈ closedBall (0 : E N) 1, g x = x := by
  by_contra hno
  push Not at hno
  let u : E N → E N := fun x => x - g x
  let p : E N → ℝ := fun x => inner ℝ x (u x)
  let q : E N → ℝ := fun x => ‖u x‖ ^ 2
  let D : E N → ℝ := fun x => p x ^ 2 + (1 - ‖x‖ ^ 2) * q x
  have cu : ContDiff ℝ 1 u := contDiff_id.sub hg
  have cp : ContDiff ℝ 1 p := contDiff_id.inner ℝ cu
  have cq : ContDiff ℝ 1 q := cu.norm_sq ℝ
  have cD : ContDiff ℝ 1 D := (cp.pow 2).add ((contDiff_const.sub (contDiff_id.norm_sq ℝ)).mul cq)
  let U : Set (E N) := {x | 0 < q x} ∩ {x | 0 < D x}
  have hU : IsOpen U := (isOpen_lt continuous_const cq.continuous).inter (isOpen_lt continuous_const cD.continuous)
  have hq : ∀ x ∈ closedBall (0 : E N) 1, 0 < q x := fun x hx => by
    have : u x ≠ 0 := fun h => hno x hx (sub_eq_zero.1 h).symm
    exact pow_pos (norm_pos_iff.2 this) 2
  have hp : ∀ x ∈ sphere (0 : E N) 1, 0 < p x := by
    intro x hx
    have hx1 : ‖x‖ = 1 := by simpa using hx
    have hxc : x ∈ closedBall (0 : E N) 1 := sphere_subset_closedBall hx
    have hg1 : ‖g x‖ ≤ 1 := by simpa using hball x hxc
    have h1 := hq x hxc
    have h2 : q x = 1 - 2 * inner ℝ x (g x) + ‖g x‖ ^ 2 := by
      show ‖x - g x‖ ^ 2 = _
      rw [norm_sub_sq_real, hx1]
      ring
    have h3 : p x = 1 - inner ℝ x (g x) := by
      show inner ℝ x (x - g x) = _
      rw [inner_sub_right, real_inner_self_eq_norm_sq, hx1]
      ring
    have h4 : ‖g x‖ ^ 2 ≤ 1 := pow_le_one₀ (norm_nonneg _) hg1
    rw [h3]
    linarith
  have hD : ∀ x ∈ closedBall (0 : E N) 1, 0 < D x := by
    intro x hx
    rcases (mem_closedBall_zero_iff.1 hx).lt_or_eq with hlt | heq
    · have h1 : 0 < 1 - ‖x‖ ^ 2 := by nlinarith [norm_nonneg x]
      have := mul_pos h1 (hq x hx)
      have := sq_nonneg (p x)
      simp only [D]
      linarith
    · have := hp x (by simpa using heq)
      simp only [D, heq]
      nlinarith
  let lam : E N → ℝ := fun x => (-p x + Real.sqrt (D x)) / q x
  let r : E N → E N := fun x => x + lam x • u x
  have cr : ContDiffOn ℝ 1 r U := by
    have c1 : ContDiffOn ℝ 1 (fun x => Real.sqrt (D x)) U := cD.contDiffOn.sqrt fun x hx => hx.2.ne'
    have c2 : ContDiffOn ℝ 1 lam U := (cp.neg.contDiffOn.add c1).div cq.contDiffOn fun x hx => hx.1.ne'
    exact contDiffOn_id.add (c2.smul cu.contDiffOn)
  refine no_retraction U hU (fun x hx => ⟨hq x hx, hD x hx⟩) r cr ?_ ?_
  · intro x hx
    have h1 : ‖r x‖ ^ 2 = 1 := by
      have e1 : ‖r x‖ ^ 2 = ‖x‖ ^ 2 + 2 * lam x * p x + lam x ^ 2 * q x := by
        show ‖x + lam x • u x‖ ^ 2 = _
        rw [norm_add_sq_real, inner_smul_right, norm_smul, mul_pow, Real.norm_eq_abs, sq_abs]
        ring
      have e2 : lam x * q x = -p x + Real.sqrt (D x) := div_mul_cancel₀ _ (hq x hx).ne'
      have e3 : Real.sqrt (D x) ^ 2 = D x := Real.sq_sqrt (hD x hx).le
      have e4 : q x * (‖r x‖ ^ 2 - 1) = 0 := by
        have : q x * (‖r x‖ ^ 2 - 1) = (lam x * q x + p x) ^ 2 - D x := by
          rw [e1]; simp only [D]; ring
        rw [this, e2]
        linear_combination e3
      rcases mul_eq_zero.1 e4 with h | h
      · exact absurd h (hq x hx).ne'
      · linarith
    nlinarith [norm_nonneg (r x)]
  · intro x hx
    have hx1 : ‖x‖ = 1 := by simpa using hx
    have e : D x = p x ^ 2 := by simp only [D, hx1]; ring
    have : lam x = 0 := by simp only [lam, e, Real.sqrt_sq (hp x hx).le]; simp
    show x + lam x • u x = x
    rw [this, zero_smul, add_zero]

/-- The restrictions of differentiable functions to the ball. -/
def smooth (N : ℕ) : Subalgebra ℝ C(closedBall (0 : E N) 1, ℝ) where
  carrier := {f | ∃ F : E N → ℝ, ContDiff ℝ 1 F ∧ ∀ x, f x = F x}
  mul_mem' := by
    rintro f g ⟨F, cF, hF⟩ ⟨G, cG, hG⟩
    exact ⟨fun x => F x * G x, cF.mul cG, fun x => by simp [hF, hG]⟩
  add_mem' := by
    rintro f g ⟨F, cF, hF⟩ ⟨G, cG, hG⟩
    exact ⟨fun x => F x + G x, cF.add cG, fun x => by simp [hF, hG]⟩
  algebraMap_mem' a := ⟨fun _ => a, contDiff_const, fun x => rfl⟩

theorem approximate (g : E N → ℝ) (hg : ContinuousOn g (closedBall 0 1)) (δ : ℝ) (hδ : 0 < δ) : ∃ F : E N → ℝ, ContDiff ℝ 1 F ∧ ∀ x ∈ closedBall (0 : E N) 1, |F x - g x| < δ := by
  have : CompactSpace (closedBall (0 : E N) 1) := isCompact_iff_compactSpace.1 (isCompact_closedBall 0 1)
  have hsep : (smooth N).SeparatesPoints := by
    intro x y hxy
    have hne : (x : E N) ≠ y := fun h => hxy (Subtype.ext h)
    let L : E N → ℝ := fun z => inner ℝ z ((x : E N) - y)
    have cL : ContDiff ℝ 1 L := contDiff_id.inner ℝ contDiff_const
    refine ⟨fun z => L z, ⟨⟨fun z => L z, cL.continuous.comp continuous_subtype_val⟩, ⟨L, cL, fun z => rfl⟩, rfl⟩, ?_⟩
    intro h
    have h1 : inner ℝ ((x : E N) - y) ((x : E N) - y) = (0 : ℝ) := by
      rw [inner_sub_left]
      exact sub_eq_zero.2 h
    exact hne (sub_eq_zero.1 (inner_self_eq_zero.1 h1))
  obtain ⟨⟨f, F, cF, hF⟩, hf⟩ := ContinuousMap.exists_mem_subalgebra_near_continuous_of_separatesPoints (smooth N) hsep (fun x => g x) hg.restrict δ hδ
  refine ⟨F, cF, fun x hx => ?_⟩
  have := hf ⟨x, hx⟩
  simp only [hF, Real.norm_eq_abs] at this
  exact this

/-- A continuous map of the ball into itself has a fixed point. -/
theorem brouwer (g : E N → E N) (hg : ContinuousOn g (closedBall 0 1)) (hball : ∀ x ∈ closedBall (0 : E N) 1, g x ∈ closedBall (0 : E N) 1) : ∃ x ∈ closedBall (0 : E N) 1, g x = x := by
  by_contra hno
  push Not at hno
  have hc : IsCompact (closedBall (0 : E N) 1) := isCompact_closedBall 0 1
  obtain ⟨z, hz, hmin⟩ := hc.exists_isMinOn ⟨0, by simp⟩ ((hg.sub continuousOn_id).norm)
  let ε : ℝ := ‖g z - z‖
  have hε : 0 < ε := norm_pos_iff.2 (sub_ne_zero.2 (hno z hz))
  have hge : ∀ x ∈ closedBall (0 : E N) 1, ε ≤ ‖g x - x‖ := fun x hx => hmin hx
  let δ : ℝ := ε / (3 * (N + 1))
  have hδ : 0 < δ := by positivity
  have happ : ∀ i : Fin N, ∃ F : E N → ℝ, ContDiff ℝ 1 F ∧ ∀ x ∈ closedBall (0 : E N) 1, |F x - g x i| < δ := fun i =>
    approximate (fun x => g x i) ((EuclideanSpace.proj (𝕜 := ℝ) i).continuous.comp_continuousOn hg) δ hδ
  choose F cF hF using happ
  let G : E N → E N := fun x => WithLp.toLp 2 fun i => F i x
  have cG : ContDiff ℝ 1 G := contDiff_euclidean.2 fun i => cF i
  have hG : ∀ x ∈ closedBall (0 : E N) 1, ‖G x - g x‖ ≤ ε / 3 := by
    intro x hx
    rw [EuclideanSpace.norm_eq]
    apply Real.sqrt_le_iff.2 ⟨by positivity, ?_⟩
    calc ∑ i, ‖(G x - g x) i‖ ^ 2 ≤ ∑ _i : Fin N, δ ^ 2 := by
          refine Finset.sum_le_sum fun i _ => ?_
          exact pow_le_pow_left₀ (norm_nonneg _) (hF i x hx).le 2
      _ = N * δ ^ 2 := by simp
      _ ≤ ((N + 1) * δ) ^ 2 := by
          have : (0 : ℝ) ≤ N := Nat.cast_nonneg N
          nlinarith [mul_nonneg this this, sq_nonneg δ, mul_nonneg this (sq_nonneg δ), mul_nonneg (mul_nonneg this this) (sq_nonneg δ)]
      _ = (ε / 3) ^ 2 := by
          congr 1
          simp only [δ]
          field_simp
  let a : ℝ := (1 + ε / 3)⁻¹
  have ha : 0 < a := by positivity
  have haε : a * (1 + ε / 3) = 1 := inv_mul_cancel₀ (by positivity)
  have hnorm : ∀ x ∈ closedBall (0 : E N) 1, ‖G x‖ ≤ 1 + ε / 3 := by
    intro x hx
    have h1 : ‖g x‖ ≤ 1 := by simpa using hball x hx
    calc ‖G x‖ = ‖g x + (G x - g x)‖ := by congr 1; abel
      _ ≤ ‖g x‖ + ‖G x - g x‖ := norm_add_le _ _
      _ ≤ 1 + ε / 3 := add_le_add h1 (hG x hx)
  obtain ⟨x, hx, hfix⟩ := smooth_fixed (fun x => a • G x) (cG.const_smul a) (by
    intro x hx
    rw [mem_closedBall_zero_iff, norm_smul, Real.norm_of_nonneg ha.le]
    calc a * ‖G x‖ ≤ a * (1 + ε / 3) := mul_le_mul_of_nonneg_left (hnorm x hx) ha.le
      _ = 1 := haε)
  have h1 := hge x hx
  have h2 : ‖G x - x‖ ≤ ε / 3 := by
    have e : G x - x = (1 - a) • G x := by
      rw [sub_smul, one_smul]
      rw [hfix]
    have h1a : 0 ≤ 1 - a := by
      have : a * (ε / 3) ≥ 0 := by positivity
      nlinarith
    rw [e, norm_smul, Real.norm_of_nonneg h1a]
    calc (1 - a) * ‖G x‖ ≤ (1 - a) * (1 + ε / 3) := mul_le_mul_of_nonneg_left (hnorm x hx) h1a
      _ = ε / 3 := by linear_combination -haε
  have h3 : ‖g x - x‖ ≤ ‖G x - x‖ + ‖G x - g x‖ := by
    calc ‖g x - x‖ = ‖(G x - x) - (G x - g x)‖ := by congr 1; abel
      _ ≤ _ := norm_sub_le _ _
  have := hG x hx
  linarith

/-- A continuous field on a compact convex set points inwards, or along the set, somewhere: the problem of
finding such a point is the variational inequality. -/
theorem variational_inequality (S : Set (E N)) (hne : S.Nonempty) (hS : IsCompact S) (hconv : Convex ℝ S) (F : E N → E N) (hF : ContinuousOn F S) :
    ∃ x ∈ S, ∀ y ∈ S, 0 ≤ inner ℝ (F x) (y - x) := by
  have hproj : ∀ x : E N, ∃ z ∈ S, ∀ y ∈ S, inner ℝ (x - z) (y - z) ≤ (0 : ℝ) := by
    intro x
    obtain ⟨z, hz, h⟩ := exists_norm_eq_iInf_of_complete_convex hne hS.isComplete hconv x
    exact ⟨z, hz, (norm_eq_iInf_iff_real_inner_le_zero hconv hz).1 h⟩
  choose P hP1 hP2 using hproj
  have hlip : ∀ x y, ‖P x - P y‖ ≤ ‖x - y‖ := by
    intro x y
    have h1 := hP2 x (P y) (hP1 y)
    have h2 := hP2 y (P x) (hP1 x)
    have h3 : ‖P x - P y‖ ^ 2 ≤ inner ℝ (x - y) (P x - P y) := by
      have e : inner ℝ (x - y) (P x - P y) - ‖P x - P y‖ ^ 2 = -(inner ℝ (x - P x) (P y - P x)) - inner ℝ (y - P y) (P x - P y) := by
        rw [← real_inner_self_eq_norm_sq]
        simp only [inner_sub_left, inner_sub_right]
        ring
      linarith
    have h4 := real_inner_le_norm (x - y) (P x - P y)
    rcases (norm_nonneg (P x - P y)).eq_or_lt with h | h
    · rw [← h]; exact norm_nonneg _
    · nlinarith
  have hcont : Continuous P := (LipschitzWith.of_dist_le_mul (K := 1) fun x y => by
    rw [dist_eq_norm, dist_eq_norm, NNReal.coe_one, one_mul]
    exact hlip x y).continuous
  have hfix : ∀ x ∈ S, P x = x := by
    intro x hx
    have := hP2 x x hx
    rw [real_inner_self_eq_norm_sq] at this
    have h0 : ‖x - P x‖ = 0 := by nlinarith [norm_nonneg (x - P x)]
    exact (sub_eq_zero.1 (norm_eq_zero.1 h0)).symm
  obtain ⟨R, hR⟩ := hS.isBounded.exists_norm_le
  let R' : ℝ := max R 1
  have hR' : 0 < R' := lt_max_of_lt_right one_pos
  let k : E N → E N := fun x => P (P (R' • x) - F (P (R' • x)))
  have ck : Continuous k := by
    have c1 : Continuous fun x : E N => P (R' • x) := hcont.comp (continuous_const_smul R')
    have c2 : Continuous fun x : E N => F (P (R' • x)) := hF.comp_continuous c1 fun x => hP1 _
    exact hcont.comp (c1.sub c2)
  obtain ⟨x, _, hx⟩ := brouwer (fun x => R'⁻¹ • k x) (ck.const_smul R'⁻¹).continuousOn (by
    intro x _
    rw [mem_closedBall_zero_iff, norm_smul, Real.norm_of_nonneg (inv_nonneg.2 hR'.le)]
    have : ‖k x‖ ≤ R' := (hR _ (hP1 _)).trans (le_max_left _ _)
    rw [inv_mul_le_iff₀ hR']
    linarith)
  have hk : k x = R' • x := by
    have hx' : R'⁻¹ • k x = x := hx
    calc k x = R' • R'⁻¹ • k x := (smul_inv_smul₀ hR'.ne' _).symm
      _ = R' • x := by rw [hx']
  have hzS : R' • x ∈ S := by rw [← hk]; exact hP1 _
  refine ⟨R' • x, hzS, fun y hy => ?_⟩
  have h1 := hP2 (P (R' • x) - F (P (R' • x))) y hy
  have h2 : P (P (R' • x) - F (P (R' • x))) = R' • x := hk
  rw [h2, hfix _ hzS] at h1
  have e : R' • x - F (R' • x) - R' • x = -F (R' • x) := by abel
  rw [e, inner_neg_left] at h1
  linarith

end Verif.Brouwer
