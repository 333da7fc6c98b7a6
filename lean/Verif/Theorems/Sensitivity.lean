import Verif.Spec.Sensitivity
import Mathlib.Algebra.BigOperators.Field
import Verif.Theorems.EquilibriumDerivatives
import Verif.Theorems.EquilibriumSolver
import Mathlib.Analysis.Calculus.ImplicitFunction.ProdDomain
import Mathlib.Analysis.Calculus.ContDiff.RCLike

/-!
# C117: the sensitivities are the derivatives of the equilibrium state
-/

namespace Verif.Sensitivity

open EquilibriumDerivatives (Problem Var Partial)
open EquilibriumSolver (head tail beside lin HasJacobian headL)
open Matrix Topology Filter

variable {Nn Nq Np Nw Nb Nu : Nat}

/-- The derivative in terms of the partial derivatives. -/
theorem fderiv_partials {ι : Type} [Fintype ι] [DecidableEq ι] (f : (ι → ℝ) → ℝ) (f' : (ι → ℝ) →L[ℝ] ℝ) (v : ι → ℝ) (hf : HasFDerivAt f f' v)
    (d : ι → ℝ) (hd : ∀ k, Partial f v k (d k)) (z : ι → ℝ) : f' z = ∑ k, d k * z k := by
  have h : ∀ k, f' (Pi.single k 1) = d k := by
    intro k
    have h1 : HasDerivAt (fun t => Function.update v k t) (Pi.single k 1) (v k) := hasDerivAt_update v k (v k)
    have h2 : HasFDerivAt f f' (Function.update v k (v k)) := by rw [Function.update_eq_self]; exact hf
    exact (h2.comp_hasDerivAt (v k) h1).unique (hd k)
  conv_lhs => rw [show z = ∑ k, z k • (Pi.single k (1 : ℝ) : ι → ℝ) from by
    funext i
    simp [Finset.sum_apply, Pi.single_apply]]
  rw [map_sum]
  refine Finset.sum_congr rfl fun k _ => ?_
  rw [map_smul, h, smul_eq_mul, mul_comm]

abbrev Unknowns (Nn Nq Np Nb : Nat) := (Fin (Nn + Nq) → ℝ) × (Fin Np → ℝ) × (Fin Nb → ℝ)

/-- The variables as a linear function of inputs and unknowns. -/
noncomputable def argumentsL (Nn Nq Np Nw Nb : Nat) : (Fin (Nw + Nb) → ℝ) × Unknowns Nn Nq Np Nb →L[ℝ] (Var Nn Np Nw → ℝ) :=
  LinearMap.toContinuousLinearMap
    { toFun := fun a => arguments a.2.1 a.2.2.1 (head a.1)
      map_add' := by
        intro a b
        funext k
        rcases k with k | k | k <;> rfl
      map_smul' := by
        intro t a
        funext k
        rcases k with k | k | k <;> rfl }

theorem argumentsL_apply (a : (Fin (Nw + Nb) → ℝ) × Unknowns Nn Nq Np Nb) : argumentsL Nn Nq Np Nw Nb a = arguments a.2.1 a.2.2.1 (head a.1) := rfl

/-- What the balances are worth for an unknown. -/
noncomputable def worthL (Aex : Matrix (Fin Nb) (Fin (Nn + Nq)) ℝ) (j : Fin (Nn + Nq)) : (Fin (Nw + Nb) → ℝ) × Unknowns Nn Nq Np Nb →L[ℝ] ℝ :=
  LinearMap.toContinuousLinearMap
    { toFun := fun a => ∑ i, a.2.2.2 i * Aex i j
      map_add' := by
        intro a b
        rw [← Finset.sum_add_distrib]
        exact Finset.sum_congr rfl fun i _ => add_mul _ _ _
      map_smul' := by
        intro t a
        rw [RingHom.id_apply, smul_eq_mul, Finset.mul_sum]
        exact Finset.sum_congr rfl fun i _ => mul_assoc _ _ _ }

/-- The balances less the amounts of components. -/
noncomputable def balanceL (Aex : Matrix (Fin Nb) (Fin (Nn + Nq)) ℝ) (Aep : Matrix (Fin Nb) (Fin Np) ℝ) :
    (Fin (Nw + Nb) → ℝ) × Unknowns Nn Nq Np Nb →L[ℝ] (Fin Nb → ℝ) :=
  LinearMap.toContinuousLinearMap
    { toFun := fun a => Aex *ᵥ a.2.1 + Aep *ᵥ a.2.2.1 - tail a.1
      map_add' := by
        intro a b
        have : (tail (a + b).1 : Fin Nb → ℝ) = tail a.1 + tail b.1 := rfl
        rw [this]
        simp only [Prod.snd_add, Prod.fst_add, mulVec_add]
        abel
      map_smul' := by
        intro t a
        have : (tail (t • a).1 : Fin Nb → ℝ) = t • tail a.1 := rfl
        rw [this]
        simp only [Prod.smul_snd, Prod.smul_fst, mulVec_smul, RingHom.id_apply, smul_sub, smul_add] }

open Classical in
/-- The equations of an equilibrium in which the unknowns that are not free stay as in `x0`. -/
noncomputable def equations (C : Task Nn Nq Np Nw Nb Nu) (free : Fin (Nn + Nq) → Prop) (x0 : Fin (Nn + Nq) → ℝ)
    (a : (Fin (Nw + Nb) → ℝ) × Unknowns Nn Nq Np Nb) : Unknowns Nn Nq Np Nb :=
  (fun j => if free j then (C.pb.g j).f (argumentsL Nn Nq Np Nw Nb a) - worthL C.Aex j a else a.2.1 j - x0 j,
    fun i => (C.pb.v i).f (argumentsL Nn Nq Np Nw Nb a), balanceL C.Aex C.Aep a)

open Classical in
/-- Their derivative. -/
noncomputable def equationsL (C : Task Nn Nq Np Nw Nb Nu) (free : Fin (Nn + Nq) → Prop) (v : Var Nn Np Nw → ℝ) :
    (Fin (Nw + Nb) → ℝ) × Unknowns Nn Nq Np Nb →L[ℝ] Unknowns Nn Nq Np Nb :=
  (ContinuousLinearMap.pi fun j => if free j then (fderiv ℝ (C.pb.g j).f v).comp (argumentsL Nn Nq Np Nw Nb) - worthL C.Aex j
      else (ContinuousLinearMap.proj j).comp ((ContinuousLinearMap.fst ℝ _ _).comp (ContinuousLinearMap.snd ℝ _ _))).prod
    ((ContinuousLinearMap.pi fun i => (fderiv ℝ (C.pb.v i).f v).comp (argumentsL Nn Nq Np Nw Nb)).prod (balanceL C.Aex C.Aep))

theorem strict {ι : Type} [Fintype ι] {f : (ι → ℝ) → ℝ} {v : ι → ℝ} (h : ContDiffAt ℝ 1 f v) : HasStrictFDerivAt f (fderiv ℝ f v) v :=
  h.hasStrictFDerivAt one_ne_zero

theorem equations_deriv (C : Task Nn Nq Np Nw Nb Nu) (free : Fin (Nn + Nq) → Prop) (x0 : Fin (Nn + Nq) → ℝ)
    (a : (Fin (Nw + Nb) → ℝ) × Unknowns Nn Nq Np Nb) (hs : Smooth C (argumentsL Nn Nq Np Nw Nb a)) :
    HasStrictFDerivAt (equations C free x0) (equationsL C free (argumentsL Nn Nq Np Nw Nb a)) a := by
  classical
  unfold equations equationsL
  refine HasStrictFDerivAt.prodMk ?_ (HasStrictFDerivAt.prodMk ?_ (balanceL C.Aex C.Aep).hasStrictFDerivAt)
  · rw [hasStrictFDerivAt_pi']
    intro j
    by_cases h : free j
    · simp only [if_pos h]
      have := ((strict (hs.1 j)).comp a (argumentsL Nn Nq Np Nw Nb).hasStrictFDerivAt).sub (worthL C.Aex j).hasStrictFDerivAt
      refine this.congr_fderiv ?_
      apply ContinuousLinearMap.ext
      intro z
      simp [h]
    · simp only [if_neg h]
      have := (((ContinuousLinearMap.proj j : (Fin (Nn + Nq) → ℝ) →L[ℝ] ℝ).comp ((ContinuousLinearMap.fst ℝ (Fin (Nn + Nq) → ℝ)
        ((Fin Np → ℝ) × (Fin Nb → ℝ))).comp (ContinuousLinearMap.snd ℝ (Fin (Nw + Nb) → ℝ) (Unknowns Nn Nq Np Nb)))).hasStrictFDerivAt (x := a)).sub_const (x0 j)
      refine this.congr_fderiv ?_
      apply ContinuousLinearMap.ext
      intro z
      simp [h]
  · rw [hasStrictFDerivAt_pi']
    intro i
    have := (strict (hs.2.1 i)).comp a (argumentsL Nn Nq Np Nw Nb).hasStrictFDerivAt
    exact this

/-- The matrices are the partial derivatives of functions at a point; nothing depends on the amounts of titrants. -/
structure Partials {m : Nat} (F : Fin m → EquilibriumDerivatives.Fun (Var Nn Np Nw)) (pt : Var Nn Np Nw → ℝ) (Fx : Matrix (Fin m) (Fin (Nn + Nq)) ℝ)
    (Fp : Matrix (Fin m) (Fin Np) ℝ) (Fw : Matrix (Fin m) (Fin Nw) ℝ) : Prop where
  n : ∀ i j, Partial (F i).f pt (Sum.inl j) (Fx i (Fin.castAdd Nq j))
  q : ∀ i j, Fx i (Fin.natAdd Nn j) = 0
  p : ∀ i j, Partial (F i).f pt (Sum.inr (Sum.inl j)) (Fp i j)
  w : ∀ i j, Partial (F i).f pt (Sum.inr (Sum.inr j)) (Fw i j)

theorem Partials.apply {m : Nat} {F : Fin m → EquilibriumDerivatives.Fun (Var Nn Np Nw)} {pt : Var Nn Np Nw → ℝ} {Fx : Matrix (Fin m) (Fin (Nn + Nq)) ℝ}
    {Fp : Matrix (Fin m) (Fin Np) ℝ} {Fw : Matrix (Fin m) (Fin Nw) ℝ} (h : Partials F pt Fx Fp Fw) (i : Fin m) (hf : ContDiffAt ℝ 1 (F i).f pt)
    (dx : Fin (Nn + Nq) → ℝ) (dp : Fin Np → ℝ) (dw : Fin Nw → ℝ) :
    fderiv ℝ (F i).f pt (arguments dx dp dw) = (Fx *ᵥ dx) i + (Fp *ᵥ dp) i + (Fw *ᵥ dw) i := by
  rw [fderiv_partials (F i).f _ pt (strict hf).hasFDerivAt (Sum.elim (fun j => Fx i (Fin.castAdd Nq j)) (Sum.elim (Fp i) (Fw i)))]
  · simp only [Fintype.sum_sum_type, Sum.elim_inl, Sum.elim_inr, arguments, mulVec, dotProduct, Fin.sum_univ_add, h.q, zero_mul, Finset.sum_const_zero, add_zero,
      head, add_assoc]
  · intro k
    rcases k with k | k | k
    · exact h.n i k
    · exact h.p i k
    · exact h.w i k

/-- Solutions of the linear equations are those for which the derivative of the equations vanishes. -/
theorem linear_iff (C : Task Nn Nq Np Nw Nb Nu) (free : Fin (Nn + Nq) → Prop) (pt : Var Nn Np Nw → ℝ) (hs : Smooth C pt)
    {fxx fxp fxw vx vp vw} (hg : Partials (Nq := Nq) C.pb.g pt fxx fxp fxw) (hv : Partials (Nq := Nq) C.pb.v pt vx vp vw)
    (c : Fin (Nw + Nb) → ℝ) (dx : Fin (Nn + Nq) → ℝ) (dp : Fin Np → ℝ) (dy : Fin Nb → ℝ) :
    equationsL C free pt (c, dx, dp, dy) = 0 ↔ Linear C.Aex C.Aep free fxx fxp vx vp (fxw *ᵥ head c) (vw *ᵥ head c) (tail c) dx dp dy := by
  classical
  have e1 : ∀ j, (equationsL C free pt (c, dx, dp, dy)).1 j = if free j then (fxx *ᵥ dx) j + (fxp *ᵥ dp) j + (fxw *ᵥ head c) j - ∑ i, dy i * C.Aex i j else dx j := by
    intro j
    by_cases h : free j
    · rw [if_pos h, ← hg.apply j (hs.1 j)]
      simp [equationsL, h]
      rfl
    · rw [if_neg h]
      simp [equationsL, h]
  have e2 : ∀ i, (equationsL C free pt (c, dx, dp, dy)).2.1 i = (vx *ᵥ dx) i + (vp *ᵥ dp) i + (vw *ᵥ head c) i := by
    intro i
    rw [← hv.apply i (hs.2.1 i)]
    rfl
  have e3 : (equationsL C free pt (c, dx, dp, dy)).2.2 = C.Aex *ᵥ dx + C.Aep *ᵥ dp - tail c := rfl
  constructor
  · intro h
    refine ⟨fun j hj => ?_, fun j hj => ?_, ?_, ?_⟩
    · have := e1 j
      rw [h, if_pos hj] at this
      have h0 : (0 : Unknowns Nn Nq Np Nb).1 j = 0 := rfl
      linarith
    · have := e1 j
      rw [h, if_neg hj] at this
      exact this.symm
    · funext i
      have := e2 i
      rw [h] at this
      exact this.symm
    · rw [h] at e3
      exact (sub_eq_zero.1 e3.symm)
  · intro h
    refine Prod.ext (funext fun j => ?_) (Prod.ext (funext fun i => ?_) ?_)
    · rw [e1]
      split_ifs with hj
      · rw [h.gradient j hj, sub_self]
        rfl
      · exact h.fixed j hj
    · rw [e2]
      exact congrFun h.constraints i
    · rw [e3, h.balances, sub_self]
      rfl

theorem invertible (C : Task Nn Nq Np Nw Nb Nu) (free : Fin (Nn + Nq) → Prop) (pt : Var Nn Np Nw → ℝ) (hs : Smooth C pt)
    {fxx fxp fxw vx vp vw} (hg : Partials (Nq := Nq) C.pb.g pt fxx fxp fxw) (hv : Partials (Nq := Nq) C.pb.v pt vx vp vw)
    (hr : Regular C.Aex C.Aep free fxx fxp vx vp) :
    (equationsL C free pt ∘L .inr ℝ (Fin (Nw + Nb) → ℝ) (Unknowns Nn Nq Np Nb)).IsInvertible := by
  have inj : Function.Injective ((equationsL C free pt ∘L .inr ℝ (Fin (Nw + Nb) → ℝ) (Unknowns Nn Nq Np Nb)) : Unknowns Nn Nq Np Nb →ₗ[ℝ] Unknowns Nn Nq Np Nb) := by
    rw [← LinearMap.ker_eq_bot, LinearMap.ker_eq_bot']
    rintro ⟨dx, dp, dy⟩ h
    have h0 : equationsL C free pt ((0 : Fin (Nw + Nb) → ℝ), dx, dp, dy) = 0 := h
    have := (linear_iff C free pt hs hg hv 0 dx dp dy).1 h0
    have z1 : (head (0 : Fin (Nw + Nb) → ℝ) : Fin Nw → ℝ) = 0 := rfl
    have z2 : (tail (0 : Fin (Nw + Nb) → ℝ) : Fin Nb → ℝ) = 0 := rfl
    rw [z1, z2, mulVec_zero, mulVec_zero] at this
    obtain ⟨h1, h2, h3⟩ := hr dx dp dy this
    rw [h1, h2, h3]
    rfl
  refine ⟨(LinearEquiv.ofInjectiveEndo _ inj).toContinuousLinearEquiv, ?_⟩
  apply ContinuousLinearMap.ext
  intro z
  rfl

/-- Near a decided equilibrium, equilibria are the solutions of the equations. -/
theorem equilibrium_iff (C : Task Nn Nq Np Nw Nb Nu) (c0 : Fin (Nw + Nb) → ℝ) (x0 : Fin (Nn + Nq) → ℝ) (p0 : Fin Np → ℝ) (y0 : Fin Nb → ℝ)
    (hs : Smooth C (arguments x0 p0 (head c0))) (he : EquilibriumAt C (head c0) (tail c0) x0 p0 y0) (hd : Decided C (head c0) x0 p0 y0) :
    ∀ᶠ a in 𝓝 ((c0, x0, p0, y0) : (Fin (Nw + Nb) → ℝ) × Unknowns Nn Nq Np Nb),
      EquilibriumAt C (head a.1) (tail a.1) a.2.1 a.2.2.1 a.2.2.2 ↔ equations C (fun j => rest C (head c0) x0 p0 y0 j = 0) x0 a = 0 := by
  classical
  have cont : ∀ j, ContinuousAt (fun a : (Fin (Nw + Nb) → ℝ) × Unknowns Nn Nq Np Nb => rest C (head a.1) a.2.1 a.2.2.1 a.2.2.2 j) (c0, x0, p0, y0) := by
    intro j
    have h1 : ContinuousAt (fun a : (Fin (Nw + Nb) → ℝ) × Unknowns Nn Nq Np Nb => (C.pb.g j).f (arguments a.2.1 a.2.2.1 (head a.1))) (c0, x0, p0, y0) :=
      ContinuousAt.comp (f := argumentsL Nn Nq Np Nw Nb) (g := (C.pb.g j).f) (x := (c0, x0, p0, y0)) (hs.1 j).continuousAt (argumentsL Nn Nq Np Nw Nb).continuous.continuousAt
    exact h1.sub (worthL C.Aex j).continuous.continuousAt
  have contx : ∀ j, ContinuousAt (fun a : (Fin (Nw + Nb) → ℝ) × Unknowns Nn Nq Np Nb => a.2.1 j) (c0, x0, p0, y0) := by
    intro j
    exact ((continuous_apply j).comp (continuous_fst.comp continuous_snd)).continuousAt
  have ev : ∀ j, ∀ᶠ a in 𝓝 ((c0, x0, p0, y0) : (Fin (Nw + Nb) → ℝ) × Unknowns Nn Nq Np Nb),
      (0 < rest C (head c0) x0 p0 y0 j → 0 < rest C (head a.1) a.2.1 a.2.2.1 a.2.2.2 j) ∧
      (rest C (head c0) x0 p0 y0 j < 0 → rest C (head a.1) a.2.1 a.2.2.1 a.2.2.2 j < 0) ∧
      (rest C (head c0) x0 p0 y0 j = 0 → (∀ l, C.lower j = some l → l < a.2.1 j) ∧ ∀ u, C.upper j = some u → a.2.1 j < u) := by
    intro j
    refine Filter.Eventually.and ?_ (Filter.Eventually.and ?_ ?_)
    · by_cases h : 0 < rest C (head c0) x0 p0 y0 j
      · filter_upwards [(cont j).eventually (lt_mem_nhds h)] with a ha using fun _ => ha
      · exact Eventually.of_forall fun a h' => absurd h' h
    · by_cases h : rest C (head c0) x0 p0 y0 j < 0
      · filter_upwards [(cont j).eventually (gt_mem_nhds h)] with a ha using fun _ => ha
      · exact Eventually.of_forall fun a h' => absurd h' h
    · by_cases h : rest C (head c0) x0 p0 y0 j = 0
      · have h2 := (hd j).resolve_left (not_not.2 h)
        have hl : ∀ᶠ a in 𝓝 ((c0, x0, p0, y0) : (Fin (Nw + Nb) → ℝ) × Unknowns Nn Nq Np Nb), ∀ l, C.lower j = some l → l < a.2.1 j := by
          cases hlo : C.lower j with
          | none => exact Eventually.of_forall fun a l h => by simp at h
          | some l =>
            filter_upwards [(contx j).eventually (lt_mem_nhds (h2.1 l hlo))] with a ha l' h'
            rwa [← Option.some.inj h']
        have hu : ∀ᶠ a in 𝓝 ((c0, x0, p0, y0) : (Fin (Nw + Nb) → ℝ) × Unknowns Nn Nq Np Nb), ∀ u, C.upper j = some u → a.2.1 j < u := by
          cases hlo : C.upper j with
          | none => exact Eventually.of_forall fun a l h => by simp at h
          | some l =>
            filter_upwards [(contx j).eventually (gt_mem_nhds (h2.2 l hlo))] with a ha l' h'
            rwa [← Option.some.inj h']
        filter_upwards [hl, hu] with a h1 h2 using fun _ => ⟨h1, h2⟩
      · exact Eventually.of_forall fun a h' => absurd h' h
  filter_upwards [eventually_all.2 ev] with a ha
  obtain ⟨c, x, p, y⟩ := a
  dsimp only at ha ⊢
  have e1 : ∀ j, (equations C (fun j => rest C (head c0) x0 p0 y0 j = 0) x0 (c, x, p, y)).1 j =
      if rest C (head c0) x0 p0 y0 j = 0 then rest C (head c) x p y j else x j - x0 j := by
    intro j
    by_cases h : rest C (head c0) x0 p0 y0 j = 0
    · simp only [equations, if_pos h]
      rfl
    · simp only [equations, if_neg h]
  constructor
  · intro h
    refine Prod.ext (funext fun j => ?_) (Prod.ext (funext fun i => h.constraints i) ?_)
    · rw [e1]
      rcases lt_trichotomy (rest C (head c0) x0 p0 y0 j) 0 with hj | hj | hj
      · rw [if_neg hj.ne]
        have h1 := h.atUpper j ((ha j).2.1 hj)
        have h2 := he.atUpper j hj
        rw [h1] at h2
        rw [Option.some.inj h2, sub_self]
        rfl
      · rw [if_pos hj]
        have h3 := (ha j).2.2 hj
        rcases lt_trichotomy (rest C (head c) x p y j) 0 with hk | hk | hk
        · exact absurd (h3.2 _ (h.atUpper j hk)) (lt_irrefl _)
        · exact hk
        · exact absurd (h3.1 _ (h.atLower j hk)) (lt_irrefl _)
      · rw [if_neg hj.ne']
        have h1 := h.atLower j ((ha j).1 hj)
        have h2 := he.atLower j hj
        rw [h1] at h2
        rw [Option.some.inj h2, sub_self]
        rfl
    · show C.Aex *ᵥ x + C.Aep *ᵥ p - tail c = 0
      rw [h.balances, sub_self]
  · intro h
    have k1 : ∀ j, (if rest C (head c0) x0 p0 y0 j = 0 then rest C (head c) x p y j else x j - x0 j) = 0 := by
      intro j
      rw [← e1, h]
      rfl
    have hx : ∀ j, rest C (head c0) x0 p0 y0 j ≠ 0 → x j = x0 j := by
      intro j hj
      have := k1 j
      rw [if_neg hj] at this
      linarith
    have hz : ∀ j, rest C (head c0) x0 p0 y0 j = 0 → rest C (head c) x p y j = 0 := by
      intro j hj
      have := k1 j
      rwa [if_pos hj] at this
    refine ⟨?_, fun i => congrFun (congrArg (fun z => z.2.1) h) i, ?_, ?_, ?_, ?_⟩
    · have : C.Aex *ᵥ x + C.Aep *ᵥ p - tail c = 0 := congrArg (fun z => z.2.2) h
      exact sub_eq_zero.1 this
    · intro j l hl
      by_cases hj : rest C (head c0) x0 p0 y0 j = 0
      · exact (((ha j).2.2 hj).1 l hl).le
      · rw [hx j hj]
        exact he.lower j l hl
    · intro j l hl
      by_cases hj : rest C (head c0) x0 p0 y0 j = 0
      · exact (((ha j).2.2 hj).2 l hl).le
      · rw [hx j hj]
        exact he.upper j l hl
    · intro j hj
      rcases lt_trichotomy (rest C (head c0) x0 p0 y0 j) 0 with h1 | h1 | h1
      · linarith [(ha j).2.1 h1]
      · rw [hz j h1] at hj
        exact absurd hj (lt_irrefl _)
      · rw [hx j h1.ne']
        exact he.atLower j h1
    · intro j hj
      rcases lt_trichotomy (rest C (head c0) x0 p0 y0 j) 0 with h1 | h1 | h1
      · rw [hx j h1.ne]
        exact he.atUpper j h1
      · rw [hz j h1] at hj
        exact absurd hj (lt_irrefl _)
      · linarith [(ha j).1 h1]

/-- The derivative of the solution of the equations. -/
theorem mulVec_single (k : Fin (Nw + Nb)) {m : Nat} (M : Matrix (Fin m) (Fin Nw) ℝ) : M *ᵥ head (Pi.single k 1 : Fin (Nw + Nb) → ℝ) = fun j => beside M 0 j k := by
  funext j
  refine Fin.addCases (fun l => ?_) (fun l => ?_) k
  · have : (head (Pi.single (Fin.castAdd Nb l) 1 : Fin (Nw + Nb) → ℝ) : Fin Nw → ℝ) = Pi.single l 1 := by
      funext i
      simp [head, Pi.single_apply]
    rw [this, mulVec_single_one]
    simp [beside, col]
  · have : (head (Pi.single (Fin.natAdd Nw l) 1 : Fin (Nw + Nb) → ℝ) : Fin Nw → ℝ) = 0 := by
      funext i
      have : Fin.castAdd Nb i ≠ Fin.natAdd Nw l := by
        intro h
        have := congrArg Fin.val h
        simp only [Fin.val_castAdd, Fin.val_natAdd] at this
        omega
      simp [head, this]
    rw [this, mulVec_zero]
    simp [beside]

theorem tail_single (k : Fin (Nw + Nb)) : (tail (Pi.single k 1 : Fin (Nw + Nb) → ℝ) : Fin Nb → ℝ) = fun i => EquilibriumSolver.bec i k := by
  funext i
  simp [tail, Pi.single_apply, EquilibriumSolver.bec, eq_comm]

theorem implicit (C : Task Nn Nq Np Nw Nb Nu) (c0 : Fin (Nw + Nb) → ℝ) (x0 : Fin (Nn + Nq) → ℝ) (p0 : Fin Np → ℝ) (y0 : Fin Nb → ℝ)
    (hs : Smooth C (arguments x0 p0 (head c0))) (he : EquilibriumAt C (head c0) (tail c0) x0 p0 y0) (hd : Decided C (head c0) x0 p0 y0)
    {fxx fxp fxw vx vp vw} (hg : Partials (Nq := Nq) C.pb.g (arguments x0 p0 (head c0)) fxx fxp fxw)
    (hv : Partials (Nq := Nq) C.pb.v (arguments x0 p0 (head c0)) vx vp vw)
    (hr : Regular C.Aex C.Aep (fun j => rest C (head c0) x0 p0 y0 j = 0) fxx fxp vx vp)
    (xc : Matrix (Fin (Nn + Nq)) (Fin (Nw + Nb)) ℝ) (pc : Matrix (Fin Np) (Fin (Nw + Nb)) ℝ) (yc : Matrix (Fin Nb) (Fin (Nw + Nb)) ℝ)
    (hl : ∀ k, Linear C.Aex C.Aep (fun j => rest C (head c0) x0 p0 y0 j = 0) fxx fxp vx vp (fun j => beside fxw 0 j k) (fun i => beside vw 0 i k)
      (fun i => EquilibriumSolver.bec i k) (fun j => xc j k) (fun i => pc i k) (fun i => yc i k)) :
    ∃ Z : (Fin (Nw + Nb) → ℝ) → Unknowns Nn Nq Np Nb, Z c0 = (x0, p0, y0) ∧
      (∀ᶠ c in 𝓝 c0, EquilibriumAt C (head c) (tail c) (Z c).1 (Z c).2.1 (Z c).2.2) ∧
      (∀ᶠ a in 𝓝 ((c0, x0, p0, y0) : (Fin (Nw + Nb) → ℝ) × Unknowns Nn Nq Np Nb), EquilibriumAt C (head a.1) (tail a.1) a.2.1 a.2.2.1 a.2.2.2 → a.2 = Z a.1) ∧
      HasJacobian (fun c => (Z c).1) xc c0 ∧ HasJacobian (fun c => (Z c).2.1) pc c0 := by
  have hinv := invertible (Nw := Nw) (Nb := Nb) C (fun j => rest C (head c0) x0 p0 y0 j = 0) _ hs hg hv hr
  have hst := equations_deriv C (fun j => rest C (head c0) x0 p0 y0 j = 0) x0 (c0, x0, p0, y0) hs
  have iff := equilibrium_iff C c0 x0 p0 y0 hs he hd
  have zero : equations C (fun j => rest C (head c0) x0 p0 y0 j = 0) x0 (c0, x0, p0, y0) = 0 := iff.self_of_nhds.1 he
  have hZ0 := (hst.eventually_apply_eq_iff_implicitFunctionOfProdDomain hinv).self_of_nhds.1 rfl
  have htend := hst.tendsto_implicitFunctionOfProdDomain hinv
  have hder := hst.hasStrictFDerivAt_implicitFunctionOfProdDomain hinv
  have huniq := hst.eventually_apply_eq_iff_implicitFunctionOfProdDomain hinv
  have hex := hst.eventually_apply_implicitFunctionOfProdDomain hinv
  obtain ⟨Z, hZ⟩ : ∃ Z, Z = hst.implicitFunctionOfProdDomain hinv := ⟨_, rfl⟩
  rw [← hZ] at hZ0 htend hder huniq hex
  rw [zero] at huniq hex
  have key : ∀ k : Fin (Nw + Nb), -(equationsL C (fun j => rest C (head c0) x0 p0 y0 j = 0) (argumentsL Nn Nq Np Nw Nb (c0, x0, p0, y0)) ∘L
      .inr ℝ (Fin (Nw + Nb) → ℝ) (Unknowns Nn Nq Np Nb)).inverse ((equationsL C (fun j => rest C (head c0) x0 p0 y0 j = 0)
      (argumentsL Nn Nq Np Nw Nb (c0, x0, p0, y0)) ∘L .inl ℝ (Fin (Nw + Nb) → ℝ) (Unknowns Nn Nq Np Nb)) (Pi.single k 1)) =
      (fun j => xc j k, fun i => pc i k, fun i => yc i k) := by
    intro k
    have h1 := (linear_iff C (fun j => rest C (head c0) x0 p0 y0 j = 0) _ hs hg hv (Pi.single k 1) (fun j => xc j k) (fun i => pc i k) (fun i => yc i k)).2 (by
      have := hl k
      rw [mulVec_single, mulVec_single, tail_single]
      exact this)
    have h2 : (equationsL C (fun j => rest C (head c0) x0 p0 y0 j = 0) (argumentsL Nn Nq Np Nw Nb (c0, x0, p0, y0)) ∘L .inl ℝ (Fin (Nw + Nb) → ℝ) (Unknowns Nn Nq Np Nb))
        (Pi.single k 1) = -((equationsL C (fun j => rest C (head c0) x0 p0 y0 j = 0) (argumentsL Nn Nq Np Nw Nb (c0, x0, p0, y0)) ∘L
          .inr ℝ (Fin (Nw + Nb) → ℝ) (Unknowns Nn Nq Np Nb)) (fun j => xc j k, fun i => pc i k, fun i => yc i k)) := by
      rw [eq_neg_iff_add_eq_zero]
      show equationsL C _ _ (Pi.single k 1, 0) + equationsL C _ _ (0, (fun j => xc j k, fun i => pc i k, fun i => yc i k)) = 0
      rw [← map_add]
      rw [Prod.mk_add_mk, add_zero, zero_add]
      exact h1
    rw [h2, map_neg, neg_neg]
    exact hinv.inverse_apply_self _
  have hx : HasJacobian (fun c => (Z c).1) xc c0 := by
    refine (hder.hasFDerivAt.fst).congr_fderiv ?_
    apply ContinuousLinearMap.coe_injective
    refine LinearMap.pi_ext' fun k => LinearMap.ext_ring ?_
    funext j
    have := congrFun (congrArg Prod.fst (key k)) j
    refine Eq.trans this ?_
    show _ = (xc *ᵥ Pi.single k 1) j
    rw [mulVec_single_one]
    rfl
  have hp : HasJacobian (fun c => (Z c).2.1) pc c0 := by
    refine (hder.hasFDerivAt.snd.fst).congr_fderiv ?_
    apply ContinuousLinearMap.coe_injective
    refine LinearMap.pi_ext' fun k => LinearMap.ext_ring ?_
    funext j
    have := congrFun (congrArg (fun z => z.2.1) (key k)) j
    refine Eq.trans this ?_
    show _ = (pc *ᵥ Pi.single k 1) j
    rw [mulVec_single_one]
    rfl
  refine ⟨Z, hZ0, ?_, ?_, hx, hp⟩
  · have htend' : Tendsto (fun c => (c, Z c)) (𝓝 c0) (𝓝 (c0, x0, p0, y0)) := tendsto_id.prodMk_nhds htend
    filter_upwards [htend'.eventually iff, hex] with c h1 h2
    exact h1.2 h2
  · filter_upwards [iff, huniq] with a h1 h2 h3
    exact (h2.1 (h1.1 h3)).symm

/-- The answers of the set-up to the optimiser are partial derivatives (C100). -/
theorem answers_partials (C : Task Nn Nq Np Nw Nb Nu) (x : Fin (Nn + Nq) → ℝ) (p : Fin Np → ℝ) (w : Fin Nw → ℝ)
    (hd : EquilibriumDerivatives.Differentiated C.pb (arguments x p w)) (s s' : EquilibriumDerivatives.Setup Nn Np Nw Nu) {f fx fxx fxp fxw v vx vp vw}
    (hf : (EquilibriumDerivatives.answer C.pb (fun k => EquilibriumDerivatives.plain (w k)) s ⟨true, x, p, true, true, true⟩).2 =
      .objective f fx (some fxx) (some fxp) (some fxw))
    (hv : (EquilibriumDerivatives.answer C.pb (fun k => EquilibriumDerivatives.plain (w k)) s' ⟨false, x, p, true, true, true⟩).2 =
      .constraints v (some vx) (some vp) (some vw)) :
    Partials C.pb.g (arguments x p w) fxx fxp fxw ∧ Partials C.pb.v (arguments x p w) vx vp vw := by
  have h1 := EquilibriumDerivatives.answer_right C.pb (w := fun k => EquilibriumDerivatives.plain (w k)) (fun _ => rfl) s ⟨true, x, p, true, true, true⟩ hd
  have h2 := EquilibriumDerivatives.answer_right C.pb (w := fun k => EquilibriumDerivatives.plain (w k)) (fun _ => rfl) s' ⟨false, x, p, true, true, true⟩ hd
  rw [hf] at h1
  rw [hv] at h2
  obtain ⟨-, -, -, hX, hP, hW⟩ := h1
  obtain ⟨-, -, kX, kP, kW⟩ := h2
  simp only [EquilibriumDerivatives.RightX, EquilibriumDerivatives.RightP, EquilibriumDerivatives.RightW, if_true, Option.some.injEq] at hX hP hW kX kP kW
  obtain ⟨_, rfl, hX⟩ := hX
  obtain ⟨_, rfl, hP⟩ := hP
  obtain ⟨_, rfl, hW⟩ := hW
  obtain ⟨_, rfl, kX⟩ := kX
  obtain ⟨_, rfl, kP⟩ := kP
  obtain ⟨_, rfl, kW⟩ := kW
  exact ⟨⟨fun i => (hX i).1, fun i => (hX i).2, hP, hW⟩, ⟨fun i => (kX i).1, fun i => (kX i).2, kP, kW⟩⟩

/-- **C117.** Let the calculation with inputs and amounts of components `c = (w, b)` end in an equilibrium `(x, p)` in which every unknown
is free or kept at a bound. Let the optimiser, with the derivatives that it gets from the program at this point (after any history, in
`s` and `s'`), return derivatives `xc` and `pc` that satisfy the linear equations, and let these equations have one solution. Then near `c`
there is one equilibrium close to `(x, p)` for all inputs and amounts, and the reported sensitivities are the derivatives of its amounts of
species, titrants, control variables and properties. -/
theorem C117_sensitivities (C : Task Nn Nq Np Nw Nb Nu) (c : Fin (Nw + Nb) → ℝ) (x : Fin (Nn + Nq) → ℝ) (p : Fin Np → ℝ) (y : Fin Nb → ℝ)
    (hsmooth : Smooth C (arguments x p (head c))) (hdiff : EquilibriumDerivatives.Differentiated C.pb (arguments x p (head c)))
    (heq : EquilibriumAt C (head c) (tail c) x p y) (hdec : Decided C (head c) x p y)
    (s s' : EquilibriumDerivatives.Setup Nn Np Nw Nu) {f fx fxx fxp fxw v vx vp vw}
    (hf : (EquilibriumDerivatives.answer C.pb (fun k => EquilibriumDerivatives.plain (head c k)) s ⟨true, x, p, true, true, true⟩).2 =
      .objective f fx (some fxx) (some fxp) (some fxw))
    (hv : (EquilibriumDerivatives.answer C.pb (fun k => EquilibriumDerivatives.plain (head c k)) s' ⟨false, x, p, true, true, true⟩).2 =
      .constraints v (some vx) (some vp) (some vw))
    {dudn : Matrix (Fin Nu) (Fin Nn) ℝ} {dudp : Matrix (Fin Nu) (Fin Np) ℝ} {dudw : Matrix (Fin Nu) (Fin Nw) ℝ}
    (hu : ∀ k, (EquilibriumDerivatives.answer C.pb (fun k => EquilibriumDerivatives.plain (head c k)) s ⟨true, x, p, true, true, true⟩).1.columns k =
      some fun i => Sum.elim (dudn i) (Sum.elim (dudp i) (dudw i)) k)
    (hreg : Regular C.Aex C.Aep (fun j => rest C (head c) x p y j = 0) fxx fxp vx vp)
    (xc : Matrix (Fin (Nn + Nq)) (Fin (Nw + Nb)) ℝ) (pc : Matrix (Fin Np) (Fin (Nw + Nb)) ℝ) (yc : Matrix (Fin Nb) (Fin (Nw + Nb)) ℝ)
    (hlin : ∀ k, Linear C.Aex C.Aep (fun j => rest C (head c) x p y j = 0) fxx fxp vx vp (fun j => beside fxw 0 j k) (fun i => beside vw 0 i k)
      (fun i => EquilibriumSolver.bec i k) (fun j => xc j k) (fun i => pc i k) (fun i => yc i k)) :
    ∃ (X : (Fin (Nw + Nb) → ℝ) → Fin (Nn + Nq) → ℝ) (P : (Fin (Nw + Nb) → ℝ) → Fin Np → ℝ) (Y : (Fin (Nw + Nb) → ℝ) → Fin Nb → ℝ),
      X c = x ∧ P c = p ∧ Y c = y ∧ (∀ᶠ c' in 𝓝 c, EquilibriumAt C (head c') (tail c') (X c') (P c') (Y c')) ∧
      (∀ᶠ a in 𝓝 ((c, x, p, y) : (Fin (Nw + Nb) → ℝ) × (Fin (Nn + Nq) → ℝ) × (Fin Np → ℝ) × (Fin Nb → ℝ)),
        EquilibriumAt C (head a.1) (tail a.1) a.2.1 a.2.2.1 a.2.2.2 → a.2.1 = X a.1 ∧ a.2.2.1 = P a.1 ∧ a.2.2.2 = Y a.1) ∧
      let S : EquilibriumSolver.Sens Nn Nq Np Nw Nb Nu ℝ := EquilibriumSolver.sensitivity xc pc dudn dudp dudw
      HasJacobian (fun c' => head (X c')) (beside S.dndw S.dndb) c ∧ HasJacobian (fun c' => tail (X c')) (beside S.dqdw S.dqdb) c ∧
      HasJacobian P (beside S.dpdw S.dpdb) c ∧
      HasJacobian (fun c' i => (C.pb.u i).f (arguments (X c') (P c') (head c'))) (beside S.dudw S.dudb) c := by
  obtain ⟨hg, hvv⟩ := answers_partials C x p (head c) hdiff s s' hf hv
  obtain ⟨Z, hZ, h1, h2, h3, h4⟩ := implicit C c x p y hsmooth heq hdec hg hvv hreg xc pc yc hlin
  have hU : EquilibriumSolver.HasJacobian3 (fun z : (Fin Nn → ℝ) × (Fin Np → ℝ) × (Fin Nw → ℝ) => fun i => (C.pb.u i).f (Sum.elim z.1 (Sum.elim z.2.1 z.2.2)))
      dudn dudp dudw (head (Z c).1, (Z c).2.1, head c) := by
    rw [hZ]
    unfold EquilibriumSolver.HasJacobian3
    rw [hasFDerivAt_pi']
    intro i
    have recorded : ∀ k, Partial (C.pb.u i).f (arguments x p (head c)) k (Sum.elim (dudn i) (Sum.elim (dudp i) (dudw i)) k) := by
      intro k
      obtain ⟨col, e1, e2⟩ := EquilibriumDerivatives.C100_recorded C.pb (fun k => EquilibriumDerivatives.plain (head c k)) (fun _ => rfl) s
        ⟨true, x, p, true, true, true⟩ hdiff rfl rfl rfl rfl k
      rw [hu k] at e1
      have h1 := congrFun (Option.some.inj e1) i
      have h2 := e2 i
      rw [← h1] at h2
      exact h2
    have hf' := (strict (hsmooth.2.2 i)).hasFDerivAt
    let L : (Fin Nn → ℝ) × (Fin Np → ℝ) × (Fin Nw → ℝ) →L[ℝ] (Var Nn Np Nw → ℝ) := LinearMap.toContinuousLinearMap
      { toFun := fun z => Sum.elim z.1 (Sum.elim z.2.1 z.2.2)
        map_add' := by intro a b; funext k; rcases k with k | k | k <;> rfl
        map_smul' := by intro t a; funext k; rcases k with k | k | k <;> rfl }
    have hcomp : HasFDerivAt (fun z : (Fin Nn → ℝ) × (Fin Np → ℝ) × (Fin Nw → ℝ) => (C.pb.u i).f (L z)) _ (head x, p, head c) :=
      HasFDerivAt.comp (head x, p, head c) (f := L) hf' L.hasFDerivAt
    refine hcomp.congr_fderiv ?_
    apply ContinuousLinearMap.ext
    intro z
    show fderiv ℝ (C.pb.u i).f (arguments x p (head c)) (L z) = (dudn *ᵥ z.1 + dudp *ᵥ z.2.1 + dudw *ᵥ z.2.2) i
    rw [fderiv_partials _ _ _ hf' _ recorded]
    simp only [Fintype.sum_sum_type, Sum.elim_inl, Sum.elim_inr, Pi.add_apply, mulVec, dotProduct, add_assoc]
    rfl
  obtain ⟨k1, k2, k3, k4⟩ := EquilibriumSolver.C45_chain_rule (fun c => (Z c).1) (fun c => (Z c).2.1) c _ xc pc dudn dudp dudw h3 h4 hU
  refine ⟨fun c => (Z c).1, fun c => (Z c).2.1, fun c => (Z c).2.2, congrArg Prod.fst hZ, congrArg (fun z => z.2.1) hZ, congrArg (fun z => z.2.2) hZ, h1, ?_, k2, k3, k4, k1⟩
  filter_upwards [h2] with a ha hE
  have := ha hE
  exact ⟨congrArg Prod.fst this, congrArg (fun z => z.2.1) this, congrArg (fun z => z.2.2) this⟩

/-- **C117 (one solution).** Without control variables, the linear equations have one solution if the energy has a minimum in the strict
sense among the changes that keep the balances, and no balance follows from the others for the unknowns that are free. -/
theorem C117_regular (Aex : Matrix (Fin Nb) (Fin (Nn + Nq)) ℝ) (Aep : Matrix (Fin Nb) (Fin 0) ℝ) (free : Fin (Nn + Nq) → Prop)
    (fxx : Matrix (Fin (Nn + Nq)) (Fin (Nn + Nq)) ℝ) (fxp : Matrix (Fin (Nn + Nq)) (Fin 0) ℝ) (vx : Matrix (Fin 0) (Fin (Nn + Nq)) ℝ) (vp : Matrix (Fin 0) (Fin 0) ℝ)
    (hpos : ∀ d : Fin (Nn + Nq) → ℝ, Aex *ᵥ d = 0 → (∀ j, ¬ free j → d j = 0) → d ≠ 0 → 0 < d ⬝ᵥ (fxx *ᵥ d))
    (hrows : ∀ y : Fin Nb → ℝ, (∀ j, free j → ∑ i, y i * Aex i j = 0) → y = 0) :
    Regular Aex Aep free fxx fxp vx vp := by
  intro dx dp dy h
  have hb : Aex *ᵥ dx = 0 := by
    have := h.balances
    rwa [Subsingleton.elim dp 0, mulVec_zero, add_zero] at this
  have hx : dx = 0 := by
    by_contra hne
    have := hpos dx hb h.fixed hne
    have e : dx ⬝ᵥ (fxx *ᵥ dx) = ∑ i, dy i * (Aex *ᵥ dx) i := by
      have h1 : ∀ j, dx j * (fxx *ᵥ dx) j = ∑ i, dy i * (Aex i j * dx j) := by
        intro j
        by_cases hj : free j
        · have := h.gradient j hj
          have h0 : (fxp *ᵥ dp) j = 0 := by simp [Subsingleton.elim dp 0]
          have h1 : (0 : Fin (Nn + Nq) → ℝ) j = 0 := rfl
          rw [h0, h1, add_zero, add_zero] at this
          rw [this, Finset.mul_sum]
          exact Finset.sum_congr rfl fun i _ => by ring
        · rw [h.fixed j hj]
          simp
      unfold dotProduct
      rw [Finset.sum_congr rfl fun j _ => h1 j, Finset.sum_comm]
      refine Finset.sum_congr rfl fun i _ => ?_
      rw [← Finset.mul_sum]
      rfl
    rw [e, hb] at this
    simp at this
  refine ⟨hx, Subsingleton.elim _ _, hrows dy fun j hj => ?_⟩
  have := h.gradient j hj
  rw [hx, Subsingleton.elim dp 0, mulVec_zero, mulVec_zero] at this
  simpa using this.symm

/-- **C117 (the optimiser can return derivatives).** If the linear equations have at most one solution, they have one. -/
theorem C117_solvable (C : Task Nn Nq Np Nw Nb Nu) (c : Fin (Nw + Nb) → ℝ) (x : Fin (Nn + Nq) → ℝ) (p : Fin Np → ℝ) (y : Fin Nb → ℝ)
    (hsmooth : Smooth C (arguments x p (head c))) (hdiff : EquilibriumDerivatives.Differentiated C.pb (arguments x p (head c)))
    (s s' : EquilibriumDerivatives.Setup Nn Np Nw Nu) {f fx fxx fxp fxw v vx vp vw}
    (hf : (EquilibriumDerivatives.answer C.pb (fun k => EquilibriumDerivatives.plain (head c k)) s ⟨true, x, p, true, true, true⟩).2 =
      .objective f fx (some fxx) (some fxp) (some fxw))
    (hv : (EquilibriumDerivatives.answer C.pb (fun k => EquilibriumDerivatives.plain (head c k)) s' ⟨false, x, p, true, true, true⟩).2 =
      .constraints v (some vx) (some vp) (some vw))
    (hreg : Regular C.Aex C.Aep (fun j => rest C (head c) x p y j = 0) fxx fxp vx vp) :
    ∃ (xc : Matrix (Fin (Nn + Nq)) (Fin (Nw + Nb)) ℝ) (pc : Matrix (Fin Np) (Fin (Nw + Nb)) ℝ) (yc : Matrix (Fin Nb) (Fin (Nw + Nb)) ℝ),
      ∀ k, Linear C.Aex C.Aep (fun j => rest C (head c) x p y j = 0) fxx fxp vx vp (fun j => beside fxw 0 j k) (fun i => beside vw 0 i k)
        (fun i => EquilibriumSolver.bec i k) (fun j => xc j k) (fun i => pc i k) (fun i => yc i k) := by
  obtain ⟨hg, hvv⟩ := answers_partials C x p (head c) hdiff s s' hf hv
  obtain ⟨e, he⟩ := invertible C _ _ hsmooth hg hvv hreg
  have ex : ∀ k : Fin (Nw + Nb), ∃ z : Unknowns Nn Nq Np Nb, Linear C.Aex C.Aep (fun j => rest C (head c) x p y j = 0) fxx fxp vx vp (fun j => beside fxw 0 j k)
      (fun i => beside vw 0 i k) (fun i => EquilibriumSolver.bec i k) z.1 z.2.1 z.2.2 := by
    intro k
    obtain ⟨L, hL⟩ : ∃ L, L = equationsL C (fun j => rest C (head c) x p y j = 0) (arguments x p (head c)) := ⟨_, rfl⟩
    obtain ⟨z, hz⟩ : ∃ z, z = e.symm (-L (Pi.single k 1, 0)) := ⟨_, rfl⟩
    refine ⟨z, ?_⟩
    have h0 : L (Pi.single k 1, z) = 0 := by
      have h1 : e z = -L (Pi.single k 1, 0) := by rw [hz, ContinuousLinearEquiv.apply_symm_apply]
      have h2 : e z = L (0, z) := by
        have := congrArg (fun M => M z) he
        rw [hL]
        exact this
      have h3 : ((Pi.single k 1, z) : (Fin (Nw + Nb) → ℝ) × Unknowns Nn Nq Np Nb) = (Pi.single k 1, 0) + (0, z) := by simp
      rw [h3, map_add, ← h2, h1, add_neg_cancel]
    rw [hL] at h0
    have := (linear_iff C _ _ hsmooth hg hvv (Pi.single k 1) z.1 z.2.1 z.2.2).1 h0
    exact (mulVec_single k fxw) ▸ (mulVec_single k vw) ▸ (tail_single k) ▸ this
  choose z hz using ex
  exact ⟨fun j k => (z k).1 j, fun i k => (z k).2.1 i, fun i k => (z k).2.2 i, hz⟩

/-! ### Ideal phases -/

theorem withDerivatives_partial {ι : Type} [Fintype ι] [DecidableEq ι] (f : (ι → ℝ) → ℝ) (v : ι → ℝ) (h : ContDiffAt ℝ 1 f v) (k : ι) :
    Partial (withDerivatives f).f v k ((withDerivatives f).d v k) := by
  have h1 : HasDerivAt (fun t => Function.update v k t) (Pi.single k 1) (v k) := hasDerivAt_update v k (v k)
  have h2 : HasFDerivAt f (fderiv ℝ f v) (Function.update v k (v k)) := by rw [Function.update_eq_self]; exact (strict h).hasFDerivAt
  have h3 := h2.comp_hasDerivAt (v k) h1
  exact h3.differentiableAt.hasDerivAt

section ideal

variable {π : Nat} (phaseOf : Fin Nn → Fin π) (gas : Fin π → Bool) (G0 : Fin Nn → ℝ × ℝ → ℝ) (R tau : ℝ)

theorem total_pos (n : Fin Nn → ℝ) (hn : ∀ l, 0 < n l) (j : Fin Nn) : 0 < ∑ l with phaseOf l = phaseOf j, n l :=
  Finset.sum_pos (fun l _ => hn l) ⟨j, by simp⟩

theorem ideal_smooth (v : Var Nn 0 2 → ℝ) (hR : 0 < R) (hT : 0 < v (Sum.inr (Sum.inr 0))) (hP : 0 < v (Sum.inr (Sum.inr 1))) (hn : ∀ l, 0 < v (Sum.inl l))
    (hG : ∀ j, ContDiffAt ℝ 1 (G0 j) (v (Sum.inr (Sum.inr 0)), v (Sum.inr (Sum.inr 1)))) (j : Fin Nn) :
    ContDiffAt ℝ 1 (idealGradient phaseOf gas G0 R tau j) v := by
  have coord : ∀ k : Var Nn 0 2, ContDiffAt ℝ 1 (fun v : Var Nn 0 2 → ℝ => v k) v := fun k => (contDiff_apply ℝ ℝ k).contDiffAt
  have hs := total_pos phaseOf (fun l => v (Sum.inl l)) hn j
  have hsum : ContDiffAt ℝ 1 (fun v : Var Nn 0 2 → ℝ => ∑ l with phaseOf l = phaseOf j, v (Sum.inl l)) v := ContDiffAt.sum fun l _ => coord (Sum.inl l)
  have hG' : ContDiffAt ℝ 1 (fun v : Var Nn 0 2 → ℝ => G0 j (v (Sum.inr (Sum.inr 0)), v (Sum.inr (Sum.inr 1)))) v :=
    ContDiffAt.comp v (g := G0 j) (f := fun v : Var Nn 0 2 → ℝ => (v (Sum.inr (Sum.inr 0)), v (Sum.inr (Sum.inr 1)))) (hG j)
      ((coord (Sum.inr (Sum.inr 0))).prodMk (coord (Sum.inr (Sum.inr 1))))
  unfold idealGradient
  refine (((hG'.div (contDiffAt_const.mul (coord _)) (mul_pos hR hT).ne').add (((coord _).div hsum hs.ne').log (div_pos (hn j) hs).ne')).add ?_).sub
    (contDiffAt_const.div (coord _) (hn j).ne')
  cases gas (phaseOf j)
  · simpa using contDiffAt_const
  · simpa using ((coord (Sum.inr (Sum.inr 1))).div_const 100000).log (div_pos hP (by norm_num)).ne'

/-- The derivatives with respect to amounts. -/
theorem ideal_partial (v : Var Nn 0 2 → ℝ) (hn : ∀ l, 0 < v (Sum.inl l)) (j l : Fin Nn) :
    Partial (idealGradient phaseOf gas G0 R tau j) v (Sum.inl l)
      ((if l = j then 1 / v (Sum.inl j) + tau / v (Sum.inl j) ^ 2 else 0) - if phaseOf l = phaseOf j then 1 / ∑ i with phaseOf i = phaseOf j, v (Sum.inl i) else 0) := by
  have hs := total_pos phaseOf (fun l => v (Sum.inl l)) hn j
  have coord : ∀ i : Fin Nn, HasDerivAt (fun t => Function.update v (Sum.inl l) t (Sum.inl i)) (if i = l then 1 else 0) (v (Sum.inl l)) := by
    intro i
    by_cases h : i = l
    · subst h
      simpa using hasDerivAt_id' (v (Sum.inl i))
    · simpa [h] using hasDerivAt_const (v (Sum.inl l)) (v (Sum.inl i))
  have hsum : HasDerivAt (fun t => ∑ i with phaseOf i = phaseOf j, Function.update v (Sum.inl l) t (Sum.inl i)) (if phaseOf l = phaseOf j then 1 else 0) (v (Sum.inl l)) := by
    refine (HasDerivAt.fun_sum fun i _ => coord i).congr_deriv ?_
    simp [Finset.sum_ite_eq']
  have self : ∀ i : Fin Nn, Function.update v (Sum.inl l) (v (Sum.inl l)) (Sum.inl i) = v (Sum.inl i) := by intro i; rw [Function.update_eq_self]
  have hquot := (coord j).div hsum (by simp only [self]; exact hs.ne')
  have hlog := hquot.log (by simp only [Pi.div_apply, self]; exact (div_pos (hn j) hs).ne')
  have hbar := (hasDerivAt_const (v (Sum.inl l)) tau).div (coord j) (by rw [self]; exact (hn j).ne')
  have := (hlog.const_add (G0 j (v (Sum.inr (Sum.inr 0)), v (Sum.inr (Sum.inr 1))) / (R * v (Sum.inr (Sum.inr 0))))).add_const
    (if gas (phaseOf j) then Real.log (v (Sum.inr (Sum.inr 1)) / 100000) else 0)
  have := this.sub hbar
  unfold Partial
  refine HasDerivAt.congr_deriv (this.congr_of_eventuallyEq (Eventually.of_forall fun t => ?_)) ?_
  · simp [idealGradient, Function.update]
  · simp only [Pi.div_apply, self]
    have hj := hn j
    by_cases h1 : l = j
    · subst h1
      simp
      field_simp
      ring
    · have h2 : ¬ j = l := fun h => h1 h.symm
      by_cases h3 : phaseOf l = phaseOf j
      · simp [h1, h2, h3]
        field_simp
      · simp [h1, h2, h3]

theorem ideal_positive (n d : Fin Nn → ℝ) (hn : ∀ l, 0 < n l) (ht : 0 < tau) (hd : d ≠ 0) :
    0 < ∑ j, d j * ∑ l, ((if l = j then 1 / n j + tau / n j ^ 2 else 0) - if phaseOf l = phaseOf j then 1 / ∑ i with phaseOf i = phaseOf j, n i else 0) * d l := by
  have e : ∀ j, d j * ∑ l, ((if l = j then 1 / n j + tau / n j ^ 2 else 0) - if phaseOf l = phaseOf j then 1 / ∑ i with phaseOf i = phaseOf j, n i else 0) * d l =
      d j ^ 2 / n j + tau * (d j / n j) ^ 2 - d j * ((∑ l with phaseOf l = phaseOf j, d l) / ∑ i with phaseOf i = phaseOf j, n i) := by
    intro j
    have hj := (hn j).ne'
    have h1 : ∑ l, (if l = j then 1 / n j + tau / n j ^ 2 else 0) * d l = (1 / n j + tau / n j ^ 2) * d j := by simp
    have h2 : ∑ l, (if phaseOf l = phaseOf j then 1 / ∑ i with phaseOf i = phaseOf j, n i else 0) * d l =
        (∑ l with phaseOf l = phaseOf j, d l) / ∑ i with phaseOf i = phaseOf j, n i := by
      rw [Finset.sum_filter (fun l => phaseOf l = phaseOf j) d, Finset.sum_div]
      refine Finset.sum_congr rfl fun l _ => ?_
      by_cases h : phaseOf l = phaseOf j
      · simp only [if_pos h]
        ring
      · simp [h]
    simp only [sub_mul]
    rw [Finset.sum_sub_distrib, h1, h2]
    field_simp
  rw [Finset.sum_congr rfl fun j _ => e j, Finset.sum_sub_distrib, Finset.sum_add_distrib]
  have cs : ∑ j, d j * ((∑ l with phaseOf l = phaseOf j, d l) / ∑ i with phaseOf i = phaseOf j, n i) ≤ ∑ j, d j ^ 2 / n j := by
    rw [← Finset.sum_fiberwise Finset.univ phaseOf, ← Finset.sum_fiberwise Finset.univ phaseOf (fun j => d j ^ 2 / n j)]
    refine Finset.sum_le_sum fun a _ => ?_
    have h1 : ∑ j with phaseOf j = a, d j * ((∑ l with phaseOf l = phaseOf j, d l) / ∑ i with phaseOf i = phaseOf j, n i) =
        (∑ l with phaseOf l = a, d l) ^ 2 / ∑ i with phaseOf i = a, n i := by
      rw [sq, mul_div_assoc, Finset.sum_mul]
      refine Finset.sum_congr rfl fun j hj => ?_
      rw [(Finset.mem_filter.1 hj).2]
    rw [h1]
    exact Finset.sq_sum_div_le_sum_sq_div _ _ fun i _ => hn i
  have hb : 0 < ∑ j, tau * (d j / n j) ^ 2 := by
    obtain ⟨j, hj⟩ := Function.ne_iff.1 hd
    refine Finset.sum_pos' (fun i _ => by positivity) ⟨j, Finset.mem_univ _, ?_⟩
    have : d j / n j ≠ 0 := div_ne_zero hj (hn j).ne'
    positivity
  linarith

/-- **C117 (ideal phases).** For systems of ideal phases of any number of species, at given temperature and pressure, the derivatives that the program
computes have what C117 asks of them: if all amounts are positive, the standard Gibbs energies have continuous derivatives, and no balance follows from the
others for the species that are free, the linear equations have one solution; it is given by the derivatives of the equilibrium, which exists near the given
one and is the only one there. -/
theorem C117_ideal (A : Matrix (Fin Nb) (Fin Nn) ℝ) (lower upper : Fin Nn → Option ℝ) (c : Fin (2 + Nb) → ℝ) (n : Fin Nn → ℝ) (y : Fin Nb → ℝ)
    (hR : 0 < R) (ht : 0 < tau) (hT : 0 < c (Fin.castAdd Nb 0)) (hP : 0 < c (Fin.castAdd Nb 1)) (hn : ∀ l, 0 < n l)
    (hG : ∀ j, ContDiffAt ℝ 1 (G0 j) (c (Fin.castAdd Nb 0), c (Fin.castAdd Nb 1)))
    (heq : EquilibriumAt (idealTask phaseOf gas G0 R tau A lower upper) (head c) (tail c) n Fin.elim0 y)
    (hdec : Decided (idealTask phaseOf gas G0 R tau A lower upper) (head c) n Fin.elim0 y)
    (hrows : ∀ z : Fin Nb → ℝ, (∀ j, rest (idealTask phaseOf gas G0 R tau A lower upper) (head c) n Fin.elim0 y j = 0 → ∑ i, z i * A i j = 0) → z = 0)
    (s s' : EquilibriumDerivatives.Setup Nn 0 2 0) {f fx fxx fxp fxw v vx vp vw}
    (hf : (EquilibriumDerivatives.answer (idealTask phaseOf gas G0 R tau A lower upper).pb (fun k => EquilibriumDerivatives.plain (head c k)) s
      ⟨true, n, Fin.elim0, true, true, true⟩).2 = .objective f fx (some fxx) (some fxp) (some fxw))
    (hv : (EquilibriumDerivatives.answer (idealTask phaseOf gas G0 R tau A lower upper).pb (fun k => EquilibriumDerivatives.plain (head c k)) s'
      ⟨false, n, Fin.elim0, true, true, true⟩).2 = .constraints v (some vx) (some vp) (some vw)) :
    (∃ (xc : Matrix (Fin (Nn + 0)) (Fin (2 + Nb)) ℝ) (pc : Matrix (Fin 0) (Fin (2 + Nb)) ℝ) (yc : Matrix (Fin Nb) (Fin (2 + Nb)) ℝ),
      ∀ k, Linear (Nq := 0) A (fun _ i => i.elim0) (fun j => rest (idealTask phaseOf gas G0 R tau A lower upper) (head c) n Fin.elim0 y j = 0) fxx fxp vx vp
        (fun j => beside fxw 0 j k) (fun i => beside vw 0 i k) (fun i => EquilibriumSolver.bec i k) (fun j => xc j k) (fun i => pc i k) (fun i => yc i k)) ∧
    ∀ (xc : Matrix (Fin (Nn + 0)) (Fin (2 + Nb)) ℝ) (pc : Matrix (Fin 0) (Fin (2 + Nb)) ℝ) (yc : Matrix (Fin Nb) (Fin (2 + Nb)) ℝ),
      (∀ k, Linear (Nq := 0) A (fun _ i => i.elim0) (fun j => rest (idealTask phaseOf gas G0 R tau A lower upper) (head c) n Fin.elim0 y j = 0) fxx fxp vx vp
        (fun j => beside fxw 0 j k) (fun i => beside vw 0 i k) (fun i => EquilibriumSolver.bec i k) (fun j => xc j k) (fun i => pc i k) (fun i => yc i k)) →
      ∃ (X : (Fin (2 + Nb) → ℝ) → Fin Nn → ℝ) (Y : (Fin (2 + Nb) → ℝ) → Fin Nb → ℝ), X c = n ∧ Y c = y ∧
        (∀ᶠ c' in 𝓝 c, EquilibriumAt (idealTask phaseOf gas G0 R tau A lower upper) (head c') (tail c') (X c') Fin.elim0 (Y c')) ∧
        (∀ᶠ a in 𝓝 ((c, n, y) : (Fin (2 + Nb) → ℝ) × (Fin Nn → ℝ) × (Fin Nb → ℝ)),
          EquilibriumAt (idealTask phaseOf gas G0 R tau A lower upper) (head a.1) (tail a.1) a.2.1 Fin.elim0 a.2.2 → a.2.1 = X a.1 ∧ a.2.2 = Y a.1) ∧
        let S : EquilibriumSolver.Sens Nn 0 0 2 Nb 0 ℝ := EquilibriumSolver.sensitivity xc pc (fun i => i.elim0) (fun i => i.elim0) (fun i => i.elim0)
        HasJacobian X (beside S.dndw S.dndb) c := by
  have hsm := ideal_smooth phaseOf gas G0 R tau (arguments (Nq := 0) n Fin.elim0 (head c)) hR hT hP hn hG
  have hsmooth : Smooth (idealTask phaseOf gas G0 R tau A lower upper) (arguments (Nq := 0) n Fin.elim0 (head c)) := ⟨hsm, fun i => i.elim0, fun i => i.elim0⟩
  have hdiff : EquilibriumDerivatives.Differentiated (idealTask phaseOf gas G0 R tau A lower upper).pb (arguments (Nq := 0) n Fin.elim0 (head c)) :=
    ⟨fun j k => withDerivatives_partial _ _ (hsm j) k, fun i => i.elim0, fun i => i.elim0⟩
  obtain ⟨hg, -⟩ := answers_partials (idealTask phaseOf gas G0 R tau A lower upper) n Fin.elim0 (head c) hdiff s s' hf hv
  have hfxx : ∀ j l, fxx j l = (if l = j then 1 / n j + tau / n j ^ 2 else 0) - if phaseOf l = phaseOf j then 1 / ∑ i with phaseOf i = phaseOf j, n i else 0 :=
    fun j l => HasDerivAt.unique (hg.n j l) (ideal_partial phaseOf gas G0 R tau (arguments (Nq := 0) n Fin.elim0 (head c)) hn j l)
  have hreg : Regular (Nq := 0) A (fun _ i => i.elim0) (fun j => rest (idealTask phaseOf gas G0 R tau A lower upper) (head c) n Fin.elim0 y j = 0) fxx fxp vx vp := by
    refine C117_regular (Nq := 0) A _ _ fxx fxp vx vp (fun d _ _ hd => ?_) hrows
    have := ideal_positive phaseOf tau n d hn ht hd
    refine lt_of_lt_of_eq this ?_
    unfold dotProduct mulVec dotProduct
    refine Finset.sum_congr rfl fun j _ => ?_
    congr 1
    exact Finset.sum_congr rfl fun l _ => by rw [← hfxx]
  refine ⟨C117_solvable (idealTask phaseOf gas G0 R tau A lower upper) c n Fin.elim0 y hsmooth hdiff s s' hf hv hreg, fun xc pc yc hlin => ?_⟩
  obtain ⟨X, P, Y, h1, -, h3, h4, h5, h6, -⟩ := C117_sensitivities (idealTask phaseOf gas G0 R tau A lower upper) c n Fin.elim0 y hsmooth hdiff heq hdec s s' hf hv
    (dudn := fun i => i.elim0) (dudp := fun i => i.elim0) (dudw := fun i => i.elim0) (fun k => by
      obtain ⟨col, hc, -⟩ := EquilibriumDerivatives.C100_recorded (idealTask phaseOf gas G0 R tau A lower upper).pb (fun k => EquilibriumDerivatives.plain (head c k)) (fun _ => rfl) s
        ⟨true, n, Fin.elim0, true, true, true⟩ hdiff rfl rfl rfl rfl k
      rw [hc, Subsingleton.elim col]) hreg xc pc yc hlin
  refine ⟨X, Y, h1, h3, ?_, ?_, h6⟩
  · filter_upwards [h4] with c' hc'
    rwa [Subsingleton.elim (P c') Fin.elim0] at hc'
  · have ht : Tendsto (fun a : (Fin (2 + Nb) → ℝ) × (Fin Nn → ℝ) × (Fin Nb → ℝ) => (a.1, a.2.1, (Fin.elim0 : Fin 0 → ℝ), a.2.2)) (𝓝 (c, n, y))
        (𝓝 (c, n, Fin.elim0, y)) := by
      apply Continuous.tendsto'
      · fun_prop
      · rfl
    filter_upwards [ht.eventually h5] with a ha hE
    exact ⟨(ha hE).1, (ha hE).2.2⟩

end ideal

/-! ### An example: an ideal solution of two isomers

At 300 K and 1 bar, with standard Gibbs energies zero, two moles of isomers are one mole of each. -/

noncomputable def isomers : Task 2 0 0 2 1 0 := idealTask (fun _ => (0 : Fin 1)) (fun _ => false) (fun _ _ => 0) 8 (1 / 1000) (fun _ _ => 1) (fun _ => some 0) fun _ => none

def isomersAt : Fin (2 + 1) → ℝ := ![300, 100000, 2]

theorem isomers_rest (j : Fin 2) : rest isomers (head isomersAt) (fun _ => 1) Fin.elim0 (fun _ => Real.log (1 / 2) - 1 / 1000) j = 0 := by
  simp [rest, isomers, idealTask, withDerivatives, idealGradient, arguments, EquilibriumSolver.head]

theorem isomers_equilibrium : EquilibriumAt isomers (head isomersAt) (tail isomersAt) (fun _ => 1) Fin.elim0 (fun _ => Real.log (1 / 2) - 1 / 1000) where
  balances := by
    funext i
    simp [isomers, idealTask, mulVec, dotProduct, tail, isomersAt]
    norm_num [Fin.natAdd, Subsingleton.elim i 0]
  constraints i := i.elim0
  lower j l h := by
    cases h
    norm_num
  upper j u h := by cases h
  atLower j h := absurd h (by rw [isomers_rest]; exact lt_irrefl 0)
  atUpper j h := absurd h (by rw [isomers_rest]; exact lt_irrefl 0)

theorem isomers_decided : Decided isomers (head isomersAt) (fun _ => 1) Fin.elim0 (fun _ => Real.log (1 / 2) - 1 / 1000) := by
  intro j
  right
  constructor
  · intro l h
    cases h
    norm_num
  · intro u h
    cases h

/-- With two moles of isomers, the sensitivities are the derivatives of the amounts. -/
theorem isomers_sensitivities (s : EquilibriumDerivatives.Setup 2 0 2 0) :
    ∃ (dndw : Matrix (Fin 2) (Fin 2) ℝ) (dndb : Matrix (Fin 2) (Fin 1) ℝ) (X : (Fin (2 + 1) → ℝ) → Fin 2 → ℝ) (Y : (Fin (2 + 1) → ℝ) → Fin 1 → ℝ), X isomersAt = (fun _ => 1) ∧
      (∀ᶠ c in 𝓝 isomersAt, EquilibriumAt isomers (head c) (tail c) (X c) Fin.elim0 (Y c)) ∧ HasJacobian X (beside dndw dndb) isomersAt := by
  obtain ⟨f, fx, fxx, fxp, fxw, hf⟩ : ∃ f fx fxx fxp fxw, (EquilibriumDerivatives.answer isomers.pb (fun k => EquilibriumDerivatives.plain (head isomersAt k)) s
    ⟨true, fun _ => 1, Fin.elim0, true, true, true⟩).2 = .objective f fx (some fxx) (some fxp) (some fxw) := ⟨_, _, _, _, _, rfl⟩
  obtain ⟨v, vx, vp, vw, hv⟩ : ∃ v vx vp vw, (EquilibriumDerivatives.answer isomers.pb (fun k => EquilibriumDerivatives.plain (head isomersAt k)) s
    ⟨false, fun _ => 1, Fin.elim0, true, true, true⟩).2 = .constraints v (some vx) (some vp) (some vw) := ⟨_, _, _, _, rfl⟩
  obtain ⟨⟨xc, pc, yc, hlin⟩, h⟩ := C117_ideal (fun _ => (0 : Fin 1)) (fun _ => false) (fun _ _ => 0) 8 (1 / 1000) (fun _ _ => 1) (fun _ => some 0) (fun _ => none)
    isomersAt (fun _ => 1) _ (by norm_num) (by norm_num) (by show (0 : ℝ) < 300; norm_num) (by show (0 : ℝ) < 100000; norm_num) (fun _ => one_pos)
    (fun _ => contDiffAt_const) isomers_equilibrium isomers_decided
    (fun z hz => by
      have := hz 0 (isomers_rest 0)
      funext i
      rw [Subsingleton.elim i 0]
      simpa using this) s s hf hv
  obtain ⟨X, Y, h1, -, h2, -, h3⟩ := h xc pc yc hlin
  exact ⟨_, _, X, Y, h1, h2, h3⟩

end Verif.Sensitivity
