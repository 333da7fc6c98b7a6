import Verif.Spec.SolutionStability
import Verif.Theorems.Existence
import Mathlib.Analysis.Convex.Deriv
import Mathlib.Order.Monotone.Union

/-!
# C105: Gibbs' criterion for binary solutions
-/

namespace Verif.SolutionStability

open ChemicalProps IdealEquilibrium Activity

/-- Activities of the two end members. -/
noncomputable def first (a0 a1 a2 t : ℝ) : ℝ := (1 - t) * (1 - t) * (a0 + a1 * (3 * t - (1 - t)) + a2 * (t - (1 - t)) * (5 * t - (1 - t))) + Real.log t
noncomputable def second (a0 a1 a2 t : ℝ) : ℝ := t * t * (a0 - a1 * (3 * (1 - t) - t) + a2 * ((1 - t) - t) * (5 * (1 - t) - t)) + Real.log (1 - t)

theorem mixing_eq (a0 a1 a2 t : ℝ) : mixing a0 a1 a2 t = t * first a0 a1 a2 t + (1 - t) * second a0 a1 a2 t := by
  unfold mixing first second
  ring

theorem mixing_deriv (a0 a1 a2 t : ℝ) (h0 : 0 < t) (h1 : t < 1) : HasDerivAt (mixing a0 a1 a2) (first a0 a1 a2 t - second a0 a1 a2 t) t := by
  have hl : HasDerivAt Real.log (t⁻¹) t := Real.hasDerivAt_log h0.ne'
  have hs : HasDerivAt (fun x : ℝ => 1 - x) (-1) t := by simpa using (hasDerivAt_id t).const_sub 1
  have hr : HasDerivAt (fun x : ℝ => Real.log (1 - x)) (-1 / (1 - t)) t := hs.log (by linarith)
  have hi := hasDerivAt_id t
  have hd : HasDerivAt (fun x : ℝ => x - (1 - x)) (1 - -1) t := hi.sub hs
  have := ((hi.mul hl).add (hs.mul hr)).add ((hi.mul hs).mul (((hd.const_mul a1).const_add a0).add ((hd.pow 2).const_mul a2)))
  refine HasDerivAt.congr_deriv (show HasDerivAt (mixing a0 a1 a2) _ t from this) ?_
  · have e1 : (1 - t) ≠ 0 := by linarith
    simp only [id, first, second, Pi.mul_apply, Pi.add_apply, Pi.pow_apply]
    field_simp
    ring

/-- The tangent at `t`. -/
theorem tangent_eq (a0 a1 a2 t t' : ℝ) : t' * first a0 a1 a2 t + (1 - t') * second a0 a1 a2 t =
    mixing a0 a1 a2 t + (first a0 a1 a2 t - second a0 a1 a2 t) * (t' - t) := by
  rw [mixing_eq]
  ring

/-- A differentiable function is strictly convex if and only if it is above its tangents. -/
theorem strictConvex_iff (f f' : ℝ → ℝ) (hd : ∀ t, 0 < t → t < 1 → HasDerivAt f (f' t) t) :
    StrictConvexOn ℝ (Set.Ioo 0 1) f ↔ ∀ t ∈ Set.Ioo (0 : ℝ) 1, ∀ t' ∈ Set.Ioo (0 : ℝ) 1, t ≠ t' → f t + f' t * (t' - t) < f t' := by
  constructor
  · intro hc t ht t' ht' hne
    have tangent : ∀ s ∈ Set.Ioo (0 : ℝ) 1, f t + f' t * (s - t) ≤ f s := by
      intro s hs
      rcases lt_trichotomy s t with h | h | h
      · have := hc.convexOn.slope_le_of_hasDerivAt hs ht h (hd t ht.1 ht.2)
        rw [slope_def_field, div_le_iff₀ (by linarith)] at this
        linarith
      · rw [h]; simp
      · have := hc.convexOn.le_slope_of_hasDerivAt ht hs h (hd t ht.1 ht.2)
        rw [slope_def_field, le_div_iff₀ (by linarith)] at this
        linarith
    have hm : (1 / 2 : ℝ) • t + (1 / 2 : ℝ) • t' ∈ Set.Ioo (0 : ℝ) 1 := hc.1 ht ht' (by norm_num) (by norm_num) (by norm_num)
    have h1 := hc.2 ht ht' hne (show (0 : ℝ) < 1 / 2 by norm_num) (show (0 : ℝ) < 1 / 2 by norm_num) (by norm_num)
    have h2 := tangent _ hm
    simp only [smul_eq_mul] at h1 h2
    nlinarith
  · intro h
    refine ⟨convex_Ioo 0 1, ?_⟩
    intro x hx y hy hne a b ha hb hab
    have hz : a • x + b • y ∈ Set.Ioo (0 : ℝ) 1 := (convex_Ioo 0 1) hx hy ha.le hb.le hab
    have hxz : a • x + b • y ≠ x := by
      intro e
      simp only [smul_eq_mul] at e
      have : b * (y - x) = 0 := by
        have : a = 1 - b := by linarith
        rw [this] at e
        linarith
      rcases mul_eq_zero.1 this with h | h
      · exact hb.ne' h
      · exact hne (by linarith)
    have hyz : a • x + b • y ≠ y := by
      intro e
      simp only [smul_eq_mul] at e
      have : a * (x - y) = 0 := by
        have : b = 1 - a := by linarith
        rw [this] at e
        linarith
      rcases mul_eq_zero.1 this with h | h
      · exact ha.ne' h
      · exact hne (by linarith)
    have h1 := h _ hz x hx hxz
    have h2 := h _ hz y hy hyz
    simp only [smul_eq_mul] at h1 h2 ⊢
    have e : a * (f (a * x + b * y) + f' (a * x + b * y) * (x - (a * x + b * y))) + b * (f (a * x + b * y) + f' (a * x + b * y) * (y - (a * x + b * y))) = f (a * x + b * y) := by
      have : a = 1 - b := by linarith
      subst this
      ring
    nlinarith [mul_lt_mul_of_pos_left h1 ha, mul_lt_mul_of_pos_left h2 hb]

theorem activity_eq (a0 a1 a2 : ℝ) (standard : List (ℝ → ℝ → Option (Std ℝ))) (species : List (Aqueous.Species ℝ)) (h2 : species.length = 2) (ideal : Model)
    (T P x1 x2 : ℝ) (old a : AProps ℝ) (h : (phase standard species (redlichKister a0 a1 a2) ideal).activity T P [x1, x2] old = (a, true)) :
    a.ln_a = [x2 * x2 * (a0 + a1 * (3 * x1 - x2) + a2 * (x1 - x2) * (5 * x1 - x2)) + Real.log x1,
        x1 * x1 * (a0 - a1 * (3 * x2 - x1) + a2 * (x2 - x1) * (5 * x2 - x1)) + Real.log x2] := by
  have ha : activityFn (redlichKister a0 a1 a2) species T P [x1, x2] old = (a, true) := h
  have hlen : old.ln_g.length = 2 ∧ old.ln_a.length = 2 := by
    by_contra hne
    rw [not_and_or] at hne
    unfold activityFn redlichKister at ha
    simp [h2, Mem.fits, hne] at ha
  obtain ⟨g1, g2, hg⟩ := List.length_eq_two.1 hlen.1
  obtain ⟨b1, b2, hb⟩ := List.length_eq_two.1 hlen.2
  have := (Existence.redlichKister_fn a0 a1 a2 species h2 T P x1 x2 old g1 g2 b1 b2 hg hb).2
  rw [ha] at this
  exact this

theorem activity_two (a0 a1 a2 : ℝ) (standard : List (ℝ → ℝ → Option (Std ℝ))) (species : List (Aqueous.Species ℝ)) (h2 : species.length = 2) (ideal : Model)
    (T P t : ℝ) (old a : AProps ℝ) (h : (phase standard species (redlichKister a0 a1 a2) ideal).activity T P [t, 1 - t] old = (a, true)) :
    a.ln_a = [first a0 a1 a2 t, second a0 a1 a2 t] := by
  rw [activity_eq a0 a1 a2 standard species h2 ideal T P t (1 - t) old a h]
  rfl

theorem fractions_two (n1 n2 : ℝ) (h1 : 0 < n1) (h2 : 0 < n2) : fractions [n1, n2] = [n1 / (n1 + n2), 1 - n1 / (n1 + n2)] ∧ 0 < n1 / (n1 + n2) ∧ n1 / (n1 + n2) < 1 := by
  have h : 0 < n1 + n2 := by linarith
  refine ⟨?_, by positivity, by rw [div_lt_one h]; linarith⟩
  simp only [fractions, List.map_cons, List.map_nil, List.sum_cons, List.sum_nil, add_zero, List.cons.injEq, true_and, and_true]
  field_simp
  ring

theorem exists_activity (a0 a1 a2 : ℝ) (standard : List (ℝ → ℝ → Option (Std ℝ))) (species : List (Aqueous.Species ℝ)) (h2 : species.length = 2) (ideal : Model)
    (T P x1 x2 : ℝ) : ∃ a, (phase standard species (redlichKister a0 a1 a2) ideal).activity T P [x1, x2] ⟨0, 0, 0, 0, 0, 0, 0, [0, 0], [0, 0]⟩ = (a, true) := by
  have := (Existence.redlichKister_fn a0 a1 a2 species h2 T P x1 x2 ⟨0, 0, 0, 0, 0, 0, 0, [0, 0], [0, 0]⟩ 0 0 0 0 rfl rfl).1
  exact ⟨_, Prod.ext rfl this⟩

/-- **C105 (binary solutions).** A phase with the model of Redlich and Kister meets Gibbs' criterion if and only if the Gibbs energy of mixing is strictly convex. -/
theorem C105_redlichKister_stable (a0 a1 a2 : ℝ) (standard : List (ℝ → ℝ → Option (Std ℝ))) (species : List (Aqueous.Species ℝ)) (hl : standard.length = 2)
    (h2 : species.length = 2) (ideal : Model) (T P : ℝ) :
    Stable (phase standard species (redlichKister a0 a1 a2) ideal) T P ↔ StrictConvexOn ℝ (Set.Ioo 0 1) (mixing a0 a1 a2) := by
  rw [strictConvex_iff _ _ (mixing_deriv a0 a1 a2)]
  have hsize : (phase standard species (redlichKister a0 a1 a2) ideal).size = 2 := hl
  constructor
  · intro hs t ht t' ht' hne
    obtain ⟨a, ha⟩ := exists_activity a0 a1 a2 standard species h2 ideal T P t (1 - t)
    obtain ⟨a', ha'⟩ := exists_activity a0 a1 a2 standard species h2 ideal T P t' (1 - t')
    have f1 : ∀ s : ℝ, fractions [s, 1 - s] = [s, 1 - s] := by intro s; simp [fractions]
    obtain ⟨k1, k2⟩ := hs.tangent [t, 1 - t] [t', 1 - t'] (by rw [hsize]; rfl) (by rw [hsize]; rfl)
      (by intro y hy; simp only [List.mem_cons, List.not_mem_nil, or_false] at hy; rcases hy with rfl | rfl; exacts [ht.1, by linarith [ht.2]])
      (by intro y hy; simp only [List.mem_cons, List.not_mem_nil, or_false] at hy; rcases hy with rfl | rfl; exacts [ht'.1, by linarith [ht'.2]])
      _ _ a a' (by rw [f1]; exact ha) (by rw [f1]; exact ha')
    have e := activity_two a0 a1 a2 standard species h2 ideal T P t _ a ha
    have e' := activity_two a0 a1 a2 standard species h2 ideal T P t' _ a' ha'
    have d : ∀ u v : ℝ, dot [t', 1 - t'] [u, v] = t' * u + (1 - t') * v := by intro u v; simp [dot]
    rw [e, e', d, d, tangent_eq, tangent_eq] at k1
    rw [e, e', d, d, tangent_eq, tangent_eq, f1, f1] at k2
    rw [sub_self, mul_zero, add_zero] at k1 k2
    refine lt_of_le_of_ne k1 fun he => hne ?_
    simpa using k2 he
  · intro h
    constructor
    · intro x old old' a a' h1 h1'
      have hx : x.length = 2 := by
        by_contra hne
        have h1 : activityFn (redlichKister a0 a1 a2) species T P x old = (a, true) := h1
        unfold activityFn redlichKister at h1
        simp [h2, hne] at h1
      obtain ⟨x1, x2, rfl⟩ := List.length_eq_two.1 hx
      rw [activity_eq a0 a1 a2 standard species h2 ideal T P x1 x2 old a h1, activity_eq a0 a1 a2 standard species h2 ideal T P x1 x2 old' a' h1']
    · intro n n' hn hn' hp hp' old old' a a' h1 h1'
      rw [hsize] at hn hn'
      obtain ⟨n1, n2, rfl⟩ := List.length_eq_two.1 hn
      obtain ⟨m1, m2, rfl⟩ := List.length_eq_two.1 hn'
      have p1 := hp n1 (by simp)
      have p2 := hp n2 (by simp)
      have q1 := hp' m1 (by simp)
      have q2 := hp' m2 (by simp)
      obtain ⟨f1, f2, f3⟩ := fractions_two n1 n2 p1 p2
      obtain ⟨g1, g2, g3⟩ := fractions_two m1 m2 q1 q2
      rw [f1] at h1 ⊢
      rw [g1] at h1' ⊢
      rw [activity_two a0 a1 a2 standard species h2 ideal T P _ old a h1, activity_two a0 a1 a2 standard species h2 ideal T P _ old' a' h1']
      have hm : 0 < m1 + m2 := by linarith
      have d : ∀ u v : ℝ, dot [m1, m2] [u, v] = (m1 + m2) * (m1 / (m1 + m2) * u + (1 - m1 / (m1 + m2)) * v) := by
        intro u v
        simp only [dot, List.zipWith_cons_cons, List.zipWith_nil_left, List.sum_cons, List.sum_nil, add_zero]
        field_simp
        ring
      rw [d, d, tangent_eq, tangent_eq, sub_self, mul_zero, add_zero]
      by_cases he : n1 / (n1 + n2) = m1 / (m1 + m2)
      · rw [he]
        simp
      · have := h _ ⟨f2, f3⟩ _ ⟨g2, g3⟩ he
        refine ⟨(mul_le_mul_of_nonneg_left this.le hm.le), fun hq => ?_⟩
        have := mul_left_cancel₀ hm.ne' hq
        linarith

/-- The second derivative of the Gibbs energy of mixing. -/
noncomputable def curvature (a0 a1 a2 t : ℝ) : ℝ := 1 / (t * (1 - t)) - (2 * a0 - 2 * a2 + 6 * a1 * (2 * t - 1) + 12 * a2 * (2 * t - 1) ^ 2)

theorem curvature_deriv (a0 a1 a2 t : ℝ) (h0 : 0 < t) (h1 : t < 1) : HasDerivAt (fun t => first a0 a1 a2 t - second a0 a1 a2 t) (curvature a0 a1 a2 t) t := by
  have hl : HasDerivAt Real.log (t⁻¹) t := Real.hasDerivAt_log h0.ne'
  have hs : HasDerivAt (fun x : ℝ => 1 - x) (-1) t := by simpa using (hasDerivAt_id t).const_sub 1
  have hr : HasDerivAt (fun x : ℝ => Real.log (1 - x)) (-1 / (1 - t)) t := hs.log (by linarith)
  have hi := hasDerivAt_id t
  -- the polynomial part
  have hq : HasDerivAt (fun s : ℝ => a0 * (1 - 2 * s) + a1 * (-6 * s ^ 2 + 6 * s - 1) + a2 * (-16 * s ^ 3 + 24 * s ^ 2 - 10 * s + 1))
      (a0 * (0 - 2 * 1) + a1 * (-6 * (2 * t) + 6) + a2 * (-16 * (3 * t ^ 2) + 24 * (2 * t) - 10)) t := by
    have p1 : HasDerivAt (fun s : ℝ => s) 1 t := hasDerivAt_id t
    have p2 : HasDerivAt (fun s : ℝ => s ^ 2) (2 * t) t := by simpa using hasDerivAt_pow 2 t
    have p3 : HasDerivAt (fun s : ℝ => s ^ 3) (3 * t ^ 2) t := by simpa using hasDerivAt_pow 3 t
    have c1 := ((hasDerivAt_const t (1 : ℝ)).sub (p1.const_mul 2)).const_mul a0
    have c2 := (((p2.const_mul (-6)).add (p1.const_mul 6)).sub_const 1).const_mul a1
    have c3 := ((((p3.const_mul (-16)).add (p2.const_mul 24)).sub (p1.const_mul 10)).add_const 1).const_mul a2
    refine HasDerivAt.congr_deriv (show HasDerivAt (fun s : ℝ => a0 * (1 - 2 * s) + a1 * (-6 * s ^ 2 + 6 * s - 1) + a2 * (-16 * s ^ 3 + 24 * s ^ 2 - 10 * s + 1)) _ t from (c1.add c2).add c3) ?_
    ring
  have h := (hq.add hl).sub hr
  refine (h.congr_deriv ?_).congr_of_eventuallyEq ?_
  · have e1 : (1 - t) ≠ 0 := by linarith
    unfold curvature
    field_simp
    ring
  · refine Filter.Eventually.of_forall fun s => ?_
    simp only [first, second, Pi.add_apply, Pi.sub_apply]
    ring

/-- Positive curvature, except at one composition, makes the Gibbs energy strictly convex. -/
theorem convex_of_curvature (a0 a1 a2 t0 : ℝ) (h0 : 0 < t0) (h1 : t0 < 1) (h : ∀ t, 0 < t → t < 1 → t ≠ t0 → 0 < curvature a0 a1 a2 t) :
    StrictConvexOn ℝ (Set.Ioo 0 1) (mixing a0 a1 a2) := by
  have cont : ∀ s ⊆ Set.Ioo (0 : ℝ) 1, ContinuousOn (fun t => first a0 a1 a2 t - second a0 a1 a2 t) s := fun s hs t ht =>
    (curvature_deriv a0 a1 a2 t (hs ht).1 (hs ht).2).continuousAt.continuousWithinAt
  have m1 : StrictMonoOn (fun t => first a0 a1 a2 t - second a0 a1 a2 t) (Set.Ioc 0 t0) := by
    refine strictMonoOn_of_deriv_pos (convex_Ioc 0 t0) (cont _ fun t ht => ⟨ht.1, lt_of_le_of_lt ht.2 h1⟩) ?_
    intro t ht
    rw [interior_Ioc] at ht
    rw [(curvature_deriv a0 a1 a2 t ht.1 (by linarith [ht.2])).deriv]
    exact h t ht.1 (by linarith [ht.2]) ht.2.ne
  have m2 : StrictMonoOn (fun t => first a0 a1 a2 t - second a0 a1 a2 t) (Set.Ico t0 1) := by
    refine strictMonoOn_of_deriv_pos (convex_Ico t0 1) (cont _ fun t ht => ⟨lt_of_lt_of_le h0 ht.1, ht.2⟩) ?_
    intro t ht
    rw [interior_Ico] at ht
    rw [(curvature_deriv a0 a1 a2 t (by linarith [ht.1]) ht.2).deriv]
    exact h t (by linarith [ht.1]) ht.2 ht.1.ne'
  have m := m1.union m2 ⟨⟨h0, le_refl _⟩, fun x hx => hx.2⟩ ⟨⟨le_refl _, h1⟩, fun x hx => hx.1⟩
  have hu : Set.Ioc 0 t0 ∪ Set.Ico t0 1 = Set.Ioo 0 1 := by
    ext t
    simp only [Set.mem_union, Set.mem_Ioc, Set.mem_Ico, Set.mem_Ioo]
    constructor
    · rintro (h | h)
      · exact ⟨h.1, by linarith⟩
      · exact ⟨by linarith, h.2⟩
    · intro h
      rcases le_total t t0 with h' | h'
      · exact Or.inl ⟨h.1, h'⟩
      · exact Or.inr ⟨h', h.2⟩
  rw [hu] at m
  have hc : ContinuousOn (mixing a0 a1 a2) (Set.Ioo 0 1) := fun t ht => (mixing_deriv a0 a1 a2 t ht.1 ht.2).continuousAt.continuousWithinAt
  refine StrictMonoOn.strictConvexOn_of_deriv (convex_Ioo 0 1) hc ?_
  rw [interior_Ioo]
  intro x hx y hy hxy
  rw [(mixing_deriv a0 a1 a2 x hx.1 hx.2).deriv, (mixing_deriv a0 a1 a2 y hy.1 hy.2).deriv]
  exact m hx hy hxy

/-- **C105 (small interactions).** Phases with the model of Redlich and Kister meet Gibbs' criterion if `a₀ + 3|a₁| + 5|a₂| ≤ 2`. -/
theorem C105_redlichKister_small (a0 a1 a2 : ℝ) (h : a0 + 3 * |a1| + 5 * |a2| ≤ 2) (standard : List (ℝ → ℝ → Option (Std ℝ))) (species : List (Aqueous.Species ℝ))
    (hl : standard.length = 2) (h2 : species.length = 2) (ideal : Model) (T P : ℝ) : Stable (phase standard species (redlichKister a0 a1 a2) ideal) T P := by
  rw [C105_redlichKister_stable a0 a1 a2 standard species hl h2]
  apply convex_of_curvature a0 a1 a2 (1 / 2) (by norm_num) (by norm_num)
  intro t h0 h1 hne
  have hs : (2 * t - 1) ≠ 0 := fun h => hne (by linarith)
  have hs2 : 0 < (2 * t - 1) ^ 2 := by positivity
  have hs3 : (2 * t - 1) ^ 2 < 1 := by nlinarith
  have hp : 0 < t * (1 - t) := mul_pos h0 (by linarith)
  have h4 : 4 < 1 / (t * (1 - t)) := by
    rw [lt_div_iff₀ hp]
    nlinarith
  have hb1 : a1 * (2 * t - 1) ≤ |a1| := by
    have : |a1 * (2 * t - 1)| ≤ |a1| := by
      rw [abs_mul]
      have : |2 * t - 1| ≤ 1 := by rw [abs_le]; constructor <;> linarith
      nlinarith [abs_nonneg a1]
    exact (le_abs_self _).trans this
  have hb2 : a2 * (12 * (2 * t - 1) ^ 2 - 2) ≤ 10 * |a2| := by
    have : |a2 * (12 * (2 * t - 1) ^ 2 - 2)| ≤ 10 * |a2| := by
      rw [abs_mul]
      have : |12 * (2 * t - 1) ^ 2 - 2| ≤ 10 := by rw [abs_le]; constructor <;> linarith
      nlinarith [abs_nonneg a2]
    exact (le_abs_self _).trans this
  unfold curvature
  nlinarith

/-- **C105 (regular solutions).** With the parameter `a₀` only, Gibbs' criterion holds if and only if `a₀ ≤ 2`; above that the phase splits. -/
theorem C105_regular_solution (a0 : ℝ) (standard : List (ℝ → ℝ → Option (Std ℝ))) (species : List (Aqueous.Species ℝ)) (hl : standard.length = 2)
    (h2 : species.length = 2) (ideal : Model) (T P : ℝ) : Stable (phase standard species (redlichKister a0 0 0) ideal) T P ↔ a0 ≤ 2 := by
  constructor
  · rw [C105_redlichKister_stable a0 0 0 standard species hl h2]
    intro hc
    by_contra hlt
    rw [not_le] at hlt
    have hd := curvature_deriv a0 0 0 (1 / 2) (by norm_num) (by norm_num)
    have hmono : MonotoneOn (fun t => first a0 0 0 t - second a0 0 0 t) (Set.Ioo 0 1) := by
      rw [strictConvex_iff _ _ (mixing_deriv a0 0 0)] at hc
      intro x hx y hy hxy
      rcases eq_or_lt_of_le hxy with rfl | hxy
      · exact le_refl _
      · have k1 := hc x hx y hy hxy.ne
        have k2 := hc y hy x hx hxy.ne'
        by_contra hn
        rw [not_le] at hn
        nlinarith
    have h0 : 0 ≤ derivWithin (fun t => first a0 0 0 t - second a0 0 0 t) (Set.Ioo 0 1) (1 / 2) := hmono.derivWithin_nonneg
    rw [hd.hasDerivWithinAt.derivWithin (isOpen_Ioo.uniqueDiffWithinAt ⟨by norm_num, by norm_num⟩)] at h0
    unfold curvature at h0
    norm_num at h0
    linarith
  · intro h
    exact C105_redlichKister_small a0 0 0 (by simpa using h) standard species hl h2 ideal T P

/-- **C105 (miscibility gap).** Above `a₀ = 2` two different compositions of the phase have the same activities of both species:
two such phases are in equilibrium with each other, and the equilibrium amounts are not unique. -/
theorem C105_miscibility_gap (a0 : ℝ) (h : 2 < a0) (standard : List (ℝ → ℝ → Option (Std ℝ))) (species : List (Aqueous.Species ℝ))
    (h2 : species.length = 2) (ideal : Model) (T P : ℝ) :
    ∃ t : ℝ, 0 < t ∧ t < 1 / 2 ∧ ∀ old old' a a', (phase standard species (redlichKister a0 0 0) ideal).activity T P [t, 1 - t] old = (a, true) →
      (phase standard species (redlichKister a0 0 0) ideal).activity T P [1 - t, t] old' = (a', true) → a.ln_a = a'.ln_a := by
  have hd := curvature_deriv a0 0 0 (1 / 2) (by norm_num) (by norm_num)
  have hz : first a0 0 0 (1 / 2) - second a0 0 0 (1 / 2) = 0 := by
    unfold first second
    norm_num
  -- just below one half the first end member is the more active
  obtain ⟨s, ⟨s0, s1⟩, s2⟩ : ∃ s, s ∈ Set.Ioo (0 : ℝ) (1 / 2) ∧ 0 < first a0 0 0 s - second a0 0 0 s := by
    have hs := hasDerivAt_iff_tendsto_slope.1 hd
    have hneg : curvature a0 0 0 (1 / 2) < 0 := by
      unfold curvature
      norm_num
      linarith
    have ev := (hs.mono_left (nhdsLT_le_nhdsNE (1 / 2 : ℝ))).eventually (gt_mem_nhds hneg)
    have ev2 : ∀ᶠ s in nhdsWithin (1 / 2 : ℝ) (Set.Iio (1 / 2)), s ∈ Set.Ioo (0 : ℝ) (1 / 2) := Ioo_mem_nhdsLT (by norm_num)
    obtain ⟨s, e1, e2⟩ := (ev.and ev2).exists
    refine ⟨s, e2, ?_⟩
    rw [slope_def_field, hz, div_lt_iff_of_neg (by linarith [e2.2])] at e1
    linarith
  -- near zero it is the less active
  have r0 : 0 < Real.exp (-a0 - 1) := Real.exp_pos _
  have r1 : Real.exp (-a0 - 1) < 1 / 2 := by
    have h1 : Real.exp (-a0 - 1) < Real.exp (-1) := Real.exp_lt_exp.2 (by linarith)
    have h2 : Real.exp (-1) ≤ 1 / 2 := by
      have h3 : (2 : ℝ) ≤ Real.exp 1 := by have := Real.add_one_le_exp (1 : ℝ); linarith
      rw [Real.exp_neg, one_div]
      exact inv_anti₀ (by norm_num) h3
    linarith
  have r2 : first a0 0 0 (Real.exp (-a0 - 1)) - second a0 0 0 (Real.exp (-a0 - 1)) < 0 := by
    have hlog := Real.one_sub_inv_le_log_of_pos (show (0 : ℝ) < 1 - Real.exp (-a0 - 1) by linarith)
    have hinv : (1 - Real.exp (-a0 - 1))⁻¹ ≤ 2 := by
      rw [inv_le_comm₀ (by linarith) (by norm_num)]
      linarith
    unfold first second
    rw [Real.log_exp]
    nlinarith
  have hin : Set.uIcc (Real.exp (-a0 - 1)) s ⊆ Set.Ioo (0 : ℝ) (1 / 2) := Set.OrdConnected.uIcc_subset Set.ordConnected_Ioo ⟨r0, r1⟩ ⟨s0, s1⟩
  have cont : ContinuousOn (fun t => first a0 0 0 t - second a0 0 0 t) (Set.uIcc (Real.exp (-a0 - 1)) s) := by
    intro t ht
    have h1 := hin ht
    exact (curvature_deriv a0 0 0 t h1.1 (by linarith [h1.2])).continuousAt.continuousWithinAt
  obtain ⟨t, ht, e⟩ := intermediate_value_uIcc cont (show (0 : ℝ) ∈ Set.uIcc _ _ from Set.mem_uIcc.2 (Or.inl ⟨r2.le, s2.le⟩))
  have ht := hin ht
  refine ⟨t, ht.1, ht.2, ?_⟩
  intro old old' a a' h1 h1'
  rw [activity_eq a0 0 0 standard species h2 ideal T P _ _ old a h1, activity_eq a0 0 0 standard species h2 ideal T P _ _ old' a' h1']
  simp only [first, second] at e
  simp only [List.cons.injEq, and_true]
  constructor <;> linarith

/-- Two end members, and the two solutions of them with weak and with strong interactions. -/
def twoMembers : List (Aqueous.Species ℝ) := [solute c!"X", solute c!"Y"]

example : Stable (phase [constant 0, constant 0] twoMembers (redlichKister 1 (1 / 5) (-(1 / 20))) Activity.idealSolution) 298 100000 :=
  C105_redlichKister_small 1 (1 / 5) (-(1 / 20)) (by norm_num [abs_of_pos]) _ _ rfl rfl _ _ _

example : ¬ Stable (phase [constant 0, constant 0] twoMembers (redlichKister 3 0 0) Activity.idealSolution) 298 100000 := by
  rw [C105_regular_solution 3 _ _ rfl rfl]
  norm_num

end Verif.SolutionStability
