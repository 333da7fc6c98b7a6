import Verif.Spec.Newton
import Mathlib.Analysis.Calculus.MeanValue
import Mathlib.Analysis.Calculus.Deriv.MeanValue
import Mathlib.Analysis.Calculus.Deriv.Pow
import Mathlib.Analysis.SpecialFunctions.ExpDeriv
import Mathlib.Analysis.Complex.ExponentialBounds
import Mathlib.Tactic

/-!
# C90: Newton's method
-/

namespace Verif.Newton

theorem loop_succ (F F' : ℝ → ℝ) (ε : ℝ) (left i : ℕ) (x : ℝ) :
    loop (pair F F') ε (left + 1) i x = if F' x = 0 then .ub else
      if |F x| < ε then .ok (x - F x / F' x, i, true) else loop (pair F F') ε left (i + 1) (x - F x / F' x) := rfl

theorem loop_success (F F' : ℝ → ℝ) (ε x0 : ℝ) : ∀ (left i : ℕ) (r : ℝ × ℕ × Bool),
    loop (pair F F') ε left i (point F F' x0 i) = .ok r →
    (r.2.2 = true → i ≤ r.2.1 ∧ r.2.1 < i + left ∧ |F (point F F' x0 r.2.1)| < ε ∧ r.1 = point F F' x0 (r.2.1 + 1) ∧
      ∀ k, i ≤ k → k < r.2.1 → ε ≤ |F (point F F' x0 k)|) ∧
    (r.2.2 = false → r.1 = point F F' x0 (i + left) ∧ r.2.1 = i + left ∧
      ∀ k, i ≤ k → k < i + left → ε ≤ |F (point F F' x0 k)|) := by
  intro left
  induction left with
  | zero =>
    intro i r h
    simp only [loop] at h
    injection h with h
    subst h
    refine ⟨by simp, fun _ => ⟨rfl, rfl, fun k h1 h2 => by omega⟩⟩
  | succ left ih =>
    intro i r h
    rw [loop_succ] at h
    split_ifs at h with h1 h2
    · injection h with h
      subst h
      refine ⟨fun _ => ⟨le_refl _, by simp, h2, rfl, fun k hk1 hk2 => by simp at hk2; omega⟩, by simp⟩
    · have hstep : point F F' x0 i - F (point F F' x0 i) / F' (point F F' x0 i) = point F F' x0 (i + 1) := rfl
      rw [hstep] at h
      obtain ⟨hs, hf⟩ := ih (i + 1) r h
      refine ⟨fun ht => ?_, fun hff => ?_⟩
      · obtain ⟨a, b, c, d, e⟩ := hs ht
        refine ⟨by omega, by omega, c, d, fun k hk1 hk2 => ?_⟩
        rcases Nat.eq_or_lt_of_le hk1 with rfl | hk
        · exact not_lt.1 h2
        · exact e k hk hk2
      · obtain ⟨a, b, c⟩ := hf hff
        refine ⟨by rw [a]; congr 1; omega, by omega, fun k hk1 hk2 => ?_⟩
        rcases Nat.eq_or_lt_of_le hk1 with rfl | hk
        · exact not_lt.1 h2
        · exact c k hk (by omega)

/-- **C90.** Success is reported exactly when one of the first `maxiter` points of Newton's iteration has a
residual below the tolerance; the number is that of the first such point, and the value returned is the
point after it. Otherwise the value is the last point. -/
theorem C90_points (F F' : ℝ → ℝ) (x0 ε : ℝ) (maxiter : ℕ) (x : ℝ) (i : ℕ) (ok : Bool)
    (h : newton (pair F F') x0 ε maxiter = .ok (x, i, ok)) :
    (ok = true ↔ ∃ k < maxiter, |F (point F F' x0 k)| < ε) ∧
    (ok = true → i < maxiter ∧ |F (point F F' x0 i)| < ε ∧ (∀ k < i, ε ≤ |F (point F F' x0 k)|) ∧
      x = point F F' x0 (i + 1)) ∧
    (ok = false → i = maxiter ∧ x = point F F' x0 maxiter) := by
  obtain ⟨hs, hf⟩ := loop_success F F' ε x0 maxiter 0 (x, i, ok) h
  simp only [Nat.zero_add] at hs hf
  refine ⟨⟨fun ht => ?_, fun ⟨k, hk, hlt⟩ => ?_⟩, fun ht => ?_, fun hff => ?_⟩
  · obtain ⟨_, b, c, _, _⟩ := hs ht
    exact ⟨i, b, c⟩
  · cases ok with
    | true => rfl
    | false => exact absurd hlt (not_lt.2 ((hf rfl).2.2 k (Nat.zero_le _) hk))
  · obtain ⟨_, b, c, d, e⟩ := hs ht
    exact ⟨b, c, fun k hk => e k (Nat.zero_le _) hk, d⟩
  · exact ⟨(hf hff).2.1, (hf hff).1⟩

/-- A bound on the distance of a function from its tangent. -/
theorem tangent_bound {F F' : ℝ → ℝ} {M : ℝ} {I : Set ℝ} (hI : I.OrdConnected) (hd : ∀ x ∈ I, HasDerivAt F (F' x) x)
    (hM : ∀ x ∈ I, ∀ y ∈ I, |F' x - F' y| ≤ M * |x - y|) (y h : ℝ) (hy : y ∈ I) (hyh : y + h ∈ I) : |F (y + h) - F y - F' y * h| ≤ M / 2 * h ^ 2 := by
  -- compare the derivatives along the segment
  have mem : ∀ t ∈ Set.Icc (0 : ℝ) 1, y + t * h ∈ I := by
    intro t ht
    rcases le_total 0 h with h0 | h0
    · exact hI.out hy hyh ⟨by nlinarith [mul_nonneg ht.1 h0], by nlinarith [mul_nonneg (sub_nonneg.2 ht.2) h0]⟩
    · exact hI.out hyh hy ⟨by nlinarith [mul_nonneg (sub_nonneg.2 ht.2) (neg_nonneg.2 h0)], by nlinarith [mul_nonneg ht.1 (neg_nonneg.2 h0)]⟩
  set g : ℝ → ℝ := fun t => F (y + t * h) - F y - F' y * (t * h) with hg
  have hgd : ∀ t ∈ Set.Icc (0 : ℝ) 1, HasDerivAt g ((F' (y + t * h) - F' y) * h) t := by
    intro t ht
    have h1 : HasDerivAt (fun t : ℝ => y + t * h) h t := by
      simpa using ((hasDerivAt_id t).mul_const h).const_add y
    have h2 := (hd (y + t * h) (mem t ht)).comp t h1
    have h3 : HasDerivAt (fun t : ℝ => F' y * (t * h)) (F' y * h) t := by
      simpa using ((hasDerivAt_id t).mul_const h).const_mul (F' y)
    exact ((h2.sub_const (F y)).sub h3).congr_deriv (by ring)
  have hB : ∀ t : ℝ, HasDerivAt (fun t : ℝ => M / 2 * h ^ 2 * t ^ 2) (M * h ^ 2 * t) t := by
    intro t
    exact ((hasDerivAt_pow 2 t).const_mul (M / 2 * h ^ 2)).congr_deriv (by push_cast; ring)
  have key := image_norm_le_of_norm_deriv_right_le_deriv_boundary (f := g) (f' := fun t => (F' (y + t * h) - F' y) * h)
    (a := 0) (b := 1) (B := fun t : ℝ => M / 2 * h ^ 2 * t ^ 2) (B' := fun t => M * h ^ 2 * t)
    (fun t ht => (hgd t ht).continuousAt.continuousWithinAt) (fun t ht => (hgd t ⟨ht.1, ht.2.le⟩).hasDerivWithinAt)
    (by simp [hg]) hB (fun t ht => by
      rw [Real.norm_eq_abs, abs_mul]
      have h1 := hM (y + t * h) (mem t ⟨ht.1, ht.2.le⟩) y hy
      have h2 : |y + t * h - y| = t * |h| := by
        rw [add_sub_cancel_left, abs_mul, abs_of_nonneg ht.1]
      rw [h2] at h1
      calc |F' (y + t * h) - F' y| * |h| ≤ M * (t * |h|) * |h| := mul_le_mul_of_nonneg_right h1 (abs_nonneg _)
        _ = M * (|h| * |h|) * t := by ring
        _ = M * h ^ 2 * t := by rw [abs_mul_abs_self]; ring)
  have := key (x := 1) (by simp)
  simpa [hg] using this

/-- **C90, part that holds** for the residual of the value returned: for a derivative that is Lipschitz with
constant `M` and at least `m` in size on an interval that has all the points of the iteration, it is at most `M ε² / (2 m²)`. -/
theorem C90_residual_partial (F F' : ℝ → ℝ) (x0 ε m M : ℝ) (maxiter : ℕ) (x : ℝ) (i : ℕ) (I : Set ℝ) (hI : I.OrdConnected)
    (hpts : ∀ k ≤ i + 1, point F F' x0 k ∈ I) (hd : ∀ x ∈ I, HasDerivAt F (F' x) x) (hM0 : 0 ≤ M)
    (hM : ∀ x ∈ I, ∀ y ∈ I, |F' x - F' y| ≤ M * |x - y|) (hm : 0 < m)
    (hm' : ∀ x ∈ I, m ≤ |F' x|) (h : newton (pair F F') x0 ε maxiter = .ok (x, i, true)) :
    |F x| ≤ M * ε ^ 2 / (2 * m ^ 2) := by
  obtain ⟨_, hs, _⟩ := C90_points F F' x0 ε maxiter x i true h
  obtain ⟨_, h1, _, h2⟩ := hs rfl
  set y := point F F' x0 i with hy
  have hx : x = y + -(F y / F' y) := by rw [h2]; rfl
  have hyI : y ∈ I := hpts i (by omega)
  have hxI : x ∈ I := by rw [h2]; exact hpts (i + 1) le_rfl
  have hne : F' y ≠ 0 := by
    intro h0
    have := hm' y hyI
    rw [h0, abs_zero] at this
    linarith
  have ht := tangent_bound hI hd hM y (-(F y / F' y)) hyI (hx ▸ hxI)
  rw [← hx] at ht
  have h3 : F x - F y - F' y * -(F y / F' y) = F x := by field_simp; ring
  rw [h3] at ht
  refine ht.trans ?_
  have h4 : (-(F y / F' y)) ^ 2 ≤ ε ^ 2 / m ^ 2 := by
    rw [neg_sq, div_pow, ← sq_abs (F y), ← sq_abs (F' y)]
    have a1 : |F y| ^ 2 ≤ ε ^ 2 := pow_le_pow_left₀ (abs_nonneg _) h1.le 2
    have a2 : m ^ 2 ≤ |F' y| ^ 2 := pow_le_pow_left₀ hm.le (hm' y hyI) 2
    have hm2 : 0 < m ^ 2 := by positivity
    exact div_le_div₀ (by positivity) a1 hm2 a2
  calc M / 2 * (-(F y / F' y)) ^ 2 ≤ M / 2 * (ε ^ 2 / m ^ 2) := mul_le_mul_of_nonneg_left h4 (by linarith)
    _ = M * ε ^ 2 / (2 * m ^ 2) := by field_simp

/-- **C90.** For a derivative that is at least `m` on an interval that has all the points of the iteration, a value returned
with success is within `2 ε / m` of each root in the interval. -/
theorem C90_distance (F F' : ℝ → ℝ) (x0 ε m : ℝ) (maxiter : ℕ) (x : ℝ) (i : ℕ) (root : ℝ) (I : Set ℝ) (hI : I.OrdConnected)
    (hpts : ∀ k ≤ i, point F F' x0 k ∈ I) (hroot : root ∈ I)
    (hd : ∀ x ∈ I, HasDerivAt F (F' x) x) (hm : 0 < m) (hm' : ∀ x ∈ I, m ≤ F' x) (hr : F root = 0)
    (h : newton (pair F F') x0 ε maxiter = .ok (x, i, true)) : |x - root| ≤ 2 * ε / m := by
  obtain ⟨_, hs, _⟩ := C90_points F F' x0 ε maxiter x i true h
  obtain ⟨_, h1, _, h2⟩ := hs rfl
  set y := point F F' x0 i with hy
  have hx : x = y - F y / F' y := h2
  have hyI : y ∈ I := hpts i le_rfl
  have hgrow : ∀ a ∈ I, ∀ b ∈ I, a ≤ b → m * (b - a) ≤ F b - F a := by
    intro a ha b hb hab
    have hsub : ∀ x ∈ Set.Icc a b, x ∈ I := fun x hx => hI.out ha hb hx
    have := Convex.mul_sub_le_image_sub_of_le_deriv (convex_Icc a b) (f := F)
      (fun x hx => (hd x (hsub x hx)).continuousAt.continuousWithinAt)
      (fun x hx => (hd x (hsub x (interior_subset hx))).differentiableAt.differentiableWithinAt) (C := m)
      (fun x hx => by rw [(hd x (hsub x (interior_subset hx))).deriv]; exact hm' x (hsub x (interior_subset hx))) a ⟨le_refl _, hab⟩ b ⟨hab, le_refl _⟩ hab
    exact this
  have hy1 : m * |y - root| ≤ |F y| := by
    rcases le_total root y with hle | hle
    · rw [abs_of_nonneg (sub_nonneg.2 hle)]
      have := hgrow root hroot y hyI hle
      rw [hr, sub_zero] at this
      exact this.trans (le_abs_self _)
    · rw [abs_of_nonpos (sub_nonpos.2 hle)]
      have := hgrow y hyI root hroot hle
      rw [hr, zero_sub] at this
      have h3 := neg_le_abs (F y)
      linarith
  have hy2 : |y - root| ≤ ε / m := by
    rw [le_div_iff₀ hm]
    linarith
  have hstep : |F y / F' y| ≤ ε / m := by
    have hp : 0 < F' y := hm.trans_le (hm' y hyI)
    rw [abs_div, abs_of_pos hp]
    exact div_le_div₀ ((abs_nonneg _).trans h1.le) h1.le hm (hm' y hyI)
  calc |x - root| = |(y - root) - F y / F' y| := by rw [hx]; ring_nf
    _ ≤ |y - root| + |F y / F' y| := abs_sub _ _
    _ ≤ ε / m + ε / m := add_le_add hy2 hstep
    _ = 2 * ε / m := by ring

/-- **C90.** For convex functions the method converges from the right: when the derivative does not
decrease between a root and the initial guess above it, and is positive at the root, every point is between
the root and the one before it, and success comes as soon as `(1 - F'(root)/F'(x0))ᵏ F(x0)` is below the
tolerance for some `k < maxiter`. -/
theorem C90_convex (F F' : ℝ → ℝ) (x0 ε root : ℝ) (maxiter k : ℕ)
    (hd : ∀ x ∈ Set.Icc root x0, HasDerivAt F (F' x) x) (hmono : MonotoneOn F' (Set.Icc root x0)) (hr : F root = 0) (hpos : 0 < F' root)
    (h0 : root ≤ x0) (hk : k < maxiter) (hε : (1 - F' root / F' x0) ^ k * F x0 < ε) :
    ∃ x i, newton (pair F F') x0 ε maxiter = .ok (x, i, true) ∧ i ≤ k ∧ root ≤ x ∧ x ≤ x0 := by
  -- the function lies above its tangents
  have htan : ∀ a ∈ Set.Icc root x0, ∀ b ∈ Set.Icc root x0, F a + F' a * (b - a) ≤ F b := by
    intro a ha b hb
    rcases le_total a b with hab | hab
    · have hsub : ∀ x ∈ Set.Icc a b, x ∈ Set.Icc root x0 := fun x hx => ⟨ha.1.trans hx.1, hx.2.trans hb.2⟩
      have := Convex.mul_sub_le_image_sub_of_le_deriv (convex_Icc a b) (f := F)
        (fun x hx => (hd x (hsub x hx)).continuousAt.continuousWithinAt)
        (fun x hx => (hd x (hsub x (interior_subset hx))).differentiableAt.differentiableWithinAt) (C := F' a)
        (fun x hx => by
          rw [(hd x (hsub x (interior_subset hx))).deriv]
          exact hmono ha (hsub x (interior_subset hx)) (interior_subset hx).1) a ⟨le_refl _, hab⟩ b ⟨hab, le_refl _⟩ hab
      linarith
    · have hsub : ∀ x ∈ Set.Icc b a, x ∈ Set.Icc root x0 := fun x hx => ⟨hb.1.trans hx.1, hx.2.trans ha.2⟩
      have := Convex.image_sub_le_mul_sub_of_deriv_le (convex_Icc b a) (f := F)
        (fun x hx => (hd x (hsub x hx)).continuousAt.continuousWithinAt)
        (fun x hx => (hd x (hsub x (interior_subset hx))).differentiableAt.differentiableWithinAt) (C := F' a)
        (fun x hx => by
          rw [(hd x (hsub x (interior_subset hx))).deriv]
          exact hmono (hsub x (interior_subset hx)) ha (interior_subset hx).2) b ⟨le_refl _, hab⟩ a ⟨hab, le_refl _⟩ hab
      linarith
  have hrI : root ∈ Set.Icc root x0 := ⟨le_refl _, h0⟩
  have h0I : x0 ∈ Set.Icc root x0 := ⟨h0, le_refl _⟩
  have hinv : ∀ j, root ≤ point F F' x0 j ∧ point F F' x0 j ≤ x0 ∧ 0 ≤ F (point F F' x0 j) ∧
      F (point F F' x0 j) ≤ (1 - F' root / F' x0) ^ j * F x0 := by
    intro j
    induction j with
    | zero =>
      refine ⟨h0, le_refl _, ?_, by simp [point]⟩
      have := htan root hrI x0 h0I
      rw [hr] at this
      have h2 : 0 ≤ F' root * (x0 - root) := mul_nonneg hpos.le (by linarith)
      show 0 ≤ F x0
      linarith
    | succ j ih =>
      obtain ⟨a, b, c, d⟩ := ih
      set y := point F F' x0 j with hy
      have hyI : y ∈ Set.Icc root x0 := ⟨a, b⟩
      have hyp : 0 < F' y := hpos.trans_le (hmono hrI hyI a)
      have hx : point F F' x0 (j + 1) = y - F y / F' y := rfl
      have hx0p : 0 < F' x0 := hpos.trans_le (hmono hrI h0I h0)
      have hq : 0 ≤ F y / F' y := div_nonneg c hyp.le
      have hroot : root ≤ y - F y / F' y := by
        have := htan y hyI root hrI
        rw [hr] at this
        have h3 : F y / F' y ≤ y - root := by
          rw [div_le_iff₀ hyp]
          linarith
        linarith
      have hzI : y - F y / F' y ∈ Set.Icc root x0 := ⟨hroot, by linarith⟩
      have hnn : 0 ≤ F (y - F y / F' y) := by
        have := htan y hyI (y - F y / F' y) hzI
        have h3 : F y + F' y * (y - F y / F' y - y) = 0 := by field_simp; ring
        linarith
      have hdec : F (y - F y / F' y) ≤ (1 - F' root / F' x0) * F y := by
        have h3 := htan (y - F y / F' y) hzI y hyI
        have h4 : y - (y - F y / F' y) = F y / F' y := by ring
        rw [h4] at h3
        have h5 : F' root ≤ F' (y - F y / F' y) := hmono hrI hzI hroot
        have h6 : F' y ≤ F' x0 := hmono hyI h0I b
        have h7 : F' root / F' x0 * F y ≤ F' (y - F y / F' y) * (F y / F' y) := by
          have : F' root / F' x0 ≤ F' (y - F y / F' y) / F' y :=
            div_le_div₀ (hpos.le.trans h5) h5 hyp h6
          calc F' root / F' x0 * F y ≤ F' (y - F y / F' y) / F' y * F y := mul_le_mul_of_nonneg_right this c
            _ = F' (y - F y / F' y) * (F y / F' y) := by ring
        linarith
      rw [hx]
      refine ⟨hroot, by linarith, hnn, hdec.trans ?_⟩
      have hle1 : 0 ≤ 1 - F' root / F' x0 := by
        have : F' root / F' x0 ≤ 1 := (div_le_one hx0p).2 (hmono hrI h0I h0)
        linarith
      calc (1 - F' root / F' x0) * F y ≤ (1 - F' root / F' x0) * ((1 - F' root / F' x0) ^ j * F x0) :=
            mul_le_mul_of_nonneg_left d hle1
        _ = (1 - F' root / F' x0) ^ (j + 1) * F x0 := by ring
  -- the loop runs without a zero derivative
  have hrun : ∀ left i, ∃ r, loop (pair F F') ε left i (point F F' x0 i) = .ok r := by
    intro left
    induction left with
    | zero => intro i; exact ⟨_, rfl⟩
    | succ left ih =>
      intro i
      have hne : F' (point F F' x0 i) ≠ 0 := (hpos.trans_le (hmono hrI ⟨(hinv i).1, (hinv i).2.1⟩ (hinv i).1)).ne'
      rw [loop_succ, if_neg hne]
      split_ifs
      · exact ⟨_, rfl⟩
      · exact ih (i + 1)
  obtain ⟨⟨x, i, ok⟩, hres⟩ := hrun maxiter 0
  have hres' : newton (pair F F') x0 ε maxiter = .ok (x, i, ok) := hres
  obtain ⟨hiff, hs, _⟩ := C90_points F F' x0 ε maxiter x i ok hres'
  have hsmall : |F (point F F' x0 k)| < ε := by
    rw [abs_of_nonneg (hinv k).2.2.1]
    exact (hinv k).2.2.2.trans_lt hε
  have hok : ok = true := hiff.2 ⟨k, hk, hsmall⟩
  subst hok
  obtain ⟨_, _, h3, h4⟩ := hs rfl
  refine ⟨x, i, hres', ?_, ?_, ?_⟩
  · by_contra hc
    have := h3 k (by omega)
    linarith
  · rw [h4]; exact (hinv (i + 1)).1
  · rw [h4]; exact (hinv (i + 1)).2.1

/-- **C90 fails** for the residual of the value returned, which is documented as the root with
`|f(x)| < ε`: for every tolerance and every bound there is a polynomial with its derivative for which success is
reported at the first point and the residual of the value exceeds the bound. -/
theorem C90_residual_wrong (ε B : ℝ) (hε : 0 < ε) (hε1 : ε ≤ 1) (hB : 1 ≤ B) (maxiter : ℕ) (hmax : 0 < maxiter) :
    ∃ (F F' : ℝ → ℝ) (x0 x : ℝ), (∀ y, HasDerivAt F (F' y) y) ∧
      newton (pair F F') x0 ε maxiter = .ok (x, 0, true) ∧ B < |F x| := by
  obtain ⟨n, rfl⟩ : ∃ n, maxiter = n + 1 := ⟨maxiter - 1, by omega⟩
  -- `F x = x² + ε/2` at `x0 = δ` small
  set δ : ℝ := ε / (8 * B) with hδ
  have hδ0 : 0 < δ := by positivity
  have hδ1 : δ ≤ ε / 8 := by
    rw [hδ]
    apply div_le_div_of_nonneg_left hε.le (by norm_num) (by linarith)
  set x : ℝ := δ - (δ ^ 2 + ε / 2) / (2 * δ) with hx
  have hxv : x = δ / 2 - 2 * B := by
    rw [hx, hδ]; field_simp; ring
  refine ⟨fun y => y ^ 2 + ε / 2, fun y => 2 * y, δ, x, ?_, ?_, ?_⟩
  · intro y
    exact ((hasDerivAt_pow 2 y).add_const (ε / 2)).congr_deriv (by push_cast; ring)
  · rw [newton, loop_succ, if_neg (by positivity), if_pos]
    rw [abs_of_nonneg (by positivity)]
    nlinarith
  · rw [abs_of_nonneg (by positivity), hxv]
    have h1 : δ / 2 ≤ 1 / 16 := by linarith
    nlinarith

/-- The hypotheses of `C90_convex` hold for `exp x - 1`, from `1`. -/
example : ∃ x i, newton (pair (fun x => Real.exp x - 1) Real.exp) 1 (1 / 100) 100 = .ok (x, i, true) ∧ 0 ≤ x := by
  have hpos : (0:ℝ) < Real.exp 1 := Real.exp_pos 1
  have h1 : Real.exp 1 ≤ 3 := by have := Real.exp_one_lt_d9; linarith
  have hge : (1:ℝ) ≤ Real.exp 1 := Real.one_le_exp (by norm_num)
  obtain ⟨x, i, h, _, h2, _⟩ := C90_convex (fun x => Real.exp x - 1) Real.exp 1 (1 / 100) 0 100 20
    (fun x _ => (Real.hasDerivAt_exp x).sub_const 1) (Real.exp_monotone.monotoneOn _) (by simp) (Real.exp_pos 0) (by norm_num)
    (by norm_num) (by
      have h3 : (1 - Real.exp 0 / Real.exp 1) ≤ 2 / 3 := by
        rw [Real.exp_zero]
        have : 1 / 3 ≤ 1 / Real.exp 1 := one_div_le_one_div_of_le hpos h1
        linarith
      have h4 : 0 ≤ 1 - Real.exp 0 / Real.exp 1 := by
        rw [Real.exp_zero]
        have : 1 / Real.exp 1 ≤ 1 := by rw [div_le_one hpos]; exact hge
        linarith
      calc (1 - Real.exp 0 / Real.exp 1) ^ 20 * (Real.exp 1 - 1) ≤ (2 / 3) ^ 20 * 2 := by
            apply mul_le_mul (pow_le_pow_left₀ h4 h3 20) (by linarith) (by linarith) (by positivity)
        _ < 1 / 100 := by norm_num)
  exact ⟨x, i, h, h2⟩

/-- Those of `C90_distance` and `C90_residual_partial` hold for a linear function, of which the first point after the guess is the root. -/
example : ∃ x i, newton (pair (fun x => 2 * x - 6) fun _ => 2) 1 (1 / 100) 100 = .ok (x, i, true) ∧ |x - 3| ≤ 2 * (1 / 100) / 2 ∧
    |2 * x - 6| ≤ 0 * (1 / 100) ^ 2 / (2 * 2 ^ 2) := by
  have hd : ∀ x ∈ Set.univ, HasDerivAt (fun x : ℝ => 2 * x - 6) 2 x := fun x _ => by
    simpa using ((hasDerivAt_id x).const_mul 2).sub_const 6
  have h : newton (pair (fun x : ℝ => 2 * x - 6) fun _ => 2) 1 (1 / 100) 100 = .ok (3, 1, true) := by
    rw [newton, loop_succ, if_neg (by norm_num), if_neg (by norm_num [abs_lt]), loop_succ, if_neg (by norm_num), if_pos (by norm_num)]
    norm_num
  exact ⟨3, 1, h, C90_distance _ _ 1 (1 / 100) 2 100 3 1 3 Set.univ Set.ordConnected_univ (fun _ _ => trivial) trivial hd (by norm_num) (fun _ _ => le_refl _) (by norm_num) h,
    C90_residual_partial _ _ 1 (1 / 100) 2 0 100 3 1 Set.univ Set.ordConnected_univ (fun _ _ => trivial) hd le_rfl (fun _ _ _ _ => by simp) (by norm_num)
      (fun _ _ => by norm_num) h⟩

end Verif.Newton
