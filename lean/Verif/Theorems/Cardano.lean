import Verif.Model.Cardano
import Mathlib.Tactic.Linarith
import Mathlib.Tactic.LinearCombination
import Mathlib.Tactic.FieldSimp
import Mathlib.Tactic.Ring
import Mathlib.Tactic.Positivity

/-!
# Theorem C21: Cardano's method
-/

namespace Verif.Cardano

open Complex

theorem cbrt_cube (x : ℝ) : cbrt x ^ 3 = x := by
  have aux : ∀ y : ℝ, 0 ≤ y → (y ^ (1 / 3 : ℝ)) ^ 3 = y := by
    intro y hy
    rw [← Real.rpow_natCast, ← Real.rpow_mul hy]
    norm_num
  unfold cbrt
  by_cases h : 0 ≤ x
  · rw [if_pos h]; exact aux x h
  · rw [if_neg h]
    have := aux (-x) (by linarith [not_le.1 h])
    rw [show (-((-x) ^ (1 / 3 : ℝ))) ^ 3 = -(((-x) ^ (1 / 3 : ℝ)) ^ 3) by ring, this]
    ring

theorem cube_inj {x y : ℝ} (h : x ^ 3 = y ^ 3) : x = y := by
  have : (x - y) * (x ^ 2 + x * y + y ^ 2) = 0 := by linear_combination h
  rcases mul_eq_zero.1 this with h1 | h1
  · linarith
  · have hx : x = 0 := by nlinarith [sq_nonneg (x + y), sq_nonneg x, sq_nonneg y, sq_nonneg (x - y)]
    have hy : y = 0 := by nlinarith [sq_nonneg (x + y), sq_nonneg x, sq_nonneg y, sq_nonneg (x - y)]
    rw [hx, hy]

/-- The cubic in the shifted variable `t = x - xn`. -/
theorem shifted (b c d : ℝ) (x : ℂ) :
    x ^ 3 + b * x ^ 2 + c * x + d = (x - xn b) ^ 3 - 3 * delta2 b c * (x - xn b) + yn b c d := by
  unfold delta2 yn xn
  push_cast
  ring

/-- **C21.** Outside the tolerance band, and at a vanishing discriminant, the three returned numbers are the roots of
`x^3 + b x^2 + c x + d` with multiplicity, for all real coefficients and every tolerance. -/
theorem C21_roots_partial (eps b c d : ℝ) (h0 : 0 ≤ eps) (hd : eps < |discr b c d| ∨ discr b c d = 0) (x : ℂ) :
    x ^ 3 + b * x ^ 2 + c * x + d =
      (x - (cardano eps b c d).1) * (x - (cardano eps b c d).2.1) * (x - (cardano eps b c d).2.2) := by
  rw [shifted]
  have hD : discr b c d = yn b c d ^ 2 - 4 * delta2 b c ^ 3 := by unfold discr; ring
  unfold cardano
  generalize hx : xn b = n at *
  generalize hy : yn b c d = y at *
  generalize hdl : delta2 b c = e at *
  generalize hdi : discr b c d = D at *
  by_cases h1 : D > eps
  · simp only [if_pos h1]
    generalize hu : cbrt (1 / 2 * (-y + √D)) = u
    generalize hv : cbrt (1 / 2 * (-y - √D)) = v
    have hD0 : 0 ≤ D := by linarith
    have hs : √D * √D = D := Real.mul_self_sqrt hD0
    have hu3 : u ^ 3 = 1 / 2 * (-y + √D) := by rw [← hu, cbrt_cube]
    have hv3 : v ^ 3 = 1 / 2 * (-y - √D) := by rw [← hv, cbrt_cube]
    have huv : u * v = e := by
      apply cube_inj
      rw [mul_pow, hu3, hv3]
      linear_combination (-1 / 4 : ℝ) * hs - (1 / 4 : ℝ) * hD
    have hsum : u ^ 3 + v ^ 3 = -y := by rw [hu3, hv3]; ring
    have hsq : √(3 * ((n + u + v - n) * (n + u + v - n) - 4 * e)) ^ 2 = 3 * (u - v) ^ 2 := by
      rw [Real.sq_sqrt]
      · rw [← huv]; ring
      · rw [← huv]; nlinarith [sq_nonneg (u - v)]
    generalize hw : √(3 * ((n + u + v - n) * (n + u + v - n) - 4 * e)) = w at *
    have m1 : (⟨n - 1 / 2 * (n + u + v - n), -(1 / 2 * w)⟩ : ℂ) = ((n - 1 / 2 * (u + v) : ℝ) : ℂ) - ((1 / 2 * w : ℝ) : ℂ) * I := by
      apply Complex.ext <;> simp; ring
    have m2 : (⟨n - 1 / 2 * (n + u + v - n), (1 / 2 * w)⟩ : ℂ) = ((n - 1 / 2 * (u + v) : ℝ) : ℂ) + ((1 / 2 * w : ℝ) : ℂ) * I := by
      apply Complex.ext <;> simp; ring
    rw [m1, m2]
    have hsqC : (w : ℂ) ^ 2 = 3 * ((u : ℂ) - v) ^ 2 := by exact_mod_cast hsq
    have huvC : (u : ℂ) * v = e := by exact_mod_cast huv
    have hsumC : (u : ℂ) ^ 3 + (v : ℂ) ^ 3 = -y := by exact_mod_cast hsum
    push_cast
    linear_combination (3 * (x - n)) * huvC + hsumC + (-(1 / 4 : ℂ) * (x - n - u - v)) * hsqC +
      (1 / 4 : ℂ) * (w : ℂ) ^ 2 * (x - n - u - v) * Complex.I_sq
  · rw [if_neg h1]
    by_cases h2 : D < -eps
    · simp only [if_pos h2]
      have he3 : 0 < e ^ 3 := by nlinarith [sq_nonneg y]
      have he : 0 < e := by
        by_contra hc
        have : e ≤ 0 := not_lt.1 hc
        nlinarith [mul_nonneg (sq_nonneg e) (neg_nonneg.2 this)]
      have hde : √e * √e = e := Real.mul_self_sqrt (le_of_lt he)
      have hdp : 0 < √e := Real.sqrt_pos.2 he
      generalize √e = δ at *
      have hh : 0 < 2 * e * δ := by positivity
      have habs : y ^ 2 ≤ (2 * e * δ) ^ 2 := by
        have : (2 * e * δ) ^ 2 = 4 * e ^ 3 := by rw [← hde]; ring
        rw [this]; linarith
      have habs2 := abs_le.1 (abs_le_of_sq_le_sq habs (le_of_lt hh))
      have hcos : Real.cos (3 * (Real.arccos (-y / (2 * e * δ)) / 3)) = -y / (2 * e * δ) := by
        rw [mul_div_cancel₀ _ (by norm_num), Real.cos_arccos]
        · rw [le_div_iff₀ hh]; linarith [habs2.2]
        · rw [div_le_iff₀ hh]; linarith [habs2.1]
      generalize Real.arccos (-y / (2 * e * δ)) / 3 = θ at *
      have c1 : Real.cos (2 * Real.pi / 3) = -1 / 2 := by
        rw [show 2 * Real.pi / 3 = Real.pi - Real.pi / 3 by ring, Real.cos_pi_sub, Real.cos_pi_div_three]; norm_num
      have s1 : Real.sin (2 * Real.pi / 3) = √3 / 2 := by
        rw [show 2 * Real.pi / 3 = Real.pi - Real.pi / 3 by ring, Real.sin_pi_sub, Real.sin_pi_div_three]
      rw [Real.cos_sub, Real.cos_add, c1, s1]
      rw [Real.cos_three_mul, eq_div_iff (ne_of_gt hh)] at hcos
      have hcs := Real.sin_sq_add_cos_sq θ
      have h3 : √3 * √3 = 3 := Real.mul_self_sqrt (by norm_num)
      generalize Real.cos θ = C at *
      generalize Real.sin θ = S at *
      generalize √(3 : ℝ) = q at *
      have hdeC : (δ : ℂ) * δ = e := by exact_mod_cast hde
      have hcosC : ((4 * (C : ℂ) ^ 3 - 3 * C) * (2 * e * δ)) = -y := by exact_mod_cast hcos
      have hcsC : (S : ℂ) ^ 2 + (C : ℂ) ^ 2 = 1 := by exact_mod_cast hcs
      have h3C : (q : ℂ) * q = 3 := by exact_mod_cast h3
      push_cast
      linear_combination (3 * (x - n) + 2 * δ * (4 * (C : ℂ) ^ 3 - 3 * C)) * hdeC + hcosC +
        (x - n - 2 * δ * C) * ((δ : ℂ) ^ 2 * S ^ 2 * h3C + 3 * (δ : ℂ) ^ 2 * hcsC)
    · rw [if_neg h2]
      have hD0 : D = 0 := by
        rcases hd with hd | hd
        · exact absurd hd (not_lt.2 (abs_le.2 ⟨not_lt.1 h2, not_lt.1 h1⟩))
        · exact hd
      have hc3 := cbrt_cube (1 / 2 * y)
      generalize cbrt (1 / 2 * y) = δ at *
      have he : e = δ ^ 2 := by
        apply cube_inj
        have : e ^ 3 = y ^ 2 / 4 := by linarith
        rw [this, ← pow_mul, show 2 * 3 = 3 * 2 by norm_num, pow_mul, hc3]
        ring
      have heC : (e : ℂ) = (δ : ℂ) ^ 2 := by exact_mod_cast he
      have hcC : (δ : ℂ) ^ 3 = 1 / 2 * y := by rw [← Complex.ofReal_pow, hc3]; push_cast; ring
      dsimp only
      split_ifs <;> push_cast <;> linear_combination (-3 * (x - n)) * heC - 2 * hcC

theorem cube_diff (p q : ℝ) : |p - q| ^ 3 ≤ 4 * |p ^ 3 - q ^ 3| := by
  have h1 : p ^ 3 - q ^ 3 = (p - q) * (p ^ 2 + p * q + q ^ 2) := by ring
  have h2 : 0 ≤ p ^ 2 + p * q + q ^ 2 := by nlinarith [sq_nonneg (p + q), sq_nonneg p, sq_nonneg q]
  rw [h1, abs_mul, abs_of_nonneg h2]
  have h3 : |p - q| ^ 3 = |p - q| * (p - q) ^ 2 := by rw [pow_succ, mul_comm, sq_abs]
  rw [h3]
  nlinarith [abs_nonneg (p - q), mul_nonneg (abs_nonneg (p - q)) (sq_nonneg (p + q))]

/-- **C21 (all coefficients).** Without any condition on the discriminant the cubic equals the product of the returned linear
factors up to a linear term `3 r (x - xn)` whose coefficient vanishes outside the tolerance band and satisfies `|r|^3 ≤ eps`
inside it. -/
theorem C21_backward_error (eps b c d : ℝ) (h0 : 0 ≤ eps) : ∃ r : ℝ, |r| ^ 3 ≤ eps ∧ (eps < |discr b c d| → r = 0) ∧ ∀ x : ℂ,
    x ^ 3 + b * x ^ 2 + c * x + d =
      (x - (cardano eps b c d).1) * (x - (cardano eps b c d).2.1) * (x - (cardano eps b c d).2.2) + 3 * r * (x - (-b / 3)) := by
  by_cases hd : eps < |discr b c d|
  · refine ⟨0, by simpa using h0, fun _ => rfl, fun x => ?_⟩
    rw [C21_roots_partial eps b c d h0 (Or.inl hd) x]
    simp
  · have hD : discr b c d = yn b c d ^ 2 - 4 * delta2 b c ^ 3 := by unfold discr; ring
    have hxn : (-(b : ℂ) / 3) = ((xn b : ℝ) : ℂ) := by unfold xn; push_cast; ring
    have hab := abs_le.1 (not_lt.1 hd)
    refine ⟨cbrt (1 / 2 * yn b c d) ^ 2 - delta2 b c, ?_, fun h => absurd h hd, fun x => ?_⟩
    · refine le_trans (cube_diff _ _) ?_
      rw [← pow_mul, show 2 * 3 = 3 * 2 by norm_num, pow_mul, cbrt_cube]
      have : (1 / 2 * yn b c d) ^ 2 - delta2 b c ^ 3 = discr b c d / 4 := by rw [hD]; ring
      rw [this, abs_div, abs_of_pos (by norm_num : (0 : ℝ) < 4)]
      linarith [not_lt.1 hd]
    · rw [shifted, hxn]
      unfold cardano
      have g1 : ¬ discr b c d > eps := not_lt.2 hab.2
      have g2 : ¬ discr b c d < -eps := not_lt.2 hab.1
      rw [if_neg g1, if_neg g2]
      have hc3 := cbrt_cube (1 / 2 * yn b c d)
      generalize cbrt (1 / 2 * yn b c d) = δ at *
      generalize yn b c d = y at *
      generalize delta2 b c = e at *
      generalize xn b = n at *
      have hcC : (δ : ℂ) ^ 3 = 1 / 2 * y := by rw [← Complex.ofReal_pow, hc3]; push_cast; ring
      dsimp only
      split_ifs <;> push_cast <;> linear_combination -2 * hcC

/-- The returned numbers can fail to be roots: for every positive tolerance there are coefficients for which a returned number
is not a root. (For doubles, `x^3 + 1e-8` has the simple root `-2.15e-3`; `-3.42e-3` and the double root `1.71e-3` are
returned.) -/
theorem C21_not_roots_in_band (eps : ℝ) (h0 : 0 < eps) : ∃ b c d : ℝ,
    (cardano eps b c d).2.1 ^ 3 + b * (cardano eps b c d).2.1 ^ 2 + c * (cardano eps b c d).2.1 + d ≠ 0 := by
  refine ⟨0, 0, √eps, ?_⟩
  have hx : xn 0 = 0 := by unfold xn; simp
  have hy : yn 0 0 (√eps) = √eps := by unfold yn; rw [hx]; ring
  have hdl : delta2 0 0 = 0 := by unfold delta2; ring
  have hdi : discr 0 0 (√eps) = eps := by
    unfold discr; rw [hy, hdl, Real.mul_self_sqrt (le_of_lt h0)]; ring
  have hpos : 0 < √eps := Real.sqrt_pos.2 h0
  unfold cardano
  rw [hx, hy, hdl, hdi, if_neg (lt_irrefl _), if_neg (by linarith)]
  have hc3 := cbrt_cube (1 / 2 * √eps)
  generalize cbrt (1 / 2 * √eps) = δ at *
  have hcC : (δ : ℂ) ^ 3 = 1 / 2 * (√eps : ℝ) := by rw [← Complex.ofReal_pow, hc3]; push_cast; ring
  have hne : ((√eps : ℝ) : ℂ) ≠ 0 := by exact_mod_cast ne_of_gt hpos
  dsimp only
  split_ifs <;> (intro h; apply hne; push_cast at h; linear_combination (2 / 3 : ℂ) * h - (2 / 3 : ℂ) * hcC)

/-- A real number is returned by `realRoots` exactly when it is a root (outside the tolerance band). -/
theorem C21_real_roots_partial (eps b c d : ℝ) (h0 : 0 ≤ eps) (hd : eps < |discr b c d| ∨ discr b c d = 0) (x : ℝ) :
    x ∈ realRoots (cardano eps b c d) ↔ x ^ 3 + b * x ^ 2 + c * x + d = 0 := by
  have h := C21_roots_partial eps b c d h0 hd (x : ℂ)
  have key : ∀ z : ℂ, ((x : ℂ) - z = 0) ↔ (z.im = 0 ∧ z.re = x) := by
    intro z
    rw [sub_eq_zero]
    constructor
    · intro hz; rw [← hz]; simp
    · rintro ⟨h1, h2⟩; apply Complex.ext <;> simp [h1, h2]
  have hreal : (x ^ 3 + b * x ^ 2 + c * x + d = 0) ↔ ((x : ℂ) ^ 3 + b * (x : ℂ) ^ 2 + c * x + d = 0) := by
    constructor <;> intro h' <;> exact_mod_cast h'
  rw [hreal, h, mul_eq_zero, mul_eq_zero, key, key, key]
  unfold realRoots
  simp only [List.mem_append]
  have mem : ∀ z : ℂ, (x ∈ (if z.im = 0 then [z.re] else [] : List ℝ)) ↔ (z.im = 0 ∧ z.re = x) := by
    intro z
    by_cases hz : z.im = 0
    · rw [if_pos hz]; simp [hz, eq_comm]
    · rw [if_neg hz]; simp [hz]
  rw [mem, mem, mem]

/-- Three real numbers are returned exactly when the discriminant is not above the tolerance, and they come in ascending
order (the documentation of `cardano` says descending). Otherwise exactly one is real and it comes first. -/
theorem C21_ascending (eps b c d : ℝ) (h0 : 0 ≤ eps) :
    (discr b c d ≤ eps → ∃ r1 r2 r3 : ℝ, cardano eps b c d = ((r1 : ℂ), (r2 : ℂ), (r3 : ℂ)) ∧ r1 ≤ r2 ∧ r2 ≤ r3 ∧
      realRoots (cardano eps b c d) = [r1, r2, r3]) ∧
    (eps < discr b c d → ∃ r1 : ℝ, (cardano eps b c d).1 = r1 ∧ realRoots (cardano eps b c d) = [r1]) := by
  have rr : ∀ r1 r2 r3 : ℝ, realRoots ((r1 : ℂ), (r2 : ℂ), (r3 : ℂ)) = [r1, r2, r3] := by
    intro r1 r2 r3; simp [realRoots]
  constructor
  · intro hd
    suffices h : ∃ r1 r2 r3 : ℝ, cardano eps b c d = ((r1 : ℂ), (r2 : ℂ), (r3 : ℂ)) ∧ r1 ≤ r2 ∧ r2 ≤ r3 by
      obtain ⟨r1, r2, r3, e, h1, h2⟩ := h
      exact ⟨r1, r2, r3, e, h1, h2, by rw [e]; exact rr _ _ _⟩
    unfold cardano
    rw [if_neg (not_lt.2 hd)]
    by_cases h2 : discr b c d < -eps
    · simp only [if_pos h2]
      refine ⟨_, _, _, rfl, ?_, ?_⟩
      all_goals
        have t0 : 0 ≤ Real.arccos (-yn b c d / (2 * delta2 b c * √(delta2 b c))) / 3 :=
          div_nonneg (Real.arccos_nonneg _) (by norm_num)
        have t1 : Real.arccos (-yn b c d / (2 * delta2 b c * √(delta2 b c))) / 3 ≤ Real.pi / 3 := by
          have := Real.arccos_le_pi (-yn b c d / (2 * delta2 b c * √(delta2 b c)))
          linarith
        generalize Real.arccos (-yn b c d / (2 * delta2 b c * √(delta2 b c))) / 3 = θ at *
        have hs : 0 ≤ 2 * √(delta2 b c) := by positivity
        have hpi := Real.pi_pos
        apply add_le_add (le_refl _)
        apply mul_le_mul_of_nonneg_left _ hs
        apply Real.cos_le_cos_of_nonneg_of_le_pi <;> linarith
    · rw [if_neg h2]
      generalize cbrt (1 / 2 * yn b c d) = δ
      by_cases h3 : xn b + δ < xn b - 2 * δ
      · simp only [if_pos h3]; exact ⟨_, _, _, rfl, le_refl _, le_of_lt h3⟩
      · simp only [if_neg h3]; exact ⟨_, _, _, rfl, not_lt.1 h3, le_refl _⟩
  · intro hd
    unfold cardano
    simp only [if_pos hd]
    have hD : discr b c d = yn b c d ^ 2 - 4 * delta2 b c ^ 3 := by unfold discr; ring
    have hD0 : 0 < discr b c d := by linarith
    generalize yn b c d = y at *
    generalize delta2 b c = e at *
    generalize discr b c d = D at *
    have hu3 := cbrt_cube (1 / 2 * (-y + √D))
    have hv3 := cbrt_cube (1 / 2 * (-y - √D))
    generalize cbrt (1 / 2 * (-y + √D)) = u at *
    generalize cbrt (1 / 2 * (-y - √D)) = v at *
    have hs : √D * √D = D := Real.mul_self_sqrt (le_of_lt hD0)
    have hsp : 0 < √D := Real.sqrt_pos.2 hD0
    have huv : u * v = e := by
      apply cube_inj
      rw [mul_pow, hu3, hv3]
      linear_combination (-1 / 4 : ℝ) * hs - (1 / 4 : ℝ) * hD
    have hne : u ≠ v := by
      intro h
      rw [h, hv3] at hu3
      linarith
    have hpos : 0 < 3 * ((xn b + u + v - xn b) * (xn b + u + v - xn b) - 4 * e) := by
      rw [← huv]
      have : 0 < (u - v) ^ 2 := by
        have := sub_ne_zero.2 hne
        positivity
      nlinarith
    have hw := Real.sqrt_pos.2 hpos
    refine ⟨xn b + u + v, rfl, ?_⟩
    have a1 : ¬ (-(1 / 2 * √(3 * ((xn b + u + v - xn b) * (xn b + u + v - xn b) - 4 * e))) = 0) := by
      intro h; linarith
    have a2 : ¬ ((1 / 2 * √(3 * ((xn b + u + v - xn b) * (xn b + u + v - xn b) - 4 * e))) = 0) := by
      intro h; linarith
    simp only [realRoots]
    rw [if_neg a1, if_neg a2, if_pos (Complex.ofReal_im _)]
    simp

example : discr 0 0 (-8) = 64 ∧ discr (-6) 11 (-6) < 0 ∧ discr (-3) 3 (-1) = 0 := by
  unfold discr yn delta2 xn
  norm_num

end Verif.Cardano
