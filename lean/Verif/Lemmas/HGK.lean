import Verif.Lemmas.Jet
import Mathlib.Tactic.FieldSimp
import Mathlib.Tactic.Positivity
import Mathlib.Tactic.LinearCombination
import Mathlib.Tactic.IntervalCases

/-!
# The contributions to the equation of Haar, Gallagher and Kell
-/

namespace Verif.Water

open Real Filter Topology

local macro "unfold_jets" : tactic =>
  `(tactic| simp only [HState.mul, HState.comp, HState.exp, HState.log, HState.inv, HState.rpow, HState.zpow, HState.const,
    HState.varT, HState.varD, add_h, add_hT, add_hD, add_hTT, add_hTD, add_hDD, add_hTTT, add_hTTD, add_hTDD, add_hDDD])

variable {T D : ℝ}

theorem hgk0log_jet (hT : 0 < T) (hD : 0 < D) : IsJet hgk0log T D := by
  have h := ((IsJet.const (T := T) (D := D) (hgkA0.getD 0 0)).add ((IsJet.const (hgkA0.getD 1 0)).mul IsJet.varT)).mul
    (IsJet.varT.log hT.ne')
  refine h.congr_pos hT hD ?_
  intro t d ht hd
  unfold hgk0log
  generalize hgkA0.getD 0 0 = a, hgkA0.getD 1 0 = b
  ext <;> unfold_jets <;> field_simp <;> ring

theorem hgk0term_jet (A : ℝ) (i : ℤ) (hT : 0 < T) (hD : 0 < D) : IsJet (hgk0term A i) T D := by
  have h := (IsJet.const (T := T) (D := D) A).mul (IsJet.varT.zpow (i - 4) hT.ne')
  refine h.congr_pos hT hD ?_
  intro t d ht hd
  unfold hgk0term
  generalize ht' : t ^ (i - 4) = w
  ext <;> unfold_jets <;> rw [ht'] <;> push_cast <;> field_simp <;> ring

theorem hgk1term_jet (A : ℝ) (i : ℤ) (hT : 0 < T) (hD : 0 < D) : IsJet (hgk1term A i) T D := by
  have h := ((IsJet.varD (T := T) (D := D)).mul (IsJet.const A)).mul (IsJet.varT.zpow (1 - i) hT.ne')
  refine h.congr_pos hT hD ?_
  intro t d ht hd
  unfold hgk1term
  generalize ht' : t ^ (1 - i) = w
  ext <;> unfold_jets <;> rw [ht'] <;> push_cast <;> field_simp <;> ring

theorem hgkY_jet (hT : 0 < T) (hD : 0 < D) : IsJet hgkY T D := by
  have h := (IsJet.varD (T := T) (D := D)).mul ((((IsJet.const (hgkYc.getD 0 0)).add
    ((IsJet.const (hgkYc.getD 1 0)).mul (IsJet.varT.log hT.ne'))).add
    ((IsJet.const (hgkYc.getD 2 0)).mul (IsJet.varT.zpow (-3) hT.ne'))).add
    ((IsJet.const (hgkYc.getD 3 0)).mul (IsJet.varT.zpow (-5) hT.ne')))
  refine h.congr_pos hT hD ?_
  intro t d ht hd
  unfold hgkY
  generalize hgkYc.getD 0 0 = a, hgkYc.getD 1 0 = b, hgkYc.getD 2 0 = c, hgkYc.getD 3 0 = e
  generalize h3 : t ^ (-3 : ℤ) = w3
  generalize h5 : t ^ (-5 : ℤ) = w5
  ext <;> unfold_jets <;> rw [h3, h5] <;> push_cast <;> field_simp <;> ring

/-- `x` with the cross derivative corrected. -/
noncomputable def hgkXfix (y : HState) : HState := ((HState.const 1) + (HState.const (-1)).mul y).inv

/-- What the code's `x_rrt` has in excess. -/
noncomputable def hgkXerr (y : HState) : ℝ := 2 * (y.hTD * (hgkX y).hD + y.hDD * (hgkX y).hT) * (1 - (hgkX y).h)

theorem hgkX_eq (y : HState) (hy : y.h < 1) :
    hgkX y = { hgkXfix y with hTDD := (hgkXfix y).hTDD + hgkXerr y } := by
  have h1 : 1 - y.h ≠ 0 := by linarith
  have h2 : 1 + -1 * y.h = 1 - y.h := by ring
  unfold hgkX hgkXfix hgkXerr hgkX
  ext <;> unfold_jets <;> rw [h2] <;> (try simp only [zero_mul, mul_zero, add_zero, zero_add]) <;>
    generalize 1 - y.h = z at h1 ⊢ <;> field_simp <;> ring

/-- The second contribution computed with the corrected `x`, and with the corrected third derivative. -/
noncomputable def hgk2fix (t d : ℝ) : HState :=
  { hgk2 t d with
    hTDD := (hgk2 t d).hTDD - hgkA20 * t * (1 / (hgkX (hgkY t d)).h + hgkc1 + 2 * hgkc2 * (hgkX (hgkY t d)).h)
      * hgkXerr (hgkY t d)
    hTTT := (hgk2 t d).hTTT + 3 * (hgk2 t d).h / t ^ 3 }

theorem hgkU_eq (x : HState) (d : ℝ) (hx : x.h ≠ 0) (hd : d ≠ 0) : hgkU x d = ((HState.varD d).mul x).log := by
  unfold hgkU
  ext <;> unfold_jets <;> field_simp <;> ring

theorem hgk2_jet (hT : 0 < T) (hD : 0 < D) (hy : (hgkY T D).h < 1) : IsJet hgk2fix T D := by
  have jy := hgkY_jet hT hD
  have jx : IsJet (fun t d => hgkXfix (hgkY t d)) T D := by
    refine ((IsJet.const 1).add ((IsJet.const (-1)).mul jy)).inv ?_
    unfold_jets
    linarith
  have hxpos : ∀ y : HState, y.h < 1 → 0 < (hgkXfix y).h := by
    intro y hy
    have : (hgkXfix y).h = 1 / (1 + -1 * y.h) := rfl
    rw [this]
    exact one_div_pos.mpr (by linarith)
  have hx : 0 < (hgkXfix (hgkY T D)).h := hxpos _ hy
  have ju := (IsJet.varD.mul jx).log (mul_pos hD hx).ne'
  have jg := ((ju.add ((IsJet.const hgkc1).mul jx)).add ((IsJet.const hgkc2).mul (jx.mul jx))).add
    ((IsJet.const hgkc3).mul jy)
  have jf := ((IsJet.const hgkA20).mul IsJet.varT).mul jg
  refine jf.congr ?_
  filter_upwards [IsJet.eventually_fst (eventually_gt_nhds hT), IsJet.eventually_snd (eventually_gt_nhds hD),
    jy.h.continuousAt.eventually_lt_const hy] with p ht hd hy'
  obtain ⟨t, d⟩ := p
  simp only [] at ht hd hy' ⊢
  have hx' := hxpos _ hy'
  unfold hgk2fix hgk2
  simp only []
  rw [hgkU_eq _ d (by rw [hgkX_eq _ hy']; exact hx'.ne') hd.ne']
  rw [hgkX_eq _ hy']
  generalize hgkXerr (hgkY t d) = e
  generalize hgkXfix (hgkY t d) = x at hx' ⊢
  generalize hgkY t d = y
  unfold hgk2of
  generalize hgkA20 = A, hgkc1 = c1, hgkc2 = c2, hgkc3 = c3
  ext <;> unfold_jets <;> field_simp <;> ring

theorem hgk3term_jet (A : ℝ) (l k : ℕ) (hA : A ≠ 0) (hT : 0 < T) (hD : 0 < D) : IsJet (hgk3term A l k) T D := by
  have hz0 : 0 < hgkz0 := by unfold hgkz0; norm_num
  have hzp : ∀ d, 0 < d → 0 < 1 - exp ((-hgkz0) * d) := by
    intro d hd
    have : exp (-hgkz0 * d) < exp 0 := exp_lt_exp.mpr (by nlinarith)
    rw [exp_zero] at this
    linarith
  have jz := (IsJet.const (T := T) (D := D) 1).add ((IsJet.const (-1)).mul ((IsJet.const (-hgkz0)).mul IsJet.varD).exp)
  have h := ((IsJet.const A).mul (IsJet.varT.zpow (-(l : ℤ)) hT.ne')).mul (jz.zpow k (by
    have := hzp D hD
    unfold_jets
    linarith))
  refine h.congr_pos hT hD ?_
  intro t d ht hd
  have hz := hzp d hd
  have he : 1 + -1 * exp (-hgkz0 * d) = 1 - exp (-hgkz0 * d) := by ring
  have hw := exp_pos (-hgkz0 * d)
  have hzk : (1 - exp (-hgkz0 * d)) ^ k ≠ 0 := pow_ne_zero _ hz.ne'
  have htl : t ^ (-(l : ℤ)) ≠ 0 := zpow_ne_zero _ ht.ne'
  unfold hgk3term
  generalize hgkz0 = z0 at *
  ext <;> unfold_jets <;> rw [he, zpow_natCast] <;> generalize (1 - exp (-z0 * d)) ^ k = Z at * <;>
    generalize t ^ (-(l : ℤ)) = L at * <;>
    (obtain ⟨z, hzz⟩ : ∃ z, z = 1 - exp (-z0 * d) := ⟨_, rfl⟩) <;>
    (have hez : exp (-z0 * d) = 1 - z := by linarith) <;>
    rw [hez] at hw hz ⊢ <;> (have h1z : 1 - (1 - z) = z := by ring) <;> rw [h1z] at hz ⊢ <;>
    (push_cast; field_simp; try ring)

/-- The exponent of a term of the last contribution divided by its derivative with respect to density, and
the derivative of the latter : the code's `psi` and `psi_r`. -/
noncomputable def hgkPsi_r (al r0 : ℝ) (m n : ℕ) (d : ℝ) : ℝ :=
  -((n + al * m * (m - 1) * ((d - r0) / r0) ^ m) * (1 / r0 / ((d - r0) / r0)) ^ 2)

/-- A term of the last contribution with the cross derivative corrected. -/
noncomputable def hgk4fix (A al be r0 t0 : ℝ) (m n : ℕ) (t d : ℝ) : HState :=
  let s := hgk4term A al be r0 t0 m n t d
  { s with hTDD := s.hTDD - hgkPsi_r al r0 m n d * (s.hD - s.hT) }

set_option maxHeartbeats 2000000 in
theorem hgk4term_jet (A al be r0 t0 : ℝ) (m n : ℕ) (hr : r0 ≠ 0) (ht : t0 ≠ 0) (hD : D ≠ r0) :
    IsJet (hgk4fix A al be r0 t0 m n) T D := by
  have jd := (IsJet.const (T := T) (D := D) (1 / r0)).mul (IsJet.varD.add (IsJet.const (-r0)))
  have jt := (IsJet.const (T := T) (D := D) (1 / t0)).mul (IsJet.varT.add (IsJet.const (-t0)))
  have hd0 : (1 / r0) * (D + -r0) ≠ 0 := mul_ne_zero (one_div_ne_zero hr) (by intro h; apply hD; linarith)
  have h := ((IsJet.const A).mul (jd.zpow n hd0)).mul
    (((IsJet.const (-al)).mul (jd.zpow m hd0)).add ((IsJet.const (-be)).mul (jt.mul jt))).exp
  refine h.congr_ne hD ?_
  intro t d hd
  have hdr : d - r0 ≠ 0 := sub_ne_zero.mpr hd
  have e1 : 1 / r0 * (d + -r0) = (d - r0) / r0 := by field_simp; ring
  have e2 : 1 / t0 * (t + -t0) = (t - t0) / t0 := by field_simp; ring
  have e3 : -al * ((d - r0) / r0) ^ m + -be * ((t - t0) / t0 * ((t - t0) / t0)) =
    -al * ((d - r0) / r0) ^ m - be * ((t - t0) / t0) * ((t - t0) / t0) := by ring
  have hz : (d - r0) / r0 ≠ 0 := div_ne_zero hdr hr
  unfold hgk4fix hgk4term hgkPsi_r
  ext <;> unfold_jets <;> rw [e1, e2] <;> simp only [zpow_natCast] <;> rw [e3] <;>
    generalize exp (-al * ((d - r0) / r0) ^ m - be * ((t - t0) / t0) * ((t - t0) / t0)) = E <;>
    generalize (d - r0) / r0 = z at hz ⊢ <;> generalize (t - t0) / t0 = y <;>
    generalize z ^ m = zm <;> generalize z ^ n = zn <;> (push_cast; field_simp; try ring)

end Verif.Water
