import Verif.Lemmas.Jet
import Mathlib.Tactic.FieldSimp
import Mathlib.Tactic.Positivity
import Mathlib.Tactic.LinearCombination
import Mathlib.Tactic.IntervalCases

/-!
# Every term of the Wagner and Pruss equation is a jet
-/

namespace Verif.Water

open Real Filter Topology

local macro "unfold_jets" : tactic =>
  `(tactic| simp only [HState.mul, HState.comp, HState.exp, HState.log, HState.inv, HState.rpow, HState.const,
    HState.varT, HState.varD, add_h, add_hT, add_hD, add_hTT, add_hTD, add_hDD, add_hTTT, add_hTTD, add_hTDD, add_hDDD])

variable {T D : ℝ}

theorem wpIdeal0_jet (hT : 0 < T) (hD : 0 < D) : IsJet wpIdeal0 T D := by
  have h := (((IsJet.varD (T := T) (D := D)).log hD.ne').add (IsJet.const (wpNo.getD 1 0))).add
    (((IsJet.const (wpNo.getD 2 0)).mul IsJet.varT).add ((IsJet.const (wpNo.getD 3 0)).mul (IsJet.varT.log hT.ne')))
  refine h.congr_pos hT hD ?_
  intro t d ht hd
  unfold wpIdeal0
  generalize wpNo.getD 1 0 = a, wpNo.getD 2 0 = b, wpNo.getD 3 0 = c
  ext <;> unfold_jets <;> field_simp <;> ring

theorem wpIdeal_jet (no g : ℝ) (hg : 0 < g) (hT : 0 < T) (hD : 0 < D) : IsJet (wpIdeal no g) T D := by
  have hlt : ∀ t, 0 < t → 1 < exp (g * t) := fun t ht => by
    rw [← exp_zero]; exact exp_lt_exp.mpr (mul_pos hg ht)
  have e := (((IsJet.const (T := T) (D := D) g).mul IsJet.varT).exp.inv (exp_pos _).ne')
  have h := (IsJet.const no).mul (((IsJet.const 1).add ((IsJet.const (-1)).mul e)).log (by
    have := hlt T hT
    unfold_jets
    have h1 : 1 / exp (g * T) < 1 := by rw [div_lt_one (by positivity)]; exact this
    linarith))
  refine h.congr_pos hT hD ?_
  intro t d ht hd
  have hh := hlt t ht
  have h0 : exp (g * t) - 1 ≠ 0 := by linarith
  have h1 : exp (g * t) ≠ 0 := (exp_pos _).ne'
  have h2 : 1 + -1 * (1 / exp (g * t)) ≠ 0 := by
    intro hz
    apply h0
    field_simp at hz
    linarith
  have h3 : 1 + -1 * (1 / exp (g * t)) = (exp (g * t) - 1) / exp (g * t) := by field_simp; ring
  unfold wpIdeal
  ext <;> unfold_jets <;> (try rw [h3]) <;> generalize exp (g * t) = e at * <;> (try simp only [mul_zero, zero_mul, add_zero, zero_add])
  · congr 2
    field_simp
  all_goals field_simp <;> ring

theorem wpPoly_jet (n d t : ℝ) (hT : 0 < T) (hD : 0 < D) : IsJet (wpPoly n d t) T D := by
  have h := ((IsJet.const (T := T) (D := D) n).mul (IsJet.varD.rpow d hD)).mul (IsJet.varT.rpow t hT)
  refine h.congr_pos hT hD ?_
  intro tau delta ht hd
  unfold wpPoly
  ext <;> unfold_jets <;> field_simp <;> ring

theorem wpExp_jet (n c d t : ℝ) (hT : 0 < T) (hD : 0 < D) : IsJet (wpExp n c d t) T D := by
  have h := (((IsJet.const (T := T) (D := D) n).mul (IsJet.varD.rpow d hD)).mul (IsJet.varT.rpow t hT)).mul
    ((IsJet.const (-1)).mul (IsJet.varD.rpow c hD)).exp
  refine h.congr_pos hT hD ?_
  intro tau delta ht hd
  unfold wpExp
  ext <;> unfold_jets <;> rw [neg_one_mul] <;> field_simp <;> ring

theorem wpGauss_jet (n d t al be ga ep : ℝ) (hT : 0 < T) (hD : 0 < D) : IsJet (wpGauss n d t al be ga ep) T D := by
  have vd := (IsJet.varD (T := T) (D := D)).add (IsJet.const (-ep))
  have vt := (IsJet.varT (T := T) (D := D)).add (IsJet.const (-ga))
  have h := (((IsJet.const (T := T) (D := D) n).mul (IsJet.varD.rpow d hD)).mul (IsJet.varT.rpow t hT)).mul
    (((IsJet.const (-al)).mul (vd.mul vd)).add ((IsJet.const (-be)).mul (vt.mul vt))).exp
  refine h.congr_pos hT hD ?_
  intro tau delta ht hd
  have he : -al * ((delta + -ep) * (delta + -ep)) + -be * ((tau + -ga) * (tau + -ga)) =
    (-al) * (delta - ep) ^ 2 - be * (tau - ga) ^ 2 := by ring
  unfold wpGauss
  ext <;> unfold_jets <;> rw [he] <;> generalize exp (-al * (delta - ep) ^ 2 - be * (tau - ga) ^ 2) = e <;> field_simp <;> ring

theorem wpPsi_jet (C F : ℝ) : IsJet (wpPsi C F) T D := by
  have vd := (IsJet.varD (T := T) (D := D)).add (IsJet.const (-1))
  have vt := (IsJet.varT (T := T) (D := D)).add (IsJet.const (-1))
  have h := (((IsJet.const (-C)).mul (vd.mul vd)).add ((IsJet.const (-F)).mul (vt.mul vt))).exp
  refine h.congr_all ?_
  intro tau delta
  have he : -C * ((delta + -1) * (delta + -1)) + -F * ((tau + -1) * (tau + -1)) =
    (-C) * (delta - 1) ^ 2 - F * (tau - 1) ^ 2 := by ring
  unfold wpPsi
  ext <;> unfold_jets <;> rw [he] <;> generalize exp (-C * (delta - 1) ^ 2 - F * (tau - 1) ^ 2) = e <;> ring

/-- `(D - 1)²` raised to a power. -/
theorem dd_jet (b : ℝ) (h1 : D ≠ 1) : IsJet (fun _ d => HState.rpow b
    (((HState.varD d) + HState.const (-1)).mul ((HState.varD d) + HState.const (-1)))) T D := by
  have vd := (IsJet.varD (T := T) (D := D)).add (IsJet.const (-1))
  refine (vd.mul vd).rpow b ?_
  have : D + -1 ≠ 0 := by intro h; apply h1; linarith
  unfold_jets
  exact mul_self_pos.mpr this

theorem wpTheta_jet (A E : ℝ) (hE : E ≠ 0) (h1 : D ≠ 1) : IsJet (wpTheta A E) T D := by
  have h := ((IsJet.const (T := T) (D := D) 1).add ((IsJet.const (-1)).mul IsJet.varT)).add
    ((IsJet.const A).mul (dd_jet (0.5 / E) h1))
  refine h.congr_ne h1 ?_
  intro t d hd
  have hz : d - 1 ≠ 0 := sub_ne_zero.mpr hd
  have hz' : d + -1 ≠ 0 := hz
  have he : (d + -1) * (d + -1) = (d - 1) ^ 2 := by ring
  unfold wpTheta
  ext <;> unfold_jets <;> rw [he] <;> generalize ((d - 1) ^ 2) ^ (0.5 / E) = w
  all_goals first | ring1 | (obtain ⟨z, rfl⟩ : ∃ z, d = z + 1 := ⟨d - 1, by ring⟩; simp only [add_sub_cancel_right, add_neg_cancel_right] at hz ⊢; field_simp; ring)

theorem wpDelta_jet (A B E a : ℝ) (hE : E ≠ 0) (h1 : D ≠ 1) : IsJet (wpDelta A B E a) T D := by
  have th := wpTheta_jet (T := T) A E hE h1
  have h := (th.mul th).add ((IsJet.const B).mul (dd_jet a h1))
  refine h.congr_ne h1 ?_
  intro t d hd
  have hz : d - 1 ≠ 0 := sub_ne_zero.mpr hd
  have hz' : d + -1 ≠ 0 := hz
  have he : (d + -1) * (d + -1) = (d - 1) ^ 2 := by ring
  have e1 : (wpTheta A E t d).hT = -1 := rfl
  have e2 : (wpTheta A E t d).hTT = 0 := rfl
  have e3 : (wpTheta A E t d).hTD = 0 := rfl
  have e4 : (wpTheta A E t d).hTTT = 0 := rfl
  have e5 : (wpTheta A E t d).hTTD = 0 := rfl
  have e6 : (wpTheta A E t d).hTDD = 0 := rfl
  unfold wpDelta
  generalize wpTheta A E t d = th at *
  ext <;> unfold_jets <;> rw [he] <;> generalize ((d - 1) ^ 2) ^ a = w <;> (try simp only [e1, e2, e3, e4, e5, e6])
  all_goals first | ring1 | (obtain ⟨z, rfl⟩ : ∃ z, d = z + 1 := ⟨d - 1, by ring⟩; simp only [add_sub_cancel_right, add_neg_cancel_right] at hz ⊢; field_simp; ring)

theorem wpDelta_pos (A B E a : ℝ) (hB : 0 < B) (h1 : D ≠ 1) : 0 < (wpDelta A B E a T D).h := by
  have : 0 < ((D - 1) ^ 2) ^ a := rpow_pos_of_pos (by have := sub_ne_zero.mpr h1; positivity) _
  show 0 < (wpTheta A E T D).h * (wpTheta A E T D).h + B * ((D - 1) ^ 2) ^ a
  have := mul_pos hB this
  nlinarith [mul_self_nonneg (wpTheta A E T D).h]

theorem wpDeltaPow_eq (b : ℝ) (s : HState) (hs : s.h ≠ 0) : wpDeltaPow b s = s.rpow b := by
  unfold wpDeltaPow
  ext <;> unfold_jets <;> field_simp <;> ring

theorem wpDeltaPow_jet (b A B E a : ℝ) (hB : 0 < B) (hE : E ≠ 0) (h1 : D ≠ 1) :
    IsJet (fun t d => wpDeltaPow b (wpDelta A B E a t d)) T D := by
  refine ((wpDelta_jet A B E a hE h1).rpow b (wpDelta_pos A B E a hB h1)).congr_ne h1 ?_
  intro t d hd
  exact wpDeltaPow_eq b _ (wpDelta_pos A B E a hB hd).ne'

theorem wpNonAnalytic_jet (n : ℝ) {Q psi : ℝ → ℝ → HState} (hQ : IsJet Q T D) (hp : IsJet psi T D) :
    IsJet (fun t d => wpNonAnalytic n (Q t d) (psi t d) d) T D := by
  refine ((((IsJet.const n).mul hQ).mul IsJet.varD).mul hp).congr_all ?_
  intro t d
  generalize Q t d = q, psi t d = p
  unfold wpNonAnalytic
  ext <;> unfold_jets <;> ring

theorem wpDimension_jet {phi : ℝ → ℝ → HState} (hT : 0 < T) (hp : IsJet phi (Tcr / T) (D / Dcr)) :
    IsJet (fun t d => wpDimension (phi (Tcr / t) (d / Dcr)) t) T D := by
  have hc := IsJet.chain (F := phi) (f := fun t => Tcr / t) (f1 := fun t => (-Tcr) / t ^ 2) (f2 := fun t => (2 * Tcr) / t ^ 3)
    (f3 := fun t => (-6 * Tcr) / t ^ 4) (k := 1 / Dcr) (T := T) (D := D) (by rw [one_div_mul_eq_div]; exact hp)
    (by simpa using IsJet.hasDerivAt_inv_pow Tcr 1 T hT.ne')
    ((IsJet.hasDerivAt_inv_pow (-Tcr) 2 T hT.ne').congr_deriv (by norm_num))
    ((IsJet.hasDerivAt_inv_pow (2 * Tcr) 3 T hT.ne').congr_deriv (by norm_num; ring))
  refine (((IsJet.const wpR).mul IsJet.varT).mul hc).congr ?_
  filter_upwards [IsJet.eventually_fst (eventually_gt_nhds hT)] with p ht
  obtain ⟨t, d⟩ := p
  simp only [] at ht ⊢
  rw [one_div_mul_eq_div]
  generalize phi (Tcr / t) (d / Dcr) = s
  unfold wpDimension
  ext <;> unfold_jets <;> simp only [HState.chain] <;> field_simp <;> ring

end Verif.Water
