import Verif.Theorems.StandardModels

/-!
# C53: the two heat capacities of the standard models
-/

namespace Verif.StandardModels

open Filter Topology Real

/-- C53, Maier–Kelley: the two heat capacities of a gas (a substance without reference volume) are related as
for an ideal gas, of volume `R T / P`, and those of other substances, whose volume does not depend on
temperature and pressure, are equal. -/
theorem C53_maierKelley_mayer (p : MaierKelley) (T P : ℝ) (hP : 0 < P) :
    ∃ x, maierKelley p T P = .ok x ∧
      (p.Vr = 0 → ∀ VT VP, HasDerivAt (fun t : ℝ => R * t / P) VT T → HasDerivAt (fun q : ℝ => R * T / q) VP P →
        Mayer x T VT VP) ∧
      (p.Vr ≠ 0 → x.V0 = p.Vr ∧ x.Cv0 = x.Cp0) := by
  refine ⟨_, rfl, fun h VT VP h1 h2 => ?_, fun h => ⟨rfl, ?_⟩⟩
  · have e1 : VT = R / P := by
      have := ((hasDerivAt_id' T).const_mul R).div_const P
      rw [h1.unique this]; ring
    have e2 : VP = -(R * T) / P ^ 2 := by
      have := (hasDerivAt_const P (R * T)).fun_div (hasDerivAt_id' P) hP.ne'
      rw [h2.unique this]; ring
    unfold Mayer
    rw [e1, e2]
    simp only [decide_eq_true h]
    field_simp
    simp
    ring
  · simp [h]

/-- The volume of a gas with the constant `R`, at 300 K and 1 bar, has the two derivatives. -/
example : HasDerivAt (fun t : ℝ => R * t / 100000) (R / 100000) 300 ∧
    HasDerivAt (fun q : ℝ => R * 300 / q) (-(R * 300) / 100000 ^ 2) 100000 := by
  constructor
  · have := ((hasDerivAt_id' (300 : ℝ)).const_mul R).div_const 100000
    exact this.congr_deriv (by ring)
  · have := (hasDerivAt_const (100000 : ℝ) (R * 300)).fun_div (hasDerivAt_id' (100000 : ℝ)) (by norm_num)
    exact this.congr_deriv (by ring)

/-- The temperature derivative of the volume of a compressible substance. -/
theorem deriv_V (p : HollandPowell) {T P : ℝ} (hT : 0 < T) (hk : p.kappa0 ≠ 0) (hth : p.theta ≠ 0)
    (h3 : 0 < p.aux3 T P) :
    HasDerivAt (fun t => p.V t P)
      (p.Vr * (p.ka * (p.kb * p.kc * (p.alpha0 * p.kappa0 * (p.E T / p.E Tr)) * p.aux3 T P ^ (-p.kc - 1)))) T := by
  unfold HollandPowell.V
  simp only [if_neg hk]
  have hPth := deriv_Pth p hT hth
  generalize p.alpha0 * p.kappa0 * (p.E T / p.E Tr) = w at *
  have ha3 : HasDerivAt (fun t => p.aux3 t P) (p.kb * -w) T := by
    unfold HollandPowell.aux3
    exact ((hPth.const_sub P).const_mul p.kb).const_add 1
  have hp := ha3.rpow_const (p := -p.kc) (Or.inl h3.ne')
  have hfin := (((hp.const_sub 1).const_mul p.ka).const_sub 1).const_mul p.Vr
  have hev : ∀ᶠ t in 𝓝 T, 0 < p.aux3 t P := ha3.continuousAt.eventually (lt_mem_nhds h3)
  refine (hfin.congr_of_eventuallyEq ?_).congr_deriv ?_
  · filter_upwards [hev] with t ht
    rw [rpow_neg ht.le, one_div]
  · ring

/-- C53, Holland–Powell: for a substance with a non-zero volume, compressibility and thermal expansion the
two heat capacities reported, which are equal, do not satisfy the relation between them, whatever the
derivative of the volume with respect to pressure. -/
theorem C53_hollandPowell_mayer_wrong (p : HollandPowell) (T P : ℝ) (hT : 0 < T)
    (hdef : p.Defined T P) (hk : p.kappa0 ≠ 0) (ha : p.alpha0 ≠ 0) (hV : p.Vr ≠ 0)
    (hka : p.ka ≠ 0) (hkc : p.kc ≠ 0) :
    ∃ x VT, hollandPowell p T P = .ok x ∧ DerT (hollandPowell p) Props.V0 VT T P ∧ ∀ VP, ¬ Mayer x T VT VP := by
  obtain ⟨hth, hb, hc, h1, h3⟩ := hdef hk
  refine ⟨_, _, rfl, ⟨_, Eventually.of_forall fun t => rfl, deriv_V p hT hk hth h3⟩, fun VP h => ?_⟩
  have hE : ∀ s : ℝ, 0 < s → p.E s ≠ 0 := by
    intro s hs
    have hne : exp (p.theta / s) - 1 ≠ 0 := by
      rw [sub_ne_zero, Ne, exp_eq_one_iff]; exact div_ne_zero hth hs.ne'
    have hu := div_ne_zero hth hs.ne'
    exact mul_ne_zero (mul_ne_zero (div_ne_zero hu hne) (div_ne_zero hu hne)) (exp_pos _).ne'
  unfold Mayer at h
  simp only [sub_self, zero_mul] at h
  have h' := neg_eq_zero.1 h.symm
  refine mul_ne_zero hT.ne' (pow_ne_zero 2 ?_) h'
  exact mul_ne_zero hV (mul_ne_zero hka (mul_ne_zero (mul_ne_zero (mul_ne_zero hb hkc)
    (mul_ne_zero (mul_ne_zero ha hk) (div_ne_zero (hE T hT) (hE Tr Tr_pos)))) (rpow_pos_of_pos h3 _).ne'))

/-- The hypotheses are met by the substance `stiff` at the reference state. -/
example : stiff.Defined Tr Pr ∧ stiff.kappa0 ≠ 0 ∧ stiff.alpha0 ≠ 0 ∧ stiff.Vr ≠ 0 ∧
    stiff.ka ≠ 0 ∧ stiff.kc ≠ 0 := by
  refine ⟨fun _ => ⟨?_, ?_, ?_, ?_, ?_⟩, ?_, ?_, ?_, ?_, ?_⟩
  · norm_num [stiff, HollandPowell.theta]
  · rw [stiff_kb]; norm_num
  · rw [stiff_kc]; norm_num
  · simp [HollandPowell.aux1, stiff_Pth]
  · simp only [HollandPowell.aux3, stiff_Pth, stiff_kb]; norm_num [Pr]
  · norm_num [stiff]
  · norm_num [stiff]
  · norm_num [stiff]
  · rw [stiff_ka]; norm_num
  · rw [stiff_kc]; norm_num

end Verif.StandardModels
