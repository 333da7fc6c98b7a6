import Verif.Theorems.SpycherReed
import Verif.Theorems.Cardano
import Mathlib.Analysis.Calculus.Deriv.MeanValue
import Mathlib.Topology.Order.IntermediateValue

/-!
# C79: the Spycher–Pruess–Ennis-King model of CO2 with H2O
-/

namespace Verif.Activity

open Verif.Aqueous Verif.ChemicalProps Verif.Cardano Filter Topology

/-- The cubic polynomial of the volume. -/
noncomputable def spePoly (T P v : ℝ) : ℝ := v ^ 3 + (speCubic T P).1 * v ^ 2 + (speCubic T P).2.1 * v + (speCubic T P).2.2

theorem spePoly_eq (T P v : ℝ) (hT : 0 < T) (hP : 0 < P) :
    P * spePoly T P v = v * (v + covolume) * (P * (v - covolume) - Rbar * T) + attraction T / √T * (v - covolume) := by
  have hs : √T ≠ 0 := (Real.sqrt_pos.2 hT).ne'
  have hP0 := hP.ne'
  unfold spePoly speCubic
  rw [show speR = Rbar from rfl, show speB = covolume by unfold speB covolume; norm_num,
    show speA T = attraction T by unfold speA attraction; norm_num]
  field_simp
  ring

theorem rk_iff (T P v : ℝ) (hT : 0 < T) (hP : 0 < P) (hv : covolume < v) : RedlichKwong T P v ↔ spePoly T P v = 0 := by
  have hs : √T ≠ 0 := (Real.sqrt_pos.2 hT).ne'
  have hb : 0 < covolume := by unfold covolume; norm_num
  have h1 : v - covolume ≠ 0 := by linarith [hv] |> fun h : v - covolume > 0 => h.ne'
  have h2 : v ≠ 0 := by linarith [hv] |> fun h : v > 0 => h.ne'
  have h3 : v + covolume ≠ 0 := by linarith [hv] |> fun h : v + covolume > 0 => h.ne'
  have e := spePoly_eq T P v hT hP
  unfold RedlichKwong
  rw [div_sub_div _ _ h1 (by positivity), eq_div_iff (by positivity)]
  have e2 : √T * (P * spePoly T P v) = P * ((v - covolume) * (√T * v * (v + covolume))) -
      (Rbar * T * (√T * v * (v + covolume)) - (v - covolume) * attraction T) := by
    rw [e]; field_simp; ring
  constructor
  · intro h
    rw [h, sub_self] at e2
    rcases mul_eq_zero.1 e2 with h' | h'
    · exact absurd h' hs
    · rcases mul_eq_zero.1 h' with h' | h'
      · exact absurd h' hP.ne'
      · exact h'
  · intro h
    rw [h, mul_zero, mul_zero] at e2
    linarith

theorem spePoly_covolume (T P : ℝ) (hT : 0 < T) (hP : 0 < P) : spePoly T P covolume < 0 := by
  have e := spePoly_eq T P covolume hT hP
  have hb : 0 < covolume := by unfold covolume; norm_num
  have hR : 0 < Rbar := by unfold Rbar; norm_num
  have : P * spePoly T P covolume < 0 := by
    rw [e]
    have : 0 < covolume * (covolume + covolume) * (Rbar * T) := by positivity
    nlinarith
  by_contra hc
  have := mul_nonneg hP.le (not_lt.1 hc)
  linarith

/-- There is a volume above the covolume. -/
theorem spePoly_root (T P : ℝ) (hT : 0 < T) (hP : 0 < P) : ∃ v, covolume < v ∧ spePoly T P v = 0 := by
  have hR : 0 < Rbar := by unfold Rbar; norm_num
  have hb : 0 < covolume := by unfold covolume; norm_num
  have hneg := spePoly_covolume T P hT hP
  obtain ⟨A, hA⟩ : ∃ A, A = |attraction T / √T| / covolume := ⟨_, rfl⟩
  have hA0 : 0 ≤ A := by rw [hA]; positivity
  have hAb : covolume * A = |attraction T / √T| := by rw [hA]; field_simp
  obtain ⟨u, hu⟩ : ∃ u, u = (Rbar * T + A) / P := ⟨_, rfl⟩
  have hu0 : 0 < u := by rw [hu]; positivity
  have hpos : 0 ≤ spePoly T P (covolume + u) := by
    have e := spePoly_eq T P (covolume + u) hT hP
    have e1 : P * (covolume + u - covolume) - Rbar * T = A := by rw [hu]; field_simp; ring
    rw [e1, add_sub_cancel_left] at e
    have h1 : -(covolume * A) ≤ attraction T / √T := by rw [hAb]; exact neg_abs_le _
    have h2 : 0 ≤ P * spePoly T P (covolume + u) := by
      rw [e]
      have h3 : u * covolume * A ≤ (covolume + u) * (covolume + u + covolume) * A := by
        refine mul_le_mul_of_nonneg_right ?_ hA0
        nlinarith
      have h4 := mul_le_mul_of_nonneg_right h1 hu0.le
      nlinarith
    exact nonneg_of_mul_nonneg_right h2 hP
  have hc : ContinuousOn (spePoly T P) (Set.Icc covolume (covolume + u)) := by
    unfold spePoly; fun_prop
  obtain ⟨v, hv, h0⟩ := intermediate_value_Icc (by linarith) hc ⟨hneg.le, hpos⟩
  refine ⟨v, lt_of_le_of_ne hv.1 fun h => ?_, h0⟩
  rw [← h] at h0
  linarith

/-- The derivative of the ln fugacity coefficient with respect to the volume at fixed pressure. -/
theorem lnFugacity_deriv (T P v : ℝ) (hT : 0 < T) (hP : 0 < P) (hv : covolume < v) :
    HasDerivAt (lnFugacity T P) (P * spePoly T P v / (Rbar * T * v * (v + covolume) * (v - covolume))) v := by
  have hb : 0 < covolume := by unfold covolume; norm_num
  have hR : 0 < Rbar := by unfold Rbar; norm_num
  have hs : 0 < √T := Real.sqrt_pos.2 hT
  have h1 : 0 < v - covolume := by linarith
  have h2 : 0 < v := by linarith
  have h3 : 0 < v + covolume := by linarith
  rw [spePoly_eq T P v hT hP]
  have idv := hasDerivAt_id v
  have dm := ((idv.sub_const covolume).div idv h2.ne').log (div_pos h1 h2).ne'
  have dp := ((idv.add_const covolume).div idv h2.ne').log (div_pos h3 h2).ne'
  have dz := (idv.const_mul P).div_const (Rbar * T)
  have dl := dz.log (by simp only [id]; positivity)
  have h := ((((dm.const_mul (-1)).sub (dp.const_mul (attraction T / (Rbar * (T * √T) * covolume)))).add dz).sub_const 1).sub dl
  refine (h.congr_of_eventuallyEq (Eventually.of_forall fun w => ?_)).congr_deriv ?_
  · simp only [lnFugacity, residualHelmholtz, id, Pi.sub_apply, Pi.add_apply, Pi.div_apply]
    norm_num
  · simp only [id, Pi.div_apply]
    have hv0 : v ≠ 0 := h2.ne'
    have hm0 : v - covolume ≠ 0 := h1.ne'
    have hp0 : v + covolume ≠ 0 := h3.ne'
    field_simp
    ring

/-- The comparison of the code between two volumes is that of the fugacity coefficients. -/
theorem lnFugacity_diff (T P l g : ℝ) (hT : 0 < T) (hP : 0 < P) (hl : covolume < l) (hg : covolume < g) :
    Rbar * T * (lnFugacity T P g - lnFugacity T P l) = P * (g - l) - (Rbar * T * Real.log ((g - covolume) / (l - covolume)) +
      attraction T / (√T * covolume) * Real.log ((g + covolume) / (l + covolume) * l / g)) := by
  have hb : 0 < covolume := by unfold covolume; norm_num
  have hR : 0 < Rbar := by unfold Rbar; norm_num
  have hs : 0 < √T := Real.sqrt_pos.2 hT
  have l1 : 0 < l - covolume := by linarith
  have l2 : 0 < l := by linarith
  have l3 : 0 < l + covolume := by linarith
  have g1 : 0 < g - covolume := by linarith
  have g2 : 0 < g := by linarith
  have g3 : 0 < g + covolume := by linarith
  simp only [lnFugacity, residualHelmholtz]
  norm_num
  rw [Real.log_div g1.ne' g2.ne', Real.log_div l1.ne' l2.ne', Real.log_div g3.ne' g2.ne', Real.log_div l3.ne' l2.ne',
    Real.log_div (by positivity) (by positivity), Real.log_div (by positivity) (by positivity),
    Real.log_mul hP.ne' g2.ne', Real.log_mul hP.ne' l2.ne', Real.log_div g1.ne' l1.ne',
    Real.log_div (by positivity) g2.ne', Real.log_mul (by positivity) l2.ne', Real.log_div g3.ne' l3.ne']
  field_simp
  ring

/-- The volume the code chooses. -/
theorem volume_chosen (eps T P : ℝ) (h0 : 0 ≤ eps) (hT : 0 < T) (hP : 0 < P) (hd : OutsideBand eps T P) :
    covolume < volumeCO2 eps T P ∧ RedlichKwong T P (volumeCO2 eps T P) ∧
    ∀ w, covolume < w → RedlichKwong T P w → lnFugacity T P (volumeCO2 eps T P) ≤ lnFugacity T P w := by
  have hb : 0 < covolume := by unfold covolume; norm_num
  have hR : 0 < Rbar := by unfold Rbar; norm_num
  have hs : 0 < √T := Real.sqrt_pos.2 hT
  have eB : speB = covolume := by unfold speB covolume; norm_num
  have eA : speA T = attraction T := by unfold speA attraction; norm_num
  have eR : speR = Rbar := rfl
  have hd' : eps < |discr (speCubic T P).1 (speCubic T P).2.1 (speCubic T P).2.2| ∨
      discr (speCubic T P).1 (speCubic T P).2.1 (speCubic T P).2.2 = 0 := by
    unfold OutsideBand at hd
    unfold speCubic
    rw [eB, eA, eR]
    rw [pow_two] at hd
    exact hd
  have roots := C21_real_roots_partial eps _ _ _ h0 hd'
  obtain ⟨asc, single⟩ := C21_ascending eps (speCubic T P).1 (speCubic T P).2.1 (speCubic T P).2.2 h0
  suffices h : covolume < volumeCO2 eps T P ∧ spePoly T P (volumeCO2 eps T P) = 0 ∧
      ∀ w, covolume < w → spePoly T P w = 0 → lnFugacity T P (volumeCO2 eps T P) ≤ lnFugacity T P w by
    exact ⟨h.1, (rk_iff T P _ hT hP h.1).2 h.2.1, fun w hw hr => h.2.2 w hw ((rk_iff T P w hT hP hw).1 hr)⟩
  by_cases hD : eps < discr (speCubic T P).1 (speCubic T P).2.1 (speCubic T P).2.2
  · obtain ⟨r1, e1, e2⟩ := single hD
    have him : (cardano eps (speCubic T P).1 (speCubic T P).2.1 (speCubic T P).2.2).2.1.im ≠ 0 := by
      intro hz
      unfold realRoots at e2
      rw [e1] at e2
      rw [if_pos (Complex.ofReal_im r1), if_pos hz] at e2
      have := congrArg List.length e2
      simp at this
    have hv : volumeCO2 eps T P = r1 := by
      unfold volumeCO2
      simp only [if_pos him]
      rw [e1]; exact Complex.ofReal_re r1
    have only : ∀ x, spePoly T P x = 0 ↔ x = r1 := by
      intro x
      have := roots x
      rw [e2] at this
      simp only [List.mem_singleton] at this
      exact this.symm
    obtain ⟨v, hv1, hv2⟩ := spePoly_root T P hT hP
    rw [hv]
    have : v = r1 := (only v).1 hv2
    refine ⟨this ▸ hv1, (only r1).2 rfl, fun w _ hw => ?_⟩
    rw [(only w).1 hw]
  · obtain ⟨r1, r2, r3, e1, o1, o2, e2⟩ := asc (not_lt.1 hD)
    have fac : ∀ x : ℝ, spePoly T P x = (x - r1) * (x - r2) * (x - r3) := by
      intro x
      have := C21_roots_partial eps _ _ _ h0 hd' (x : ℂ)
      rw [e1] at this
      have h2 : ((spePoly T P x : ℝ) : ℂ) = (((x - r1) * (x - r2) * (x - r3) : ℝ) : ℂ) := by
        unfold spePoly
        push_cast
        exact this
      exact_mod_cast h2
    have hneg := spePoly_covolume T P hT hP
    rw [fac] at hneg
    have h3 : covolume < r3 := by
      by_contra hc
      have hc := not_lt.1 hc
      have : 0 ≤ (covolume - r1) * (covolume - r2) * (covolume - r3) := by
        refine mul_nonneg (mul_nonneg ?_ ?_) ?_ <;> linarith
      linarith
    have hv : volumeCO2 eps T P = if 0 < (r3 - covolume) / (r1 - covolume) ∧ 0 < (r3 + covolume) / (r1 + covolume) * r1 / r3 ∧
        Rbar * T * Real.log ((r3 - covolume) / (r1 - covolume)) + attraction T / (√T * covolume) *
        Real.log ((r3 + covolume) / (r1 + covolume) * r1 / r3) < P * (r3 - r1) then r1 else r3 := by
      unfold volumeCO2
      simp only [e1]
      rw [if_neg (by simp)]
      simp only [Complex.ofReal_re]
      rw [min_eq_left o2, min_eq_left o1, max_eq_right o2, max_eq_right (le_trans o1 o2), eB, eA, eR]
    by_cases h1 : covolume < r1
    · have h2 : covolume < r2 := lt_of_lt_of_le h1 o1
      have p1 : 0 < (r3 - covolume) / (r1 - covolume) := div_pos (by linarith) (by linarith)
      have p2 : 0 < (r3 + covolume) / (r1 + covolume) * r1 / r3 :=
        div_pos (mul_pos (div_pos (by linarith) (by linarith)) (by linarith)) (by linarith)
      have diff := lnFugacity_diff T P r1 r3 hT hP h1 h3
      have hRT : 0 < Rbar * T := by positivity
      have dH : ∀ x, covolume < x → HasDerivAt (lnFugacity T P)
          (P * ((x - r1) * (x - r2) * (x - r3)) / (Rbar * T * x * (x + covolume) * (x - covolume))) x := by
        intro x hx
        rw [← fac]
        exact lnFugacity_deriv T P x hT hP hx
      have cont : ∀ a b, covolume < a → ContinuousOn (lnFugacity T P) (Set.Icc a b) := fun a b hab x hx =>
        (dH x (lt_of_lt_of_le hab hx.1)).continuousAt.continuousWithinAt
      have m12 : lnFugacity T P r1 ≤ lnFugacity T P r2 := by
        refine monotoneOn_of_deriv_nonneg (convex_Icc r1 r2) (cont r1 r2 h1) ?_ ?_ ⟨le_refl _, o1⟩ ⟨o1, le_refl _⟩ o1
        · rw [interior_Icc]
          exact fun x hx => (dH x (lt_trans h1 hx.1)).differentiableAt.differentiableWithinAt
        · rw [interior_Icc]
          intro x hx
          have hx1 := hx.1
          have hx2 := hx.2
          rw [(dH x (lt_trans h1 hx.1)).deriv]
          refine div_nonneg (mul_nonneg hP.le ?_) ?_
          · exact mul_nonneg_of_nonpos_of_nonpos (mul_nonpos_of_nonneg_of_nonpos (by linarith) (by linarith)) (by linarith)
          · have : 0 < x := by linarith
            have : 0 < x - covolume := by linarith
            positivity
      have m32 : lnFugacity T P r3 ≤ lnFugacity T P r2 := by
        refine antitoneOn_of_deriv_nonpos (convex_Icc r2 r3) (cont r2 r3 h2) ?_ ?_ ⟨le_refl _, o2⟩ ⟨o2, le_refl _⟩ o2
        · rw [interior_Icc]
          exact fun x hx => (dH x (lt_trans h2 hx.1)).differentiableAt.differentiableWithinAt
        · rw [interior_Icc]
          intro x hx
          have hx1 := hx.1
          have hx2 := hx.2
          rw [(dH x (lt_trans h2 hx.1)).deriv]
          refine div_nonpos_of_nonpos_of_nonneg (mul_nonpos_of_nonneg_of_nonpos hP.le ?_) ?_
          · exact mul_nonpos_of_nonneg_of_nonpos (mul_nonneg (by linarith) (by linarith)) (by linarith)
          · have : 0 < x := by linarith
            have : 0 < x - covolume := by linarith
            positivity
      have rts : ∀ w, spePoly T P w = 0 → w = r1 ∨ w = r2 ∨ w = r3 := by
        intro w hw
        rw [fac, mul_eq_zero, mul_eq_zero] at hw
        rcases hw with (h | h) | h
        · exact Or.inl (by linarith)
        · exact Or.inr (Or.inl (by linarith))
        · exact Or.inr (Or.inr (by linarith))
      by_cases hw : Rbar * T * Real.log ((r3 - covolume) / (r1 - covolume)) + attraction T / (√T * covolume) *
          Real.log ((r3 + covolume) / (r1 + covolume) * r1 / r3) < P * (r3 - r1)
      · rw [hv, if_pos ⟨p1, p2, hw⟩]
        have le : lnFugacity T P r1 ≤ lnFugacity T P r3 := by
          by_contra hc
          have := mul_pos hRT (sub_pos.2 (not_le.1 hc))
          nlinarith
        refine ⟨h1, by rw [fac]; ring, fun w _ hr => ?_⟩
        rcases rts w hr with rfl | rfl | rfl
        · exact le_refl _
        · exact m12
        · exact le
      · rw [hv, if_neg fun h => hw h.2.2]
        have le : lnFugacity T P r3 ≤ lnFugacity T P r1 := by
          by_contra hc
          have := mul_pos hRT (sub_pos.2 (not_le.1 hc))
          nlinarith [not_lt.1 hw]
        refine ⟨h3, by rw [fac]; ring, fun w _ hr => ?_⟩
        rcases rts w hr with rfl | rfl | rfl
        · exact le
        · exact m32
        · exact le_refl _
    · have hprod : 0 < (covolume - r1) * (covolume - r2) := by
        by_contra hc
        have := mul_nonneg_of_nonpos_of_nonpos (not_lt.1 hc) (show covolume - r3 ≤ 0 by linarith)
        linarith
      have h1' : r1 < covolume := by
        rcases lt_or_eq_of_le (not_lt.1 h1) with h | h
        · exact h
        · rw [h] at hprod; simp at hprod
      have h2' : r2 < covolume := by
        have := (pos_iff_pos_of_mul_pos hprod).1 (by linarith)
        linarith
      rw [hv, if_neg]
      · refine ⟨h3, by rw [fac]; ring, fun w hw hr => ?_⟩
        rw [fac, mul_eq_zero, mul_eq_zero] at hr
        rcases hr with (h | h) | h
        · exfalso; linarith
        · exfalso; linarith
        · rw [show w = r3 by linarith]
      · intro h
        have := div_neg_of_pos_of_neg (show 0 < r3 - covolume by linarith) (show r1 - covolume < 0 by linarith)
        linarith [h.1]

/-! ## Evaluations -/

theorem spe_eval (eps : ℝ) (species : List (Species ℝ)) (fn : Fn) (hf : spycherPruessEnnis eps species = .ok fn) (T P : ℝ) (x : List ℝ)
    (m : Mem) (hm : Fits m species.length) (hx : x.length = species.length) : ∃ p, fn T P x m = .ok { m with props := p } ∧
    p.Vex = volumeCO2 eps T (P * 1e-5) * 1e-6 - speR * T / P ∧
    p.VexT = m.props.VexT ∧ p.VexP = m.props.VexP ∧ p.Gex = m.props.Gex ∧ p.Hex = m.props.Hex ∧ p.Cpex = m.props.Cpex ∧ p.Cvex = m.props.Cvex ∧
    p.ln_g = setIf (setIf m.props.ln_g (findWithFormula species waterFormula) (speLnPhiH2O T (P * 1e-5) (volumeCO2 eps T (P * 1e-5))))
      (findWithFormula species co2Formula) (speLnPhiCO2 T (P * 1e-5) (volumeCO2 eps T (P * 1e-5))) ∧
    ∀ ideal, ideal = (x.map fun xi => Real.log xi + Real.log (P * 1e-5)) →
      ∀ w, w = setIf ideal (findWithFormula species waterFormula) (ideal.getD (findWithFormula species waterFormula) 0 +
        speLnPhiH2O T (P * 1e-5) (volumeCO2 eps T (P * 1e-5))) →
      p.ln_a = setIf w (findWithFormula species co2Formula) (w.getD (findWithFormula species co2Formula) 0 +
        speLnPhiCO2 T (P * 1e-5) (volumeCO2 eps T (P * 1e-5))) := by
  unfold spycherPruessEnnis at hf
  injection hf with hf
  have : m.fits species.length = true := by unfold Mem.fits; simp [hm.1, hm.2]
  rw [← hf]
  simp only [this, hx, Bool.not_true, ne_eq, not_true_eq_false, decide_false, Bool.or_self, Bool.false_eq_true, if_false]
  exact ⟨_, rfl, rfl, rfl, rfl, rfl, rfl, rfl, rfl, rfl, fun ideal hi w hw => by rw [hw, hi]⟩

/-- No species is both water and carbon dioxide. -/
theorem water_ne_co2 (species : List (Species ℝ)) (h : findWithFormula species waterFormula < species.length) :
    findWithFormula species waterFormula ≠ findWithFormula species co2Formula := by
  intro he
  have h1 := List.findIdx_getElem (xs := species) (p := fun s : Species ℝ => waterFormula.equivalent s.formula) (w := h)
  have h' : findWithFormula species co2Formula < species.length := he ▸ h
  have h2 := List.findIdx_getElem (xs := species) (p := fun s : Species ℝ => co2Formula.equivalent s.formula) (w := h')
  have h1' : waterFormula.equivalent (species[findWithFormula species waterFormula]).formula = true := h1
  have h2' : co2Formula.equivalent (species[findWithFormula species co2Formula]).formula = true := h2
  simp only [← he] at h2'
  generalize (species[findWithFormula species waterFormula]).formula = f at h1' h2'
  obtain ⟨str, el, ch⟩ := f
  unfold EquilibriumSpecs.Formula.equivalent waterFormula co2Formula at *
  simp only [Bool.and_eq_true, beq_iff_eq, List.all_eq_true, List.contains_iff_mem, List.length_cons, List.length_nil, List.mem_cons,
    List.not_mem_nil, or_false, forall_eq_or_imp, forall_eq] at h1' h2'
  obtain ⟨⟨hl, ha, hb⟩, -⟩ := h1'
  obtain ⟨⟨-, hc, hd⟩, -⟩ := h2'
  match el, hl with
  | [p, q], _ =>
    simp only [List.mem_cons, List.not_mem_nil, or_false] at ha hb hc hd
    rcases ha with ha | ha <;> rcases hb with hb | hb <;> rcases hc with hc | hc <;>
      first
      | (rw [← ha] at hb; revert hb; decide +kernel)
      | (rw [← ha] at hc; revert hc; decide +kernel)
      | (rw [← hb] at hc; revert hc; decide +kernel)

theorem bar_pos (P : ℝ) (hP : 0 < P) : 0 < P * 1e-5 := by positivity

theorem volumeIn_eq (eps : ℝ) (T P : ℝ) (hP : 0 < P) (p : AProps ℝ) (h : p.Vex = volumeCO2 eps T (P * 1e-5) * 1e-6 - speR * T / P) :
    volumeIn T P p = volumeCO2 eps T (P * 1e-5) := by
  unfold volumeIn
  rw [h, show speR = 83.1447 from rfl]
  ring

theorem bar_eq (P : ℝ) : P / 100000 = P * 1e-5 := by ring

/-- **C79**: the molar volume of the Spycher–Pruess–Ennis-King model solves the Redlich–Kwong equation of state, and among the solutions
above the covolume it is a most stable one. -/
theorem C79_volume_partial (eps : ℝ) (h0 : 0 ≤ eps) (species : List (Species ℝ)) (fn : Fn) (hf : spycherPruessEnnis eps species = .ok fn)
    (T P : ℝ) (x : List ℝ) (m : Mem) (hm : Fits m species.length) (hx : x.length = species.length) (hT : 0 < T) (hP : 0 < P)
    (hd : OutsideBand eps T (P / 100000)) (v : ℝ) (hv : v = volumeIn T P (propsOf (fn T P x m))) :
    covolume < v ∧ RedlichKwong T (P / 100000) v ∧
    ∀ w, covolume < w → RedlichKwong T (P / 100000) w → lnFugacity T (P / 100000) v ≤ lnFugacity T (P / 100000) w := by
  obtain ⟨p, e, hV, -⟩ := spe_eval eps species fn hf T P x m hm hx
  rw [hv, e, bar_eq]
  show covolume < volumeIn T P p ∧ _
  rw [bar_eq] at hd
  rw [show propsOf (Res.ok { m with props := p }) = p from rfl, volumeIn_eq eps T P hP p hV]
  exact volume_chosen eps T (P * 1e-5) h0 hT (bar_pos P hP) hd

/-- **C79**: the ln fugacity coefficient of CO2 is that of the equation of state. -/
theorem C79_carbon_dioxide_partial (eps : ℝ) (h0 : 0 ≤ eps) (species : List (Species ℝ)) (fn : Fn)
    (hf : spycherPruessEnnis eps species = .ok fn) (T P : ℝ) (x : List ℝ) (m : Mem) (hm : Fits m species.length)
    (hx : x.length = species.length) (hT : 0 < T) (hP : 0 < P) (hd : OutsideBand eps T (P / 100000)) (v : ℝ)
    (hv : v = volumeIn T P (propsOf (fn T P x m))) (i : Nat) (hi : i < species.length) (hc : findWithFormula species co2Formula = i) :
    lnG (fn T P x m) i = lnFugacity T (P / 100000) v ∧
    lnA (fn T P x m) i = lnG (fn T P x m) i + Real.log (x.getD i 0) + Real.log (P / 100000) := by
  have hvol := C79_volume_partial eps h0 species fn hf T P x m hm hx hT hP hd v hv
  obtain ⟨p, e, hV, -, -, -, -, -, -, hg, hla⟩ := spe_eval eps species fn hf T P x m hm hx
  have hv' : volumeCO2 eps T (P * 1e-5) = v := by
    rw [hv, e]; exact (volumeIn_eq eps T P hP p hV).symm
  rw [hv'] at hg hla
  rw [hc] at hg hla
  have hG : lnG (fn T P x m) i = speLnPhiCO2 T (P * 1e-5) v := by
    rw [e]
    show p.ln_g.getD i 0 = _
    rw [hg, getD_setIf _ _ _ _ (by rw [length_setIf, hm.1]; exact hi), if_pos rfl]
  refine ⟨?_, ?_⟩
  · rw [hG, bar_eq]
    obtain ⟨h1, h2, -⟩ := hvol
    rw [bar_eq] at h2
    have hPb := bar_pos P hP
    generalize P * 1e-5 = Q at *
    have hb : 0 < covolume := by unfold covolume; norm_num
    have hR : 0 < Rbar := by unfold Rbar; norm_num
    have hs : 0 < √T := Real.sqrt_pos.2 hT
    have v1 : 0 < v - covolume := by linarith
    have v2 : 0 < v := by linarith
    have v3 : 0 < v + covolume := by linarith
    have eB : speB = covolume := by unfold speB covolume; norm_num
    have eA : speA T = attraction T := by unfold speA attraction; norm_num
    have eR : speR = Rbar := rfl
    simp only [speLnPhiCO2, lnFugacity, residualHelmholtz]
    norm_num
    rw [eB, eA, eR, Real.log_div v2.ne' v1.ne', Real.log_div v1.ne' v2.ne']
    have hz : Q * v / (Rbar * T) = v / (v - covolume) - attraction T / (Rbar * (T * √T) * (v + covolume)) := by
      rw [h2]; field_simp
    have hz2 : Q * v / (Rbar * T) - 1 = covolume / (v - covolume) - attraction T / (Rbar * (T * √T) * (v + covolume)) := by
      rw [hz]; field_simp; ring
    have hz3 : covolume / (v - covolume) = Q * v / (Rbar * T) - 1 + attraction T / (Rbar * (T * √T) * (v + covolume)) := by
      rw [hz2]; ring
    rw [hz3]
    generalize Real.log ((v + covolume) / v) = L
    generalize Real.log (Q * v / (Rbar * T)) = M
    field_simp
    ring
  · rw [hG, e]
    show p.ln_a.getD i 0 = _
    have hil : i < x.length := by omega
    have hne : findWithFormula species waterFormula ≠ i := by
      intro h
      exact water_ne_co2 species (by omega) (by omega)
    rw [hla _ rfl _ rfl, getD_setIf _ _ _ _ (by rw [length_setIf]; simpa using hil), if_pos rfl,
      getD_setIf _ _ _ _ (by simpa using hil), if_neg hne, bar_eq]
    simp [List.getD_eq_getElem?_getD, hil]
    ring

/-- The residual Helmholtz energy gives the pressure of the equation of state. -/
theorem helmholtz_pressure (aw T v : ℝ) (hT : 0 < T) (hv : covolume < v) : ∃ P, RedlichKwong T P v ∧
    HasDerivAt (fun V => -(Rbar * T) * residualHelmholtz aw T 0 1 V) (P - Rbar * T / v) v := by
  have hb : 0 < covolume := by unfold covolume; norm_num
  have hR : 0 < Rbar := by unfold Rbar; norm_num
  have hs : 0 < √T := Real.sqrt_pos.2 hT
  have h1 : 0 < v - covolume := by linarith
  have h2 : 0 < v := by linarith
  have h3 : 0 < v + covolume := by linarith
  refine ⟨_, rfl, ?_⟩
  have idv := hasDerivAt_id v
  have dm := ((idv.sub_const covolume).div idv h2.ne').log (div_pos h1 h2).ne'
  have dp := ((idv.add_const covolume).div idv h2.ne').log (div_pos h3 h2).ne'
  have h := ((dm.const_mul (-1)).sub (dp.const_mul (attraction T / (Rbar * (T * √T) * covolume)))).const_mul (-(Rbar * T))
  refine (h.congr_of_eventuallyEq (Eventually.of_forall fun w => ?_)).congr_deriv ?_
  · simp only [residualHelmholtz, id, Pi.sub_apply, Pi.add_apply, Pi.div_apply]
    norm_num
  · simp only [id, Pi.div_apply]
    have hv0 : v ≠ 0 := h2.ne'
    have hm0 : v - covolume ≠ 0 := h1.ne'
    have hp0 : v + covolume ≠ 0 := h3.ne'
    field_simp
    ring

/-- The partial derivative of the residual Helmholtz energy with respect to the amount of water, at infinite dilution. -/
theorem helmholtz_water (aw T v : ℝ) (hT : 0 < T) (hv : covolume < v) :
    HasDerivAt (fun w => residualHelmholtz aw T w 1 v) (-Real.log ((v - covolume) / v) + 18.18 / (v - covolume) -
      2 * 78900000 / (Rbar * (T * √T) * covolume) * Real.log ((v + covolume) / v) +
      attraction T * 18.18 / (Rbar * (T * √T) * covolume ^ 2) * Real.log ((v + covolume) / v) -
      attraction T * 18.18 / (Rbar * (T * √T) * covolume * (v + covolume))) 0 := by
  have hb : 0 < covolume := by unfold covolume; norm_num
  have hR : 0 < Rbar := by unfold Rbar; norm_num
  have hs : 0 < √T := Real.sqrt_pos.2 hT
  have h1 : 0 < v - covolume := by linarith
  have h2 : 0 < v := by linarith
  have h3 : 0 < v + covolume := by linarith
  have idw := hasDerivAt_id (0 : ℝ)
  have dB : HasDerivAt (fun w : ℝ => 1 * covolume + w * 18.18) 18.18 0 := by
    simpa using (idw.mul_const (18.18 : ℝ)).const_add (1 * covolume)
  have dA : HasDerivAt (fun w : ℝ => 1 ^ 2 * attraction T + 2 * w * 1 * 78900000 + w ^ 2 * aw) (2 * 78900000) 0 := by
    have := ((((idw.const_mul (2 : ℝ)).mul_const 1).mul_const (78900000 : ℝ)).const_add (1 ^ 2 * attraction T)).add ((idw.pow 2).mul_const aw)
    refine this.congr_deriv ?_
    simp
  have hm : (v - (1 * covolume + 0 * 18.18)) / v ≠ 0 := by simpa using (div_pos h1 h2).ne'
  have hp : (v + (1 * covolume + 0 * 18.18)) / v ≠ 0 := by simpa using (div_pos h3 h2).ne'
  have dm := ((dB.const_sub v).div_const v).log hm
  have dp := ((dB.const_add v).div_const v).log hp
  have dn : HasDerivAt (fun w : ℝ => -(w + 1)) (-1) 0 := (idw.add_const 1).neg
  have hden : Rbar * (T * √T) * (1 * covolume + 0 * 18.18) ≠ 0 := by
    have : 0 < Rbar * (T * √T) * (1 * covolume + 0 * 18.18) := by rw [zero_mul, add_zero, one_mul]; positivity
    exact this.ne'
  have dk := dA.div (dB.const_mul (Rbar * (T * √T))) hden
  refine ((dn.mul dm).sub (dk.mul dp)).congr_deriv ?_
  simp only [zero_mul, add_zero, one_mul, mul_zero, zero_add, Pi.div_apply, one_pow, ne_eq, OfNat.ofNat_ne_zero, not_false_eq_true,
    zero_pow]
  generalize Real.log ((v - covolume) / v) = M
  generalize Real.log ((v + covolume) / v) = L
  have hv0 : v ≠ 0 := h2.ne'
  have hm0 : v - covolume ≠ 0 := h1.ne'
  have hp0 : v + covolume ≠ 0 := h3.ne'
  field_simp
  ring

/-- **C79, wrong**: the fugacity coefficient of water is not that of the equation of state. The ln fugacity coefficient of the model is below
the partial derivative of the residual Helmholtz energy, by a term that comes from a logarithm with the covolume of water instead of that of the
mixture. -/
theorem C79_water_wrong (eps : ℝ) (h0 : 0 ≤ eps) (species : List (Species ℝ)) (fn : Fn)
    (hf : spycherPruessEnnis eps species = .ok fn) (T P : ℝ) (x : List ℝ) (m : Mem) (hm : Fits m species.length)
    (hx : x.length = species.length) (hT : 0 < T) (hP : 0 < P) (ha : 0 < attraction T) (hd : OutsideBand eps T (P / 100000)) (v : ℝ)
    (hv : v = volumeIn T P (propsOf (fn T P x m))) (i : Nat) (hi : i < species.length) (hc : findWithFormula species waterFormula = i)
    (aw : ℝ) : ∃ D, HasDerivAt (fun w => residualHelmholtz aw T w 1 v) D 0 ∧
      lnG (fn T P x m) i = D - Real.log (P / 100000 * v / (Rbar * T)) -
        18.18 * attraction T / (Rbar * (T * √T) * covolume ^ 2) * Real.log ((v + covolume) / (v + 18.18)) ∧
      lnG (fn T P x m) i < D - Real.log (P / 100000 * v / (Rbar * T)) := by
  obtain ⟨h1, -, -⟩ := C79_volume_partial eps h0 species fn hf T P x m hm hx hT hP hd v hv
  refine ⟨_, helmholtz_water aw T v hT h1, ?_⟩
  obtain ⟨p, e, hV, -, -, -, -, -, -, hg, hla⟩ := spe_eval eps species fn hf T P x m hm hx
  have hv' : volumeCO2 eps T (P * 1e-5) = v := by
    rw [hv, e]; exact (volumeIn_eq eps T P hP p hV).symm
  have hb : 0 < covolume := by unfold covolume; norm_num
  have hbw : (18.18 : ℝ) < covolume := by unfold covolume; norm_num
  have hR : 0 < Rbar := by unfold Rbar; norm_num
  have hs : 0 < √T := Real.sqrt_pos.2 hT
  have v1 : 0 < v - covolume := by linarith
  have v2 : 0 < v := by linarith
  have v3 : 0 < v + covolume := by linarith
  have v4 : 0 < v + 18.18 := by linarith
  have eq : lnG (fn T P x m) i = -Real.log ((v - covolume) / v) + 18.18 / (v - covolume) -
      2 * 78900000 / (Rbar * (T * √T) * covolume) * Real.log ((v + covolume) / v) +
      attraction T * 18.18 / (Rbar * (T * √T) * covolume ^ 2) * Real.log ((v + covolume) / v) -
      attraction T * 18.18 / (Rbar * (T * √T) * covolume * (v + covolume)) - Real.log (P / 100000 * v / (Rbar * T)) -
        18.18 * attraction T / (Rbar * (T * √T) * covolume ^ 2) * Real.log ((v + covolume) / (v + 18.18)) := by
    rw [hv', hc] at hg
    have hne : findWithFormula species co2Formula ≠ i := by
      rw [← hc]
      exact (water_ne_co2 species (by omega)).symm
    rw [e]
    show p.ln_g.getD i 0 = _
    rw [hg, getD_setIf _ _ _ _ (by rw [length_setIf, hm.1]; exact hi), if_neg hne, getD_setIf _ _ _ _ (by rw [hm.1]; exact hi), if_pos rfl]
    have eB : speB = covolume := by unfold speB covolume; norm_num
    have eA : speA T = attraction T := by unfold speA attraction; norm_num
    have eR : speR = Rbar := rfl
    have eBw : speBw = 18.18 := rfl
    have eAw : speAw = 78900000 := by unfold speAw; norm_num
    simp only [speLnPhiH2O]
    rw [eB, eA, eR, eBw, eAw, bar_eq, Real.log_div v2.ne' v1.ne', Real.log_div v1.ne' v2.ne', Real.log_div v3.ne' v2.ne',
      Real.log_div v4.ne' v2.ne', Real.log_div v3.ne' v4.ne']
    generalize Real.log (P * 1e-5 * v / (Rbar * T)) = M
    generalize Real.log (v + covolume) = A
    generalize Real.log (v + 18.18) = B
    generalize Real.log (v - covolume) = C
    generalize Real.log v = D
    field_simp
    ring
  refine ⟨eq, ?_⟩
  rw [eq]
  have hlog : 0 < Real.log ((v + covolume) / (v + 18.18)) := by
    apply Real.log_pos
    rw [lt_div_iff₀ v4]; linarith
  have : 0 < 18.18 * attraction T / (Rbar * (T * √T) * covolume ^ 2) * Real.log ((v + covolume) / (v + 18.18)) := by positivity
  linarith

/-- **C79, wrong**: the volume of the fluid, that is the excess volume of the model plus the volume of an ideal gas, is negative whenever the
pressure in bar is below 23 times the temperature in kelvin. -/
theorem C79_volume_wrong (eps : ℝ) (h0 : 0 ≤ eps) (species : List (Species ℝ)) (fn : Fn)
    (hf : spycherPruessEnnis eps species = .ok fn) (T P : ℝ) (x : List ℝ) (m : Mem) (hm : Fits m species.length)
    (hx : x.length = species.length) (hT : 0 < T) (hP : 0 < P) (ha : 0 < attraction T) (hd : OutsideBand eps T (P / 100000))
    (hlow : P / 100000 < 23 * T) : (propsOf (fn T P x m)).Vex + gasConstant * T / P < 0 := by
  obtain ⟨h1, h2, -⟩ := C79_volume_partial eps h0 species fn hf T P x m hm hx hT hP hd _ rfl
  have hs : 0 < √T := Real.sqrt_pos.2 hT
  have hb : 0 < covolume := by unfold covolume; norm_num
  unfold volumeIn at h1 h2
  generalize (propsOf (fn T P x m)).Vex = V at *
  generalize hw : (V + 83.1447 * T / P) * 1000000 = w at *
  have hV : V = w / 1000000 - 83.1447 * T / P := by rw [← hw]; ring
  have v1 : 0 < w - covolume := by linarith
  have v2 : 0 < w := by linarith
  have v3 : 0 < w + covolume := by linarith
  have hle : P / 100000 ≤ Rbar * T / (w - covolume) := by
    rw [h2]
    have : 0 ≤ attraction T / (√T * w * (w + covolume)) := by positivity
    linarith
  have hle2 : P / 100000 * (w - covolume) ≤ Rbar * T := by
    rwa [le_div_iff₀ v1] at hle
  have hPw : P * w < 74.8 * 100000 * 10 * T := by
    have e1 : Rbar = 83.1447 := rfl
    have e2 : covolume = 27.8 := rfl
    rw [e1, e2] at hle2
    nlinarith
  have hg : gasConstant = 8.3144621 := by unfold gasConstant; norm_num
  rw [hV, hg]
  have : w / 1000000 - 83.1447 * T / P + 8.3144621 * T / P = (P * w / 1000000 - (83.1447 - 8.3144621) * T) / P := by
    field_simp; ring
  rw [this]
  apply div_neg_of_neg_of_pos _ hP
  nlinarith

/-- **C79, wrong**: the other properties are those of whatever was evaluated before, and so are the activity coefficients of the other
species. -/
theorem C79_stale_wrong (eps : ℝ) (species : List (Species ℝ)) (fn : Fn) (hf : spycherPruessEnnis eps species = .ok fn) (T P : ℝ)
    (x : List ℝ) (m : Mem) (hm : Fits m species.length) (hx : x.length = species.length) :
    (propsOf (fn T P x m)).VexT = m.props.VexT ∧ (propsOf (fn T P x m)).VexP = m.props.VexP ∧ (propsOf (fn T P x m)).Gex = m.props.Gex ∧
    (propsOf (fn T P x m)).Hex = m.props.Hex ∧ (propsOf (fn T P x m)).Cpex = m.props.Cpex ∧ (propsOf (fn T P x m)).Cvex = m.props.Cvex ∧
    ∀ i < species.length, findWithFormula species waterFormula ≠ i → findWithFormula species co2Formula ≠ i →
      lnG (fn T P x m) i = m.props.ln_g.getD i 0 ∧ lnA (fn T P x m) i = Real.log (x.getD i 0) + Real.log (P / 100000) := by
  obtain ⟨p, e, -, hVT, hVP, hG, hH, hCp, hCv, hg, hla⟩ := spe_eval eps species fn hf T P x m hm hx
  rw [e]
  refine ⟨hVT, hVP, hG, hH, hCp, hCv, fun i hi hw hc => ⟨?_, ?_⟩⟩
  · show p.ln_g.getD i 0 = _
    rw [hg, getD_setIf _ _ _ _ (by rw [length_setIf, hm.1]; exact hi), if_neg hc, getD_setIf _ _ _ _ (by rw [hm.1]; exact hi), if_neg hw]
  · show p.ln_a.getD i 0 = _
    have hil : i < x.length := by omega
    rw [hla _ rfl _ rfl, getD_setIf _ _ _ _ (by rw [length_setIf]; simpa using hil), if_neg hc,
      getD_setIf _ _ _ _ (by simpa using hil), if_neg hw, bar_eq]
    simp [List.getD_eq_getElem?_getD, hil]

/-! The hypotheses hold at 400 K and 1 bar. -/

def speExample : List (Species ℝ) := [⟨c!"N2(g)", ⟨c!"N2", [(c!"N", 2)], 0⟩, 0⟩, ⟨c!"CO2(g)", co2Formula, 0⟩, ⟨c!"H2O(g)", waterFormula, 0⟩]

theorem outside_400 : OutsideBand (1 / 1000000000000) 400 1 := by
  unfold OutsideBand
  left
  have h : √(400 : ℝ) = 20 := by rw [show (400 : ℝ) = 20 ^ 2 by norm_num]; exact Real.sqrt_sq (by norm_num)
  rw [h]
  simp only [Cardano.discr, Cardano.yn, Cardano.xn, Cardano.delta2, Rbar, covolume, attraction]
  rw [lt_abs]
  first
  | (left; norm_num; done)
  | (right; norm_num; done)

example : ∃ fn v, spycherPruessEnnis (1 / 1000000000000) speExample = .ok fn ∧ Fits srMem speExample.length ∧
    v = volumeIn 400 100000 (propsOf (fn 400 100000 [0.1, 0.8, 0.1] srMem)) ∧ RedlichKwong 400 1 v ∧
    lnG (fn 400 100000 [0.1, 0.8, 0.1] srMem) 1 = lnFugacity 400 1 v ∧
    (propsOf (fn 400 100000 [0.1, 0.8, 0.1] srMem)).Vex + gasConstant * 400 / 100000 < 0 ∧
    lnG (fn 400 100000 [0.1, 0.8, 0.1] srMem) 0 = 7 := by
  have ha : 0 < attraction 400 := by unfold attraction; norm_num
  have hd : OutsideBand (1 / 1000000000000) 400 (100000 / 100000) := by
    rw [show (100000 / 100000 : ℝ) = 1 by norm_num]; exact outside_400
  have fit : Fits srMem speExample.length := ⟨rfl, rfl⟩
  refine ⟨_, _, rfl, fit, rfl, ?_, ?_, ?_, ?_⟩
  · have := (C79_volume_partial (1 / 1000000000000) (by norm_num) speExample _ rfl 400 100000 [0.1, 0.8, 0.1] srMem fit rfl (by norm_num)
      (by norm_num) hd _ rfl).2.1
    rwa [show (100000 / 100000 : ℝ) = 1 by norm_num] at this
  · have := (C79_carbon_dioxide_partial (1 / 1000000000000) (by norm_num) speExample _ rfl 400 100000 [0.1, 0.8, 0.1] srMem fit rfl
      (by norm_num) (by norm_num) hd _ rfl 1 (by decide) (by unfold findWithFormula Chem.indexfn; decide +kernel)).1
    rwa [show (100000 / 100000 : ℝ) = 1 by norm_num] at this
  · exact C79_volume_wrong (1 / 1000000000000) (by norm_num) speExample _ rfl 400 100000 [0.1, 0.8, 0.1] srMem fit rfl (by norm_num)
      (by norm_num) ha hd (by norm_num)
  · exact ((C79_stale_wrong (1 / 1000000000000) speExample _ rfl 400 100000 [0.1, 0.8, 0.1] srMem fit rfl).2.2.2.2.2.2 0 (by decide)
      (by unfold findWithFormula Chem.indexfn; decide +kernel) (by unfold findWithFormula Chem.indexfn; decide +kernel)).1

end Verif.Activity
