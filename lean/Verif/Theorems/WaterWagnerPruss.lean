import Verif.Lemmas.WagnerPruss

/-!
# C64 : the Wagner and Pruss state holds the derivatives of its Helmholtz energy
-/

namespace Verif.Water

open Real

/-- C64.  At every positive temperature and every positive density other than the critical one, the
nine derivative fields of the Wagner and Pruss state are the partial derivatives of its Helmholtz
energy, along every path of differentiation. -/
theorem C64_wagnerPruss (T D : ℝ) (hT : 0 < T) (hD : 0 < D) (hcr : D ≠ Dcr) : IsJet wagnerPruss T D := by
  have hDc : (0 : ℝ) < Dcr := by unfold Dcr; norm_num
  have ht : 0 < Tcr / T := div_pos (by unfold Tcr; norm_num) hT
  have hd : 0 < D / Dcr := div_pos hD hDc
  have h1 : D / Dcr ≠ 1 := by
    intro h
    rw [div_eq_one_iff_eq hDc.ne'] at h
    exact hcr h
  refine wpDimension_jet (phi := wpPhi) hT ?_
  refine ((wpIdeal0_jet ht hd).add (IsJet.sum _ _ ?_)).add ((((IsJet.sum _ _ ?_).add (IsJet.sum _ _ ?_)).add
    (IsJet.sum _ _ ?_)).add (IsJet.sum _ _ ?_))
  · intro i hi
    refine wpIdeal_jet _ _ ?_ ht hd
    simp only [List.mem_range'_1] at hi
    obtain ⟨h4, h9⟩ := hi
    interval_cases i <;> norm_num [wpGammao]
  · intro i _; exact wpPoly_jet _ _ _ ht hd
  · intro i _; exact wpExp_jet _ _ _ _ ht hd
  · intro i _; exact wpGauss_jet _ _ _ _ _ _ _ ht hd
  · intro i hi
    simp only [List.mem_range'_1] at hi
    obtain ⟨h4, h9⟩ := hi
    refine wpNonAnalytic_jet _ (wpDeltaPow_jet _ _ _ _ _ ?_ ?_ h1) (wpPsi_jet _ _)
    · interval_cases i <;> norm_num [wpB]
    · interval_cases i <;> norm_num [wpE]

/-- The theorem applies at the conditions of liquid water in a laboratory. -/
example : IsJet wagnerPruss 298.15 997 :=
  C64_wagnerPruss _ _ (by norm_num) (by norm_num) (by unfold Dcr; norm_num)

end Verif.Water
