import Verif.Spec.FluidModels
import Mathlib.Analysis.SpecialFunctions.Log.Deriv
import Mathlib.Tactic.FieldSimp
import Mathlib.Tactic.Ring
import Mathlib.Tactic.LinearCombination

/-!
# C78: the Spycher–Reed model of gases
-/

namespace Verif.Activity

open Verif.Aqueous Verif.ChemicalProps Filter Topology

/-! ## Evaluations -/

theorem sr_throw_iff (species : List (Species ℝ)) : spycherReed species = .throw ↔
    ∃ s ∈ species, s.formula.str ∉ [c!"H2O", c!"CO2", c!"CH4"] := by
  unfold spycherReed
  have h : Chem.contained (species.map fun s => s.formula.str) [c!"H2O", c!"CO2", c!"CH4"] = true ↔
      ∀ s ∈ species, s.formula.str ∈ [c!"H2O", c!"CO2", c!"CH4"] := by
    unfold Chem.contained Chem.contains
    simp only [List.all_map, List.all_eq_true, Function.comp_apply]
    refine forall_congr' fun s => imp_congr_right fun _ => ?_
    simp [eq_comm (a := s.formula.str)]
  split_ifs with hc
  · rw [Bool.not_eq_true', ← Bool.not_eq_true, h] at hc
    push Not at hc
    simpa using hc
  · rw [Bool.not_eq_true', Bool.not_eq_false, h] at hc
    simp only [false_iff]
    push Not
    exact hc

theorem sr_eval (species : List (Species ℝ)) (fn : Fn) (hf : spycherReed species = .ok fn) (T P : ℝ) (x : List ℝ) (m : Mem)
    (hm : Fits m species.length) (hx : x.length = species.length) :
    fn T P x m = .ok { m with props := srEval (fun g => findWithFormula species (gasFormula g)) species.length T P x m.props } := by
  unfold spycherReed at hf
  split_ifs at hf
  injection hf with hf
  rw [← hf]
  have : m.fits species.length = true := by unfold Mem.fits; simp [hm.1, hm.2]
  simp [this, hx]

/-- The mole fraction of gas `g` in the code. -/
noncomputable def gasFraction (species : List (Species ℝ)) (x : List ℝ) (g : Fin 3) : ℝ :=
  if findWithFormula species (gasFormula g) < species.length then x.getD (findWithFormula species (gasFormula g)) 0 else 0

theorem computeB_deriv (T : ℝ) (hT : T ≠ 0) (i k : Fin 3) : HasDerivAt (fun T => computeB T i k) (computeBT T i k) T := by
  unfold computeB computeBT
  have h1 : HasDerivAt (fun T : ℝ => T * T) (1 * T + T * 1) T := (hasDerivAt_id T).mul (hasDerivAt_id T)
  have h := (((hasDerivAt_const T (srA i k)).div h1 (mul_ne_zero hT hT)).add
    ((hasDerivAt_const T (srB i k)).div (hasDerivAt_id T) hT)).add (hasDerivAt_const T (srC i k))
  refine h.congr_deriv ?_
  simp only [id]
  field_simp
  ring

theorem computeBT_deriv (T : ℝ) (hT : T ≠ 0) (i k : Fin 3) : HasDerivAt (fun T => computeBT T i k) (computeBTT T i k) T := by
  unfold computeBT computeBTT
  have h1 : HasDerivAt (fun T : ℝ => T * T) (1 * T + T * 1) T := (hasDerivAt_id T).mul (hasDerivAt_id T)
  have h := ((((hasDerivAt_const T (2 * srA i k)).div (hasDerivAt_id T) hT).add (hasDerivAt_const T (srB i k))).neg).div h1
    (mul_ne_zero hT hT)
  refine h.congr_deriv ?_
  simp only [id, Pi.add_apply, Pi.neg_apply, Pi.div_apply]
  field_simp
  ring

theorem computeC_deriv (T : ℝ) (hT : T ≠ 0) (i k l : Fin 3) : HasDerivAt (fun T => computeC T i k l) (computeCT T i k l) T := by
  unfold computeC computeCT
  have h1 : HasDerivAt (fun T : ℝ => T * T) (1 * T + T * 1) T := (hasDerivAt_id T).mul (hasDerivAt_id T)
  have h := (((hasDerivAt_const T (srD i k l)).div h1 (mul_ne_zero hT hT)).add
    ((hasDerivAt_const T (srE i k l)).div (hasDerivAt_id T) hT)).add (hasDerivAt_const T (srF i k l))
  refine h.congr_deriv ?_
  simp only [id]
  field_simp
  ring

theorem computeCT_deriv (T : ℝ) (hT : T ≠ 0) (i k l : Fin 3) : HasDerivAt (fun T => computeCT T i k l) (computeCTT T i k l) T := by
  unfold computeCT computeCTT
  have h1 : HasDerivAt (fun T : ℝ => T * T) (1 * T + T * 1) T := (hasDerivAt_id T).mul (hasDerivAt_id T)
  have h := ((((hasDerivAt_const T (2 * srD i k l)).div (hasDerivAt_id T) hT).add (hasDerivAt_const T (srE i k l))).neg).div h1
    (mul_ne_zero hT hT)
  refine h.congr_deriv ?_
  simp only [id, Pi.add_apply, Pi.neg_apply, Pi.div_apply]
  field_simp
  ring

theorem mix2_deriv (y : Fin 3 → ℝ) (B : ℝ → Fin 3 → Fin 3 → ℝ) (B' : Fin 3 → Fin 3 → ℝ) (t : ℝ)
    (h : ∀ i k, HasDerivAt (fun t => B t i k) (B' i k) t) : HasDerivAt (fun t => mix2 y (B t)) (mix2 y B') t := by
  unfold mix2
  refine HasDerivAt.fun_sum fun i _ => HasDerivAt.fun_sum fun k _ => ?_
  exact (h i k).const_mul _

theorem mix3_deriv (y : Fin 3 → ℝ) (C : ℝ → Fin 3 → Fin 3 → Fin 3 → ℝ) (C' : Fin 3 → Fin 3 → Fin 3 → ℝ) (t : ℝ)
    (h : ∀ i k l, HasDerivAt (fun t => C t i k l) (C' i k l) t) : HasDerivAt (fun t => mix3 y (C t)) (mix3 y C') t := by
  unfold mix3
  refine HasDerivAt.fun_sum fun i _ => HasDerivAt.fun_sum fun k _ => HasDerivAt.fun_sum fun l _ => ?_
  exact (h i k l).const_mul _

/-- The residual properties of the code for mixture coefficients given as functions of temperature. -/
theorem virial_consistent (p : ℝ → ℝ → AProps ℝ) (B BT BTT C CT CTT : ℝ → ℝ) (T P : ℝ) (hT : 0 < T) (hP : 0 < P)
    (hB : ∀ T > 0, HasDerivAt B (BT T) T) (hBT : ∀ T > 0, HasDerivAt BT (BTT T) T)
    (hC : ∀ T > 0, HasDerivAt C (CT T) T) (hCT : ∀ T > 0, HasDerivAt CT (CTT T) T)
    (hG : ∀ T P, (p T P).Gex = gasConstant * T * (B T + 0.5 * C T * (1e-5 * P)) * (1e-5 * P))
    (hV : ∀ T P, (p T P).Vex = (1 + B T * (1e-5 * P) + C T * (1e-5 * P) * (1e-5 * P)) * (gasConstant * T / P) - gasConstant * T / P)
    (hVT : (p T P).VexT = (BT T * (1e-5 * P) + CT T * (1e-5 * P) * (1e-5 * P)) * (gasConstant * T / P) +
      (1 + B T * (1e-5 * P) + C T * (1e-5 * P) * (1e-5 * P)) * (gasConstant * T / P / T) - gasConstant * T / P / T)
    (hVP : (p T P).VexP = (B T + 2 * C T * (1e-5 * P)) * 1e-5 * (gasConstant * T / P) +
      (1 + B T * (1e-5 * P) + C T * (1e-5 * P) * (1e-5 * P)) * (-(gasConstant * T / P) / P) - -(gasConstant * T / P) / P)
    (hH : ∀ T P, (p T P).Hex = -gasConstant * T * T * (BT T + 0.5 * CT T * (1e-5 * P)) * (1e-5 * P))
    (hCp : (p T P).Cpex = 2 * (-gasConstant * T * T * (BT T + 0.5 * CT T * (1e-5 * P)) * (1e-5 * P)) / T -
      gasConstant * T * T * (BTT T + 0.5 * CTT T * (1e-5 * P)) * (1e-5 * P))
    (hCv : (p T P).Cvex = (p T P).Cpex + gasConstant + T * ((p T P).VexT + gasConstant * T / P / T) *
      ((p T P).VexT + gasConstant * T / P / T) / ((p T P).VexP + -(gasConstant * T / P) / P)) :
    ResidualConsistent p T P := by
  have hT0 := hT.ne'
  have hP0 := hP.ne'
  have idT := hasDerivAt_id T
  have idP := hasDerivAt_id P
  have dB := hB T hT
  have dC := hC T hT
  have vT : HasDerivAt (fun T' => (p T' P).Vex) (p T P).VexT T := by
    have h := ((((dB.mul_const (1e-5 * P)).const_add 1).add ((dC.mul_const (1e-5 * P)).mul_const (1e-5 * P))).mul
      ((idT.const_mul gasConstant).div_const P)).sub ((idT.const_mul gasConstant).div_const P)
    refine (h.congr_of_eventuallyEq (Eventually.of_forall fun T' => ?_)).congr_deriv ?_
    · simp only [hV]; rfl
    · rw [hVT]
      simp only [id, Pi.add_apply]
      field_simp
  have vP : HasDerivAt (fun P' => (p T P').Vex) (p T P).VexP P := by
    have dp := idP.const_mul (1e-5 : ℝ)
    have dv := (hasDerivAt_const P (gasConstant * T)).div idP hP0
    have h := ((((dp.const_mul (B T)).const_add 1).add ((dp.const_mul (C T)).mul dp)).mul dv).sub dv
    refine (h.congr_of_eventuallyEq (Eventually.of_forall fun P' => ?_)).congr_deriv ?_
    · simp only [hV]; rfl
    · rw [hVP]
      simp only [id, Pi.add_apply, Pi.mul_apply, Pi.div_apply]
      field_simp
      ring
  refine ⟨?_, vT, vP, ?_, ?_, ?_, ?_⟩
  · have dp := idP.const_mul (1e-5 : ℝ)
    have h := (((dp.const_mul (0.5 * C T)).const_add (B T)).const_mul (gasConstant * T)).mul dp
    refine (h.congr_of_eventuallyEq (Eventually.of_forall fun P' => ?_)).congr_deriv ?_
    · simp only [hG]; rfl
    · rw [hV]
      simp only [id]
      field_simp
      ring
  · have h := ((dB.add ((dC.const_mul 0.5).mul_const (1e-5 * P))).const_mul gasConstant).mul_const (1e-5 * P)
    refine (h.congr_of_eventuallyEq ?_).congr_deriv ?_
    · filter_upwards [eventually_gt_nhds hT] with T' hT'
      have := ne_of_gt hT'
      simp only [hG, Pi.add_apply]
      field_simp
    · rw [hH]
      field_simp
  · have h := ((((idT.const_mul (-gasConstant)).mul idT).mul ((hBT T hT).add (((hCT T hT).const_mul 0.5).mul_const (1e-5 * P)))).mul_const (1e-5 * P))
    refine (h.congr_of_eventuallyEq (Eventually.of_forall fun T' => ?_)).congr_deriv ?_
    · simp only [hH]; rfl
    · rw [hCp]
      simp only [id, Pi.add_apply, Pi.mul_apply]
      field_simp
      ring
  · intro VT VP h1 h2 h3
    have e1 : VT = (p T P).VexT + gasConstant / P := by
      refine h1.unique ((vT.add ((idT.const_mul gasConstant).div_const P)).congr_deriv ?_)
      simp
    have e2 : VP = (p T P).VexP - gasConstant * T / P ^ 2 := by
      refine h2.unique ((vP.add ((hasDerivAt_const P (gasConstant * T)).div idP hP0)).congr_deriv ?_)
      simp only [id]
      ring
    have e3 : (p T P).VexT + gasConstant * T / P / T = VT := by rw [e1]; field_simp
    have e4 : (p T P).VexP + -(gasConstant * T / P) / P = VP := by rw [e2]; field_simp; ring
    rw [hCv, e3, e4]
    ring
  · simp only [hG]
    have h : ContinuousAt (fun P' : ℝ => gasConstant * T * (B T + 0.5 * C T * (1e-5 * P')) * (1e-5 * P')) 0 := by fun_prop
    have h2 := h.tendsto
    simp only [mul_zero] at h2
    exact h2.mono_left nhdsWithin_le_nhds

/-- **C78**: the residual properties of the Spycher–Reed model are those of one Gibbs energy, whatever the species, their order and the
composition. -/
theorem C78_consistent (species : List (Species ℝ)) (fn : Fn) (hf : spycherReed species = .ok fn) (x : List ℝ) (m : Mem)
    (hm : Fits m species.length) (hx : x.length = species.length) (T P : ℝ) (hT : 0 < T) (hP : 0 < P) :
    ResidualConsistent (fun T P => propsOf (fn T P x m)) T P := by
  have he : ∀ T P, propsOf (fn T P x m) = srEval (fun g => findWithFormula species (gasFormula g)) species.length T P x m.props := by
    intro T P
    rw [sr_eval species fn hf T P x m hm hx]; rfl
  simp only [he]
  refine virial_consistent _ (fun T => mix2 (gasFraction species x) (computeB T)) (fun T => mix2 (gasFraction species x) (computeBT T))
    (fun T => mix2 (gasFraction species x) (computeBTT T)) (fun T => mix3 (gasFraction species x) (computeC T))
    (fun T => mix3 (gasFraction species x) (computeCT T)) (fun T => mix3 (gasFraction species x) (computeCTT T)) T P hT hP
    ?_ ?_ ?_ ?_ (fun _ _ => rfl) (fun _ _ => rfl) rfl rfl (fun _ _ => rfl) rfl ?_
  · exact fun T hT => mix2_deriv _ _ _ _ fun i k => computeB_deriv T hT.ne' i k
  · exact fun T hT => mix2_deriv _ _ _ _ fun i k => computeBT_deriv T hT.ne' i k
  · exact fun T hT => mix3_deriv _ _ _ _ fun i k l => computeC_deriv T hT.ne' i k l
  · exact fun T hT => mix3_deriv _ _ _ _ fun i k l => computeCT_deriv T hT.ne' i k l
  · have e1 : ∀ p : AProps ℝ, (srEval (fun g => findWithFormula species (gasFormula g)) species.length T P x p).VexT + gasConstant * T / P / T =
        (mix2 (gasFraction species x) (computeBT T) * (1e-5 * P) + mix3 (gasFraction species x) (computeCT T) * (1e-5 * P) * (1e-5 * P)) *
          (gasConstant * T / P) + (1 + mix2 (gasFraction species x) (computeB T) * (1e-5 * P) +
          mix3 (gasFraction species x) (computeC T) * (1e-5 * P) * (1e-5 * P)) * (gasConstant * T / P / T) := fun p => sub_add_cancel _ _
    have e2 : ∀ p : AProps ℝ, (srEval (fun g => findWithFormula species (gasFormula g)) species.length T P x p).VexP + -(gasConstant * T / P) / P =
        (mix2 (gasFraction species x) (computeB T) + 2 * mix3 (gasFraction species x) (computeC T) * (1e-5 * P)) * 1e-5 *
          (gasConstant * T / P) + (1 + mix2 (gasFraction species x) (computeB T) * (1e-5 * P) +
          mix3 (gasFraction species x) (computeC T) * (1e-5 * P) * (1e-5 * P)) * (-(gasConstant * T / P) / P) := fun p => sub_add_cancel _ _
    rw [e1, e2]
    rfl

/-! ## The gases of a phase -/

theorem gas_equivalent (g h : Fin 3) : (gasFormula g).equivalent (gasFormula h) = decide (g = h) := by
  revert g h; decide +kernel

theorem gasFormula_inj (g h : Fin 3) (e : gasFormula g = gasFormula h) : g = h := by
  revert g h; decide +kernel

theorem gas_of_mem (f : Formula) (h : f ∈ [waterFormula, co2Formula, ch4Formula]) : ∃ g, f = gasFormula g := by
  simp only [List.mem_cons, List.not_mem_nil, or_false] at h
  rcases h with h | h | h
  · exact ⟨0, h⟩
  · exact ⟨1, h⟩
  · exact ⟨2, h⟩

theorem find_of_formula (species : List (Species ℝ)) (h : ThreeGases species) (i : Nat) (hi : i < species.length) (g : Fin 3)
    (e : species[i].formula = gasFormula g) : findWithFormula species (gasFormula g) = i := by
  unfold findWithFormula Chem.indexfn
  rw [List.findIdx_eq hi]
  refine ⟨by rw [e, gas_equivalent]; simp, fun j hj => ?_⟩
  have hjl : j < species.length := lt_trans hj hi
  obtain ⟨g', e'⟩ := gas_of_mem _ (h.1 species[j] (List.getElem_mem hjl))
  rw [e', gas_equivalent]
  by_contra hc
  simp only [Bool.not_eq_false, decide_eq_true_eq] at hc
  have hij : (species.map fun s => s.formula)[j]'(by simpa using hjl) = (species.map fun s => s.formula)[i]'(by simpa using hi) := by
    simp only [List.getElem_map]
    rw [e', e, hc]
  have := (h.2.getElem_inj_iff).1 hij
  omega

theorem formula_at_find (species : List (Species ℝ)) (h : ThreeGases species) (g : Fin 3)
    (hi : findWithFormula species (gasFormula g) < species.length) :
    species[findWithFormula species (gasFormula g)].formula = gasFormula g := by
  have hp := List.findIdx_getElem (xs := species) (p := fun s : Species ℝ => (gasFormula g).equivalent s.formula) (w := hi)
  obtain ⟨g', e'⟩ := gas_of_mem _ (h.1 _ (List.getElem_mem hi))
  have e2 : species[findWithFormula species (gasFormula g)].formula = gasFormula g' := e'
  have hp2 : (gasFormula g).equivalent (species[findWithFormula species (gasFormula g)].formula) = true := hp
  rw [e2, gas_equivalent] at hp2
  rw [e2]
  simp only [decide_eq_true_eq] at hp2
  rw [hp2]

theorem ofFormula_absent (species : List (Species ℝ)) (x : List ℝ) (f : Formula) (h : ∀ s ∈ species, s.formula ≠ f) :
    ofFormula species x f = 0 := by
  unfold ofFormula
  rw [List.filter_eq_nil_iff.2]
  · rfl
  · rintro ⟨s, a⟩ hq
    have := h s (List.of_mem_zip hq).1
    simpa using this

theorem gasFraction_eq (species : List (Species ℝ)) (g : Fin 3) : ∀ x : List ℝ, ThreeGases species → x.length = species.length →
    gasFraction species x g = ofFormula species x (gasFormula g) := by
  induction species with
  | nil => intro x _ hx; simp [gasFraction, ofFormula]
  | cons s ss ih =>
    intro x h hx
    obtain ⟨a, xs, rfl⟩ : ∃ a xs, x = a :: xs := by
      cases x with
      | nil => simp at hx
      | cons a xs => exact ⟨a, xs, rfl⟩
    have ht : ThreeGases ss := ⟨fun t ht => h.1 t (List.mem_cons_of_mem _ ht), (List.nodup_cons.1 h.2).2⟩
    have hn : s.formula ∉ ss.map fun s => s.formula := (List.nodup_cons.1 h.2).1
    have e0 : ofFormula (s :: ss) (a :: xs) (gasFormula g) = (if s.formula = gasFormula g then a else 0) + ofFormula ss xs (gasFormula g) := by
      unfold ofFormula
      rw [List.zip_cons_cons, List.filter_cons]
      by_cases hs : s.formula = gasFormula g <;> simp [hs]
    rw [e0]
    obtain ⟨g', e'⟩ := gas_of_mem _ (h.1 s (List.mem_cons_self))
    by_cases hs : s.formula = gasFormula g
    · rw [if_pos hs, ofFormula_absent ss xs _ fun t ht' e => hn (by rw [hs, ← e]; exact List.mem_map_of_mem ht')]
      have : findWithFormula (s :: ss) (gasFormula g) = 0 := find_of_formula (s :: ss) h 0 (by simp) g hs
      unfold gasFraction
      rw [this]
      simp
    · rw [if_neg hs, zero_add, ← ih xs ht (by simpa using hx)]
      have : findWithFormula (s :: ss) (gasFormula g) = findWithFormula ss (gasFormula g) + 1 := by
        unfold findWithFormula Chem.indexfn
        rw [List.findIdx_cons]
        have hne : (gasFormula g).equivalent s.formula = false := by
          rw [e', gas_equivalent]
          simp only [decide_eq_false_iff_not]
          rintro rfl
          exact hs e'
        rw [hne]; rfl
      unfold gasFraction
      rw [this]
      simp

/-- **C78**: the compressibility factor of the Spycher–Reed model is the virial expansion with the published coefficients. -/
theorem C78_virial (species : List (Species ℝ)) (h3 : ThreeGases species) (fn : Fn) (hf : spycherReed species = .ok fn) (x : List ℝ) (m : Mem)
    (hm : Fits m species.length) (hx : x.length = species.length) (T P : ℝ) (hT : 0 < T) (hP : 0 < P) :
    P * ((propsOf (fn T P x m)).Vex + gasConstant * T / P) / (gasConstant * T) = 1 +
      secondVirial T (ofFormula species x waterFormula) (ofFormula species x co2Formula) (ofFormula species x ch4Formula) * (P / 100000) +
      thirdVirial T (ofFormula species x waterFormula) (ofFormula species x co2Formula) (ofFormula species x ch4Formula) * (P / 100000) ^ 2 := by
  have e : (propsOf (fn T P x m)).Vex = (1 + mix2 (gasFraction species x) (computeB T) * (1e-5 * P) +
      mix3 (gasFraction species x) (computeC T) * (1e-5 * P) * (1e-5 * P)) * (gasConstant * T / P) - gasConstant * T / P := by
    rw [sr_eval species fn hf T P x m hm hx]; rfl
  have e0 := gasFraction_eq species 0 x h3 hx
  have e1 := gasFraction_eq species 1 x h3 hx
  have e2 := gasFraction_eq species 2 x h3 hx
  have g0 : gasFormula 0 = waterFormula := rfl
  have g1 : gasFormula 1 = co2Formula := rfl
  have g2 : gasFormula 2 = ch4Formula := rfl
  rw [g0] at e0; rw [g1] at e1; rw [g2] at e2
  rw [e, ← e0, ← e1, ← e2]
  generalize gasFraction species x = y
  have hR : gasConstant ≠ 0 := by unfold gasConstant; norm_num
  have hZ : ∀ Z : ℝ, P * (Z * (gasConstant * T / P) - gasConstant * T / P + gasConstant * T / P) / (gasConstant * T) = Z := by
    intro Z; have := hT.ne'; have := hP.ne'; field_simp; ring
  rw [hZ]
  have hB : mix2 y (computeB T) = secondVirial T (y 0) (y 1) (y 2) := by
    simp only [mix2, Fin.sum_univ_three, computeB, secondVirial, virial, srA, srB, srC, Matrix.cons_val]
    ring
  have hC : mix3 y (computeC T) = thirdVirial T (y 0) (y 1) (y 2) := by
    simp only [mix3, Fin.sum_univ_three, computeC, thirdVirial, virial, srD, srE, srF, Matrix.cons_val]
    ring
  rw [hB, hC]
  ring

/-! ## Fugacity coefficients -/

theorem getD_setIf (l : List ℝ) (i j : Nat) (v : ℝ) (hi : i < l.length) :
    (setIf l j v).getD i 0 = if j = i then v else l.getD i 0 := by
  unfold setIf
  split_ifs with h1 h2 h2
  · subst h2; simp [List.getD_eq_getElem?_getD, h1]
  · simp [List.getD_eq_getElem?_getD, h2]
  · omega
  · rfl

theorem length_setIf (l : List ℝ) (j : Nat) (v : ℝ) : (setIf l j v).length = l.length := by
  unfold setIf; split_ifs <;> simp

theorem sr_lnG (species : List (Species ℝ)) (h3 : ThreeGases species) (fn : Fn) (hf : spycherReed species = .ok fn) (x : List ℝ) (m : Mem)
    (hm : Fits m species.length) (hx : x.length = species.length) (T P : ℝ) (i : Nat) (hi : i < species.length) (g : Fin 3)
    (e : species[i].formula = gasFormula g) :
    lnG (fn T P x m) i = srLnPhi T (1e-5 * P) (1 + mix2 (gasFraction species x) (computeB T) * (1e-5 * P) +
      mix3 (gasFraction species x) (computeC T) * (1e-5 * P) * (1e-5 * P)) (gasFraction species x) g := by
  rw [sr_eval species fn hf T P x m hm hx]
  have hg := find_of_formula species h3 i hi g e
  have hother : ∀ g', g' ≠ g → findWithFormula species (gasFormula g') ≠ i := by
    intro g' hne he
    have hlt : findWithFormula species (gasFormula g') < species.length := by omega
    have h1 := formula_at_find species h3 g' hlt
    simp only [he] at h1
    exact hne (gasFormula_inj _ _ (h1.symm.trans e))
  have hl : i < m.props.ln_g.length := by rw [hm.1]; exact hi
  show (setIf (setIf (setIf _ _ _) _ _) _ _).getD i 0 = _
  rw [getD_setIf _ _ _ _ (by rw [length_setIf, length_setIf]; exact hl), getD_setIf _ _ _ _ (by rw [length_setIf]; exact hl),
    getD_setIf _ _ _ _ hl]
  have hcases : g = 0 ∨ g = 1 ∨ g = 2 := (by decide : ∀ g : Fin 3, g = 0 ∨ g = 1 ∨ g = 2) g
  rcases hcases with rfl | rfl | rfl
  · rw [if_neg (hother 2 (by decide)), if_neg (hother 1 (by decide)), if_pos hg]; rfl
  · rw [if_neg (hother 2 (by decide)), if_pos hg]; rfl
  · rw [if_pos hg]; rfl

theorem mix_partial (B : Fin 3 → Fin 3 → ℝ) (C : Fin 3 → Fin 3 → Fin 3 → ℝ) (hB : ∀ i k, B i k = B k i)
    (hC1 : ∀ i k l, C i k l = C k i l) (hC2 : ∀ i k l, C i k l = C i l k) (ν : Fin 3 → ℝ → ℝ) (S : ℝ → ℝ) (p s : ℝ) (g : Fin 3)
    (hν : ∀ k, HasDerivAt (ν k) (if k = g then 1 else 0) s) (hS : HasDerivAt S 1 s) (h0 : S s ≠ 0) :
    HasDerivAt (fun s => S s * ((mix2 (fun k => ν k s / S s) B + 0.5 * mix3 (fun k => ν k s / S s) C * p) * p))
      (1 - (1 + mix2 (fun k => ν k s / S s) B * p + mix3 (fun k => ν k s / S s) C * p * p) +
        ∑ k, (2 * (ν k s / S s) * B g k * p + ∑ l, 1.5 * (ν k s / S s) * (ν l s / S s) * C g k l * p * p)) s := by
  have hy : ∀ k, HasDerivAt (fun s => ν k s / S s) (((if k = g then 1 else 0) - ν k s / S s) / S s) s := by
    intro k
    refine ((hν k).div hS h0).congr_deriv ?_
    field_simp
  have h2 : HasDerivAt (fun s => mix2 (fun k => ν k s / S s) B) (∑ i, ∑ k, ((((if i = g then 1 else 0) - ν i s / S s) / S s) * (ν k s / S s) +
      (ν i s / S s) * (((if k = g then 1 else 0) - ν k s / S s) / S s)) * B i k) s := by
    unfold mix2
    exact HasDerivAt.fun_sum fun i _ => HasDerivAt.fun_sum fun k _ => ((hy i).mul (hy k)).mul_const _
  have h3 : HasDerivAt (fun s => mix3 (fun k => ν k s / S s) C) (∑ i, ∑ k, ∑ l, (((((if i = g then 1 else 0) - ν i s / S s) / S s) *
      (ν k s / S s) + (ν i s / S s) * (((if k = g then 1 else 0) - ν k s / S s) / S s)) * (ν l s / S s) + (ν i s / S s * (ν k s / S s)) *
      (((if l = g then 1 else 0) - ν l s / S s) / S s)) * C i k l) s := by
    unfold mix3
    exact HasDerivAt.fun_sum fun i _ => HasDerivAt.fun_sum fun k _ => HasDerivAt.fun_sum fun l _ =>
      (((hy i).mul (hy k)).mul (hy l)).mul_const _
  refine (hS.mul ((h2.add ((h3.const_mul 0.5).mul_const p)).mul_const p)).congr_deriv ?_
  simp only [Pi.add_apply]
  generalize hyy : (fun k => ν k s / S s) = y
  have hyk : ∀ k, ν k s / S s = y k := fun k => congrFun hyy k
  simp only [hyk]
  generalize S s = σ at *
  have b1 := hB 1 0
  have b2 := hB 2 0
  have b3 := hB 2 1
  have c1 : C 1 0 0 = C 0 0 1 := by rw [hC1, hC2]
  have c2 : C 0 1 0 = C 0 0 1 := hC2 _ _ _
  have c3 : C 2 0 0 = C 0 0 2 := by rw [hC1, hC2]
  have c4 : C 0 2 0 = C 0 0 2 := hC2 _ _ _
  have c5 : C 1 0 1 = C 0 1 1 := hC1 _ _ _
  have c6 : C 1 1 0 = C 0 1 1 := by rw [hC2, hC1]
  have c7 : C 0 2 1 = C 0 1 2 := hC2 _ _ _
  have c8 : C 1 0 2 = C 0 1 2 := hC1 _ _ _
  have c9 : C 1 2 0 = C 0 1 2 := by rw [hC2, hC1]
  have c10 : C 2 0 1 = C 0 1 2 := by rw [hC1, hC2]
  have c11 : C 2 1 0 = C 0 1 2 := by rw [hC2, hC1, hC2]
  have c12 : C 2 0 2 = C 0 2 2 := hC1 _ _ _
  have c13 : C 2 2 0 = C 0 2 2 := by rw [hC2, hC1]
  have c14 : C 2 1 1 = C 1 1 2 := by rw [hC1, hC2]
  have c15 : C 1 2 1 = C 1 1 2 := hC2 _ _ _
  have c16 : C 2 1 2 = C 1 2 2 := hC1 _ _ _
  have c17 : C 2 2 1 = C 1 2 2 := by rw [hC2, hC1]
  have hcases : g = 0 ∨ g = 1 ∨ g = 2 := (by decide : ∀ g : Fin 3, g = 0 ∨ g = 1 ∨ g = 2) g
  rcases hcases with rfl | rfl | rfl <;>
  · simp only [mix2, mix3, Fin.sum_univ_three, b1, b2, b3, c1, c2, c3, c4, c5, c6, c7, c8, c9, c10, c11, c12, c13, c14, c15, c16, c17,
      Fin.reduceEq, if_true, if_false, one_ne_zero, zero_ne_one]
    field_simp
    ring

theorem gasFraction_scale (species : List (Species ℝ)) (n : List ℝ) (g : Fin 3) :
    gasFraction species (moleFractionsOf n) g = gasFraction species n g / n.sum := by
  unfold gasFraction moleFractionsOf
  split_ifs
  · by_cases h : findWithFormula species (gasFormula g) < n.length
    · simp [List.getD_eq_getElem?_getD, h]
    · simp [List.getD_eq_getElem?_getD, h]
  · simp

theorem computeB_symm (T : ℝ) (i k : Fin 3) : computeB T i k = computeB T k i := by
  fin_cases i <;> fin_cases k <;> rfl

theorem computeC_symm1 (T : ℝ) (i k l : Fin 3) : computeC T i k l = computeC T k i l := by
  fin_cases i <;> fin_cases k <;> fin_cases l <;> rfl

theorem computeC_symm2 (T : ℝ) (i k l : Fin 3) : computeC T i k l = computeC T i l k := by
  fin_cases i <;> fin_cases k <;> fin_cases l <;> rfl

/-- **C78**: the ln fugacity coefficient of each species is the partial molar residual Gibbs energy, divided by `R T`. -/
theorem C78_fugacity (species : List (Species ℝ)) (h3 : ThreeGases species) (fn : Fn) (hf : spycherReed species = .ok fn) (n : List ℝ)
    (m : Mem) (hm : Fits m species.length) (hn : n.length = species.length) (T P : ℝ) (hT : 0 < T) (h0 : n.sum ≠ 0) (i : Nat)
    (hi : i < species.length) :
    HasDerivAt (fun s => (n.set i s).sum * (propsOf (fn T P (moleFractionsOf (n.set i s)) m)).Gex / (gasConstant * T))
      (lnG (fn T P (moleFractionsOf n) m) i) (n.getD i 0) := by
  obtain ⟨g, e⟩ := gas_of_mem _ (h3.1 species[i] (List.getElem_mem hi))
  have hg := find_of_formula species h3 i hi g e
  have hin : i < n.length := by omega
  have hnd : n.getD i 0 = n[i] := by simp [List.getD_eq_getElem?_getD, hin]
  have hset : n.set i n[i] = n := List.set_getElem_self hin
  rw [sr_lnG species h3 fn hf (moleFractionsOf n) m hm (by simp [moleFractionsOf, hn]) T P i hi g e]
  have hR : gasConstant ≠ 0 := by unfold gasConstant; norm_num
  have hT0 := hT.ne'
  have hsum : HasDerivAt (fun s => (n.set i s).sum) 1 n[i] := by
    have hs : ∀ s, (n.set i s).sum = (n.take i).sum + s + (n.drop (i + 1)).sum := by
      intro s
      rw [List.set_eq_take_append_cons_drop, if_pos hin]
      simp [add_assoc]
    simp only [hs]
    exact (((hasDerivAt_id n[i]).const_add _).add_const _)
  have hν : ∀ k, HasDerivAt (fun s => gasFraction species (n.set i s) k) (if k = g then 1 else 0) n[i] := by
    intro k
    unfold gasFraction
    by_cases hk : k = g
    · subst hk
      rw [if_pos rfl, hg]
      refine (hasDerivAt_id n[i]).congr_of_eventuallyEq (Eventually.of_forall fun s => ?_)
      simp [hi, List.getD_eq_getElem?_getD, hin]
    · rw [if_neg hk]
      have hne : findWithFormula species (gasFormula k) ≠ i := by
        intro he
        have hlt : findWithFormula species (gasFormula k) < species.length := by omega
        have h1 := formula_at_find species h3 k hlt
        simp only [he] at h1
        exact hk (gasFormula_inj _ _ (h1.symm.trans e))
      refine (hasDerivAt_const n[i] (if findWithFormula species (gasFormula k) < species.length then
        n.getD (findWithFormula species (gasFormula k)) 0 else 0)).congr_of_eventuallyEq (Eventually.of_forall fun s => ?_)
      simp [List.getD_eq_getElem?_getD, Ne.symm hne]
  rw [hnd]
  have main := mix_partial (computeB T) (computeC T) (computeB_symm T) (computeC_symm1 T) (computeC_symm2 T)
    (fun k s => gasFraction species (n.set i s) k) (fun s => (n.set i s).sum) (1e-5 * P) n[i] g hν hsum (by rw [hset]; exact h0)
  refine (main.congr_of_eventuallyEq (Eventually.of_forall fun s => ?_)).congr_deriv ?_
  · have hG : (propsOf (fn T P (moleFractionsOf (n.set i s)) m)).Gex = gasConstant * T *
        (mix2 (gasFraction species (moleFractionsOf (n.set i s))) (computeB T) +
          0.5 * mix3 (gasFraction species (moleFractionsOf (n.set i s))) (computeC T) * (1e-5 * P)) * (1e-5 * P) := by
      rw [sr_eval species fn hf T P _ m hm (by simp [moleFractionsOf, hn])]; rfl
    have hy : gasFraction species (moleFractionsOf (n.set i s)) = fun k => gasFraction species (n.set i s) k / (n.set i s).sum :=
      funext fun k => gasFraction_scale species (n.set i s) k
    simp only [hG, hy]
    field_simp
  · have hy : gasFraction species (moleFractionsOf n) = fun k => gasFraction species n k / n.sum :=
      funext fun k => gasFraction_scale species n k
    simp only [hy, hset, srLnPhi]

/-- **C78**: activities are fugacities in bar. -/
theorem C78_activity (species : List (Species ℝ)) (fn : Fn) (hf : spycherReed species = .ok fn) (x : List ℝ) (m : Mem)
    (hm : Fits m species.length) (hx : x.length = species.length) (T P : ℝ) (i : Nat) (hi : i < species.length) :
    lnA (fn T P x m) i = lnG (fn T P x m) i + Real.log (x.getD i 0) + Real.log (P / 100000) := by
  rw [sr_eval species fn hf T P x m hm hx]
  have h1 : ∀ l : List ℝ, l.length = species.length → (List.zipWith (fun g xi => g + Real.log xi + Real.log (1e-5 * P)) l x).getD i 0 =
      l.getD i 0 + Real.log (x.getD i 0) + Real.log (1e-5 * P) := by
    intro l hl
    have a : i < l.length := by omega
    have b : i < x.length := by omega
    simp [List.getD_eq_getElem?_getD, a, b]
  have h2 : (P / 100000 : ℝ) = 1e-5 * P := by ring
  rw [h2]
  exact h1 _ (by rw [length_setIf, length_setIf, length_setIf]; exact hm.1)

/-- **C78**: fugacity coefficients tend to one at zero pressure. -/
theorem C78_ideal_limit (species : List (Species ℝ)) (h3 : ThreeGases species) (fn : Fn) (hf : spycherReed species = .ok fn) (x : List ℝ)
    (m : Mem) (hm : Fits m species.length) (hx : x.length = species.length) (T : ℝ) (i : Nat) (hi : i < species.length) :
    Tendsto (fun P => lnG (fn T P x m) i) (𝓝[>] 0) (𝓝 0) := by
  obtain ⟨g, e⟩ := gas_of_mem _ (h3.1 species[i] (List.getElem_mem hi))
  simp only [fun P => sr_lnG species h3 fn hf x m hm hx T P i hi g e, srLnPhi]
  have h : ContinuousAt (fun P : ℝ => 1 - (1 + mix2 (gasFraction species x) (computeB T) * (1e-5 * P) +
      mix3 (gasFraction species x) (computeC T) * (1e-5 * P) * (1e-5 * P)) + ∑ k, (2 * gasFraction species x k * computeB T g k * (1e-5 * P) +
      ∑ l, 1.5 * gasFraction species x k * gasFraction species x l * computeC T g k l * (1e-5 * P) * (1e-5 * P))) 0 := by fun_prop
  have h2 := h.tendsto
  simp only [mul_zero, add_zero, sub_self, Finset.sum_const_zero] at h2
  exact h2.mono_left nhdsWithin_le_nhds

/-- **C78**: the order of the species in the phase does not matter. -/
theorem C78_order (ps qs : List (Species ℝ × ℝ)) (hp : ps.Perm qs) (h3 : ThreeGases (ps.map Prod.fst)) (fn fn' : Fn)
    (hf : spycherReed (ps.map Prod.fst) = .ok fn) (hf' : spycherReed (qs.map Prod.fst) = .ok fn') (m m' : Mem) (hm : Fits m ps.length)
    (hm' : Fits m' qs.length) (T P : ℝ) :
    (propsOf (fn T P (ps.map Prod.snd) m)).Vex = (propsOf (fn' T P (qs.map Prod.snd) m')).Vex ∧
    (propsOf (fn T P (ps.map Prod.snd) m)).VexT = (propsOf (fn' T P (qs.map Prod.snd) m')).VexT ∧
    (propsOf (fn T P (ps.map Prod.snd) m)).VexP = (propsOf (fn' T P (qs.map Prod.snd) m')).VexP ∧
    (propsOf (fn T P (ps.map Prod.snd) m)).Gex = (propsOf (fn' T P (qs.map Prod.snd) m')).Gex ∧
    (propsOf (fn T P (ps.map Prod.snd) m)).Hex = (propsOf (fn' T P (qs.map Prod.snd) m')).Hex ∧
    (propsOf (fn T P (ps.map Prod.snd) m)).Cpex = (propsOf (fn' T P (qs.map Prod.snd) m')).Cpex ∧
    (propsOf (fn T P (ps.map Prod.snd) m)).Cvex = (propsOf (fn' T P (qs.map Prod.snd) m')).Cvex ∧
    ∀ (i j : Nat) (q : Species ℝ × ℝ), ps[i]? = some q → qs[j]? = some q →
      lnG (fn T P (ps.map Prod.snd) m) i = lnG (fn' T P (qs.map Prod.snd) m') j ∧
      lnA (fn T P (ps.map Prod.snd) m) i = lnA (fn' T P (qs.map Prod.snd) m') j := by
  have h3' : ThreeGases (qs.map Prod.fst) := by
    refine ⟨fun s hs => h3.1 s ((hp.map Prod.fst).mem_iff.2 hs), ?_⟩
    exact (((hp.map Prod.fst).map fun s => s.formula).nodup_iff).1 h3.2
  have hy : gasFraction (ps.map Prod.fst) (ps.map Prod.snd) = gasFraction (qs.map Prod.fst) (qs.map Prod.snd) := by
    funext g
    rw [gasFraction_eq _ g _ h3 (by simp), gasFraction_eq _ g _ h3' (by simp)]
    unfold ofFormula
    have hz : ∀ l : List (Species ℝ × ℝ), (l.map Prod.fst).zip (l.map Prod.snd) = l := by
      intro l; exact (List.zip_of_prod rfl rfl).symm
    rw [hz, hz]
    exact ((hp.filter _).map _).sum_eq
  have e1 := sr_eval (ps.map Prod.fst) fn hf T P (ps.map Prod.snd) m (by simpa using hm) (by simp)
  have e2 := sr_eval (qs.map Prod.fst) fn' hf' T P (qs.map Prod.snd) m' (by simpa using hm') (by simp)
  have hG : ∀ (i j : Nat) (q : Species ℝ × ℝ), ps[i]? = some q → qs[j]? = some q →
      lnG (fn T P (ps.map Prod.snd) m) i = lnG (fn' T P (qs.map Prod.snd) m') j := by
    intro i j q hi hj
    obtain ⟨hil, hiq⟩ := List.getElem?_eq_some_iff.1 hi
    obtain ⟨hjl, hjq⟩ := List.getElem?_eq_some_iff.1 hj
    obtain ⟨g, e⟩ := gas_of_mem q.1.formula (h3.1 q.1 (by rw [← hiq]; exact List.mem_map_of_mem (List.getElem_mem hil)))
    rw [sr_lnG _ h3 fn hf _ m (by simpa using hm) (by simp) T P i (by simpa using hil) g (by simp [hiq, e]),
      sr_lnG _ h3' fn' hf' _ m' (by simpa using hm') (by simp) T P j (by simpa using hjl) g (by simp [hjq, e]), hy]
  have key : ∀ (F : (Fin 3 → ℝ) → ℝ), F (gasFraction (ps.map Prod.fst) (ps.map Prod.snd)) = F (gasFraction (qs.map Prod.fst) (qs.map Prod.snd)) :=
    fun F => by rw [hy]
  refine ⟨?_, ?_, ?_, ?_, ?_, ?_, ?_, fun i j q hi hj => ⟨hG i j q hi hj, ?_⟩⟩
  · rw [e1, e2]
    exact key fun y => (1 + mix2 y (computeB T) * (1e-5 * P) + mix3 y (computeC T) * (1e-5 * P) * (1e-5 * P)) * (gasConstant * T / P) -
      gasConstant * T / P
  · rw [e1, e2]
    exact key fun y => (mix2 y (computeBT T) * (1e-5 * P) + mix3 y (computeCT T) * (1e-5 * P) * (1e-5 * P)) * (gasConstant * T / P) +
      (1 + mix2 y (computeB T) * (1e-5 * P) + mix3 y (computeC T) * (1e-5 * P) * (1e-5 * P)) * (gasConstant * T / P / T) - gasConstant * T / P / T
  · rw [e1, e2]
    exact key fun y => (mix2 y (computeB T) + 2 * mix3 y (computeC T) * (1e-5 * P)) * 1e-5 * (gasConstant * T / P) +
      (1 + mix2 y (computeB T) * (1e-5 * P) + mix3 y (computeC T) * (1e-5 * P) * (1e-5 * P)) * (-(gasConstant * T / P) / P) -
      -(gasConstant * T / P) / P
  · rw [e1, e2]
    exact key fun y => gasConstant * T * (mix2 y (computeB T) + 0.5 * mix3 y (computeC T) * (1e-5 * P)) * (1e-5 * P)
  · rw [e1, e2]
    exact key fun y => -gasConstant * T * T * (mix2 y (computeBT T) + 0.5 * mix3 y (computeCT T) * (1e-5 * P)) * (1e-5 * P)
  · rw [e1, e2]
    exact key fun y => 2 * (-gasConstant * T * T * (mix2 y (computeBT T) + 0.5 * mix3 y (computeCT T) * (1e-5 * P)) * (1e-5 * P)) / T -
      gasConstant * T * T * (mix2 y (computeBTT T) + 0.5 * mix3 y (computeCTT T) * (1e-5 * P)) * (1e-5 * P)
  · rw [e1, e2]
    exact key fun y => 2 * (-gasConstant * T * T * (mix2 y (computeBT T) + 0.5 * mix3 y (computeCT T) * (1e-5 * P)) * (1e-5 * P)) / T -
      gasConstant * T * T * (mix2 y (computeBTT T) + 0.5 * mix3 y (computeCTT T) * (1e-5 * P)) * (1e-5 * P) + gasConstant +
      T * ((mix2 y (computeBT T) * (1e-5 * P) + mix3 y (computeCT T) * (1e-5 * P) * (1e-5 * P)) * (gasConstant * T / P) +
      (1 + mix2 y (computeB T) * (1e-5 * P) + mix3 y (computeC T) * (1e-5 * P) * (1e-5 * P)) * (gasConstant * T / P / T)) *
      ((mix2 y (computeBT T) * (1e-5 * P) + mix3 y (computeCT T) * (1e-5 * P) * (1e-5 * P)) * (gasConstant * T / P) +
      (1 + mix2 y (computeB T) * (1e-5 * P) + mix3 y (computeC T) * (1e-5 * P) * (1e-5 * P)) * (gasConstant * T / P / T)) /
      ((mix2 y (computeB T) + 2 * mix3 y (computeC T) * (1e-5 * P)) * 1e-5 * (gasConstant * T / P) +
      (1 + mix2 y (computeB T) * (1e-5 * P) + mix3 y (computeC T) * (1e-5 * P) * (1e-5 * P)) * (-(gasConstant * T / P) / P))
  · obtain ⟨hil, hiq⟩ := List.getElem?_eq_some_iff.1 hi
    obtain ⟨hjl, hjq⟩ := List.getElem?_eq_some_iff.1 hj
    rw [C78_activity _ fn hf _ m (by simpa using hm) (by simp) T P i (by simpa using hil),
      C78_activity _ fn' hf' _ m' (by simpa using hm') (by simp) T P j (by simpa using hjl), hG i j q hi hj]
    simp [List.getD_eq_getElem?_getD, hi, hj]

/-- **C78**: the model refuses a phase exactly when one of the formulas is not H2O, CO2 or CH4. -/
theorem C78_supported (species : List (Species ℝ)) : (spycherReed species = .throw ↔
    ∃ s ∈ species, s.formula.str ∉ [c!"H2O", c!"CO2", c!"CH4"]) ∧ (spycherReed species ≠ .throw → ∃ fn, spycherReed species = .ok fn) := by
  refine ⟨sr_throw_iff species, fun h => ?_⟩
  unfold spycherReed at h ⊢
  split_ifs at h ⊢ with hc
  · exact absurd rfl h
  · exact ⟨_, rfl⟩

/-- The hypotheses hold for a mixture of the three gases, in an order other than that of the tables. -/
def srExample : List (Species ℝ) := [⟨c!"CO2(g)", co2Formula, 0⟩, ⟨c!"CH4(g)", ch4Formula, 0⟩, ⟨c!"H2O(g)", waterFormula, 0⟩]

def srMem : Mem := { props := ⟨7, 7, 7, 7, 7, 7, 7, [7, 7, 7], [7, 7, 7]⟩ }

theorem srExample_gases : ThreeGases srExample := by
  refine ⟨?_, ?_⟩
  · intro s hs
    simp only [srExample, List.mem_cons, List.not_mem_nil, or_false] at hs
    rcases hs with rfl | rfl | rfl <;> decide +kernel
  · show [co2Formula, ch4Formula, waterFormula].Nodup
    decide +kernel

example : ∃ fn, spycherReed srExample = .ok fn ∧ Fits srMem srExample.length ∧
    ResidualConsistent (fun T P => propsOf (fn T P [0.5, 0.25, 0.25] srMem)) 400 1000000 ∧
    HasDerivAt (fun s => ([2, 1, 1].set 0 s).sum * (propsOf (fn 400 1000000 (moleFractionsOf ([2, 1, 1].set 0 s)) srMem)).Gex /
      (gasConstant * 400)) (lnG (fn 400 1000000 (moleFractionsOf [2, 1, 1]) srMem) 0) 2 := by
  have h : spycherReed srExample ≠ .throw := by
    rw [Ne, sr_throw_iff]
    rintro ⟨s, hs, hn⟩
    simp only [srExample, List.mem_cons, List.not_mem_nil, or_false] at hs
    rcases hs with rfl | rfl | rfl <;> revert hn <;> decide +kernel
  obtain ⟨fn, hf⟩ := (C78_supported srExample).2 h
  refine ⟨fn, hf, ⟨rfl, rfl⟩, C78_consistent srExample fn hf _ srMem ⟨rfl, rfl⟩ rfl 400 1000000 (by norm_num) (by norm_num), ?_⟩
  exact C78_fugacity srExample srExample_gases fn hf [2, 1, 1] srMem ⟨rfl, rfl⟩ rfl 400 1000000 (by norm_num) (by norm_num) 0 (by decide)

end Verif.Activity
