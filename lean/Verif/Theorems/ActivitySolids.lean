import Verif.Spec.ActivityModels
import Verif.Spec.AqueousMixture
import Mathlib.Analysis.SpecialFunctions.Log.Deriv
import Mathlib.Tactic.FieldSimp
import Mathlib.Tactic.LinearCombination

/-!
# C51 and C59: solid solutions and ideal models
-/

namespace Verif.Activity

open Verif.Aqueous Verif.ChemicalProps

theorem fits_iff (m : Mem) (N : Nat) : m.fits N = true ↔ Fits m N := by simp [Mem.fits, Fits]

/-! ## Redlich–Kister -/

/-- **C51.** The model is made exactly for phases with two species; otherwise the call throws. -/
theorem C51_two_species (a0 a1 a2 : ℝ) (species : List (Species ℝ)) :
    (species.length = 2 → ∃ f, redlichKister a0 a1 a2 species = .ok f) ∧
    (species.length ≠ 2 → redlichKister a0 a1 a2 species = .throw) := by
  unfold redlichKister
  constructor
  · intro h; rw [if_neg (by simpa using h)]; exact ⟨_, rfl⟩
  · intro h; rw [if_pos h]

/-- The result of an evaluation. -/
theorem redlichKister_eval (a0 a1 a2 : ℝ) (species : List (Species ℝ)) (f : Fn) (h : redlichKister a0 a1 a2 species = .ok f)
    (m : Mem) (hm : Fits m 2) (T P x1 x2 : ℝ) :
    f T P [x1, x2] m = .ok { m with props := { m.props with
      ln_g := [x2 * x2 * (a0 + a1 * (3 * x1 - x2) + a2 * (x1 - x2) * (5 * x1 - x2)),
        x1 * x1 * (a0 - a1 * (3 * x2 - x1) + a2 * (x2 - x1) * (5 * x2 - x1))]
      ln_a := [x2 * x2 * (a0 + a1 * (3 * x1 - x2) + a2 * (x1 - x2) * (5 * x1 - x2)) + Real.log x1,
        x1 * x1 * (a0 - a1 * (3 * x2 - x1) + a2 * (x2 - x1) * (5 * x2 - x1)) + Real.log x2]
      Gex := x1 * x2 * (a0 + a1 * (x1 - x2) + a2 * (x1 - x2) ^ 2) * (gasConstant * T)
      Hex := x1 * x2 * (a0 + a1 * (x1 - x2) + a2 * (x1 - x2) ^ 2) * (gasConstant * T) } } := by
  unfold redlichKister at h
  by_cases h2 : species.length = 2
  · rw [if_neg (by simpa using h2)] at h
    cases h
    simp only [h2]
    rw [if_neg (by simp [(fits_iff m 2).mpr hm])]
    obtain ⟨hg, -⟩ := hm
    match hl : m.props.ln_g with
    | [] => rw [hl] at hg; simp at hg
    | [_] => rw [hl] at hg; simp at hg
    | _ :: _ :: _ :: _ => rw [hl] at hg; simp at hg
    | [g0, g1] => rfl
  · rw [if_pos h2] at h; cases h

/-- **C51.** The mole-fraction-weighted sum of the ln activity coefficients is the excess Gibbs energy over `RT`. -/
theorem C51_sum_rule (a0 a1 a2 : ℝ) (species : List (Species ℝ)) (f : Fn) (h : redlichKister a0 a1 a2 species = .ok f)
    (m : Mem) (hm : Fits m 2) (T P x1 x2 : ℝ) (hx : x1 + x2 = 1) (hT : T ≠ 0) :
    x1 * lnG (f T P [x1, x2] m) 0 + x2 * lnG (f T P [x1, x2] m) 1 = (propsOf (f T P [x1, x2] m)).Gex / (gasConstant * T) := by
  have hR : gasConstant ≠ 0 := by unfold gasConstant; norm_num
  rw [redlichKister_eval a0 a1 a2 species f h m hm]
  simp only [lnG, propsOf, List.getD_cons_zero, List.getD_cons_succ]
  rw [mul_div_assoc, div_self (mul_ne_zero hR hT), mul_one]
  have : x2 = 1 - x1 := by linarith
  subst this
  ring

/-- **C51.** The ln activity coefficients are the partial molar excess Gibbs energies over `RT`: the derivatives, with respect to the
amounts of the two species, of the excess Gibbs energy of the phase over `RT`. -/
theorem C51_partial_molar (a0 a1 a2 : ℝ) (species : List (Species ℝ)) (f : Fn) (h : redlichKister a0 a1 a2 species = .ok f)
    (m : Mem) (hm : Fits m 2) (T P n1 n2 : ℝ) (hn : n1 + n2 ≠ 0) (hT : T ≠ 0) :
    HasDerivAt (fun n => (n + n2) * (propsOf (f T P (moleFractionsOf [n, n2]) m)).Gex / (gasConstant * T))
      (lnG (f T P (moleFractionsOf [n1, n2]) m) 0) n1 ∧
    HasDerivAt (fun n => (n1 + n) * (propsOf (f T P (moleFractionsOf [n1, n]) m)).Gex / (gasConstant * T))
      (lnG (f T P (moleFractionsOf [n1, n2]) m) 1) n2 := by
  have hR : gasConstant ≠ 0 := by unfold gasConstant; norm_num
  have hRT := mul_ne_zero hR hT
  have hmf : ∀ p q : ℝ, moleFractionsOf [p, q] = [p / (p + q), q / (p + q)] := by
    intro p q; simp [moleFractionsOf]
  simp only [hmf, redlichKister_eval a0 a1 a2 species f h m hm, lnG, propsOf, List.getD_cons_zero, List.getD_cons_succ]
  constructor
  · have hev : ∀ᶠ n in nhds n1, n + n2 ≠ 0 :=
      (continuous_id.add continuous_const).continuousAt.eventually_ne (y := 0) hn
    have base : HasDerivAt (fun n : ℝ => n * n2 * (a0 * (n + n2) ^ 2 + a1 * (n - n2) * (n + n2) + a2 * (n - n2) ^ 2) / (n + n2) ^ 3)
        (((1 * n2 * (a0 * (n1 + n2) ^ 2 + a1 * (n1 - n2) * (n1 + n2) + a2 * (n1 - n2) ^ 2) +
          n1 * n2 * (a0 * (2 * (n1 + n2)) + (a1 * (n1 + n2) + a1 * (n1 - n2)) + a2 * (2 * (n1 - n2)))) * (n1 + n2) ^ 3 -
          n1 * n2 * (a0 * (n1 + n2) ^ 2 + a1 * (n1 - n2) * (n1 + n2) + a2 * (n1 - n2) ^ 2) * (3 * (n1 + n2) ^ 2)) /
          ((n1 + n2) ^ 3) ^ 2) n1 := by
      have hs : HasDerivAt (fun n : ℝ => n + n2) 1 n1 := (hasDerivAt_id n1).add_const n2
      have hd : HasDerivAt (fun n : ℝ => n - n2) 1 n1 := (hasDerivAt_id n1).sub_const n2
      have hp : HasDerivAt (fun n : ℝ => n * n2) (1 * n2) n1 := (hasDerivAt_id n1).mul_const n2
      have h1 : HasDerivAt (fun n : ℝ => a0 * (n + n2) ^ 2) (a0 * (2 * (n1 + n2))) n1 := by
        simpa using (hs.fun_pow 2).const_mul a0
      have h2 : HasDerivAt (fun n : ℝ => a1 * (n - n2) * (n + n2)) (a1 * (n1 + n2) + a1 * (n1 - n2)) n1 := by
        simpa using (hd.const_mul a1).fun_mul hs
      have h3 : HasDerivAt (fun n : ℝ => a2 * (n - n2) ^ 2) (a2 * (2 * (n1 - n2))) n1 := by
        simpa using (hd.fun_pow 2).const_mul a2
      have h4 : HasDerivAt (fun n : ℝ => (n + n2) ^ 3) (3 * (n1 + n2) ^ 2) n1 := by simpa using hs.fun_pow 3
      exact (hp.fun_mul ((h1.fun_add h2).fun_add h3)).fun_div h4 (pow_ne_zero 3 hn)
    refine (base.congr_of_eventuallyEq ?_).congr_deriv ?_
    · filter_upwards [hev] with n hn'
      field_simp
    · field_simp
      ring
  · have hev : ∀ᶠ n in nhds n2, n1 + n ≠ 0 :=
      (continuous_const.add continuous_id).continuousAt.eventually_ne (y := 0) hn
    have base : HasDerivAt (fun n : ℝ => n1 * n * (a0 * (n1 + n) ^ 2 + a1 * (n1 - n) * (n1 + n) + a2 * (n1 - n) ^ 2) / (n1 + n) ^ 3)
        (((n1 * 1 * (a0 * (n1 + n2) ^ 2 + a1 * (n1 - n2) * (n1 + n2) + a2 * (n1 - n2) ^ 2) +
          n1 * n2 * (a0 * (2 * (n1 + n2)) + (a1 * (-1) * (n1 + n2) + a1 * (n1 - n2)) + a2 * (2 * (n1 - n2) * (-1)))) * (n1 + n2) ^ 3 -
          n1 * n2 * (a0 * (n1 + n2) ^ 2 + a1 * (n1 - n2) * (n1 + n2) + a2 * (n1 - n2) ^ 2) * (3 * (n1 + n2) ^ 2)) /
          ((n1 + n2) ^ 3) ^ 2) n2 := by
      have hs : HasDerivAt (fun n : ℝ => n1 + n) 1 n2 := (hasDerivAt_id n2).const_add n1
      have hd : HasDerivAt (fun n : ℝ => n1 - n) (-1) n2 := (hasDerivAt_id n2).const_sub n1
      have hp : HasDerivAt (fun n : ℝ => n1 * n) (n1 * 1) n2 := (hasDerivAt_id n2).const_mul n1
      have h1 : HasDerivAt (fun n : ℝ => a0 * (n1 + n) ^ 2) (a0 * (2 * (n1 + n2))) n2 := by
        simpa using (hs.fun_pow 2).const_mul a0
      have h2 : HasDerivAt (fun n : ℝ => a1 * (n1 - n) * (n1 + n)) (a1 * (-1) * (n1 + n2) + a1 * (n1 - n2)) n2 := by
        simpa using (hd.const_mul a1).fun_mul hs
      have h3 : HasDerivAt (fun n : ℝ => a2 * (n1 - n) ^ 2) (a2 * (2 * (n1 - n2) * (-1))) n2 := by
        simpa using (hd.fun_pow 2).const_mul a2
      have h4 : HasDerivAt (fun n : ℝ => (n1 + n) ^ 3) (3 * (n1 + n2) ^ 2) n2 := by simpa using hs.fun_pow 3
      exact (hp.fun_mul ((h1.fun_add h2).fun_add h3)).fun_div h4 (pow_ne_zero 3 hn)
    refine (base.congr_of_eventuallyEq ?_).congr_deriv ?_
    · filter_upwards [hev] with n hn'
      field_simp
    · field_simp
      ring

/-- **C51.** Gibbs–Duhem: along every differentiable path of compositions of the two species, the mole-fraction-weighted sum of the
derivatives of the ln activity coefficients is zero, and if both species are present so is that of the ln activities. -/
theorem C51_gibbs_duhem (a0 a1 a2 : ℝ) (species : List (Species ℝ)) (f : Fn) (h : redlichKister a0 a1 a2 species = .ok f)
    (m : Mem) (hm : Fits m 2) (T P : ℝ) (x : Fin 2 → ℝ → ℝ) (dx : Fin 2 → ℝ) (t : ℝ) (hx : ∀ i, HasDerivAt (x i) (dx i) t)
    (h1 : ∀ s, x 0 s + x 1 s = 1) :
    GibbsDuhem x (fun i s => lnG (f T P (along x s) m) i) t ∧
    ((∀ i, 0 < x i t) → GibbsDuhem x (fun i s => lnA (f T P (along x s) m) i) t) := by
  have hal : ∀ s, along x s = [x 0 s, x 1 s] := fun s => by simp [along]
  have hd : dx 1 = - dx 0 := by
    have h2 : HasDerivAt (fun s => x 0 s + x 1 s) (dx 0 + dx 1) t := (hx 0).add (hx 1)
    have h3 : HasDerivAt (fun _ : ℝ => (1 : ℝ)) (dx 0 + dx 1) t := by simpa only [h1] using h2
    have := h3.unique (hasDerivAt_const t (1 : ℝ))
    linarith
  have hx2 : x 1 = fun s => 1 - x 0 s := by funext s; linarith [h1 s]
  let g : Fin 2 → ℝ := ![
    -2 * (1 - x 0 t) * dx 0 * (a0 + a1 * (4 * x 0 t - 1) + a2 * (2 * x 0 t - 1) * (6 * x 0 t - 1)) +
      (1 - x 0 t) ^ 2 * (4 * a1 + a2 * (2 * (6 * x 0 t - 1) + 6 * (2 * x 0 t - 1))) * dx 0,
    2 * x 0 t * dx 0 * (a0 - a1 * (3 - 4 * x 0 t) + a2 * (1 - 2 * x 0 t) * (5 - 6 * x 0 t)) +
      x 0 t ^ 2 * (4 * a1 + a2 * (-2 * (5 - 6 * x 0 t) - 6 * (1 - 2 * x 0 t))) * dx 0]
  have hG : ∀ i : Fin 2, HasDerivAt (fun s => lnG (f T P (along x s) m) i) (g i) t := by
    have e : ∀ i s, lnG (f T P (along x s) m) i = ([(1 - x 0 s) * (1 - x 0 s) * (a0 + a1 * (3 * x 0 s - (1 - x 0 s)) +
        a2 * (x 0 s - (1 - x 0 s)) * (5 * x 0 s - (1 - x 0 s))),
        x 0 s * x 0 s * (a0 - a1 * (3 * (1 - x 0 s) - x 0 s) + a2 * ((1 - x 0 s) - x 0 s) * (5 * (1 - x 0 s) - x 0 s))] : List ℝ).getD i 0 := by
      intro i s
      rw [hal, redlichKister_eval a0 a1 a2 species f h m hm, hx2]
      rfl
    have h0 := hx 0
    have hc : HasDerivAt (fun s => 1 - x 0 s) (-dx 0) t := h0.const_sub 1
    intro i
    simp only [e]
    fin_cases i
    · show HasDerivAt (fun s => (1 - x 0 s) * (1 - x 0 s) * (a0 + a1 * (3 * x 0 s - (1 - x 0 s)) +
        a2 * (x 0 s - (1 - x 0 s)) * (5 * x 0 s - (1 - x 0 s)))) (g 0) t
      refine ((hc.fun_mul hc).fun_mul ((((h0.const_mul 3).fun_sub hc).const_mul a1).const_add a0 |>.fun_add
        (((h0.fun_sub hc).const_mul a2).fun_mul ((h0.const_mul 5).fun_sub hc)))).congr_deriv ?_
      simp only [g, Matrix.cons_val_zero]
      ring
    · show HasDerivAt (fun s => x 0 s * x 0 s * (a0 - a1 * (3 * (1 - x 0 s) - x 0 s) +
        a2 * ((1 - x 0 s) - x 0 s) * (5 * (1 - x 0 s) - x 0 s))) (g 1) t
      refine ((h0.fun_mul h0).fun_mul ((((hc.const_mul 3).fun_sub h0).const_mul a1).const_sub a0 |>.fun_add
        (((hc.fun_sub h0).const_mul a2).fun_mul ((hc.const_mul 5).fun_sub h0)))).congr_deriv ?_
      simp only [g, Matrix.cons_val_one, Matrix.cons_val_zero]
      ring
  have hsum : ∑ i, x i t * g i = 0 := by
    rw [Fin.sum_univ_two, show x 1 t = 1 - x 0 t by linarith [h1 t]]
    simp only [g, Matrix.cons_val_zero, Matrix.cons_val_one]
    ring
  refine ⟨⟨g, hG, hsum⟩, fun hpos => ⟨fun i => g i + dx i / x i t, fun i => ?_, ?_⟩⟩
  · have e : ∀ s, lnA (f T P (along x s) m) i = lnG (f T P (along x s) m) i + Real.log (x i s) := by
      intro s
      rw [hal, redlichKister_eval a0 a1 a2 species f h m hm]
      fin_cases i <;> rfl
    simp only [e]
    exact (hG i).add ((hx i).log (hpos i).ne')
  · have : ∀ i, x i t * (g i + dx i / x i t) = x i t * g i + dx i := by
      intro i
      have := (hpos i).ne'
      field_simp
    simp only [this, Finset.sum_add_distrib, hsum, Fin.sum_univ_two, hd]
    ring

/-- **C51.** A pure species has unit activity coefficient and unit activity, and the excess Gibbs energy is zero. -/
theorem C51_pure (a0 a1 a2 : ℝ) (species : List (Species ℝ)) (f : Fn) (h : redlichKister a0 a1 a2 species = .ok f)
    (m : Mem) (hm : Fits m 2) (T P : ℝ) :
    lnG (f T P [1, 0] m) 0 = 0 ∧ lnA (f T P [1, 0] m) 0 = 0 ∧ (propsOf (f T P [1, 0] m)).Gex = 0 ∧
    lnG (f T P [0, 1] m) 1 = 0 ∧ lnA (f T P [0, 1] m) 1 = 0 ∧ (propsOf (f T P [0, 1] m)).Gex = 0 := by
  simp only [redlichKister_eval a0 a1 a2 species f h m hm, lnG, lnA, propsOf, List.getD_cons_zero, List.getD_cons_succ]
  norm_num

/-- **C51 is false of the code** for the excess enthalpy: by the Gibbs–Helmholtz relation the excess enthalpy is
`Gex - T dGex/dT`, which is zero at every state of this model, but the reported one is the excess Gibbs energy. -/
theorem C51_enthalpy (a0 a1 a2 : ℝ) (species : List (Species ℝ)) (f : Fn) (h : redlichKister a0 a1 a2 species = .ok f)
    (m : Mem) (hm : Fits m 2) (T P x1 x2 : ℝ) :
    (∃ d, HasDerivAt (fun t => (propsOf (f t P [x1, x2] m)).Gex) d T ∧ (propsOf (f T P [x1, x2] m)).Gex - T * d = 0) ∧
    (propsOf (f T P [x1, x2] m)).Hex = (propsOf (f T P [x1, x2] m)).Gex := by
  simp only [redlichKister_eval a0 a1 a2 species f h m hm, propsOf]
  refine ⟨⟨x1 * x2 * (a0 + a1 * (x1 - x2) + a2 * (x1 - x2) ^ 2) * gasConstant, ?_, by ring⟩, trivial⟩
  have := ((hasDerivAt_id T).const_mul gasConstant).const_mul (x1 * x2 * (a0 + a1 * (x1 - x2) + a2 * (x1 - x2) ^ 2))
  simpa using this

/-- **C51 is false of the code** for the other excess properties: the model does not write the excess volume, its derivatives and the
excess heat capacities, which keep what the previous evaluation of the phase left there. -/
theorem C51_stale (a0 a1 a2 : ℝ) (species : List (Species ℝ)) (f : Fn) (h : redlichKister a0 a1 a2 species = .ok f)
    (m : Mem) (hm : Fits m 2) (T P x1 x2 : ℝ) :
    (propsOf (f T P [x1, x2] m)).Vex = m.props.Vex ∧ (propsOf (f T P [x1, x2] m)).VexT = m.props.VexT ∧
    (propsOf (f T P [x1, x2] m)).VexP = m.props.VexP ∧ (propsOf (f T P [x1, x2] m)).Cpex = m.props.Cpex ∧
    (propsOf (f T P [x1, x2] m)).Cvex = m.props.Cvex := by
  simp only [redlichKister_eval a0 a1 a2 species f h m hm, propsOf]
  exact ⟨trivial, trivial, trivial, trivial, trivial⟩

/-- A phase of two species and a memory that meet the hypotheses. -/
example : ∃ f, redlichKister 2 (1 / 2) (-1) [⟨c!"CaCO3", waterFormula, 0⟩, ⟨c!"MgCO3", waterFormula, 0⟩] = .ok f ∧
    Fits ⟨⟨0, 0, 0, 0, 0, 0, 0, [0, 0], [0, 0]⟩, none, {}⟩ 2 :=
  ⟨_, rfl, rfl, rfl⟩

/-- The excess enthalpy reported is not zero in that phase. -/
example (f : Fn) (h : redlichKister 2 0 0 [⟨c!"CaCO3", waterFormula, 0⟩, ⟨c!"MgCO3", waterFormula, 0⟩] = .ok f) (m : Mem)
    (hm : Fits m 2) : (propsOf (f 300 100000 [1 / 2, 1 / 2] m)).Hex ≠ 0 := by
  simp only [redlichKister_eval _ _ _ _ f h m hm, propsOf, gasConstant]
  norm_num

/-! ## Ideal models -/

/-- **C59.** The ideal models write every property: the result does not depend on what was there before, the excess properties and the
ln activity coefficients are zero. -/
theorem C59_resets (model : Model) (hmodel : model = idealSolution ∨ model = idealGas ∨ model = idealAqueous)
    (species : List (Species ℝ)) (f : Fn) (h : model species = .ok f) (m m' : Mem) (hm : Fits m species.length)
    (hm' : Fits m' species.length) (T P : ℝ) (x : List ℝ) (hx : x.length = species.length) :
    (∃ r, f T P x m = .ok r ∧ r.extra = m.extra ∧ r.world = m.world) ∧ propsOf (f T P x m) = propsOf (f T P x m') ∧
    (∀ i, lnG (f T P x m) i = 0) ∧ (propsOf (f T P x m)).Gex = 0 ∧ (propsOf (f T P x m)).Hex = 0 ∧ (propsOf (f T P x m)).Vex = 0 ∧
    (propsOf (f T P x m)).VexT = 0 ∧ (propsOf (f T P x m)).VexP = 0 ∧ (propsOf (f T P x m)).Cpex = 0 ∧
    (propsOf (f T P x m)).Cvex = 0 := by
  have hf := (fits_iff m species.length).mpr hm
  have hf' := (fits_iff m' species.length).mpr hm'
  have hz : ∀ (l : List ℝ) (i : Nat), (l.map fun _ => (0 : ℝ)).getD i 0 = 0 := by
    intro l i
    by_cases hi : i < l.length
    · simp [hi]
    · simp [not_lt.mp hi]
  have hzz : (m.props.ln_g.map fun _ => (0 : ℝ)) = m'.props.ln_g.map fun _ => (0 : ℝ) := by
    rw [List.map_const', List.map_const', hm.1, hm'.1]
  suffices key : ∃ l : List ℝ, f T P x m = .ok { m with props := { m.props.zero with ln_a := l } } ∧
      f T P x m' = .ok { m' with props := { m'.props.zero with ln_a := l } } by
    obtain ⟨l, e, e'⟩ := key
    rw [e, e']
    simp only [propsOf, lnG, AProps.zero, hzz]
    refine ⟨⟨_, rfl, rfl, rfl⟩, trivial, fun i => ?_, trivial, trivial, trivial, trivial, trivial, trivial, trivial⟩
    exact hz _ i
  rcases hmodel with rfl | rfl | rfl
  · cases h
    exact ⟨_, by simp only [hf, hx]; rw [if_neg (by simp)], by simp only [hf', hx]; rw [if_neg (by simp)]⟩
  · cases h
    exact ⟨_, by simp only [hf, hx]; rw [if_neg (by simp)], by simp only [hf', hx]; rw [if_neg (by simp)]⟩
  · unfold idealAqueous at h
    cases hi : indexWithFormula species waterFormula with
    | throw => rw [hi] at h; cases h
    | ub => rw [hi] at h; cases h
    | ok iw =>
      rw [hi] at h
      cases h
      exact ⟨_, by simp only [hf, hx]; rw [if_neg (by simp)], by simp only [hf', hx]; rw [if_neg (by simp)]⟩

theorem along_length {N : Nat} (x : Fin N → ℝ → ℝ) (s : ℝ) : (along x s).length = N := by simp [along]

theorem along_getD {N : Nat} (x : Fin N → ℝ → ℝ) (s : ℝ) (i : Fin N) : (along x s).getD i 0 = x i s := by simp [along]

theorem sum_dx {N : Nat} (x : Fin N → ℝ → ℝ) (dx : Fin N → ℝ) (t : ℝ) (hx : ∀ i, HasDerivAt (x i) (dx i) t)
    (h1 : ∀ s, ∑ i, x i s = 1) : ∑ i, dx i = 0 := by
  have h2 : HasDerivAt (fun s => ∑ i, x i s) (∑ i, dx i) t := HasDerivAt.fun_sum fun i _ => hx i
  simp only [h1] at h2
  exact h2.unique (hasDerivAt_const t (1 : ℝ))

/-- **C59.** Gibbs–Duhem for ideal solutions and ideal gases: along every differentiable path of compositions with all species present,
the mole-fraction-weighted sum of the derivatives of the ln activities is zero; the activities are the mole fractions, in gases times the
pressure in bar. -/
theorem C59_ideal (species : List (Species ℝ)) (f g : Fn) (hf : idealSolution species = .ok f) (hg : idealGas species = .ok g)
    (m : Mem) (hm : Fits m species.length) (T P : ℝ) (x : Fin species.length → ℝ → ℝ) (dx : Fin species.length → ℝ) (t : ℝ)
    (hx : ∀ i, HasDerivAt (x i) (dx i) t) (hpos : ∀ i, 0 < x i t) (h1 : ∀ s, ∑ i, x i s = 1) :
    GibbsDuhem x (fun i s => lnA (f T P (along x s) m) i) t ∧ GibbsDuhem x (fun i s => lnA (g T P (along x s) m) i) t ∧
    (∀ i : Fin species.length, Real.exp (lnA (f T P (along x t) m) i) = x i t) ∧
    (0 < P → ∀ i : Fin species.length, Real.exp (lnA (g T P (along x t) m) i) = x i t * (P / 100000)) := by
  have hfit := (fits_iff m species.length).mpr hm
  have e1 : ∀ (i : Fin species.length) s, lnA (f T P (along x s) m) i = Real.log (x i s) := by
    intro i s
    cases hf
    simp [hfit, lnA, propsOf, along]
  have e2 : ∀ (i : Fin species.length) s, lnA (g T P (along x s) m) i = Real.log (x i s) + Real.log (P * (1 / 100000)) := by
    intro i s
    cases hg
    simp [hfit, lnA, propsOf, along]
  have hs : ∑ i, x i t * (dx i / x i t) = 0 := by
    rw [← sum_dx x dx t hx h1]
    apply Finset.sum_congr rfl
    intro i _
    have := (hpos i).ne'
    field_simp
  simp only [e1, e2]
  refine ⟨⟨fun i => dx i / x i t, fun i => (hx i).log (hpos i).ne', hs⟩,
    ⟨fun i => dx i / x i t, fun i => ((hx i).log (hpos i).ne').add_const _, hs⟩, fun i => Real.exp_log (hpos i), ?_⟩
  intro hP i
  rw [Real.exp_add, Real.exp_log (hpos i), Real.exp_log (by positivity)]
  ring

/-- **C59 is false of the code** for ideal aqueous solutions: the weighted sum of the derivatives of the ln activities is the mole fraction
of the solutes times the derivative of the ln mole fraction of water, with the sign changed. -/
theorem C59_aqueous (species : List (Species ℝ)) (f : Fn) (hf : idealAqueous species = .ok f)
    (m : Mem) (hm : Fits m species.length) (T P : ℝ) (x : Fin species.length → ℝ → ℝ) (dx : Fin species.length → ℝ) (t : ℝ)
    (hx : ∀ i, HasDerivAt (x i) (dx i) t) (hpos : ∀ i s, 0 < x i s) (h1 : ∀ s, ∑ i, x i s = 1) :
    ∃ w : Fin species.length, IsWater species[w] ∧ (∀ s, lnA (f T P (along x s) m) w = Real.log (x w s)) ∧
      (∀ i : Fin species.length, i ≠ w → ∀ s, Real.exp (lnA (f T P (along x s) m) i) = x i s / (waterMolarMass * x w s)) ∧
      ∃ d : Fin species.length → ℝ, (∀ i : Fin species.length, HasDerivAt (fun s => lnA (f T P (along x s) m) i) (d i) t) ∧
        ∑ i, x i t * d i = - (1 - x w t) * (dx w / x w t) ∧
        (x w t ≠ 1 → dx w ≠ 0 → ¬ GibbsDuhem x (fun i s => lnA (f T P (along x s) m) i) t) := by
  have hfit := (fits_iff m species.length).mpr hm
  unfold idealAqueous at hf
  cases hi : indexWithFormula species waterFormula with
  | throw => rw [hi] at hf; cases hf
  | ub => rw [hi] at hf; cases hf
  | ok iw =>
    rw [hi] at hf
    have hlt : iw < species.length ∧ IsWater (species[iw]'(by
        unfold indexWithFormula at hi
        simp only at hi
        split at hi
        · cases hi
        · rename_i h; cases hi; exact not_le.mp h)) := by
      unfold indexWithFormula at hi
      simp only at hi
      split at hi
      · cases hi
      · rename_i h
        cases hi
        refine ⟨not_le.mp h, ?_⟩
        exact List.findIdx_getElem (p := fun s : Species ℝ => waterFormula.equivalent s.formula) (w := not_le.mp h)
    let w : Fin species.length := ⟨iw, hlt.1⟩
    have hM : (0 : ℝ) < waterMolarMass := by unfold waterMolarMass; norm_num
    have hw : ∀ s, lnA (f T P (along x s) m) w = Real.log (x w s) := by
      intro s
      cases hf
      simp only [hfit, along_length, lnA, propsOf]
      rw [if_neg (by simp)]
      have : (along x s).getD iw 0 = x w s := along_getD x s w
      simp only [this]
      simp [w, along, hlt.1]
    have ho : ∀ i : Fin species.length, i ≠ w → ∀ s, lnA (f T P (along x s) m) i = Real.log (x i s / (waterMolarMass * x w s)) := by
      intro i hiw s
      have hne : iw ≠ (i : Nat) := fun e => hiw (Fin.ext e.symm)
      cases hf
      simp only [hfit, along_length, lnA, propsOf]
      rw [if_neg (by simp)]
      have : (along x s).getD iw 0 = x w s := along_getD x s w
      simp only [this]
      simp [along, hne]
    refine ⟨w, hlt.2, hw, ?_, ?_⟩
    · intro i hiw s
      rw [ho i hiw s, Real.exp_log (div_pos (hpos i s) (mul_pos hM (hpos w s)))]
    · have hmain : (∀ i : Fin species.length, HasDerivAt (fun s => lnA (f T P (along x s) m) i)
          ((fun i => if i = w then dx w / x w t else dx i / x i t - dx w / x w t) i) t) ∧
          ∑ i, x i t * (fun i => if i = w then dx w / x w t else dx i / x i t - dx w / x w t) i
            = - (1 - x w t) * (dx w / x w t) := ?_
      · refine ⟨_, hmain.1, hmain.2, fun hx1 hdx => ?_⟩
        rintro ⟨d', h1', h2'⟩
        have : d' = fun i => if i = w then dx w / x w t else dx i / x i t - dx w / x w t :=
          funext fun i => (h1' i).unique (hmain.1 i)
        rw [this, hmain.2] at h2'
        have h3 : (1 - x w t) * (dx w / x w t) ≠ 0 :=
          mul_ne_zero (sub_ne_zero.mpr (Ne.symm hx1)) (div_ne_zero hdx (hpos w t).ne')
        exact h3 (by linarith)
      refine ⟨?_, ?_⟩
      · intro i
        by_cases hiw : i = w
        · subst hiw
          simp only [hw, if_true]
          exact (hx _).log (hpos _ t).ne'
        · simp only [ho i hiw, if_neg hiw]
          have e : (fun s => Real.log (x i s / (waterMolarMass * x w s))) =
              fun s => Real.log (x i s) - (Real.log waterMolarMass + Real.log (x w s)) := by
            funext s
            rw [Real.log_div (hpos i s).ne' (mul_pos hM (hpos w s)).ne', Real.log_mul hM.ne' (hpos w s).ne']
          rw [e]
          exact ((hx i).log (hpos i t).ne').sub (((hx w).log (hpos w t).ne').const_add _)
      · have h2 := h1 t
        have h3 := sum_dx x dx t hx h1
        rw [← Finset.add_sum_erase _ _ (Finset.mem_univ w)] at h2 h3 ⊢
        have : ∑ i ∈ Finset.univ.erase w, x i t * (if i = w then dx w / x w t else dx i / x i t - dx w / x w t) =
            ∑ i ∈ Finset.univ.erase w, dx i - (∑ i ∈ Finset.univ.erase w, x i t) * (dx w / x w t) := by
          rw [Finset.sum_mul, ← Finset.sum_sub_distrib]
          apply Finset.sum_congr rfl
          intro i hie
          rw [if_neg (Finset.ne_of_mem_erase hie)]
          have := (hpos i t).ne'
          field_simp
        simp only [this, if_true]
        have hw0 := (hpos w t).ne'
        have e1 : ∑ i ∈ Finset.univ.erase w, x i t = 1 - x w t := by linarith
        have e2 : ∑ i ∈ Finset.univ.erase w, dx i = - dx w := by linarith
        rw [e1, e2]
        field_simp
        ring

/-- A path of compositions of water and one solute in which the water changes, so that the sum is not zero. -/
example : ∃ f : Fn, idealAqueous [⟨c!"H2O(aq)", waterFormula, 0⟩, ⟨c!"CO2(aq)", ⟨c!"CO2", [(c!"C", 1), (c!"O", 2)], 0⟩, 0⟩] = .ok f := by
  have hw : waterFormula.equivalent waterFormula = true := by decide +kernel
  unfold idealAqueous indexWithFormula findWithFormula Chem.indexfn
  simp only [List.findIdx_cons, hw, cond_true, List.length_cons, List.length_nil]
  exact ⟨_, rfl⟩

end Verif.Activity
