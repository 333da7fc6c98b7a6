import Verif.Spec.StandardModels
import Mathlib.Analysis.SpecialFunctions.Log.Deriv
import Mathlib.Analysis.SpecialFunctions.Pow.Deriv
import Mathlib.Analysis.SpecialFunctions.Sqrt
import Mathlib.Analysis.SpecialFunctions.ExpDeriv

/-!
# C53: standard thermodynamic models satisfy the thermodynamic derivatives

Maier–Kelley and Holland–Powell here; the minerals with phase transitions are in
`StandardMineral.lean`.
-/

namespace Verif.StandardModels

open Filter Topology Real

theorem Tr_pos : 0 < Tr := by norm_num [Tr]
theorem Pr_pos : 0 < Pr := by norm_num [Pr]

/-- The derivative of the integral of a Maier–Kelley heat capacity. -/
theorem deriv_cpT (a b c T0 : ℝ) {T : ℝ} (hT : 0 < T) :
    HasDerivAt (fun t => a * (t - T0) + 0.5 * b * (t * t - T0 * T0) - c * (1 / t - 1 / T0))
      (a + b * T + c / (T * T)) T := by
  have h1 : HasDerivAt (fun t : ℝ => t) 1 T := hasDerivAt_id' T
  have hinv : HasDerivAt (fun t : ℝ => 1 / t) (-(1 / (T * T))) T := by
    have := h1.fun_inv hT.ne'
    refine (this.congr_of_eventuallyEq ?_).congr_deriv ?_
    · exact Eventually.of_forall fun s => by simp
    · field_simp
  have hA := (h1.sub_const T0).const_mul a
  have hB := ((h1.fun_mul h1).sub_const (T0 * T0)).const_mul (0.5 * b)
  have hC := (hinv.sub_const (1 / T0)).const_mul c
  refine ((hA.fun_add hB).fun_sub hC).congr_deriv ?_
  field_simp
  ring

/-- The derivative of the integral of a Maier–Kelley heat capacity against `dT/T`. -/
theorem deriv_cplnT (a b c : ℝ) {T0 T : ℝ} (h0 : T0 ≠ 0) (hT : 0 < T) :
    HasDerivAt (fun t => a * log (t / T0) + b * (t - T0) - 0.5 * c * (1 / (t * t) - 1 / (T0 * T0)))
      ((a + b * T + c / (T * T)) / T) T := by
  have h1 : HasDerivAt (fun t : ℝ => t) 1 T := hasDerivAt_id' T
  have hlog : HasDerivAt (fun t : ℝ => log (t / T0)) (1 / T) T := by
    have := (h1.div_const T0).log (div_ne_zero hT.ne' h0)
    refine this.congr_deriv ?_
    field_simp
  have hinv : HasDerivAt (fun t : ℝ => 1 / (t * t)) (-(2 / (T * T * T))) T := by
    have := (h1.fun_mul h1).fun_inv (mul_ne_zero hT.ne' hT.ne')
    refine (this.congr_of_eventuallyEq ?_).congr_deriv ?_
    · exact Eventually.of_forall fun s => by simp
    · field_simp; ring
  have hA := hlog.const_mul a
  have hB := (h1.sub_const T0).const_mul b
  have hC := (hinv.sub_const (1 / (T0 * T0))).const_mul (0.5 * c)
  refine ((hA.fun_add hB).fun_sub hC).congr_deriv ?_
  field_simp
  ring

/-- A Gibbs energy built from an integral `I` of the heat capacity `Cp` and an integral `J` of
`Cp / T`, and any further term `W`. -/
theorem deriv_gibbs {I J W : ℝ → ℝ} {Cp w T : ℝ} (Gf Sr : ℝ) (hT : 0 < T)
    (hI : HasDerivAt I Cp T) (hJ : HasDerivAt J (Cp / T) T) (hW : HasDerivAt W w T) :
    HasDerivAt (fun t => Gf - Sr * (t - Tr) + I t - t * J t + W t) (-(Sr + J T) + w) T := by
  have h1 : HasDerivAt (fun t : ℝ => t) 1 T := hasDerivAt_id' T
  have hA := (((h1.sub_const Tr).const_mul Sr).const_sub Gf)
  refine (((hA.fun_add hI).fun_sub (h1.fun_mul hJ)).fun_add hW).congr_deriv ?_
  field_simp
  ring

/-! ### Maier–Kelley -/

/-- C53, Maier–Kelley: at every positive temperature and every pressure the heat capacity is the
temperature derivative of the enthalpy, the volume is the pressure derivative of the Gibbs energy,
and `G = H - T S + K` with the constant `K` fixed by the parameters at the reference state. -/
theorem C53_maierKelley (p : MaierKelley) (T P : ℝ) (hT : 0 < T) :
    HeatCapacity (maierKelley p) T P ∧ Volume (maierKelley p) T P ∧
    GibbsHelmholtz (maierKelley p) (p.Gf - p.Hf + Tr * p.Sr) T P := by
  have hI := deriv_cpT p.a p.b p.c Tr hT
  have hJ := deriv_cplnT p.a p.b p.c Tr_pos.ne' hT
  have hW : HasDerivAt (fun _ : ℝ => p.Vr * (P - Pr)) 0 T := hasDerivAt_const _ _
  refine ⟨⟨_, rfl, _, Eventually.of_forall fun t => rfl, ?_⟩, ⟨_, rfl, _, Eventually.of_forall fun t => rfl, ?_⟩,
    ⟨_, p.Sr + (p.a * log (T / Tr) + p.b * (T - Tr) - 0.5 * p.c * (1 / (T * T) - 1 / (Tr * Tr))), rfl,
      ⟨_, Eventually.of_forall fun t => rfl, ?_⟩, ?_⟩⟩
  · exact ((hI.const_add p.Hf).fun_add hW).congr_deriv (by simp)
  · have h1 : HasDerivAt (fun q : ℝ => p.Vr * (q - Pr)) p.Vr P := by
      simpa using ((hasDerivAt_id' P).sub_const Pr).const_mul p.Vr
    exact h1.const_add _
  · exact (deriv_gibbs p.Gf p.Sr hT hI hJ hW).congr_deriv (by ring)
  · simp only; ring

/-- C53, Maier–Kelley: at the reference temperature and pressure the model returns the parameters
it was given. -/
theorem C53_maierKelley_reference (p : MaierKelley) :
    ∃ x, maierKelley p Tr Pr = .ok x ∧ x.G0 = p.Gf ∧ x.H0 = p.Hf ∧ x.V0 = p.Vr := by
  refine ⟨_, rfl, ?_, ?_, rfl⟩ <;> simp [Tr_pos.ne']

/-- The derivative with respect to temperature of a returned property is unique. -/
theorem DerT.unique {m : ℝ → ℝ → Res Props} {F : Props → ℝ} {d e T P : ℝ}
    (h1 : DerT m F d T P) (h2 : DerT m F e T P) : d = e := by
  obtain ⟨g, hg, hd⟩ := h1
  obtain ⟨k, hk, he⟩ := h2
  refine hd.unique (he.congr_of_eventuallyEq ?_)
  filter_upwards [hg, hk] with t h1 h2
  rw [h1] at h2; injection h2 with h2; rw [h2]

/-- C53: the entropy the library reports for a species is `(H0 - G0) / T`
(`ThermoProps.cpp:173-176`).  It is minus the temperature derivative of the Gibbs energy exactly
when the Gibbs energy and enthalpy of formation of the parameters satisfy `Gf = Hf - Tr Sr`. -/
theorem C53_maierKelley_entropy (p : MaierKelley) (T P : ℝ) (hT : 0 < T) (x : Props)
    (hx : maierKelley p T P = .ok x) :
    DerT (maierKelley p) Props.G0 (-((x.H0 - x.G0) / T)) T P ↔ p.Gf = p.Hf - Tr * p.Sr := by
  obtain ⟨-, -, y, S, hy, hS, hG⟩ := C53_maierKelley p T P hT
  rw [hx] at hy; cases hy
  constructor
  · intro h
    have := DerT.unique h hS
    have : (x.H0 - x.G0) / T = S := by linarith
    rw [div_eq_iff hT.ne'] at this
    linarith
  · intro h
    have : (x.H0 - x.G0) / T = S := by rw [div_eq_iff hT.ne']; linarith
    rw [this]; exact hS

/-! ### Holland–Powell -/

theorem deriv_sqrt_cp (a b c d : ℝ) {T : ℝ} (hT : 0 < T) :
    HasDerivAt (fun t => a * (t - Tr) + 0.5 * b * (t * t - Tr * Tr) - c * (1 / t - 1 / Tr)
        + 2 * d * (√t - √Tr))
      (a + b * T + c / (T * T) + d / √T) T := by
  have hs : HasDerivAt (fun t : ℝ => √t) (1 / (2 * √T)) T := hasDerivAt_sqrt hT.ne'
  refine ((deriv_cpT a b c Tr hT).fun_add ((hs.sub_const √Tr).const_mul (2 * d))).congr_deriv ?_
  have : √T ≠ 0 := (sqrt_pos.2 hT).ne'
  field_simp

theorem deriv_sqrt_cpln (a b c d : ℝ) {T : ℝ} (hT : 0 < T) :
    HasDerivAt (fun t => a * log (t / Tr) + b * (t - Tr) - 0.5 * c * (1 / (t * t) - 1 / (Tr * Tr))
        - 2 * d * (1 / √t - 1 / √Tr))
      ((a + b * T + c / (T * T) + d / √T) / T) T := by
  have hq : √T ≠ 0 := (sqrt_pos.2 hT).ne'
  have hs : HasDerivAt (fun t : ℝ => √t) (1 / (2 * √T)) T := hasDerivAt_sqrt hT.ne'
  have hinv : HasDerivAt (fun t : ℝ => 1 / √t) (-(1 / (2 * √T * T))) T := by
    have := hs.fun_inv hq
    refine (this.congr_of_eventuallyEq ?_).congr_deriv ?_
    · exact Eventually.of_forall fun s => by simp
    · rw [sq_sqrt hT.le]; field_simp
  refine ((deriv_cplnT a b c Tr_pos.ne' hT).fun_sub ((hinv.sub_const (1 / √Tr)).const_mul (2 * d))).congr_deriv ?_
  field_simp
  ring

/-- C53, Holland–Powell, volume: at every positive temperature and pressure at which the equation
of state is defined, the volume is the pressure derivative of the Gibbs energy. -/
theorem C53_hollandPowell_volume (p : HollandPowell) (T P : ℝ) (hP : 0 < P)
    (hdef : p.kappa0 ≠ 0 → p.kb ≠ 0 ∧ p.kc ≠ 1 ∧ 0 < p.aux3 T P) :
    Volume (hollandPowell p) T P := by
  refine ⟨_, rfl, _, Eventually.of_forall fun t => rfl, ?_⟩
  suffices h : HasDerivAt (fun q => p.VdP T q) (p.V T P) P from h.const_add _
  unfold HollandPowell.VdP HollandPowell.V
  by_cases hk : p.kappa0 = 0
  · simp only [if_pos hk]
    simpa using ((hasDerivAt_id' P).sub_const Pr).const_mul p.Vr
  · simp only [if_neg hk]
    obtain ⟨hb, hc, h3⟩ := hdef hk
    have hc' : p.kc - 1 ≠ 0 := sub_ne_zero.2 hc
    have ha : HasDerivAt (fun q => p.aux3 T q) p.kb P := by
      unfold HollandPowell.aux3
      simpa using (((hasDerivAt_id' P).sub_const (p.Pth T)).const_mul p.kb).const_add 1
    have hpow : HasDerivAt (fun q => p.aux3 T q ^ (1 - p.kc))
        (p.kb * (1 - p.kc) * p.aux3 T P ^ (1 - p.kc - 1)) P :=
      ha.rpow_const (Or.inl h3.ne')
    have hlin : HasDerivAt (fun q => q * (p.Vr * (1 - p.ka))
        + p.Vr * p.ka / (p.kb * (p.kc - 1)) * (p.aux1 T ^ (1 - p.kc) - p.aux3 T q ^ (1 - p.kc)))
        (1 * (p.Vr * (1 - p.ka)) + p.Vr * p.ka / (p.kb * (p.kc - 1)) *
          (-(p.kb * (1 - p.kc) * p.aux3 T P ^ (1 - p.kc - 1)))) P :=
      ((hasDerivAt_id' P).mul_const _).fun_add ((hpow.const_sub _).const_mul _)
    refine (hlin.congr_of_eventuallyEq ?_).congr_deriv ?_
    · filter_upwards [eventually_gt_nhds hP] with q hq
      have := hq.ne'
      generalize p.aux1 T ^ (1 - p.kc) = x
      generalize p.aux3 T q ^ (1 - p.kc) = y
      field_simp
    · have e : p.aux3 T P ^ (1 - p.kc - 1) = 1 / p.aux3 T P ^ p.kc := by
        rw [show 1 - p.kc - 1 = -p.kc by ring, rpow_neg h3.le, one_div]
      rw [e]
      generalize 1 / p.aux3 T P ^ p.kc = z
      field_simp
      ring

/-- The temperature derivative of the thermal pressure. -/
theorem deriv_Pth (p : HollandPowell) {T : ℝ} (hT : 0 < T) (hth : p.theta ≠ 0) :
    HasDerivAt p.Pth (p.alpha0 * p.kappa0 * (p.E T / p.E Tr)) T := by
  have hu : HasDerivAt (fun t : ℝ => p.theta / t) (-(p.theta / (T * T))) T := by
    have := ((hasDerivAt_id' T).fun_inv hT.ne').const_mul p.theta
    refine (this.congr_of_eventuallyEq ?_).congr_deriv ?_
    · exact Eventually.of_forall fun s => by simp [div_eq_mul_inv]
    · field_simp
  have he := hu.exp.sub_const 1
  have hne : exp (p.theta / T) - 1 ≠ 0 := by
    rw [sub_ne_zero, Ne, exp_eq_one_iff]
    exact div_ne_zero hth hT.ne'
  have hinv := he.fun_inv hne
  have hfin := (hinv.sub_const (1 / (exp (p.theta / Tr) - 1))).const_mul (p.alpha0 * p.kappa0 * (p.theta / p.E Tr))
  refine (hfin.congr_of_eventuallyEq ?_).congr_deriv ?_
  · exact Eventually.of_forall fun s => by simp [HollandPowell.Pth]
  · rw [show p.E T = p.theta / T / (exp (p.theta / T) - 1) * (p.theta / T / (exp (p.theta / T) - 1)) * exp (p.theta / T) from rfl]
    generalize exp (p.theta / T) = x at *
    generalize p.E Tr = e0
    field_simp

/-- The temperature derivative of the integral of the volume, in terms of the thermal pressure. -/
noncomputable def HollandPowell.expansion (p : HollandPowell) (T P : ℝ) : ℝ :=
  if p.kappa0 = 0 then 0
  else p.Vr * p.ka * (1 / (p.aux1 T) ^ p.kc - 1 / (p.aux3 T P) ^ p.kc) * (p.alpha0 * p.kappa0 * (p.E T / p.E Tr))

/-- The parameters of a compressible substance are usable at a state. -/
def HollandPowell.Defined (p : HollandPowell) (T P : ℝ) : Prop :=
  p.kappa0 ≠ 0 → p.theta ≠ 0 ∧ p.kb ≠ 0 ∧ p.kc ≠ 1 ∧ 0 < p.aux1 T ∧ 0 < p.aux3 T P

theorem deriv_VdP (p : HollandPowell) {T P : ℝ} (hT : 0 < T) (hP : 0 < P) (hdef : p.Defined T P) :
    HasDerivAt (fun t => p.VdP t P) (p.expansion T P) T := by
  unfold HollandPowell.VdP HollandPowell.expansion
  by_cases hk : p.kappa0 = 0
  · simp only [if_pos hk]; exact hasDerivAt_const _ _
  · simp only [if_neg hk]
    obtain ⟨hth, hb, hc, h1, h3⟩ := hdef hk
    have hc' : p.kc - 1 ≠ 0 := sub_ne_zero.2 hc
    have hPth := deriv_Pth p hT hth
    generalize p.alpha0 * p.kappa0 * (p.E T / p.E Tr) = w at *
    have ha1 : HasDerivAt (fun t => p.aux1 t) (-(p.kb * w)) T := by
      unfold HollandPowell.aux1
      exact (hPth.const_mul p.kb).const_sub 1
    have ha3 : HasDerivAt (fun t => p.aux3 t P) (p.kb * -w) T := by
      unfold HollandPowell.aux3
      exact ((hPth.const_sub P).const_mul p.kb).const_add 1
    have hp1 := ha1.rpow_const (p := 1 - p.kc) (Or.inl h1.ne')
    have hp3 := ha3.rpow_const (p := 1 - p.kc) (Or.inl h3.ne')
    have hfin := ((((hp1.fun_sub hp3).const_mul p.ka).div_const (p.kb * (p.kc - 1) * P)).const_add (1 - p.ka)).const_mul (P * p.Vr)
    refine hfin.congr_deriv ?_
    have e1 : p.aux1 T ^ (1 - p.kc - 1) = 1 / p.aux1 T ^ p.kc := by
      rw [show 1 - p.kc - 1 = -p.kc by ring, rpow_neg h1.le, one_div]
    have e3 : p.aux3 T P ^ (1 - p.kc - 1) = 1 / p.aux3 T P ^ p.kc := by
      rw [show 1 - p.kc - 1 = -p.kc by ring, rpow_neg h3.le, one_div]
    rw [e1, e3]
    generalize 1 / p.aux1 T ^ p.kc = x
    generalize 1 / p.aux3 T P ^ p.kc = y
    have := hP.ne'
    field_simp
    ring

/-- C53, Holland–Powell, temperature: the exact temperature derivatives of the enthalpy and of the
Gibbs energy.  Both carry the thermal expansion of the volume integral, which the reported heat
capacity and the relation `G = H - T S + K` leave out. -/
theorem C53_hollandPowell_exact (p : HollandPowell) (T P : ℝ) (hT : 0 < T) (hP : 0 < P)
    (hdef : p.Defined T P) :
    ∃ x, hollandPowell p T P = .ok x ∧
      DerT (hollandPowell p) Props.H0 (x.Cp0 + p.expansion T P) T P ∧
      DerT (hollandPowell p) Props.G0
        ((x.G0 - x.H0 - (p.Gf - p.Hf + Tr * p.Sr)) / T + p.expansion T P) T P := by
  have hI : HasDerivAt p.CpdT (p.Cp T) T := deriv_sqrt_cp p.a p.b p.c p.d hT
  have hJ : HasDerivAt p.CpdlnT (p.Cp T / T) T := deriv_sqrt_cpln p.a p.b p.c p.d hT
  have hW := deriv_VdP p hT hP hdef
  refine ⟨_, rfl, ⟨_, Eventually.of_forall fun t => rfl, ?_⟩, ⟨_, Eventually.of_forall fun t => rfl, ?_⟩⟩
  · exact (hI.const_add p.Hf).fun_add hW
  · refine (deriv_gibbs p.Gf p.Sr hT hI hJ hW).congr_deriv ?_
    simp only
    have := hT.ne'
    field_simp
    ring

/-- C53, Holland–Powell: for a substance without compressibility (`kappa0 = 0`) or without thermal
expansion (`alpha0 = 0`) all three relations hold.  Missing from the full property: substances with
both, for which `C53_hollandPowell_wrong` shows that two of the relations fail. -/
theorem C53_hollandPowell_partial (p : HollandPowell) (T P : ℝ) (hT : 0 < T) (hP : 0 < P)
    (hdef : p.Defined T P) (h0 : p.kappa0 = 0 ∨ p.alpha0 = 0) :
    HeatCapacity (hollandPowell p) T P ∧ Volume (hollandPowell p) T P ∧
    GibbsHelmholtz (hollandPowell p) (p.Gf - p.Hf + Tr * p.Sr) T P := by
  have hexp : p.expansion T P = 0 := by
    unfold HollandPowell.expansion
    by_cases hk : p.kappa0 = 0
    · rw [if_pos hk]
    · rw [if_neg hk, h0.resolve_left hk]; ring
  obtain ⟨x, hx, hH, hG⟩ := C53_hollandPowell_exact p T P hT hP hdef
  rw [hexp, add_zero] at hH hG
  refine ⟨⟨x, hx, hH⟩, C53_hollandPowell_volume p T P hP fun hk => ?_, ⟨x, -((x.G0 - x.H0 - (p.Gf - p.Hf + Tr * p.Sr)) / T), hx, ?_, ?_⟩⟩
  · obtain ⟨-, h2, h3, -, h5⟩ := hdef hk
    exact ⟨h2, h3, h5⟩
  · rw [neg_neg]; exact hG
  · have := hT.ne'
    field_simp
    ring

/-- C53, Holland–Powell: for a substance with a non-zero volume, compressibility and thermal
expansion the heat capacity is not the temperature derivative of the enthalpy, and
`G = H - T S + K` fails with the constant of the reference state, at every positive temperature and
pressure. -/
theorem C53_hollandPowell_wrong (p : HollandPowell) (T P : ℝ) (hT : 0 < T) (hP : 0 < P)
    (hdef : p.Defined T P) (hk : p.kappa0 ≠ 0) (ha : p.alpha0 ≠ 0) (hV : p.Vr ≠ 0)
    (hka : p.ka ≠ 0) (hkc : p.kc ≠ 0) :
    ¬ HeatCapacity (hollandPowell p) T P ∧
    ¬ GibbsHelmholtz (hollandPowell p) (p.Gf - p.Hf + Tr * p.Sr) T P := by
  obtain ⟨hth, hb, hc, h1, h3⟩ := hdef hk
  have hE : ∀ s : ℝ, 0 < s → p.E s ≠ 0 := by
    intro s hs
    have hne : exp (p.theta / s) - 1 ≠ 0 := by
      rw [sub_ne_zero, Ne, exp_eq_one_iff]; exact div_ne_zero hth hs.ne'
    have hu := div_ne_zero hth hs.ne'
    exact mul_ne_zero (mul_ne_zero (div_ne_zero hu hne) (div_ne_zero hu hne)) (exp_pos _).ne'
  have hexp : p.expansion T P ≠ 0 := by
    unfold HollandPowell.expansion
    rw [if_neg hk]
    refine mul_ne_zero (mul_ne_zero (mul_ne_zero hV hka) ?_)
      (mul_ne_zero (mul_ne_zero ha hk) (div_ne_zero (hE T hT) (hE Tr Tr_pos)))
    rw [sub_ne_zero]
    intro h
    have h' : p.aux1 T ^ p.kc = p.aux3 T P ^ p.kc := by
      rw [one_div, one_div, inv_inj] at h; exact h
    have h'' : p.aux1 T = p.aux3 T P := (rpow_left_inj h1.le h3.le hkc).1 h'
    have : p.kb * P = 0 := by
      have : p.aux3 T P = p.aux1 T + p.kb * P := by simp only [HollandPowell.aux3, HollandPowell.aux1]; ring
      linarith
    exact mul_ne_zero hb hP.ne' this
  obtain ⟨x, hx, hH, hG⟩ := C53_hollandPowell_exact p T P hT hP hdef
  constructor
  · rintro ⟨y, hy, h⟩
    rw [hx] at hy; cases hy
    have := DerT.unique h hH
    exact hexp (by linarith)
  · rintro ⟨y, S, hy, h, e⟩
    rw [hx] at hy; cases hy
    have h2 := DerT.unique h hG
    have : T * S = x.H0 - x.G0 + (p.Gf - p.Hf + Tr * p.Sr) := by linarith
    have : -S = (x.G0 - x.H0 - (p.Gf - p.Hf + Tr * p.Sr)) / T := by
      rw [eq_div_iff hT.ne']; linarith
    exact hexp (by linarith)

/-- C53, Holland–Powell: at the reference temperature and pressure the model returns the volume
integral from zero pressure on top of the parameters it was given, unless `kappa0 = 0`. -/
theorem C53_hollandPowell_reference (p : HollandPowell) :
    ∃ x, hollandPowell p Tr Pr = .ok x ∧
      x.G0 = p.Gf + p.VdP Tr Pr ∧ x.H0 = p.Hf + p.VdP Tr Pr ∧
      (p.kappa0 = 0 → p.VdP Tr Pr = 0) := by
  refine ⟨_, rfl, ?_, ?_, fun h => ?_⟩
  · simp [HollandPowell.CpdT, HollandPowell.CpdlnT, Tr_pos.ne']
  · simp [HollandPowell.CpdT]
  · simp [HollandPowell.VdP, h]

/-- A substance with unit volume, bulk modulus and thermal expansion, `kappa0' = 4` and
`kappa0'' = 0`, so that `ka = 1`, `kb = 4` and `kc = 1/4`. -/
noncomputable def stiff : HollandPowell :=
  { Gf := 0, Hf := 0, Sr := 42, Vr := 1, a := 100, b := 0, c := 0, d := 0
    alpha0 := 1, kappa0 := 1, kappa0p := 4, kappa0pp := 0, numatoms := 3 }

theorem stiff_ka : stiff.ka = 1 := by norm_num [stiff, HollandPowell.ka]
theorem stiff_kb : stiff.kb = 4 := by norm_num [stiff, HollandPowell.kb]
theorem stiff_kc : stiff.kc = 1 / 4 := by norm_num [stiff, HollandPowell.kc]
theorem stiff_Pth : stiff.Pth Tr = 0 := by simp [HollandPowell.Pth]

/-- The hypotheses of `C53_hollandPowell_wrong` are met at the reference state. -/
example : stiff.Defined Tr Pr ∧ stiff.kappa0 ≠ 0 ∧ stiff.alpha0 ≠ 0 ∧ stiff.Vr ≠ 0 ∧
    stiff.ka ≠ 0 ∧ stiff.kc ≠ 0 := by
  refine ⟨fun _ => ⟨?_, ?_, ?_, ?_, ?_⟩, ?_, ?_, ?_, ?_, ?_⟩
  · norm_num [stiff, HollandPowell.theta]
  · rw [stiff_kb]; norm_num
  · rw [stiff_kc]; norm_num
  · simp [HollandPowell.aux1, stiff_Pth]
  · simp only [HollandPowell.aux3, stiff_Pth, stiff_kb]; norm_num [Pr]
  · norm_num [stiff]
  · norm_num [stiff]
  · norm_num [stiff]
  · rw [stiff_ka]; norm_num
  · rw [stiff_kc]; norm_num

/-- C53, Holland–Powell: there is a substance for which the Gibbs energy at the reference state is
not the Gibbs energy of formation it was given. -/
theorem C53_hollandPowell_reference_wrong :
    ∃ (p : HollandPowell) (x : Props), hollandPowell p Tr Pr = .ok x ∧ x.G0 ≠ p.Gf := by
  obtain ⟨x, hx, hG, -, -⟩ := C53_hollandPowell_reference stiff
  refine ⟨stiff, x, hx, ?_⟩
  rw [hG]
  have hk : stiff.kappa0 ≠ 0 := by norm_num [stiff]
  have hval : stiff.VdP Tr Pr ≠ 0 := by
    simp only [HollandPowell.VdP, if_neg hk, HollandPowell.aux1, HollandPowell.aux3, stiff_Pth,
      stiff_ka, stiff_kb, stiff_kc]
    have h1 : (1 : ℝ) < (1 + 4 * (Pr - 0)) ^ ((1 : ℝ) - 1 / 4) :=
      one_lt_rpow (by norm_num [Pr]) (by norm_num)
    have hV : stiff.Vr = 1 := rfl
    rw [hV]
    generalize (1 + 4 * (Pr - 0)) ^ ((1 : ℝ) - 1 / 4) = z at h1
    have hp := Pr_pos.ne'
    simp only [mul_zero, sub_zero, one_rpow]
    refine mul_ne_zero (mul_ne_zero hp one_ne_zero) ?_
    rw [sub_self, zero_add, one_mul]
    refine div_ne_zero (by linarith) ?_
    norm_num [Pr]
  intro h
  exact hval (by linarith)

/-- The hypotheses of `C53_hollandPowell_partial` are met by an incompressible substance at any
positive temperature and pressure. -/
example (T P : ℝ) : ({ stiff with kappa0 := 0 } : HollandPowell).Defined T P := fun h => absurd rfl h

end Verif.StandardModels
