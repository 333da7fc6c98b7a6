import Verif.Lemmas.HKF

/-!
# C70 : the standard properties of aqueous species from the HKF model are consistent
-/

namespace Verif.HKF

open Real Filter Topology Verif.Water

section
variable {W : ℝ → ℝ → ThermoState} {T P : ℝ}

theorem ag_neg (T : ℝ) : ag T < 0 := by
  unfold ag; nlinarith [sq_nonneg (T - 273.15 - 438)]

theorem bg_pos (T : ℝ) : 0 < bg T := by
  unfold bg; nlinarith [sq_nonneg (T - 273.15 - 423)]

theorem ag_deriv (T : ℝ) : HasDerivAt ag (agT T) T ∧ HasDerivAt agT agTT T := by
  have v : HasDerivAt (fun t : ℝ => t - 273.15) 1 T := (hasDerivAt_id' T).sub_const 273.15
  refine ⟨(((v.const_mul (5.747000e-03 : ℝ)).const_add (-2.037662 : ℝ)).fun_add
      ((v.const_mul (-6.557892e-06 : ℝ)).fun_mul v)).congr_deriv ?_,
    ((v.const_mul (2 * -6.557892e-06 : ℝ)).const_add (5.747000e-03 : ℝ)).congr_deriv ?_⟩
  · unfold agT; ring
  · unfold agTT; ring

theorem bg_deriv (T : ℝ) : HasDerivAt bg (bgT T) T ∧ HasDerivAt bgT bgTT T := by
  have v : HasDerivAt (fun t : ℝ => t - 273.15) 1 T := (hasDerivAt_id' T).sub_const 273.15
  refine ⟨(((v.const_mul (-1.074377e-02 : ℝ)).const_add (6.107361 : ℝ)).fun_add
      ((v.const_mul (1.268348e-05 : ℝ)).fun_mul v)).congr_deriv ?_,
    ((v.const_mul (2 * 1.268348e-05 : ℝ)).const_add (-1.074377e-02 : ℝ)).congr_deriv ?_⟩
  · unfold bgT; ring
  · unfold bgTT; ring

theorem ofT {f : ℝ → ℝ} {d : ℝ} (h : HasDerivAt f d T) : HasPartials (fun t _ => f t) d 0 T P :=
  ((HasPartials.fst (x := T) (y := P)).comp h).congr_partials (by ring) (by ring)

theorem ofP {f : ℝ → ℝ} {d : ℝ} (h : HasDerivAt f d P) : HasPartials (fun _ p => f p) 0 d T P :=
  ((HasPartials.snd (x := T) (y := P)).comp h).congr_partials (by ring) (by ring)

/-- The function `g` of region I. -/
theorem gRegionI_consistent (hW : DensityConsistent W T P) (h0 : 0 < (W T P).density) (h1 : (W T P).density < 1000)
    (ha : (W T P).densityT ≠ 0) (hb : (W T P).densityP ≠ 0) : GConsistent (fun t p => gRegionI t (W t p)) T P := by
  have h0' := h0.ne'
  have pr : HasPartials (fun t p => (W t p).density / 1000) ((W T P).densityT / 1000) ((W T P).densityP / 1000) T P := by
    refine ((hW.density.mul_const (1 / 1000)).congr_partials ?_ ?_).congr (Eventually.of_forall fun p => ?_) <;> ring
  have pa := (hW.densityT.neg).div hW.density h0'
  have pb := hW.densityP.div hW.density h0'
  have p1 := (HasPartials.const (x := T) (y := P) 1).sub pr
  have hpos : 0 < 1 - (W T P).density / 1000 := by
    have : (W T P).density / 1000 < 1 := by rw [div_lt_one (by norm_num)]; exact h1
    linarith
  have pL := p1.comp (hasDerivAt_log hpos.ne')
  have pag := ofT (P := P) (ag_deriv T).1
  have pagT := ofT (P := P) (ag_deriv T).2
  have pbg := ofT (P := P) (bg_deriv T).1
  have pbgT := ofT (P := P) (bg_deriv T).2
  have hag := (ag_neg T).ne
  have hbg := (bg_pos T).ne'
  have pE : HasPartials (fun t p => (1 - (W t p).density / 1000) ^ bg t)
      ((1 - (W T P).density / 1000) ^ bg T * (bgT T * log (1 - (W T P).density / 1000)
        + bg T * (-((W T P).densityT / 1000) / (1 - (W T P).density / 1000))))
      ((1 - (W T P).density / 1000) ^ bg T * (bg T * (-((W T P).densityP / 1000) / (1 - (W T P).density / 1000)))) T P := by
    have hev : ∀ᶠ q in 𝓝 (T, P), 0 < 1 - (W q.1 q.2).density / 1000 := p1.continuousAt.eventually (lt_mem_nhds hpos)
    refine (((pbg.mul pL).comp (hasDerivAt_exp _)).congr_partials ?_ ?_).congr ?_
    · rw [rpow_def_of_pos hpos, mul_comm (log _)]; ring
    · rw [rpow_def_of_pos hpos, mul_comm (log _)]; ring
    · filter_upwards [hev] with q hq
      rw [rpow_def_of_pos hq, mul_comm]
  have hE : (1 - (W T P).density / 1000) ^ bg T ≠ 0 := (rpow_pos_of_pos hpos _).ne'
  have pg : HasPartials (fun t p => (gRegionI t (W t p)).g) (gRegionI T (W T P)).gT (gRegionI T (W T P)).gP T P := by
    refine (pag.mul pE).congr_partials ?_ ?_
    · simp only [gRegionI]
      generalize (1 - (W T P).density / 1000) ^ bg T = E at hE ⊢
      generalize log (1 - (W T P).density / 1000) = L
      generalize hu : 1 - (W T P).density / 1000 = u at hpos ⊢
      field_simp; ring
    · simp only [gRegionI]
      generalize (1 - (W T P).density / 1000) ^ bg T = E at hE ⊢
      generalize hu : 1 - (W T P).density / 1000 = u at hpos ⊢
      field_simp; ring
  refine ⟨pg, ?_, ?_⟩
  · have pin := ((pagT.div pag hag).add (pbgT.mul pL)).add (((pr.mul pa).mul pbg).div p1 hpos.ne')
    refine (pg.mul pin).congr_partials ?_ ?_
    · simp only [gRegionI]
      generalize (1 - (W T P).density / 1000) ^ bg T = E at hE ⊢
      generalize log (1 - (W T P).density / 1000) = L
      generalize hu : 1 - (W T P).density / 1000 = u at hpos ⊢
      field_simp; ring
    · simp only [gRegionI]
      generalize (1 - (W T P).density / 1000) ^ bg T = E at hE ⊢
      generalize log (1 - (W T P).density / 1000) = L
      generalize hu : 1 - (W T P).density / 1000 = u at hpos ⊢
      field_simp; ring
  · have pin := (((pg.neg.mul pr).mul pb).mul pbg).div p1 hpos.ne'
    refine pin.congr_partials ?_ ?_
    · simp only [gRegionI]
      generalize (1 - (W T P).density / 1000) ^ bg T = E at hE ⊢
      generalize log (1 - (W T P).density / 1000) = L
      generalize hu : 1 - (W T P).density / 1000 = u at hpos ⊢
      field_simp; ring
    · simp only [gRegionI]
      generalize (1 - (W T P).density / 1000) ^ bg T = E at hE ⊢
      generalize log (1 - (W T P).density / 1000) = L
      generalize hu : 1 - (W T P).density / 1000 = u at hpos ⊢
      field_simp; ring

/-- The part of `g` that region II subtracts. -/
noncomputable def cutState (T P : ℝ) : GState where
  g := (cutT T).1 * (cutP P).1
  gT := (cutP P).1 * (cutT T).2.1
  gP := (cutT T).1 * (cutP P).2.1
  gTT := (cutP P).1 * (cutT T).2.2
  gTP := (cutT T).2.1 * (cutP P).2.1
  gPP := (cutT T).1 * (cutP P).2.2

theorem cutState_consistent : GConsistent cutState T P := by
  have a := ofT (P := P) (cutT_deriv T).1
  have b := ofT (P := P) (cutT_deriv T).2
  have c := ofP (T := T) (cutP_deriv P).1
  have d := ofP (T := T) (cutP_deriv P).2
  refine ⟨(a.mul c).congr_partials ?_ ?_, (c.mul b).congr_partials ?_ ?_, (a.mul d).congr_partials ?_ ?_⟩ <;>
    simp only [cutState] <;> ring

theorem GConsistent.congr {G H : ℝ → ℝ → GState} (hG : GConsistent G T P) (h : ∀ᶠ q in 𝓝 (T, P), H q.1 q.2 = G q.1 q.2) :
    GConsistent H T P := by
  have h0 := h.self_of_nhds
  simp only at h0
  refine ⟨?_, ?_, ?_⟩
  · rw [h0]; exact hG.g.congr (by filter_upwards [h] with q hq; rw [hq])
  · rw [h0]; exact hG.gT.congr (by filter_upwards [h] with q hq; rw [hq])
  · rw [h0]; exact hG.gP.congr (by filter_upwards [h] with q hq; rw [hq])

/-- C70, the function `g`.  Wherever the derivatives of the density of water are right and different from
zero, the density is not one of the limits 350 and 1000 of the model and the temperature is not 355 °C, the
derivatives of `g` are what their names say, also across the lower boundary in temperature and the boundary
in pressure of region II. -/
theorem C70_g_partial (hW : DensityConsistent W T P) (h0 : (W T P).density ≠ 350) (h1 : (W T P).density ≠ 1000)
    (ha : (W T P).densityT ≠ 0) (hb : (W T P).densityP ≠ 0) (hT : T - 273.15 ≠ 355) :
    GConsistent (fun t p => gHKF t p (W t p)) T P := by
  have hc := hW.density.continuousAt
  have zero : GConsistent (fun _ _ => ⟨0, 0, 0, 0, 0, 0⟩) T P :=
    ⟨HasPartials.const 0, HasPartials.const 0, HasPartials.const 0⟩
  rcases lt_or_gt_of_ne h1 with h1 | h1
  · rcases lt_or_gt_of_ne h0 with h0 | h0
    · refine zero.congr ?_
      filter_upwards [hc.eventually (gt_mem_nhds h0)] with q hq
      exact if_pos (Or.inr hq)
    · have g1 := gRegionI_consistent hW (by linarith) h1 ha hb
      rcases lt_or_gt_of_ne hT with hT | hT
      · have g2 := cutState_consistent (T := T) (P := P)
        have g : GConsistent (fun t p => (⟨(gRegionI t (W t p)).g - (cutState t p).g, (gRegionI t (W t p)).gT - (cutState t p).gT,
            (gRegionI t (W t p)).gP - (cutState t p).gP, (gRegionI t (W t p)).gTT - (cutState t p).gTT,
            (gRegionI t (W t p)).gTP - (cutState t p).gTP, (gRegionI t (W t p)).gPP - (cutState t p).gPP⟩ : GState)) T P :=
          ⟨g1.g.sub g2.g, g1.gT.sub g2.gT, g1.gP.sub g2.gP⟩
        refine g.congr ?_
        filter_upwards [hc.eventually (gt_mem_nhds h1), hc.eventually (lt_mem_nhds h0),
          IsJet.eventually_fst (eventually_lt_nhds (show T < 628.15 by linarith))] with q a b c
        unfold gHKF
        rw [if_neg (by simp only [not_or, not_lt]; exact ⟨a.le, b.le⟩)]
        simp only
        split
        · next h =>
          obtain ⟨e1, -, e3⟩ := h
          simp only [cutState, cutT, cutP, if_pos e1, if_pos e3]
        · next h =>
          have h' : ¬(155 < q.1 - 273.15 ∧ q.2 * 1.0e-5 < 1000) := fun ⟨e1, e3⟩ => h ⟨e1, by linarith, e3⟩
          by_cases e1 : 155 < q.1 - 273.15
          · have e3 : ¬ q.2 * 1.0e-5 < 1000 := fun e3 => h' ⟨e1, e3⟩
            simp [cutState, cutP, if_neg e3]
          · simp [cutState, cutT, if_neg e1]
      · refine g1.congr ?_
        filter_upwards [hc.eventually (gt_mem_nhds h1), hc.eventually (lt_mem_nhds h0),
          IsJet.eventually_fst (eventually_gt_nhds (show 628.15 < T by linarith))] with q a b c
        unfold gHKF
        rw [if_neg (by simp only [not_or, not_lt]; exact ⟨a.le, b.le⟩)]
        simp only
        rw [if_neg]
        rintro ⟨-, e2, -⟩
        linarith
  · refine zero.congr ?_
    filter_upwards [hc.eventually (lt_mem_nhds h1)] with q hq
    exact if_pos (Or.inl hq)

theorem ft_355_pos : 0 < (ft 628.15).1 := by
  have : (0 : ℝ) < ((628.15 - 273.15) - 155) / 300 := by norm_num
  simp only [ft]
  positivity

theorem fp_neg (hP : 0 ≤ P) (hP' : P * 1.0e-5 < 1000) : (fp P).1 < 0 := by
  simp only [fp]
  have h1 : 0 < 1000 - P * 1.0e-5 := by linarith
  have h2 : 1000 - P * 1.0e-5 ≤ 1000 := by
    have : 0 ≤ P * 1.0e-5 := by positivity
    linarith
  generalize 1000 - P * 1.0e-5 = u at h1 h2
  have h3 : 0 < u ^ 3 := by positivity
  have : u ^ 4 = u ^ 3 * u := by ring
  rw [this]
  nlinarith

/-- At 355 °C and less than 1000 bar the function `g` is not continuous in temperature, however smooth the
density of water is. -/
theorem C70_g_jump_wrong (hP : 0 ≤ P) (hP' : P * 1.0e-5 < 1000) (h0 : 350 < (W 628.15 P).density)
    (h1 : (W 628.15 P).density < 1000) (hc : ContinuousAt (fun t => (W t P).density) 628.15) :
    ¬ ContinuousAt (fun t => (gHKF t P (W t P)).g) 628.15 := by
  intro hcont
  have hpos : 0 < 1 - (W 628.15 P).density / 1000 := by
    have : (W 628.15 P).density / 1000 < 1 := by rw [div_lt_one (by norm_num)]; exact h1
    linarith
  have cI : ContinuousAt (fun t => (gRegionI t (W t P)).g) 628.15 := by
    have c1 : ContinuousAt ag 628.15 := (ag_deriv _).1.continuousAt
    have c2 : ContinuousAt bg 628.15 := (bg_deriv _).1.continuousAt
    have c3 : ContinuousAt (fun t => 1 - (W t P).density / 1000) 628.15 := by fun_prop
    exact c1.mul (c3.rpow c2 (Or.inl hpos.ne'))
  have cF : ContinuousAt (fun t => (ft t).1) 628.15 := by
    simp only [ft]
    have : ContinuousAt (fun t : ℝ => ((t - 273.15) - 155) / 300) 628.15 := by fun_prop
    have h4 := this.rpow_const (p := (4.8 : ℝ)) (Or.inl (by norm_num))
    have h5 := this.pow 16
    exact h4.add (continuousAt_const.mul h5)
  -- from below the values tend to those of region I minus the term of region II
  have key : ∀ᶠ t in 𝓝[<] (628.15 : ℝ), (gHKF t P (W t P)).g = (gRegionI t (W t P)).g - (ft t).1 * (fp P).1 := by
    filter_upwards [nhdsWithin_le_nhds (hc.eventually (gt_mem_nhds h1)),
      nhdsWithin_le_nhds (hc.eventually (lt_mem_nhds h0)),
      nhdsWithin_le_nhds (eventually_gt_nhds (show (500 : ℝ) < 628.15 by norm_num)), self_mem_nhdsWithin] with t a b c d
    have d' : t < 628.15 := d
    unfold gHKF
    rw [if_neg (by simp only [not_or, not_lt]; exact ⟨a.le, b.le⟩)]
    simp only
    rw [if_pos ⟨by linarith, by linarith, hP'⟩]
  have here : (gHKF 628.15 P (W 628.15 P)).g = (gRegionI 628.15 (W 628.15 P)).g := by
    unfold gHKF
    rw [if_neg (by simp only [not_or, not_lt]; exact ⟨h1.le, h0.le⟩)]
    simp only
    rw [if_neg]
    rintro ⟨-, e2, -⟩
    norm_num at e2
  have l1 : Tendsto (fun t => (gHKF t P (W t P)).g) (𝓝[<] 628.15) (𝓝 (gRegionI 628.15 (W 628.15 P)).g) := by
    rw [← here]; exact hcont.tendsto.mono_left nhdsWithin_le_nhds
  have l2 : Tendsto (fun t => (gHKF t P (W t P)).g) (𝓝[<] 628.15)
      (𝓝 ((gRegionI 628.15 (W 628.15 P)).g - (ft 628.15).1 * (fp P).1)) :=
    Tendsto.congr' (key.mono fun t h => h.symm)
      ((cI.sub (cF.mul continuousAt_const)).tendsto.mono_left nhdsWithin_le_nhds)
  have := tendsto_nhds_unique l1 l2
  have h3 : (ft 628.15).1 * (fp P).1 < 0 := mul_neg_of_pos_of_neg ft_355_pos (fp_neg hP hP')
  linarith

/-- C70, the Born coefficient.  The derivatives of the Born coefficient follow from those of `g` wherever the
effective radii do not vanish. -/
theorem C70_born (p : Params) {G : ℝ → ℝ → GState} (hG : GConsistent G T P)
    (hre : p.charge ≠ 0 → (bornHKF (G T P) p).re ≠ 0) (hg : p.charge ≠ 0 → 3.082 + (G T P).g ≠ 0) :
    BornConsistent (fun t q => bornHKF (G t q) p) T P := by
  by_cases hz : p.charge = 0
  · have e : ∀ s, bornHKF s p = ⟨0, 0, p.wref, 0, 0, 0, 0, 0⟩ := fun s => if_pos hz
    refine ⟨?_, ?_, ?_⟩ <;> simp only [e] <;> exact HasPartials.const _
  · have hre := hre hz
    have hg := hg hz
    simp only [bornHKF, if_neg hz] at hre
    have pre := (HasPartials.const (x := T) (y := P) (p.charge * p.charge / (p.wref / eta + p.charge / 3.082))).add
      (hG.g.const_mul |p.charge|)
    have pg := (HasPartials.const (x := T) (y := P) 3.082).add hG.g
    have habs : |p.charge * p.charge * p.charge| = p.charge * p.charge * |p.charge| := by
      rw [abs_mul, abs_mul_self]
    have hsq : |p.charge| * |p.charge| = p.charge * p.charge := abs_mul_abs_self _
    have pX1 : HasPartials (fun t q => (-eta) * (|p.charge * p.charge * p.charge| /
          ((p.charge * p.charge / (p.wref / eta + p.charge / 3.082) + |p.charge| * (G t q).g) *
           (p.charge * p.charge / (p.wref / eta + p.charge / 3.082) + |p.charge| * (G t q).g)) - p.charge / (3.082 + (G t q).g) ^ 2))
        (2 * eta * (p.charge * p.charge * p.charge * p.charge /
          ((p.charge * p.charge / (p.wref / eta + p.charge / 3.082) + |p.charge| * (G T P).g) *
           (p.charge * p.charge / (p.wref / eta + p.charge / 3.082) + |p.charge| * (G T P).g) *
           (p.charge * p.charge / (p.wref / eta + p.charge / 3.082) + |p.charge| * (G T P).g)) - p.charge / (3.082 + (G T P).g) ^ 3) * (G T P).gT)
        (2 * eta * (p.charge * p.charge * p.charge * p.charge /
          ((p.charge * p.charge / (p.wref / eta + p.charge / 3.082) + |p.charge| * (G T P).g) *
           (p.charge * p.charge / (p.wref / eta + p.charge / 3.082) + |p.charge| * (G T P).g) *
           (p.charge * p.charge / (p.wref / eta + p.charge / 3.082) + |p.charge| * (G T P).g)) - p.charge / (3.082 + (G T P).g) ^ 3) * (G T P).gP) T P := by
      have a := (HasPartials.const (x := T) (y := P) |p.charge * p.charge * p.charge|).div (pre.mul pre) (mul_ne_zero hre hre)
      have b := (HasPartials.const (x := T) (y := P) p.charge).div (pg.comp (hasDerivAt_pow 2 _)) (pow_ne_zero 2 hg)
      refine ((a.sub b).const_mul (-eta)).congr_partials ?_ ?_
      all_goals
        rw [habs]
        generalize p.charge * p.charge / (p.wref / eta + p.charge / 3.082) + |p.charge| * (G T P).g = re at hre ⊢
        generalize 3.082 + (G T P).g = d at hg ⊢
        rw [show p.charge * p.charge * p.charge * p.charge = p.charge * p.charge * (|p.charge| * |p.charge|) by rw [hsq]; ring]
        field_simp
        push_cast
        ring
    refine ⟨?_, ?_, ?_⟩
    · simp only [bornHKF, if_neg hz]
      have a := (HasPartials.const (x := T) (y := P) (p.charge * p.charge)).div pre hre
      have b := (HasPartials.const (x := T) (y := P) p.charge).div pg hg
      refine ((a.sub b).const_mul eta).congr_partials ?_ ?_
      all_goals
        rw [habs]
        generalize p.charge * p.charge / (p.wref / eta + p.charge / 3.082) + |p.charge| * (G T P).g = re at hre ⊢
        generalize 3.082 + (G T P).g = d at hg ⊢
        field_simp
        ring
    · simp only [bornHKF, if_neg hz]
      refine (pX1.mul hG.gT).congr_partials ?_ ?_ <;> ring
    · simp only [bornHKF, if_neg hz]
      refine (pX1.mul hG.gP).congr_partials ?_ ?_ <;> ring

/-- C70, reference Born coefficient.  Where `g` vanishes the Born coefficient is the conventional one. -/
theorem C70_born_reference (p : Params) (s : GState) (hs : s.g = 0)
    (hr : p.charge ≠ 0 → p.wref / eta + p.charge / 3.082 ≠ 0) : (bornHKF s p).w = p.wref := by
  by_cases hz : p.charge = 0
  · simp only [bornHKF, if_pos hz]
  · have hr := hr hz
    have he : eta ≠ 0 := by unfold eta; norm_num
    simp only [bornHKF, if_neg hz, hs, mul_zero, add_zero]
    have : p.charge * p.charge / (p.charge * p.charge / (p.wref / eta + p.charge / 3.082)) = p.wref / eta + p.charge / 3.082 := by
      field_simp
    rw [this]
    field_simp
    ring

/-- C70.  Given consistent Born functions of water and a consistent Born coefficient, the standard properties
of the species obey the laws of thermodynamics at every temperature above 228 K and every pressure above
-2600 bar. -/
theorem C70_solute (p : Params) {E : ℝ → ℝ → ElectroState} {B : ℝ → ℝ → BornState} (hE : ElectroConsistent E T P)
    (hB : BornConsistent B T P) (hT : theta < T) (hP : -psi < P) :
    StandardConsistent (fun t q => hkfProps p t q (E t q) (B t q)) (p.Gf - p.Hf + Tr * p.Sr) T P := by
  have hth : theta ≠ 0 := by unfold theta; norm_num
  have hT0 : T ≠ 0 := by unfold theta at hT; intro h; linarith
  have hTt : T - theta ≠ 0 := by intro h; linarith
  have hTr : Tr ≠ 0 := by unfold Tr; norm_num
  have hTrt : Tr - theta ≠ 0 := by unfold Tr theta; norm_num
  have hpsi : psi + P ≠ 0 := by intro h; linarith
  have hpsir : psi + Pr ≠ 0 := by unfold psi Pr; norm_num
  -- functions of temperature
  have v : HasDerivAt (fun t : ℝ => t) 1 T := hasDerivAt_id' T
  have dth : HasDerivAt (fun t : ℝ => t - theta) 1 T := v.sub_const theta
  have dinv : HasDerivAt (fun t : ℝ => 1 / (t - theta)) (-1 / (T - theta) ^ 2) T := by
    refine ((hasDerivAt_const T (1 : ℝ)).fun_div dth hTt).congr_deriv ?_
    ring
  have dlog : HasDerivAt (fun t : ℝ => log (t / Tr)) (1 / T) T := by
    refine ((v.div_const Tr).log (div_ne_zero hT0 hTr)).congr_deriv ?_
    field_simp
  have dlog2 : HasDerivAt (fun t : ℝ => log (Tr / t * (t - theta) / (Tr - theta))) (1 / (T - theta) - 1 / T) T := by
    have h := ((((hasDerivAt_const T Tr).fun_div v hT0).fun_mul dth).div_const (Tr - theta)).log
      (div_ne_zero (mul_ne_zero (div_ne_zero hTr hT0) hTt) hTrt)
    refine h.congr_deriv ?_
    field_simp
    ring
  -- functions of pressure
  have q : HasDerivAt (fun x : ℝ => x) 1 P := hasDerivAt_id' P
  have dlogP : HasDerivAt (fun x : ℝ => log ((psi + x) / (psi + Pr))) (1 / (psi + P)) P := by
    refine (((q.const_add psi).div_const (psi + Pr)).log (div_ne_zero hpsi hpsir)).congr_deriv ?_
    field_simp
  have pT : HasPartials (fun t _ => t) 1 0 T P := HasPartials.fst
  have pinv := ofT (P := P) dinv
  have plog := ofT (P := P) dlog
  have plog2 := ofT (P := P) dlog2
  have pP : HasPartials (fun _ x => x - Pr) 0 1 T P := ofP (q.sub_const Pr)
  have plogP := ofP (T := T) dlogP
  have pK := (pP.const_mul p.a3).add (plogP.const_mul p.a4)
  have pZ := hE.bornYQ.add (HasPartials.const (x := T) (y := P) 1)
  have pTr : HasPartials (fun t _ => t - Tr) 1 0 T P := ofT (v.sub_const Tr)
  have pthm : HasPartials (fun t _ => theta - t) (-1) 0 T P := ofT (v.const_sub theta)
  refine ⟨⟨p.Sr + p.c1 * log (T / Tr) - p.c2 / theta * (1 / (T - theta) - 1 / (Tr - theta)
      + log (Tr / T * (T - theta) / (Tr - theta)) / theta)
      + 1 / (T - theta) ^ 2 * (p.a3 * (P - Pr) + p.a4 * log ((psi + P) / (psi + Pr)))
      + (B T P).w * (E T P).bornY + ((E T P).bornZ + 1) * (B T P).wT - p.wref * Yr, ?_, ?_⟩, ?_⟩
  · have h := (((((((((HasPartials.const (x := T) (y := P) p.Gf).sub (pTr.const_mul p.Sr)).sub
      ((((pT.mul plog).sub pT).add (HasPartials.const Tr)).const_mul p.c1)).add (pP.const_mul p.a1)).add
      (plogP.const_mul p.a2)).sub
      (((((pinv.sub (HasPartials.const (1 / (Tr - theta)))).mul pthm).mul_const (1 / theta)).sub
        ((pT.mul plog2).mul_const (1 / (theta * theta)))).const_mul p.c2)).add (pinv.mul pK)).sub
      (hB.w.mul pZ)).add (HasPartials.const (p.wref * (Zr + 1)))).add (pTr.const_mul (p.wref * Yr))
    refine (h.congr_partials ?_ ?_).congr (Eventually.of_forall fun x => ?_)
    · generalize log (Tr / T * (T - theta) / (Tr - theta)) = L
      generalize log ((psi + P) / (psi + Pr)) = M
      generalize log (T / Tr) = N
      generalize hu : T - theta = u at hTt ⊢
      have : theta = T - u := by rw [← hu]; ring
      generalize hr : Tr - theta = r at hTrt ⊢
      rw [show theta - T = -u by rw [← hu]; ring]
      field_simp
      rw [this]
      ring
    · simp only [hkfProps]
      ring
    · simp only [hkfProps]
      ring
  · simp only [hkfProps]
    generalize log (Tr / T * (T - theta) / (Tr - theta)) = L
    generalize log ((psi + P) / (psi + Pr)) = M
    generalize log (T / Tr) = N
    generalize hu : T - theta = u at hTt ⊢
    have : T = theta + u := by rw [← hu]; ring
    generalize hr : Tr - theta = r at hTrt ⊢
    rw [show theta - T = -u by rw [← hu]; ring]
    field_simp
    rw [this]
    ring
  · refine ⟨-(p.a3 + p.a4 / (psi + P)) / (T - theta) ^ 2 - (B T P).wT * (E T P).bornQ - (B T P).w * (E T P).bornU
      - (E T P).bornY * (B T P).wP - ((E T P).bornZ + 1) * (B T P).wTP, ?_, ?_⟩
    · have h := ((((hasDerivAt_const T (p.a1 + p.a2 / (psi + P))).fun_add (dinv.const_mul (p.a3 + p.a4 / (psi + P)))).fun_sub
        (hB.w.left.fun_mul hE.bornUN.left)).fun_sub (pZ.left.fun_mul hB.wP.left))
      refine (h.congr_of_eventuallyEq (Eventually.of_forall fun x => ?_)).congr_deriv ?_
      · simp only [hkfProps]; ring
      · ring
    · have dq : HasDerivAt (fun t : ℝ => (2 * t - theta) / ((t - theta) * (t - theta))) (-2 * T / (T - theta) ^ 3) T := by
        refine (((v.const_mul 2).sub_const theta).fun_div (dth.fun_mul dth) (mul_ne_zero hTt hTt)).congr_deriv ?_
        field_simp
        ring
      have pq := ofT (P := P) dq
      have h := ((((((((((HasPartials.const (x := T) (y := P) p.Hf).add (pTr.const_mul p.c1)).sub
        ((pinv.sub (HasPartials.const (1 / (Tr - theta)))).const_mul p.c2)).add (pP.const_mul p.a1)).add
        (plogP.const_mul p.a2)).add (pq.mul pK)).sub (hB.w.mul pZ)).add ((hB.w.mul pT).mul hE.bornXU)).add
        ((pT.mul pZ).mul hB.wT)).add (HasPartials.const (p.wref * (Zr + 1)))).sub (HasPartials.const (p.wref * Tr * Yr))
      refine (h.congr_partials ?_ ?_).congr (Eventually.of_forall fun x => ?_)
      · simp only [hkfProps]
        generalize log ((psi + P) / (psi + Pr)) = M
        generalize hu : T - theta = u at hTt ⊢
        field_simp
        ring
      · simp only [hkfProps]
        generalize hu : T - theta = u at hTt ⊢
        have : theta = T - u := by rw [← hu]; ring
        rw [this]
        field_simp
        ring
      · simp only [hkfProps]

/-- C70 for water as solvent.  Given a consistent thermodynamic state of water, its standard properties obey
the laws of thermodynamics. -/
theorem C70_water (p : WaterParams) (hT : T ≠ 0) (hW : ThermoConsistent W T P) (h0 : (W T P).density ≠ 0) :
    StandardConsistent (fun t q => waterHKF p t (W t q)) (p.Gtr - p.Htr + p.Ttr * p.Str) T P := by
  have pT : HasPartials (fun t _ => t) 1 0 T P := HasPartials.fst
  refine ⟨⟨Mw * (W T P).entropy + p.Str, ?_, ?_⟩, ?_⟩
  · have h := (((hW.enthalpy.const_mul Mw).sub (pT.mul ((hW.entropy.const_mul Mw).add (HasPartials.const p.Str)))).add
      (HasPartials.const (p.Ttr * p.Str))).add (HasPartials.const p.Gtr)
    refine (h.congr_partials ?_ ?_).congr (Eventually.of_forall fun x => ?_)
    · field_simp; ring
    · simp only [waterHKF]; ring
    · simp only [waterHKF]
  · simp only [waterHKF]; ring
  · have hV := ((HasPartials.const (x := T) (y := P) 1).div hW.density h0).congr
      (g := fun t q => (W t q).volume) (Eventually.of_forall fun q => hW.volume q.1 q.2)
    refine ⟨_, (hV.left.mul_const Mw), ?_⟩
    refine ((hW.enthalpy.const_mul Mw).add (HasPartials.const p.Htr)).congr_partials ?_ ?_
    · simp only [waterHKF]; ring
    · simp only [waterHKF]
      rw [hW.volume]
      field_simp
      ring

/-- C70 from the density of water on : whatever fluid model gives consistent derivatives of the density. -/
theorem C70_partial (p : Params) (hW : DensityConsistent W T P) (hT : theta < T) (hP : -psi < P)
    (h0 : 0 < (W T P).density) (h350 : (W T P).density ≠ 350) (h1000 : (W T P).density ≠ 1000)
    (ha : (W T P).densityT ≠ 0) (hb : (W T P).densityP ≠ 0) (hT' : T - 273.15 ≠ 355)
    (hk : ∀ i, 1 ≤ i → i ≤ 4 → jnK i (T / jnTr) ≠ 0) (he : (electroState T (W T P)).epsilon ≠ 0)
    (hre : p.charge ≠ 0 → (bornHKF (gHKF T P (W T P)) p).re ≠ 0) (hg : p.charge ≠ 0 → 3.082 + (gHKF T P (W T P)).g ≠ 0) :
    StandardConsistent (fun t q => hkf p t q (W t q)) (p.Gf - p.Hf + Tr * p.Sr) T P := by
  have hT0 : T ≠ 0 := by unfold theta at hT; intro h; linarith
  exact C70_solute p (C69_electroState_partial hT0 hW h0.ne' hb hk he)
    (C70_born p (C70_g_partial hW h350 h1000 ha hb hT') hre hg) hT hP

end

/-- C70 for the water of Wagner and Pruss. -/
theorem C70_water_wagnerPruss {ρ : ℝ → ℝ → ℝ} {T P : ℝ} (p : WaterParams) (hT : 0 < T) (hcr : ρ T P ≠ Dcr)
    (h : DensityRoot wagnerPruss ρ T P) (hmax : (stateAt wagnerPruss ρ T P).densityT ≠ 0) :
    StandardConsistent (fun t q => waterHKF p t (stateAt wagnerPruss ρ t q)) (p.Gtr - p.Htr + p.Ttr * p.Str) T P := by
  refine C70_water p hT.ne' (C66_wagnerPruss hT hcr h hmax) ?_
  have e0 : (stateAt wagnerPruss ρ T P).density = ρ T P := (density_eventually h).self_of_nhds
  rw [e0]; exact h.positive.ne'

/-- The hypotheses are met : an ion of charge 2 in the ideal fluid with a density of 500 at the reference
temperature. -/
example : StandardConsistent (fun t q => hkf ⟨1, 2, 3, 4, 5, 6, 7, 8, 9, 0, 2⟩ t q (stateAt idealFluid (fun t p => p / t) t q))
    (1 - 2 + Tr * 3) 298.15 149075 := by
  have hr : DensityRoot idealFluid (fun t p => p / t) 298.15 149075 := by
    refine ⟨by norm_num, by norm_num, by norm_num, ?_, ?_, ?_⟩
    · exact ContinuousAt.div continuousAt_snd continuousAt_fst (by norm_num)
    · filter_upwards [IsJet.eventually_fst (eventually_gt_nhds (show (0 : ℝ) < 298.15 by norm_num)),
        IsJet.eventually_snd (eventually_gt_nhds (show (0 : ℝ) < 149075 by norm_num))] with p h1 h2
      simp only [idealFluid]
      field_simp
    · simp only [idealFluid]; norm_num
  have e : √(149075 / (idealFluid 298.15 (149075 / 298.15)).hD) = 149075 / 298.15 := (density_eventually hr).self_of_nhds
  have hd : (stateAt idealFluid (fun t p => p / t) 298.15 149075).density = 500 := by
    simp only [stateAt, thermoState]; rw [e]; norm_num
  have ha : (stateAt idealFluid (fun t p => p / t) 298.15 149075).densityT ≠ 0 := by
    simp only [stateAt, thermoState]
    rw [e]
    simp only [idealFluid]
    norm_num
  have hc : ThermoConsistent (stateAt idealFluid fun t p => p / t) 298.15 149075 :=
    C66_thermoState (idealFluid_jet (by norm_num) (by norm_num)) hr ha
  have hg : -3 < (gHKF 298.15 149075 (stateAt idealFluid (fun t p => p / t) 298.15 149075)).g := by
    unfold gHKF
    rw [if_neg (by rw [hd]; norm_num)]
    simp only
    rw [if_neg (by unfold RegionII; norm_num)]
    simp only [gRegionI, hd]
    have h1 : (1 - 500 / 1000 : ℝ) ^ bg 298.15 ≤ 1 := rpow_le_one (by norm_num) (by norm_num) (bg_pos _).le
    have h2 : (0 : ℝ) ≤ (1 - 500 / 1000 : ℝ) ^ bg 298.15 := rpow_nonneg (by norm_num) _
    have h3 : -3 < ag 298.15 := by unfold ag; norm_num
    have h4 := ag_neg 298.15
    nlinarith
  refine C70_partial ⟨1, 2, 3, 4, 5, 6, 7, 8, 9, 0, 2⟩ hc.toDensity ?_ ?_ ?_ ?_ ?_ ha ?_ ?_ ?_ ?_ ?_ ?_
  · unfold theta; norm_num
  · unfold psi; norm_num
  · rw [hd]; norm_num
  · rw [hd]; norm_num
  · rw [hd]; norm_num
  · simp only [stateAt, thermoState]; rw [e]; simp only [idealFluid]; norm_num
  · norm_num
  · intro i h1 h2
    interval_cases i <;> simp only [jnK, jnA, jnTr] <;> norm_num
  · simp only [electroState, bornFunctions, sum5, jnTerm, hd]
    simp only [jnK, jnA, jnTr, jnDr]
    norm_num
  · intro _
    simp only [bornHKF]
    rw [if_neg (by norm_num)]
    simp only [abs_of_pos (by norm_num : (0 : ℝ) < 2)]
    norm_num
    norm_num at hg
    intro h
    linarith
  · intro _ h
    linarith

end Verif.HKF
