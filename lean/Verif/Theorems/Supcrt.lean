import Verif.Spec.Supcrt
import Verif.Theorems.HKF
import Verif.Theorems.StandardMineral

/-!
# C81: species of SUPCRT databases have the properties their parameters say
-/

namespace Verif.Supcrt

open Real Verif.Water
open Classical

/-- C81, the solvent: its properties are those of the HKF model of water with the default parameters. -/
theorem C81_solvent (water : ℝ × ℝ → Res ThermoState) (T P : ℝ) :
    props water .solvent T P = (water (T, P)).bind fun wts => .ok (HKF.waterHKF waterSI T wts) := by
  simp only [props]
  congr 1
  funext wts
  simp only [convert, solventProps, HKF.waterHKF, waterSI, cal]
  norm_num

theorem eta_cal : HKF.eta = eta * 4.184 := by unfold HKF.eta eta; norm_num

/-- The electrostatics of a solute in joules are those in calories times 4.184, if a species named `H+` has the
charge 1 and no Born coefficient. -/
theorem born_toSI (p : Solute) (s : HKF.GState) (hH : p.name ∈ hydrogenNames → p.charge = 1 ∧ p.wref = 0) :
    let x := electroStateHKF s p
    let y := HKF.bornHKF s p.toSI
    y.w = x.w * 4.184 ∧ y.wT = x.wT * 4.184 ∧ y.wP = x.wP * 4.184 ∧ y.wTT = x.wTT * 4.184 ∧ y.wTP = x.wTP * 4.184 ∧
      y.wPP = x.wPP * 4.184 := by
  intro x y
  by_cases hz : p.charge = 0
  · have hx : x = ⟨0, 0, p.wref, 0, 0, 0, 0, 0⟩ := if_pos (Or.inl hz)
    have hy : y = ⟨0, 0, p.wref * 4.184, 0, 0, 0, 0, 0⟩ := if_pos hz
    rw [hx, hy]; simp
  · by_cases hn : p.name ∈ hydrogenNames
    · obtain ⟨h1, h2⟩ := hH hn
      have hx : x = ⟨0, 0, p.wref, 0, 0, 0, 0, 0⟩ := if_pos (Or.inr hn)
      have hy : y = _ := if_neg hz
      rw [hx, hy]
      simp only [Solute.toSI, h1, h2]
      norm_num
      have e2 : (1541 / 500 + s.g)⁻¹ * (1541 / 500 + s.g)⁻¹ - ((1541 / 500 + s.g) ^ 2)⁻¹ = 0 := by
        rw [← mul_inv, ← pow_two, sub_self]
      have e3 : (1541 / 500 + s.g)⁻¹ * ((1541 / 500 + s.g)⁻¹ * (1541 / 500 + s.g)⁻¹) - ((1541 / 500 + s.g) ^ 3)⁻¹ = 0 := by
        rw [← mul_inv, ← mul_inv, ← pow_two, ← pow_succ', sub_self]
      rw [e2, e3]
      simp
    · have hx : x = _ := if_neg (by rintro (h | h); exacts [hz h, hn h])
      have hy : y = _ := if_neg hz
      have hr : p.toSI.wref / HKF.eta = p.wref / eta := by
        rw [eta_cal]
        show p.wref * 4.184 / _ = _
        rw [mul_div_mul_right _ _ (by norm_num)]
      rw [hx, hy]
      simp only [hr]
      simp only [Solute.toSI, eta_cal]
      refine ⟨?_, ?_, ?_, ?_, ?_, ?_⟩ <;> ring

/-- C81, electrostatics: the Born coefficient of a solute and its first and second derivatives are those of the HKF model in
SI units, so they are derivatives of each other wherever the HKF ones are (C70). -/
theorem C81_born (p : Solute) (hH : p.name ∈ hydrogenNames → p.charge = 1 ∧ p.wref = 0) {G : ℝ → ℝ → HKF.GState} {T P : ℝ}
    (hG : HKF.GConsistent G T P) (hre : p.charge ≠ 0 → (HKF.bornHKF (G T P) p.toSI).re ≠ 0)
    (hg : p.charge ≠ 0 → 3.082 + (G T P).g ≠ 0) :
    HKF.BornConsistent (fun t q => electroStateHKF (G t q) p) T P := by
  have h : HKF.BornConsistent (fun t q => HKF.bornHKF (G t q) p.toSI) T P := HKF.C70_born p.toSI hG hre hg
  have e : ∀ s, (electroStateHKF s p).w = (HKF.bornHKF s p.toSI).w * (1 / 4.184) ∧
      (electroStateHKF s p).wT = (HKF.bornHKF s p.toSI).wT * (1 / 4.184) ∧
      (electroStateHKF s p).wP = (HKF.bornHKF s p.toSI).wP * (1 / 4.184) ∧
      (electroStateHKF s p).wTT = (HKF.bornHKF s p.toSI).wTT * (1 / 4.184) ∧
      (electroStateHKF s p).wTP = (HKF.bornHKF s p.toSI).wTP * (1 / 4.184) ∧
      (electroStateHKF s p).wPP = (HKF.bornHKF s p.toSI).wPP * (1 / 4.184) := by
    intro s
    obtain ⟨h1, h2, h3, h4, h5, h6⟩ := born_toSI p s hH
    rw [h1, h2, h3, h4, h5, h6]
    refine ⟨?_, ?_, ?_, ?_, ?_, ?_⟩ <;> ring
  have k : ∀ {f : ℝ → ℝ → ℝ} {a b : ℝ}, HasPartials f a b T P → HasPartials (fun t q => f t q * (1 / 4.184)) (a * (1 / 4.184)) (b * (1 / 4.184)) T P :=
    fun hf => (hf.mul (HasPartials.const (x := T) (y := P) (1 / 4.184))).congr_partials (by ring) (by ring)
  refine ⟨?_, ?_, ?_⟩
  · simp only [fun s => (e s).1, fun s => (e s).2.1, fun s => (e s).2.2.1]
    exact k h.w
  · simp only [fun s => (e s).2.1, fun s => (e s).2.2.2.1, fun s => (e s).2.2.2.2.1]
    exact k h.wT
  · simp only [fun s => (e s).2.2.1, fun s => (e s).2.2.2.2.1, fun s => (e s).2.2.2.2.2]
    exact k h.wP

/-- A sodium ion and a function `g` that is linear in temperature and pressure meet the hypotheses. -/
example : ∃ (p : Solute) (G : ℝ → ℝ → HKF.GState), (p.name ∈ hydrogenNames → p.charge = 1 ∧ p.wref = 0) ∧ HKF.GConsistent G 300 2 ∧
    (p.charge ≠ 0 → (HKF.bornHKF (G 300 2) p.toSI).re ≠ 0) ∧ (p.charge ≠ 0 → 3.082 + (G 300 2).g ≠ 0) ∧ p.charge ≠ 0 := by
  refine ⟨⟨c!"Na+", 1, 0, 0, 0, 0, 0, 0, 0, 0, 0, 33060⟩, fun t q => ⟨t + q, 1, 1, 0, 0, 0⟩, fun h => absurd h (by decide), ⟨?_, ?_, ?_⟩, ?_, ?_, ?_⟩
  · exact (HasPartials.fst.add HasPartials.snd).congr_partials (by norm_num) (by norm_num)
  · exact HasPartials.const 1
  · exact HasPartials.const 1
  · intro _
    simp only [HKF.bornHKF, Solute.toSI, HKF.eta, one_ne_zero, if_false]
    norm_num
  · intro _; norm_num
  · norm_num

theorem log_bar (P : ℝ) : log ((HKF.psi + P) / (HKF.psi + HKF.Pr)) = log ((psi + P * 1.0e-05) / (psi + Pr)) := by
  congr 1
  have h1 : HKF.psi + P = (psi + P * 1.0e-05) * 100000 := by unfold HKF.psi psi; norm_num; ring
  have h2 : HKF.psi + HKF.Pr = (psi + Pr) * 100000 := by unfold HKF.psi HKF.Pr psi Pr; norm_num
  rw [h1, h2, mul_div_mul_right _ _ (by norm_num)]

/-- C81, solutes: the Gibbs energy, the enthalpy and the heat capacities are those of the HKF model with the same
parameters in SI units, for every temperature, pressure and state of water. -/
theorem C81_solute (water : ℝ × ℝ → Res ThermoState) (p : Solute) (T P : ℝ) (wts : ThermoState)
    (hw : water (T, P) = .ok wts) (hH : p.name ∈ hydrogenNames → p.charge = 1 ∧ p.wref = 0) :
    ∃ x, props water (.solute p) T P = .ok x ∧
      x.G0 = (HKF.hkf p.toSI T P wts).G0 ∧ x.H0 = (HKF.hkf p.toSI T P wts).H0 ∧
      x.Cp0 = (HKF.hkf p.toSI T P wts).Cp0 ∧ x.Cv0 = (HKF.hkf p.toSI T P wts).Cv0 := by
  obtain ⟨h1, h2, h3, h4, -, -⟩ := born_toSI p (functionG T P wts) hH
  refine ⟨convert (soluteProps p T P (electroStateHKF (functionG T P wts) p) (electroState T wts)),
    by simp only [props, hw, Res.bind_ok'], ?_, ?_, ?_, ?_⟩ <;>
    simp only [HKF.hkf, HKF.hkfProps, convert, soluteProps] <;>
    simp only [functionG] at h1 h2 h3 h4 ⊢ <;>
    simp only [h1, h2, h3, h4, log_bar] <;>
    simp only [Solute.toSI, HKF.Tr, HKF.Pr, HKF.Zr, HKF.Yr, HKF.theta, Tr, Pr, Zr, Yr, theta, cal] <;> norm_num <;> ring

/-- The electrostatic part of the volume of a solute, in m³/mol. -/
noncomputable def electrostaticVolume (p : Solute) (T P : ℝ) (wts : ThermoState) : ℝ :=
  (HKF.bornHKF (HKF.gHKF T P wts) p.toSI).w * (electroState T wts).bornQ
    + ((electroState T wts).bornZ + 1) * (HKF.bornHKF (HKF.gHKF T P wts) p.toSI).wP

/-- C81, solutes: the volume is that of the HKF model in SI units except for the electrostatic part, which is
10⁵ times too small, because the Born functions are per pascal and the other terms per bar. -/
theorem C81_solute_volume (water : ℝ × ℝ → Res ThermoState) (p : Solute) (T P : ℝ) (wts : ThermoState)
    (hw : water (T, P) = .ok wts) (hH : p.name ∈ hydrogenNames → p.charge = 1 ∧ p.wref = 0) :
    ∃ x, props water (.solute p) T P = .ok x ∧
      x.V0 = (HKF.hkf p.toSI T P wts).V0 + (1 - 1 / 100000) * electrostaticVolume p T P wts := by
  obtain ⟨h1, h2, h3, h4, -, -⟩ := born_toSI p (functionG T P wts) hH
  refine ⟨convert (soluteProps p T P (electroStateHKF (functionG T P wts) p) (electroState T wts)),
    by simp only [props, hw, Res.bind_ok'], ?_⟩
  have hp : p.a2 * 4.184 / (HKF.psi + P) = p.a2 / (psi + P * 1.0e-05) * 4.184 / 100000 ∧
      p.a4 * 4.184 / (HKF.psi + P) = p.a4 / (psi + P * 1.0e-05) * 4.184 / 100000 := by
    have h : HKF.psi + P = (psi + P * 1.0e-05) * 100000 := by unfold HKF.psi psi; norm_num; ring
    rw [h]
    generalize psi + P * 1.0e-05 = u
    constructor <;> ring
  simp only [HKF.hkf, HKF.hkfProps, convert, soluteProps, electrostaticVolume]
  simp only [functionG] at h1 h2 h3 h4 ⊢
  simp only [h1, h2, h3, h4]
  simp only [Solute.toSI, hp, HKF.theta, theta, cal, bar]
  norm_num
  ring

/-- C81, solutes: the volume is the right one exactly when the electrostatic part vanishes. -/
theorem C81_solute_volume_wrong (water : ℝ × ℝ → Res ThermoState) (p : Solute) (T P : ℝ) (wts : ThermoState)
    (hw : water (T, P) = .ok wts) (hH : p.name ∈ hydrogenNames → p.charge = 1 ∧ p.wref = 0) :
    (∃ x, props water (.solute p) T P = .ok x ∧ x.V0 = (HKF.hkf p.toSI T P wts).V0) ↔
      electrostaticVolume p T P wts = 0 := by
  obtain ⟨x, hx, hV⟩ := C81_solute_volume water p T P wts hw hH
  constructor
  · rintro ⟨y, hy, h⟩
    rw [hx] at hy; cases hy
    rw [h] at hV
    linarith
  · intro h
    exact ⟨x, hx, by rw [hV, h]; ring⟩

/-- C81, solutes: whenever the HKF model in SI units is consistent at a state, the properties reported for the
solute of a SUPCRT database are inconsistent there unless the electrostatic part of the volume vanishes: the volume is
not the pressure derivative of the Gibbs energy. -/
theorem C81_solute_consistent_wrong (W : ℝ → ℝ → ThermoState) (p : Solute) (K T P : ℝ)
    (hH : p.name ∈ hydrogenNames → p.charge = 1 ∧ p.wref = 0)
    (hc : HKF.StandardConsistent (fun t q => HKF.hkf p.toSI t q (W t q)) K T P)
    (F : ℝ → ℝ → StandardModels.Props)
    (hF : ∀ t q, props (fun x => .ok (W x.1 x.2)) (.solute p) t q = .ok (F t q))
    (hs : HKF.StandardConsistent F K T P) : electrostaticVolume p T P (W T P) = 0 := by
  obtain ⟨S, hS, -⟩ := hc.gibbs
  obtain ⟨S', hS', -⟩ := hs.gibbs
  have hG : ∀ t q, (F t q).G0 = (HKF.hkf p.toSI t q (W t q)).G0 := by
    intro t q
    obtain ⟨x, hx, h, -⟩ := C81_solute (fun x => .ok (W x.1 x.2)) p t q (W t q) rfl hH
    rw [hF] at hx; cases hx; exact h
  have hfun : (fun x : ℝ × ℝ => (F x.1 x.2).G0) = fun x : ℝ × ℝ => (HKF.hkf p.toSI x.1 x.2 (W x.1 x.2)).G0 :=
    funext fun x => hG x.1 x.2
  unfold HasPartials at hS hS'
  rw [hfun] at hS'
  have := congrArg (fun L => L ((0 : ℝ), (1 : ℝ))) (hS.unique hS')
  simp at this
  refine (C81_solute_volume_wrong (fun x => .ok (W x.1 x.2)) p T P (W T P) rfl hH).1 ⟨F T P, hF T P, this.symm⟩

/-! ### Gases -/

theorem gas_ok (water : ℝ × ℝ → Res ThermoState) (p : Gas) (T P : ℝ) (hT : 0 < T) (hm : T ≤ p.Tmax) :
    props water (.gas p) T P = .ok (convert (gasState p T P)) := by
  have h : ¬ (T ≤ 0 ∨ T > p.Tmax) := by rintro (h | h) <;> linarith
  simp only [props, gasProps, checkTemperature, if_neg h, Res.bind_ok']

/-- C81, gases: between zero and the maximum temperature the Gibbs energy, the enthalpy and the heat capacities are
those of the Maier–Kelley model with the same parameters in SI units, and the volume is that of an ideal gas;
the model in SI units reports no volume. -/
theorem C81_gas (water : ℝ × ℝ → Res ThermoState) (p : Gas) (T P : ℝ) (hT : 0 < T) (hm : T ≤ p.Tmax) :
    ∃ x y, props water (.gas p) T P = .ok x ∧ StandardModels.maierKelley p.toSI T P = .ok y ∧
      x.G0 = y.G0 ∧ x.H0 = y.H0 ∧ x.Cp0 = y.Cp0 ∧ x.Cv0 = y.Cv0 ∧
      x.V0 = 8.3144621 * T / P ∧ y.V0 = 0 := by
  refine ⟨_, _, gas_ok water p T P hT hm, rfl, ?_, ?_, ?_, ?_, ?_, ?_⟩ <;>
    simp only [convert, gasState, Gas.toSI, StandardModels.Tr, StandardModels.R, Tr, cal, R, decide_true, if_true] <;> ring

/-- C81, gases and minerals: outside the temperatures of validity there is an exception. -/
theorem C81_temperature (water : ℝ × ℝ → Res ThermoState) (g : Gas) (m : Mineral) (T P : ℝ) :
    (T ≤ 0 ∨ g.Tmax < T → props water (.gas g) T P = .throw) ∧
    (T ≤ 0 ∨ m.Tmax < T → props water (.mineral m) T P = .throw) := by
  constructor <;> intro h
  · simp only [props, gasProps, checkTemperature, if_pos h, Res.bind_throw']
  · simp only [props, mineralProps, checkTemperature, if_pos h, Res.bind_throw']

/-- C81, gases: the heat capacity is the temperature derivative of the enthalpy, `G = H - T S + K`, and the volume is
the pressure derivative of the chemical potential `G0 + R T ln (P / 1 bar)` of the pure ideal gas. -/
theorem C81_gas_consistent (water : ℝ × ℝ → Res ThermoState) (p : Gas) (T P : ℝ) (hT : 0 < T) (hm : T < p.Tmax)
    (hP : 0 < P) :
    StandardModels.HeatCapacity (props water (.gas p)) T P ∧
    StandardModels.GibbsHelmholtz (props water (.gas p)) ((p.Gf - p.Hf + 298.15 * p.Sr) * 4.184) T P ∧
    ∃ g : ℝ → StandardModels.Props, (∀ q, props water (.gas p) T q = .ok (g q)) ∧
      HasDerivAt (fun q => (g q).G0 + 8.3144621 * T * log (q / 100000)) (g P).V0 P := by
  obtain ⟨⟨y, hy, gH, hgH, hH⟩, -, ⟨y', S, hy', ⟨gG, hgG, hG⟩, e⟩⟩ := StandardModels.C53_maierKelley p.toSI T P hT
  have hev : ∀ᶠ t in nhds T, 0 < t ∧ t < p.Tmax := (eventually_gt_nhds hT).and (eventually_lt_nhds hm)
  obtain ⟨x, z, hx, hz, h1, h2, h3, h4, h5, h6⟩ := C81_gas water p T P hT hm.le
  rw [hz] at hy hy'; cases hy; cases hy'
  refine ⟨⟨x, hx, fun t => convert (gasState p t P), ?_, ?_⟩, ⟨x, S, hx, ⟨fun t => convert (gasState p t P), ?_, ?_⟩, ?_⟩, ?_⟩
  · filter_upwards [hev] with t ht using gas_ok water p t P ht.1 ht.2.le
  · rw [h3]
    refine hH.congr_of_eventuallyEq ?_
    filter_upwards [hev, hgH] with t ht hk
    obtain ⟨x', z', hx', hz', -, h2', -⟩ := C81_gas water p t P ht.1 ht.2.le
    rw [gas_ok water p t P ht.1 ht.2.le] at hx'; cases hx'
    rw [hk] at hz'; cases hz'
    exact h2'
  · filter_upwards [hev] with t ht using gas_ok water p t P ht.1 ht.2.le
  · refine hG.congr_of_eventuallyEq ?_
    filter_upwards [hev, hgG] with t ht hk
    obtain ⟨x', z', hx', hz', h1', -⟩ := C81_gas water p t P ht.1 ht.2.le
    rw [gas_ok water p t P ht.1 ht.2.le] at hx'; cases hx'
    rw [hk] at hz'; cases hz'
    exact h1'
  · rw [h1, h2, e]
    simp only [Gas.toSI, StandardModels.Tr]
    ring
  · refine ⟨fun q => convert (gasState p T q), fun q => gas_ok water p T q hT hm.le, ?_⟩
    have hl : HasDerivAt (fun q : ℝ => log (q / 100000)) (1 / P) P := by
      refine (((hasDerivAt_id' P).div_const 100000).log (by positivity)).congr_deriv ?_
      field_simp
    refine ((hl.const_mul (8.3144621 * T)).const_add (convert (gasState p T P)).G0).congr_deriv ?_
    simp only [convert, gasState, R]
    ring

/-- The hypotheses are met by a gas like oxygen at 300 K and 1 bar. -/
example (water : ℝ × ℝ → Res ThermoState) :
    ∃ p : Gas, p.a ≠ 0 ∧ StandardModels.HeatCapacity (props water (.gas p)) 300 100000 :=
  ⟨⟨c!"O2(g)", 0, 0, 49.029, 7.16, 0.001, -40000, 3000⟩, by norm_num,
    (C81_gas_consistent water _ 300 100000 (by norm_num) (by norm_num) (by norm_num)).1⟩

end Verif.Supcrt
