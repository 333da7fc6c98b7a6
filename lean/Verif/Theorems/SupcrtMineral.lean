import Verif.Theorems.Supcrt

/-!
# C81: minerals of SUPCRT databases, and a solute with a wrong volume
-/

namespace Verif.Supcrt

open Real Verif.Water
open Classical

/-! ### A solute with a wrong volume -/

/-- A neutral solute with a Born coefficient of 1 cal/mol. -/
noncomputable def neutral : Solute := ⟨c!"X(aq)", 0, 1, 2, 3, 4, 5, 6, 7, 8, 9, 1⟩

/-- C81, solutes: there is a solute and a consistent fluid at whose states the HKF model in SI units is consistent
and the properties of the SUPCRT database are not. -/
theorem C81_solute_inconsistent_wrong :
    HKF.StandardConsistent (fun t q => HKF.hkf neutral.toSI t q (stateAt idealFluid (fun t p => p / t) t q))
      (1 * 4.184 - 2 * 4.184 + HKF.Tr * (3 * 4.184)) 298.15 149075 ∧
    ∃ F : ℝ → ℝ → StandardModels.Props,
      (∀ t q, props (fun x => .ok (stateAt idealFluid (fun t p => p / t) x.1 x.2)) (.solute neutral) t q = .ok (F t q)) ∧
      ¬ HKF.StandardConsistent F (1 * 4.184 - 2 * 4.184 + HKF.Tr * (3 * 4.184)) 298.15 149075 := by
  have hr : DensityRoot idealFluid (fun t p => p / t) 298.15 149075 := by
    refine ⟨by norm_num, by norm_num, by norm_num, ?_, ?_, ?_⟩
    · exact ContinuousAt.div continuousAt_snd continuousAt_fst (by norm_num)
    · filter_upwards [IsJet.eventually_fst (eventually_gt_nhds (show (0 : ℝ) < 298.15 by norm_num)),
        IsJet.eventually_snd (eventually_gt_nhds (show (0 : ℝ) < 149075 by norm_num))] with p h1 h2
      simp only [idealFluid]
      field_simp
    · simp only [idealFluid]; norm_num
  have e : √(149075 / (idealFluid 298.15 (149075 / 298.15)).hD) = 149075 / 298.15 := (density_eventually hr).self_of_nhds
  have hd : (stateAt idealFluid (fun t p => p / t) 298.15 149075).density = 500 := by
    simp only [stateAt, thermoState]; rw [e]; norm_num
  have ha : (stateAt idealFluid (fun t p => p / t) 298.15 149075).densityT ≠ 0 := by
    simp only [stateAt, thermoState]
    rw [e]
    simp only [idealFluid]
    norm_num
  have hb : (stateAt idealFluid (fun t p => p / t) 298.15 149075).densityP ≠ 0 := by
    simp only [stateAt, thermoState]; rw [e]; simp only [idealFluid]; norm_num
  have hc : ThermoConsistent (stateAt idealFluid fun t p => p / t) 298.15 149075 :=
    C66_thermoState (idealFluid_jet (by norm_num) (by norm_num)) hr ha
  have hH : neutral.name ∈ hydrogenNames → neutral.charge = 1 ∧ neutral.wref = 0 := by
    intro h; exact absurd h (by unfold neutral hydrogenNames; decide)
  have hcons : HKF.StandardConsistent
      (fun t q => HKF.hkf neutral.toSI t q (stateAt idealFluid (fun t p => p / t) t q))
      (1 * 4.184 - 2 * 4.184 + HKF.Tr * (3 * 4.184)) 298.15 149075 := by
    refine HKF.C70_partial neutral.toSI hc.toDensity ?_ ?_ ?_ ?_ ?_ ha hb ?_ ?_ ?_ ?_ ?_
    · unfold HKF.theta; norm_num
    · unfold HKF.psi; norm_num
    · rw [hd]; norm_num
    · rw [hd]; norm_num
    · rw [hd]; norm_num
    · norm_num
    · intro i h1 h2
      interval_cases i <;> simp only [jnK, jnA, jnTr] <;> norm_num
    · simp only [electroState, bornFunctions, sum5, jnTerm, hd]
      simp only [jnK, jnA, jnTr, jnDr]
      norm_num
    · intro h; exact absurd rfl h
    · intro h; exact absurd rfl h
  refine ⟨hcons, fun t q => convert (soluteProps neutral t q
    (electroStateHKF (functionG t q (stateAt idealFluid (fun t p => p / t) t q)) neutral)
    (electroState t (stateAt idealFluid (fun t p => p / t) t q))), fun t q => rfl, fun hs => ?_⟩
  have h0 := C81_solute_consistent_wrong (stateAt idealFluid fun t p => p / t) neutral _ 298.15 149075 hH hcons _
    (fun t q => rfl) hs
  have hB : HKF.bornHKF (HKF.gHKF 298.15 149075 (stateAt idealFluid (fun t p => p / t) 298.15 149075)) neutral.toSI
      = ⟨0, 0, 1 * 4.184, 0, 0, 0, 0, 0⟩ := if_pos rfl
  unfold electrostaticVolume at h0
  rw [hB] at h0
  simp only [mul_zero, add_zero] at h0
  have hQ : (electroState 298.15 (stateAt idealFluid (fun t p => p / t) 298.15 149075)).bornQ ≠ 0 := by
    simp only [electroState, bornFunctions, sum5, jnTerm, hd]
    simp only [stateAt, thermoState]
    rw [e]
    simp only [idealFluid, jnK, jnA, jnTr, jnDr]
    norm_num
  exact hQ (by
    have := mul_eq_zero.1 h0
    rcases this with h | h
    · norm_num at h
    · exact h)

/-! ### Minerals -/

theorem getD_scale (l : List ℝ) (k : ℝ) (i : ℕ) : (l.map (· * k)).getD i 0 = l.getD i 0 * k := by
  simp only [List.getD_eq_getElem?_getD, List.getElem?_map]
  cases l[i]? <;> simp

theorem getD_div (l : List ℝ) (k : ℝ) (i : ℕ) : (l.map (· / k)).getD i 0 = l.getD i 0 / k := by
  simp only [List.getD_eq_getElem?_getD, List.getElem?_map]
  cases l[i]? <;> simp

theorem toSI_Ti (p : Mineral) (T : ℝ) : p.toSI.Ti T = p.Ti T := rfl

theorem toSI_Ptr (p : Mineral) (T : ℝ) : p.toSI.Ptr T = (p.Pt T).map (· * 100000) := by
  unfold StandardModels.Mineral.Ptr StandardModels.Mineral.sloped Mineral.Pt
  rw [List.map_map]
  have hf : (fun i => decide (p.toSI.dPdTtr.getD i 0 ≠ 0)) = fun i => decide (p.dPdTtr.getD i 0 ≠ 0) := by
    funext i
    have : p.toSI.dPdTtr.getD i 0 = p.dPdTtr.getD i 0 * 100000 := getD_scale _ _ _
    rw [this]
    simp
  rw [hf]
  refine List.map_congr_left fun i _ => ?_
  have h1 : p.toSI.dPdTtr.getD i 0 = p.dPdTtr.getD i 0 * 100000 := getD_scale _ _ _
  have h2 : p.toSI.Ttr = p.Ttr := rfl
  simp only [Function.comp, h1, h2, StandardModels.Pr, Pr]
  norm_num
  ring

theorem toSI_crossed (p : Mineral) (T P : ℝ) (j : ℕ) : p.toSI.crossed T P j ↔ p.crossed T (P * 1.0e-5) j := by
  unfold StandardModels.Mineral.crossed Mineral.crossed
  rw [toSI_Ptr, getD_scale]
  constructor <;> rintro ⟨h1, h2⟩ <;> constructor <;> norm_num at * <;> linarith

theorem toSI_Cp (p : Mineral) (T : ℝ) : p.toSI.Cp T = p.Cp T * 4.184 := by
  unfold StandardModels.Mineral.Cp Mineral.Cp
  rw [toSI_Ti]
  generalize p.Ti T = l
  have key : ∀ (is : List ℕ) (u : ℝ),
      is.foldl (fun Cp i => if l.getD i 0 ≤ T ∧ T ≤ l.getD (i + 1) 0
        then p.toSI.a.getD i 0 + p.toSI.b.getD i 0 * T + p.toSI.c.getD i 0 / (T * T) else Cp) (u * 4.184)
      = is.foldl (fun Cp i => if l.getD i 0 ≤ T ∧ T ≤ l.getD (i + 1) 0
        then p.a.getD i 0 + p.b.getD i 0 * T + p.c.getD i 0 / (T * T) else Cp) u * 4.184 := by
    intro is
    induction is with
    | nil => intro u; rfl
    | cons i is ih =>
      intro u
      simp only [List.foldl_cons]
      rw [← ih]
      congr 1
      have ha : p.toSI.a.getD i 0 = p.a.getD i 0 * 4.184 := getD_scale _ _ _
      have hb : p.toSI.b.getD i 0 = p.b.getD i 0 * 4.184 := getD_scale _ _ _
      have hc : p.toSI.c.getD i 0 = p.c.getD i 0 * 4.184 := getD_scale _ _ _
      by_cases h : l.getD i 0 ≤ T ∧ T ≤ l.getD (i + 1) 0
      · rw [if_pos h, if_pos h, ha, hb, hc]; ring
      · rw [if_neg h, if_neg h]
  have := key (List.range (l.length - 1)) 0
  rwa [zero_mul] at this

theorem toSI_CpdT (p : Mineral) (T : ℝ) : p.toSI.CpdT T = p.CpdT T * 4.184 := by
  unfold StandardModels.Mineral.CpdT Mineral.CpdT StandardModels.Mineral.cpT
  rw [toSI_Ti, Finset.sum_mul]
  refine Finset.sum_congr rfl fun i _ => ?_
  have ha : p.toSI.a.getD i 0 = p.a.getD i 0 * 4.184 := getD_scale _ _ _
  have hb : p.toSI.b.getD i 0 = p.b.getD i 0 * 4.184 := getD_scale _ _ _
  have hc : p.toSI.c.getD i 0 = p.c.getD i 0 * 4.184 := getD_scale _ _ _
  rw [ha, hb, hc]; ring

theorem toSI_CpdlnT (p : Mineral) (T : ℝ) : p.toSI.CpdlnT T = p.CpdlnT T * 4.184 := by
  unfold StandardModels.Mineral.CpdlnT Mineral.CpdlnT StandardModels.Mineral.cplnT
  rw [toSI_Ti, Finset.sum_mul]
  refine Finset.sum_congr rfl fun i _ => ?_
  have ha : p.toSI.a.getD i 0 = p.a.getD i 0 * 4.184 := getD_scale _ _ _
  have hb : p.toSI.b.getD i 0 = p.b.getD i 0 * 4.184 := getD_scale _ _ _
  have hc : p.toSI.c.getD i 0 = p.c.getD i 0 * 4.184 := getD_scale _ _ _
  rw [ha, hb, hc]; ring

theorem toSI_GdH (p : Mineral) (T : ℝ) : p.toSI.GdH T = p.GdH T * 4.184 := by
  unfold StandardModels.Mineral.GdH Mineral.GdH
  rw [toSI_Ti, Finset.sum_mul]
  refine Finset.sum_congr rfl fun i _ => ?_
  have ha : p.toSI.Htr.getD i 0 = p.Htr.getD i 0 * 4.184 := getD_scale _ _ _
  rw [ha]; ring

theorem toSI_HdH (p : Mineral) (T : ℝ) : p.toSI.HdH T = p.HdH T * 4.184 := by
  unfold StandardModels.Mineral.HdH Mineral.HdH
  rw [toSI_Ti, Finset.sum_mul]
  exact Finset.sum_congr rfl fun i _ => getD_scale _ _ _

theorem toSI_Vbase (p : Mineral) (T : ℝ) : p.toSI.Vbase T = p.Vbase T / 1000000 := by
  unfold StandardModels.Mineral.Vbase Mineral.Vbase
  rw [toSI_Ti, add_div, Finset.sum_div]
  congr 1
  exact Finset.sum_congr rfl fun i _ => getD_div _ _ _

theorem toSI_V (p : Mineral) (T P : ℝ) : p.toSI.V T P = p.V T (P * 1.0e-5) / 1000000 := by
  unfold StandardModels.Mineral.V Mineral.V
  rw [toSI_Vbase, sub_div, Finset.sum_div, toSI_Ptr, List.length_map]
  congr 1
  refine Finset.sum_congr rfl fun j _ => ?_
  by_cases h : p.crossed T (P * 1.0e-5) j
  · rw [if_pos h, if_pos ((toSI_crossed p T P j).2 h)]; exact getD_div _ _ _
  · rw [if_neg h, if_neg fun h' => h ((toSI_crossed p T P j).1 h')]; simp

/-- The integral of the volume over the pressure is that in SI units times 1.00003825792. -/
theorem toSI_VdP (p : Mineral) (T P : ℝ) :
    p.VdP T (P * 1.0e-5) * 4.184 = p.toSI.VdP T P * (0.023901488 * 41.84) := by
  unfold StandardModels.Mineral.VdP Mineral.VdP
  rw [toSI_Vbase, toSI_Ptr, List.length_map, sub_mul, sub_mul, Finset.sum_mul, Finset.sum_mul]
  congr 1
  · simp only [StandardModels.Pr, Pr]; norm_num; ring
  refine Finset.sum_congr rfl fun j _ => ?_
  by_cases h : p.crossed T (P * 1.0e-5) j
  · rw [if_pos h, if_pos ((toSI_crossed p T P j).2 h), getD_scale]
    have hv : p.toSI.Vtr.getD j 0 = p.Vtr.getD j 0 / 1000000 := getD_div _ _ _
    rw [hv]; norm_num; ring
  · rw [if_neg h, if_neg fun h' => h ((toSI_crossed p T P j).1 h')]; simp

theorem toSI_InRange (p : Mineral) (T P : ℝ) : p.toSI.InRange T P ↔ p.InRange T (P * 1.0e-5) := by
  have hl : (p.Ti T).length = (p.toSI.passed T).length + 2 := by
    rw [← toSI_Ti]; simp [StandardModels.Mineral.Ti]
  unfold StandardModels.Mineral.InRange Mineral.InRange
  rw [hl, toSI_Ptr, List.length_map]
  simp only [toSI_crossed]
  simp [Mineral.toSI]

/-- C81, minerals: between zero and the maximum temperature the computation reads past the end of the tables exactly
when the mineral model in SI units does; otherwise the volume and the heat capacities are those of that model, and the
Gibbs energy and enthalpy are those of that model with the integral of the volume over the pressure multiplied by
`0.023901488 * 41.84 = 1.0000382…`. -/
theorem C81_mineral (water : ℝ × ℝ → Res ThermoState) (p : Mineral) (T P : ℝ) (hT : 0 < T) (hm : T ≤ p.Tmax) :
    (StandardModels.mineral p.toSI T P = .ub ∧ props water (.mineral p) T P = .ub) ∨
    ∃ x y, props water (.mineral p) T P = .ok x ∧ StandardModels.mineral p.toSI T P = .ok y ∧
      x.V0 = y.V0 ∧ x.Cp0 = y.Cp0 ∧ x.Cv0 = y.Cv0 ∧
      x.G0 = y.G0 + (0.023901488 * 41.84 - 1) * p.toSI.VdP T P ∧
      x.H0 = y.H0 + (0.023901488 * 41.84 - 1) * p.toSI.VdP T P := by
  have h : ¬ (T ≤ 0 ∨ T > p.Tmax) := by rintro (h | h) <;> linarith
  by_cases hr : p.InRange T (P * 1.0e-5)
  · refine Or.inr ⟨convert (mineralState p T P), _, ?_, if_pos ((toSI_InRange p T P).2 hr), ?_, ?_, ?_, ?_, ?_⟩
    · simp only [props, mineralProps, checkTemperature, if_neg h, Res.bind_ok', if_pos hr]
    · simp only [convert, mineralState, toSI_V, cm3]; norm_num; ring
    · simp only [convert, mineralState, toSI_Cp, cal]
    · simp only [convert, mineralState, toSI_Cp, cal]
    · have h1 : p.toSI.Gf = p.Gf * cal := rfl
      have h2 : p.toSI.Sr = p.Sr * cal := rfl
      have h3 : StandardModels.Tr = Tr := rfl
      have := toSI_VdP p T P
      simp only [convert, mineralState, toSI_CpdT, toSI_CpdlnT, toSI_GdH, h1, h2, h3, cal]
      linear_combination this
    · have h1 : p.toSI.Hf = p.Hf * cal := rfl
      have := toSI_VdP p T P
      simp only [convert, mineralState, toSI_CpdT, toSI_HdH, h1, cal]
      linear_combination this
  · refine Or.inl ⟨if_neg fun h' => hr ((toSI_InRange p T P).1 h'), ?_⟩
    simp only [props, mineralProps, checkTemperature, if_neg h, Res.bind_ok', if_neg hr, Res.bind_ub']

/-- C81, minerals: at a pressure that is no phase boundary the Gibbs energy has the pressure derivative
`1.0000382… V0`, so the volume is its pressure derivative only when it is zero. -/
theorem C81_mineral_volume_wrong (water : ℝ × ℝ → Res ThermoState) (p : Mineral) (T P : ℝ) (hT : 0 < T) (hm : T ≤ p.Tmax)
    (hwf : p.toSI.WellFormed) (hoff : ∀ j < (p.toSI.Ptr T).length, (p.toSI.Ptr T).getD j 0 ≠ P) :
    ∃ x, props water (.mineral p) T P = .ok x ∧
      StandardModels.DerP (props water (.mineral p)) StandardModels.Props.G0 (0.023901488 * 41.84 * x.V0) T P ∧
      (StandardModels.Volume (props water (.mineral p)) T P ↔ x.V0 = 0) := by
  have hr : ∀ q, p.InRange T (q * 1.0e-5) := fun q => (toSI_InRange p T q).1 (StandardModels.inRange_of_wellFormed hwf T q)
  have h : ¬ (T ≤ 0 ∨ T > p.Tmax) := by rintro (h | h) <;> linarith
  have hall : ∀ q, props water (.mineral p) T q = .ok (convert (mineralState p T q)) := fun q => by
    simp only [props, mineralProps, checkTemperature, if_neg h, Res.bind_ok', if_pos (hr q)]
  have hder : HasDerivAt (fun q => p.toSI.VdP T q) (p.toSI.V T P) P := by
    obtain ⟨y, hy, g, hg, hd⟩ := StandardModels.C53_mineral_volume p.toSI T P hwf hoff
    have hs : ∀ q, StandardModels.mineral p.toSI T q = .ok _ := fun q =>
      if_pos (StandardModels.inRange_of_wellFormed hwf T q)
    have hyV : y.V0 = p.toSI.V T P := by
      have := hs P; rw [hy] at this; cases this; rfl
    rw [hyV] at hd
    have := (hd.add_const (-(p.toSI.Gf - p.toSI.Sr * (T - StandardModels.Tr) + p.toSI.CpdT T
      - T * p.toSI.CpdlnT T - p.toSI.GdH T)))
    refine this.congr_of_eventuallyEq ?_
    filter_upwards [hg] with q hq
    have h2 := hs q
    rw [hq] at h2
    injection h2 with h2
    rw [h2]
    ring
  have hG : HasDerivAt (fun q => (convert (mineralState p T q)).G0)
      (0.023901488 * 41.84 * (convert (mineralState p T P)).V0) P := by
    have hV : (convert (mineralState p T P)).V0 = p.toSI.V T P := by
      simp only [convert, mineralState, toSI_V, cm3]; norm_num; ring
    rw [hV]
    have e : (fun q => (convert (mineralState p T q)).G0) = fun q =>
        (p.Gf * cal + cal * (p.CpdT T - T * p.CpdlnT T - p.GdH T - p.Sr * (T - Tr)))
          + p.toSI.VdP T q * (0.023901488 * 41.84) := by
      funext q
      have := toSI_VdP p T q
      simp only [convert, mineralState, cal]
      linear_combination this
    rw [e]
    exact ((hder.mul_const _).const_add _).congr_deriv (mul_comm _ _)
  refine ⟨_, hall P, ⟨_, Filter.Eventually.of_forall hall, hG⟩, ?_⟩
  constructor
  · rintro ⟨x, hx, g, hg, hd⟩
    rw [hall] at hx; cases hx
    have hd' : HasDerivAt (fun q => (convert (mineralState p T q)).G0) _ P :=
      hd.congr_of_eventuallyEq (by
        filter_upwards [hg] with q hq
        rw [hall] at hq; injection hq with hq; rw [hq])
    have := hG.unique hd'
    have h3 : (0.023901488 * 41.84 - 1) * (convert (mineralState p T P)).V0 = 0 := by linarith
    rcases mul_eq_zero.1 h3 with h4 | h4
    · norm_num at h4
    · exact h4
  · intro h0
    refine ⟨_, hall P, _, Filter.Eventually.of_forall hall, ?_⟩
    rw [h0, mul_zero] at hG
    rw [h0]; exact hG

/-- Calcite without transitions, with the parameters of slop98. -/
noncomputable def calcite : Mineral :=
  { name := c!"Calcite", Gf := -269880, Hf := -288552, Sr := 22.15, Vr := 36.934, nptrans := 0, a := [24.98],
    b := [0.00524], c := [-620000], Ttr := [], Htr := [], Vtr := [], dPdTtr := [], Tmax := 1200 }

/-- Calcite at 350 K and 1000 bar meets the hypotheses of `C81_mineral` and of `C81_mineral_volume_wrong`, and its
volume is not zero. -/
example : (0 : ℝ) < 350 ∧ 350 ≤ calcite.Tmax ∧ calcite.toSI.WellFormed ∧
    (∀ j < (calcite.toSI.Ptr 350).length, (calcite.toSI.Ptr 350).getD j 0 ≠ 1.0e+8) ∧
    (convert (mineralState calcite 350 1.0e+8)).V0 ≠ 0 := by
  refine ⟨by norm_num, by norm_num [calcite], by simp [StandardModels.Mineral.WellFormed, Mineral.toSI, calcite], ?_, ?_⟩
  · intro j hj
    simp [StandardModels.Mineral.Ptr, StandardModels.Mineral.sloped, Mineral.toSI, calcite] at hj
  · simp [convert, mineralState, Mineral.V, Mineral.Vbase, Mineral.Pt, Mineral.Ti, calcite, cm3]
    norm_num

end Verif.Supcrt
