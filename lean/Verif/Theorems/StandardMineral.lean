import Verif.Theorems.StandardModels
import Mathlib.Data.List.GetD
import Mathlib.Topology.Order.Basic
import Mathlib.Topology.Algebra.Monoid
import Mathlib.Analysis.SpecialFunctions.Log.Basic

/-!
# C53: minerals with phase transitions
-/

namespace Verif.StandardModels

open Filter Topology Real

/-- The vectors of parameters have one entry for every transition, and the coefficients of the heat
capacity one more. -/
def Mineral.WellFormed (p : Mineral) : Prop :=
  p.ntr ≤ p.Ttr.length ∧ p.ntr ≤ p.Htr.length ∧ p.ntr ≤ p.Vtr.length ∧ p.ntr ≤ p.dPdTtr.length ∧
  p.ntr + 1 ≤ p.a.length ∧ p.ntr + 1 ≤ p.b.length ∧ p.ntr + 1 ≤ p.c.length

/-- The heat of the pressure-induced transitions that the enthalpy does not account for: the sum of
volume change times Clapeyron slope over the boundaries crossed. -/
noncomputable def Mineral.clapeyron (p : Mineral) (T P : ℝ) : ℝ := by
  classical exact ∑ j ∈ Finset.range p.sloped.length,
    if p.crossed T P j then p.Vtr.getD j 0 * p.dPdTtr.getD (p.sloped.getD j 0) 0 else 0

/-- The state is not on a boundary of the diagram : the temperature is not a transition temperature
and no transition boundary is at pressure zero or at the pressure of the state. -/
def Mineral.OffBoundary (p : Mineral) (T P : ℝ) : Prop :=
  T ∉ p.Ttr.take p.ntr ∧ ∀ j < (p.Ptr T).length, (p.Ptr T).getD j 0 ≠ 0 ∧ (p.Ptr T).getD j 0 ≠ P

/-! ### The integration points -/

theorem passed_length_le (p : Mineral) (T : ℝ) : (p.passed T).length ≤ p.ntr :=
  (List.length_filter_le _ _).trans (by simp)

theorem Ptr_length (p : Mineral) (T : ℝ) : (p.Ptr T).length = p.sloped.length := by
  simp [Mineral.Ptr]

theorem sloped_length_le (p : Mineral) : p.sloped.length ≤ p.ntr :=
  (List.length_filter_le _ _).trans (by simp)

theorem inRange_of_wellFormed {p : Mineral} (h : p.WellFormed) (T P : ℝ) : p.InRange T P := by
  obtain ⟨h1, h2, h3, h4, h5, h6, h7⟩ := h
  have hl := passed_length_le p T
  have hs := sloped_length_le p
  refine ⟨h1, h4, by omega, by omega, by omega, by omega, by omega, fun j hj _ => ?_⟩
  rw [Ptr_length] at hj
  omega

theorem Ti_length (p : Mineral) (T : ℝ) : (p.Ti T).length = (p.passed T).length + 2 := by
  simp [Mineral.Ti]

theorem Ti_getD_lt (p : Mineral) (T : ℝ) {i : ℕ} (h : i ≤ (p.passed T).length) :
    (p.Ti T).getD i 0 = (Tr :: p.passed T).getD i 0 := by
  unfold Mineral.Ti
  rw [List.getD_append _ _ _ _ (by simp; omega)]

theorem Ti_getD_last (p : Mineral) (T : ℝ) :
    (p.Ti T).getD ((p.passed T).length + 1) 0 = T := by
  unfold Mineral.Ti
  rw [List.getD_append_right _ _ _ _ (by simp)]
  simp

/-- A sum over the intervals splits into the intervals between points already passed, and the last
one, which ends at the temperature of the state. -/
theorem Ti_sum (p : Mineral) (f : ℕ → ℝ → ℝ → ℝ) (T : ℝ) :
    ∑ i ∈ Finset.range ((p.Ti T).length - 1), f i ((p.Ti T).getD i 0) ((p.Ti T).getD (i + 1) 0)
      = ∑ i ∈ Finset.range (p.passed T).length,
          f i ((Tr :: p.passed T).getD i 0) ((Tr :: p.passed T).getD (i + 1) 0)
        + f (p.passed T).length ((Tr :: p.passed T).getD (p.passed T).length 0) T := by
  rw [Ti_length, Nat.add_sub_assoc (by omega), Finset.sum_range_succ, Ti_getD_last,
    Ti_getD_lt p T le_rfl]
  congr 1
  refine Finset.sum_congr rfl fun i hi => ?_
  have hi := Finset.mem_range.1 hi
  rw [Ti_getD_lt p T (by omega), Ti_getD_lt p T (by omega)]

theorem Ti_inner (p : Mineral) (f : ℕ → ℝ → ℝ) (T : ℝ) :
    ∑ i ∈ Finset.range ((p.Ti T).length - 2), f i ((p.Ti T).getD (i + 1) 0)
      = ∑ i ∈ Finset.range (p.passed T).length, f i ((p.passed T).getD i 0) := by
  rw [Ti_length, Nat.add_sub_cancel]
  refine Finset.sum_congr rfl fun i hi => ?_
  have hi := Finset.mem_range.1 hi
  rw [Ti_getD_lt p T (by omega)]
  simp

theorem passed_locally (l : List ℝ) {T : ℝ} (h : T ∉ l) :
    ∀ᶠ t in 𝓝 T, l.filter (fun x => decide (x < t)) = l.filter (fun x => decide (x < T)) := by
  induction l with
  | nil => exact Eventually.of_forall fun _ => rfl
  | cons x l ih =>
    have hx : T ≠ x := fun e => h (e ▸ List.mem_cons_self ..)
    have hev : ∀ᶠ t in 𝓝 T, (x < t ↔ x < T) := by
      rcases lt_or_gt_of_ne hx with hlt | hgt
      · filter_upwards [eventually_lt_nhds hlt] with t ht
        exact ⟨fun e => absurd e ht.not_gt, fun e => absurd e hlt.not_gt⟩
      · filter_upwards [eventually_gt_nhds hgt] with t ht
        exact ⟨fun _ => hgt, fun _ => ht⟩
    filter_upwards [hev, ih fun e => h (List.mem_cons_of_mem _ e)] with t h1 h2
    by_cases hxT : x < T
    · rw [List.filter_cons_of_pos (by simpa using h1.2 hxT), List.filter_cons_of_pos (by simpa using hxT), h2]
    · rw [List.filter_cons_of_neg (by simpa using fun e => hxT (h1.1 e)),
        List.filter_cons_of_neg (by simpa using hxT), h2]

/-- The last integration point before the temperature of the state is positive. -/
theorem last_pos (p : Mineral) (T : ℝ) (hpos : ∀ x ∈ p.Ttr.take p.ntr, 0 < x) :
    0 < (Tr :: p.passed T).getD (p.passed T).length 0 := by
  have hmem : (Tr :: p.passed T).getD (p.passed T).length 0 ∈ (Tr :: p.passed T) := by
    rw [List.getD_eq_getElem _ _ (by simp)]
    exact List.getElem_mem _
  rcases List.mem_cons.1 hmem with h | h
  · rw [h]; exact Tr_pos
  · exact hpos _ (List.mem_of_mem_filter h)

/-- The last integration point is not above the temperature of the state, if the state is not below
the reference temperature or some transition has been passed. -/
theorem last_le (p : Mineral) (T : ℝ) (h : Tr ≤ T ∨ p.passed T ≠ []) :
    (Tr :: p.passed T).getD (p.passed T).length 0 ≤ T := by
  by_cases hp : p.passed T = []
  · rw [hp]; simpa using h.resolve_right (fun e => e hp)
  · obtain ⟨l, x, hlx⟩ : ∃ l x, p.passed T = l ++ [x] :=
      ⟨_, _, (List.dropLast_append_getLast hp).symm⟩
    have hx : x ∈ p.passed T := by rw [hlx]; simp
    have : x < T := by
      have := (List.mem_filter.1 hx).2
      simpa using this
    rw [hlx]
    simp only [List.length_append, List.length_singleton]
    rw [show (Tr :: (l ++ [x])).getD (l.length + 1) 0 = (l ++ [x]).getD l.length 0 from rfl]
    simp [this.le]

theorem Cp_eq (p : Mineral) (T : ℝ) (h : Tr ≤ T ∨ p.passed T ≠ []) :
    p.Cp T = p.a.getD (p.passed T).length 0 + p.b.getD (p.passed T).length 0 * T
      + p.c.getD (p.passed T).length 0 / (T * T) := by
  unfold Mineral.Cp
  rw [Ti_length, show (p.passed T).length + 2 - 1 = (p.passed T).length + 1 by omega, List.range_succ,
    List.foldl_append]
  simp only [List.foldl_cons, List.foldl_nil]
  rw [if_pos]
  rw [Ti_getD_last, Ti_getD_lt p T le_rfl]
  exact ⟨last_le p T h, le_rfl⟩

/-! ### Temperature derivatives -/

section
variable (p : Mineral) {T : ℝ} (hT : 0 < T) (hpos : ∀ x ∈ p.Ttr.take p.ntr, 0 < x)
  (hoff : T ∉ p.Ttr.take p.ntr)
include hT hpos hoff

theorem deriv_CpdT (hT : 0 < T) :
    HasDerivAt p.CpdT (p.a.getD (p.passed T).length 0 + p.b.getD (p.passed T).length 0 * T
      + p.c.getD (p.passed T).length 0 / (T * T)) T := by
  have hd := deriv_cpT (p.a.getD (p.passed T).length 0) (p.b.getD (p.passed T).length 0)
    (p.c.getD (p.passed T).length 0) ((Tr :: p.passed T).getD (p.passed T).length 0) hT
  refine (hd.const_add (∑ i ∈ Finset.range (p.passed T).length,
    p.cpT i ((Tr :: p.passed T).getD i 0) ((Tr :: p.passed T).getD (i + 1) 0))).congr_of_eventuallyEq ?_
  filter_upwards [passed_locally _ hoff] with t ht
  have ht : p.passed t = p.passed T := ht
  unfold Mineral.CpdT
  rw [Ti_sum, ht]
  rfl

theorem deriv_CpdlnT :
    HasDerivAt p.CpdlnT ((p.a.getD (p.passed T).length 0 + p.b.getD (p.passed T).length 0 * T
      + p.c.getD (p.passed T).length 0 / (T * T)) / T) T := by
  have hd := deriv_cplnT (p.a.getD (p.passed T).length 0) (p.b.getD (p.passed T).length 0)
    (p.c.getD (p.passed T).length 0) (last_pos p T hpos).ne' hT
  refine (hd.const_add (∑ i ∈ Finset.range (p.passed T).length,
    p.cplnT i ((Tr :: p.passed T).getD i 0) ((Tr :: p.passed T).getD (i + 1) 0))).congr_of_eventuallyEq ?_
  filter_upwards [passed_locally _ hoff] with t ht
  have ht : p.passed t = p.passed T := ht
  unfold Mineral.CpdlnT
  rw [Ti_sum, ht]
  rfl

end

theorem HdH_eq (p : Mineral) (T : ℝ) :
    p.HdH T = ∑ i ∈ Finset.range (p.passed T).length, p.Htr.getD i 0 :=
  Ti_inner p (fun i _ => p.Htr.getD i 0) T
theorem SdH_eq (p : Mineral) (T : ℝ) :
    p.SdH T = ∑ i ∈ Finset.range (p.passed T).length, p.Htr.getD i 0 / (p.passed T).getD i 0 :=
  Ti_inner p (fun i x => p.Htr.getD i 0 / x) T
theorem GdH_eq (p : Mineral) (T : ℝ) :
    p.GdH T = ∑ i ∈ Finset.range (p.passed T).length,
      p.Htr.getD i 0 * (T - (p.passed T).getD i 0) / (p.passed T).getD i 0 :=
  Ti_inner p (fun i x => p.Htr.getD i 0 * (T - x) / x) T
theorem Vbase_eq (p : Mineral) (T : ℝ) :
    p.Vbase T = p.Vr + ∑ i ∈ Finset.range (p.passed T).length, p.Vtr.getD i 0 := by
  unfold Mineral.Vbase
  rw [Ti_inner p (fun i _ => p.Vtr.getD i 0) T]

theorem deriv_GdH (p : Mineral) {T : ℝ} (hoff : T ∉ p.Ttr.take p.ntr) :
    HasDerivAt p.GdH (p.SdH T) T := by
  have hd : HasDerivAt (fun t => ∑ i ∈ Finset.range (p.passed T).length,
      p.Htr.getD i 0 * (t - (p.passed T).getD i 0) / (p.passed T).getD i 0)
      (∑ i ∈ Finset.range (p.passed T).length, p.Htr.getD i 0 / (p.passed T).getD i 0) T := by
    refine HasDerivAt.fun_sum fun i _ => ?_
    simpa using ((((hasDerivAt_id' T).sub_const ((p.passed T).getD i 0)).const_mul (p.Htr.getD i 0)).div_const
      ((p.passed T).getD i 0))
  rw [SdH_eq]
  refine hd.congr_of_eventuallyEq ?_
  filter_upwards [passed_locally _ hoff] with t ht
  have ht : p.passed t = p.passed T := ht
  rw [GdH_eq, ht]

theorem Ptr_getD (p : Mineral) (T : ℝ) {j : ℕ} (h : j < p.sloped.length) :
    (p.Ptr T).getD j 0 = Pr + p.dPdTtr.getD (p.sloped.getD j 0) 0 * (T - p.Ttr.getD (p.sloped.getD j 0) 0) := by
  unfold Mineral.Ptr
  rw [List.getD_eq_getElem _ _ (by simpa using h), List.getElem_map, List.getD_eq_getElem _ _ h]

theorem deriv_Ptr (p : Mineral) (T : ℝ) {j : ℕ} (h : j < p.sloped.length) :
    HasDerivAt (fun t => (p.Ptr t).getD j 0) (p.dPdTtr.getD (p.sloped.getD j 0) 0) T := by
  have : (fun t => (p.Ptr t).getD j 0) = fun t =>
      Pr + p.dPdTtr.getD (p.sloped.getD j 0) 0 * (t - p.Ttr.getD (p.sloped.getD j 0) 0) :=
    funext fun t => Ptr_getD p t h
  rw [this]
  simpa using (((hasDerivAt_id' T).sub_const (p.Ttr.getD (p.sloped.getD j 0) 0)).const_mul
    (p.dPdTtr.getD (p.sloped.getD j 0) 0)).const_add Pr

theorem mineral_VdP_deriv (p : Mineral) {T P : ℝ} (hoff : p.OffBoundary T P) :
    HasDerivAt (fun t => p.VdP t P) (p.clapeyron T P) T := by
  classical
  have hsum : HasDerivAt (fun t => ∑ j ∈ Finset.range p.sloped.length,
      if p.crossed t P j then p.Vtr.getD j 0 * (P - (p.Ptr t).getD j 0) else 0)
      (-(p.clapeyron T P)) T := by
    have : -(p.clapeyron T P) = ∑ j ∈ Finset.range p.sloped.length,
        (if p.crossed T P j then -(p.Vtr.getD j 0 * p.dPdTtr.getD (p.sloped.getD j 0) 0) else 0) := by
      unfold Mineral.clapeyron
      rw [← Finset.sum_neg_distrib]
      refine Finset.sum_congr rfl fun j _ => ?_
      by_cases hc : p.crossed T P j
      · simp [hc]
      · simp [hc]
    rw [this]
    refine HasDerivAt.fun_sum fun j hj => ?_
    have hj := Finset.mem_range.1 hj
    have hd := deriv_Ptr p T hj
    obtain ⟨h0, hP⟩ := hoff.2 j (by rw [Ptr_length]; exact hj)
    have hcont := hd.continuousAt
    by_cases hc : p.crossed T P j
    · rw [if_pos hc]
      have := ((hd.const_sub P).const_mul (p.Vtr.getD j 0))
      refine (this.congr_of_eventuallyEq ?_).congr_deriv (by ring)
      filter_upwards [hcont.eventually (eventually_gt_nhds hc.1), hcont.eventually (eventually_lt_nhds hc.2)] with t h1 h2
      rw [if_pos ⟨h1, h2⟩]
    · rw [if_neg hc]
      refine (hasDerivAt_const T (0 : ℝ)).congr_of_eventuallyEq ?_
      have hc' : (p.Ptr T).getD j 0 < 0 ∨ P < (p.Ptr T).getD j 0 := by
        by_contra hcon
        push Not at hcon
        exact hc ⟨lt_of_le_of_ne hcon.1 (Ne.symm h0), lt_of_le_of_ne hcon.2 hP⟩
      rcases hc' with h | h
      · filter_upwards [hcont.eventually (eventually_lt_nhds h)] with t h1
        rw [if_neg fun e => absurd e.1 (not_lt.2 (le_of_lt h1))]
      · filter_upwards [hcont.eventually (eventually_gt_nhds h)] with t h1
        rw [if_neg fun e => absurd e.2 (not_lt.2 (le_of_lt h1))]
  have hfin := hsum.const_sub (p.Vbase T * (P - Pr))
  rw [neg_neg] at hfin
  refine hfin.congr_of_eventuallyEq ?_
  filter_upwards [passed_locally _ hoff.1] with t ht
  have ht : p.passed t = p.passed T := ht
  unfold Mineral.VdP
  rw [Vbase_eq, Vbase_eq, ht, Ptr_length]

theorem GdH_add_HdH (p : Mineral) {T : ℝ} (hpos : ∀ x ∈ p.Ttr.take p.ntr, 0 < x) :
    p.GdH T + p.HdH T = T * p.SdH T := by
  rw [GdH_eq, HdH_eq, SdH_eq, ← Finset.sum_add_distrib, Finset.mul_sum]
  refine Finset.sum_congr rfl fun i hi => ?_
  have hi := Finset.mem_range.1 hi
  have hmem : (p.passed T).getD i 0 ∈ p.passed T := by
    rw [List.getD_eq_getElem _ _ hi]; exact List.getElem_mem _
  have := (hpos _ (List.mem_of_mem_filter hmem)).ne'
  field_simp
  ring

/-- C53, minerals, temperature: away from the boundaries of the diagram, and if the temperature is
not below the reference temperature or some transition has been passed, the temperature derivatives
of the enthalpy and of the Gibbs energy are those the heat capacity and the entropy ask for, plus
the volume change times the slope of every boundary the pressure has crossed. -/
theorem C53_mineral_exact (p : Mineral) (T P : ℝ) (hwf : p.WellFormed) (hT : 0 < T)
    (hpos : ∀ x ∈ p.Ttr.take p.ntr, 0 < x) (hoff : p.OffBoundary T P)
    (habove : Tr ≤ T ∨ ∃ x ∈ p.Ttr.take p.ntr, x < T) :
    ∃ x, mineral p T P = .ok x ∧
      DerT (mineral p) Props.H0 (x.Cp0 + p.clapeyron T P) T P ∧
      DerT (mineral p) Props.G0
        ((x.G0 - x.H0 - (p.Gf - p.Hf + Tr * p.Sr)) / T + p.clapeyron T P) T P := by
  have hall : ∀ t q, mineral p t q = .ok _ := fun t q => if_pos (inRange_of_wellFormed hwf t q)
  have habove' : Tr ≤ T ∨ p.passed T ≠ [] := by
    rcases habove with h | ⟨x, hx, hlt⟩
    · exact Or.inl h
    · refine Or.inr (List.ne_nil_of_mem (a := x) (List.mem_filter.2 ⟨hx, by simpa using hlt⟩))
  have hI : HasDerivAt p.CpdT (p.Cp T) T := by
    rw [Cp_eq p T habove']; exact deriv_CpdT p hT hpos hoff.1 hT
  have hJ : HasDerivAt p.CpdlnT (p.Cp T / T) T := by
    rw [Cp_eq p T habove']; exact deriv_CpdlnT p hT hpos hoff.1
  have hW := mineral_VdP_deriv p hoff
  have hS := deriv_GdH p hoff.1
  have hHd : HasDerivAt p.HdH 0 T := by
    refine (hasDerivAt_const T (p.HdH T)).congr_of_eventuallyEq ?_
    filter_upwards [passed_locally _ hoff.1] with t ht
    have ht : p.passed t = p.passed T := ht
    rw [HdH_eq, HdH_eq, ht]
  refine ⟨_, hall T P, ⟨_, Eventually.of_forall fun t => hall t P, ?_⟩, ⟨_, Eventually.of_forall fun t => hall t P, ?_⟩⟩
  · exact (((hI.const_add p.Hf).fun_add hW).fun_add hHd).congr_deriv (by simp)
  · refine ((deriv_gibbs p.Gf p.Sr hT hI hJ hW).fun_sub hS).congr_deriv ?_
    have e := GdH_add_HdH p (T := T) hpos
    simp only
    have hT' := hT.ne'
    have e2 : p.SdH T = (p.GdH T + p.HdH T) / T := by rw [e]; field_simp
    rw [e2]
    field_simp
    ring

/-- C53, minerals, volume: at every state that is not exactly on a boundary crossed by the pressure,
the volume is the pressure derivative of the Gibbs energy. -/
theorem C53_mineral_volume (p : Mineral) (T P : ℝ) (hwf : p.WellFormed)
    (hoff : ∀ j < (p.Ptr T).length, (p.Ptr T).getD j 0 ≠ P) : Volume (mineral p) T P := by
  classical
  have hall : ∀ t q, mineral p t q = .ok _ := fun t q => if_pos (inRange_of_wellFormed hwf t q)
  refine ⟨_, hall T P, _, Eventually.of_forall fun q => hall T q, ?_⟩
  suffices h : HasDerivAt (fun q => p.VdP T q) (p.V T P) P from (h.const_add _).sub_const _
  unfold Mineral.VdP Mineral.V
  refine HasDerivAt.fun_sub ?_ (HasDerivAt.fun_sum fun j hj => ?_)
  · simpa using ((hasDerivAt_id' P).sub_const Pr).const_mul (p.Vbase T)
  · have hne := hoff j (Finset.mem_range.1 hj)
    by_cases hc : p.crossed T P j
    · rw [if_pos hc]
      have : HasDerivAt (fun q => p.Vtr.getD j 0 * (q - (p.Ptr T).getD j 0)) (p.Vtr.getD j 0) P := by
        simpa using ((hasDerivAt_id' P).sub_const ((p.Ptr T).getD j 0)).const_mul (p.Vtr.getD j 0)
      refine this.congr_of_eventuallyEq ?_
      filter_upwards [eventually_gt_nhds hc.2] with q hq
      rw [if_pos ⟨hc.1, hq⟩]
    · rw [if_neg hc]
      refine (hasDerivAt_const P (0 : ℝ)).congr_of_eventuallyEq ?_
      by_cases h0 : 0 < (p.Ptr T).getD j 0
      · have hlt : P < (p.Ptr T).getD j 0 := by
          by_contra hcon
          exact hc ⟨h0, lt_of_le_of_ne (not_lt.1 hcon) hne⟩
        filter_upwards [eventually_lt_nhds hlt] with q hq
        rw [if_neg fun e => absurd e.2 (not_lt.2 hq.le)]
      · exact Eventually.of_forall fun q => if_neg fun e => h0 e.1

/-- C53, minerals: away from the boundaries of the diagram, if the temperature is not below the
reference temperature (or some transition has been passed) and the pressure has crossed no boundary,
all three relations hold.  Missing from the full property: temperatures below the reference
temperature (`C53_mineral_cold_wrong`) and states behind a crossed boundary
(`C53_mineral_crossed_wrong`). -/
theorem C53_mineral_partial (p : Mineral) (T P : ℝ) (hwf : p.WellFormed) (hT : 0 < T)
    (hpos : ∀ x ∈ p.Ttr.take p.ntr, 0 < x) (hoff : p.OffBoundary T P)
    (habove : Tr ≤ T ∨ ∃ x ∈ p.Ttr.take p.ntr, x < T)
    (hnone : ∀ j < (p.Ptr T).length, ¬ p.crossed T P j) :
    HeatCapacity (mineral p) T P ∧ Volume (mineral p) T P ∧
    GibbsHelmholtz (mineral p) (p.Gf - p.Hf + Tr * p.Sr) T P := by
  classical
  have hcl : p.clapeyron T P = 0 := by
    unfold Mineral.clapeyron
    refine Finset.sum_eq_zero fun j hj => ?_
    exact if_neg (hnone j (by rw [Ptr_length]; exact Finset.mem_range.1 hj))
  obtain ⟨x, hx, hH, hG⟩ := C53_mineral_exact p T P hwf hT hpos hoff habove
  rw [hcl, add_zero] at hH hG
  refine ⟨⟨x, hx, hH⟩, C53_mineral_volume p T P hwf fun j hj => (hoff.2 j hj).2,
    ⟨x, -((x.G0 - x.H0 - (p.Gf - p.Hf + Tr * p.Sr)) / T), hx, ?_, ?_⟩⟩
  · rw [neg_neg]; exact hG
  · have := hT.ne'
    field_simp
    ring

/-- C53, minerals: behind a boundary crossed by the pressure, where the volume changes and slopes do
not cancel, neither the heat capacity relation nor `G = H - T S + K` holds. -/
theorem C53_mineral_crossed_wrong (p : Mineral) (T P : ℝ) (hwf : p.WellFormed) (hT : 0 < T)
    (hpos : ∀ x ∈ p.Ttr.take p.ntr, 0 < x) (hoff : p.OffBoundary T P)
    (habove : Tr ≤ T ∨ ∃ x ∈ p.Ttr.take p.ntr, x < T) (hcl : p.clapeyron T P ≠ 0) :
    ¬ HeatCapacity (mineral p) T P ∧
    ¬ GibbsHelmholtz (mineral p) (p.Gf - p.Hf + Tr * p.Sr) T P := by
  obtain ⟨x, hx, hH, hG⟩ := C53_mineral_exact p T P hwf hT hpos hoff habove
  constructor
  · rintro ⟨y, hy, h⟩
    rw [hx] at hy; cases hy
    have := DerT.unique h hH
    exact hcl (by linarith)
  · rintro ⟨y, S, hy, h, e⟩
    rw [hx] at hy; cases hy
    have h2 := DerT.unique h hG
    have : -S = (x.G0 - x.H0 - (p.Gf - p.Hf + Tr * p.Sr)) / T := by
      rw [eq_div_iff hT.ne']; linarith
    exact hcl (by linarith)

/-- C53, minerals: below the reference temperature, with no transition passed, the reported heat
capacity is zero whatever the coefficients, although the enthalpy follows them. -/
theorem C53_mineral_cold (p : Mineral) (T P : ℝ) (hwf : p.WellFormed) (hT : 0 < T) (hcold : T < Tr)
    (hpos : ∀ x ∈ p.Ttr.take p.ntr, T < x) (hflat : p.sloped = []) :
    ∃ x, mineral p T P = .ok x ∧ x.Cp0 = 0 ∧
      DerT (mineral p) Props.H0 (p.a.getD 0 0 + p.b.getD 0 0 * T + p.c.getD 0 0 / (T * T)) T P := by
  have hall : ∀ t q, mineral p t q = .ok _ := fun t q => if_pos (inRange_of_wellFormed hwf t q)
  have hp : p.passed T = [] := by
    unfold Mineral.passed
    rw [List.filter_eq_nil_iff]
    intro x hx
    simpa using (hpos x hx).le
  have hoff : T ∉ p.Ttr.take p.ntr := fun h => lt_irrefl _ (hpos T h)
  have hoff2 : p.OffBoundary T P := ⟨hoff, fun j hj => by rw [Ptr_length, hflat] at hj; simp at hj⟩
  have hI := deriv_CpdT p hT (fun x hx => hT.trans (hpos x hx)) hoff hT
  rw [hp] at hI
  have hW := mineral_VdP_deriv p hoff2
  have hcl : p.clapeyron T P = 0 := by simp [Mineral.clapeyron, hflat]
  have hHd : HasDerivAt p.HdH 0 T := by
    refine (hasDerivAt_const T (p.HdH T)).congr_of_eventuallyEq ?_
    filter_upwards [passed_locally _ hoff] with t ht
    have ht : p.passed t = p.passed T := ht
    rw [HdH_eq, HdH_eq, ht]
  refine ⟨_, hall T P, ?_, ⟨_, Eventually.of_forall fun t => hall t P, ?_⟩⟩
  · show p.Cp T = 0
    unfold Mineral.Cp
    have h1 : (p.Ti T).getD 0 0 = Tr := by simp [Mineral.Ti]
    rw [Ti_length, hp]
    simp only [List.length_nil, zero_add, Nat.add_one_sub_one, List.range_one, List.foldl_cons, List.foldl_nil]
    rw [if_neg]
    rw [h1]
    exact fun e => absurd e.1 (not_le.2 hcold)
  · exact (((hI.const_add p.Hf).fun_add hW).fun_add hHd).congr_deriv (by simp [hcl])

/-- A mineral with a constant heat capacity of 100 J/(mol·K) and no transition. -/
def plainMineral : Mineral :=
  { Gf := 0, Hf := 0, Sr := 0, Vr := 0, ntr := 0, a := [100], b := [0], c := [0], Ttr := [], Htr := [], Vtr := [], dPdTtr := [] }

theorem plain_wellFormed : plainMineral.WellFormed := by
  simp [Mineral.WellFormed, plainMineral]

/-- C53, minerals: there is a mineral whose reported heat capacity at 20 °C and 1 bar is not the
temperature derivative of its enthalpy. -/
theorem C53_mineral_cold_wrong : ¬ HeatCapacity (mineral plainMineral) 293.15 100000 := by
  obtain ⟨x, hx, h0, hH⟩ := C53_mineral_cold plainMineral 293.15 100000 plain_wellFormed (by norm_num)
    (by norm_num [Tr]) (by simp [plainMineral]) (by simp [Mineral.sloped, plainMineral])
  rintro ⟨y, hy, h⟩
  rw [hx] at hy; cases hy
  have := DerT.unique h hH
  rw [h0] at this
  norm_num [plainMineral] at this

/-- Above the reference temperature the hypotheses of `C53_mineral_partial` are met by the same
mineral. -/
example : HeatCapacity (mineral plainMineral) 300 200000 ∧ Volume (mineral plainMineral) 300 200000 ∧
    GibbsHelmholtz (mineral plainMineral) (0 - 0 + Tr * 0) 300 200000 :=
  C53_mineral_partial plainMineral 300 200000 plain_wellFormed (by norm_num) (by simp [plainMineral])
    ⟨by simp [plainMineral], by simp [Mineral.Ptr, Mineral.sloped, plainMineral]⟩
    (Or.inl (by norm_num [Tr])) (by simp [Mineral.Ptr, Mineral.sloped, plainMineral])

/-! ### Crossing a transition temperature -/

/-- The Gibbs energy the mineral model returns at a state. -/
noncomputable def Mineral.G (p : Mineral) (T P : ℝ) : ℝ :=
  p.Gf - p.Sr * (T - Tr) + p.CpdT T - T * p.CpdlnT T + p.VdP T P - p.GdH T

section
variable {p : Mineral} {s : ℝ} {l1 l2 : List ℝ}
  (hsplit : p.Ttr.take p.ntr = l1 ++ s :: l2) (h1 : ∀ x ∈ l1, x < s) (h2 : ∀ x ∈ l2, s < x)
include hsplit h1 h2

theorem passed_before : ∀ᶠ t in 𝓝[≤] s, p.passed t = l1 := by
  have hne : s ∉ l1 := fun h => lt_irrefl _ (h1 s h)
  have hl := passed_locally l1 hne
  filter_upwards [nhdsWithin_le_nhds hl, self_mem_nhdsWithin] with t ht hts
  have hts : t ≤ s := hts
  unfold Mineral.passed
  rw [hsplit, List.filter_append, ht, List.filter_eq_self.2 (fun x hx => by simpa using h1 x hx)]
  rw [List.filter_eq_nil_iff.2, List.append_nil]
  intro x hx
  rcases List.mem_cons.1 hx with rfl | hx
  · simpa using hts
  · simpa using hts.trans (h2 x hx).le

theorem passed_after : ∀ᶠ t in 𝓝[>] s, p.passed t = l1 ++ [s] := by
  have hne : s ∉ l1 := fun h => lt_irrefl _ (h1 s h)
  have hne2 : s ∉ l2 := fun h => lt_irrefl _ (h2 s h)
  filter_upwards [nhdsWithin_le_nhds (passed_locally l1 hne), nhdsWithin_le_nhds (passed_locally l2 hne2),
    self_mem_nhdsWithin] with t ht1 ht2 hts
  have hts : s < t := hts
  unfold Mineral.passed
  rw [hsplit, List.filter_append, ht1, List.filter_eq_self.2 (fun x hx => by simpa using h1 x hx),
    List.filter_cons_of_pos (by simpa using hts), ht2,
    List.filter_eq_nil_iff.2 (fun x hx => by simpa using (h2 x hx).le)]

end

/-- The part of the volume integral due to the boundaries crossed by the pressure. -/
noncomputable def Mineral.crossing (p : Mineral) (T P : ℝ) : ℝ := by
  classical exact ∑ j ∈ Finset.range p.sloped.length,
    if p.crossed T P j then p.Vtr.getD j 0 * (P - (p.Ptr T).getD j 0) else 0

theorem crossing_continuous (p : Mineral) (s P : ℝ) (hoff : ∀ j < (p.Ptr s).length, (p.Ptr s).getD j 0 ≠ 0) :
    ContinuousAt (fun t => p.crossing t P) s := by
  classical
  unfold Mineral.crossing
  refine tendsto_finsetSum _ fun j hj => ?_
  have hj := Finset.mem_range.1 hj
  have hc := (deriv_Ptr p s hj).continuousAt
  rcases lt_or_gt_of_ne (hoff j (by rw [Ptr_length]; exact hj)) with h | h
  · have hev : ∀ᶠ t in 𝓝 s, (if p.crossed t P j then p.Vtr.getD j 0 * (P - (p.Ptr t).getD j 0) else 0) = 0 := by
      filter_upwards [hc.eventually (eventually_lt_nhds h)] with t ht
      exact if_neg fun e => absurd e.1 (not_lt.2 (le_of_lt ht))
    rw [hev.self_of_nhds]
    exact tendsto_const_nhds.congr' (hev.mono fun t ht => ht.symm)
  · have hev : ∀ᶠ t in 𝓝 s, (if p.crossed t P j then p.Vtr.getD j 0 * (P - (p.Ptr t).getD j 0) else 0)
        = p.Vtr.getD j 0 * max (P - (p.Ptr t).getD j 0) 0 := by
      filter_upwards [hc.eventually (eventually_gt_nhds h)] with t ht
      by_cases hlt : (p.Ptr t).getD j 0 < P
      · rw [if_pos ⟨ht, hlt⟩, max_eq_left (by linarith)]
      · rw [if_neg (fun e => hlt e.2), max_eq_right (by linarith [not_lt.1 hlt]), mul_zero]
    rw [hev.self_of_nhds]
    refine Tendsto.congr' (hev.mono fun t ht => ht.symm) ?_
    exact tendsto_const_nhds.mul (((tendsto_const_nhds.sub hc).max tendsto_const_nhds))

theorem VdP_eq (p : Mineral) (T P : ℝ) : p.VdP T P = p.Vbase T * (P - Pr) - p.crossing T P := by
  unfold Mineral.VdP Mineral.crossing
  rw [Ptr_length]

/-- The Gibbs energy as a function of the temperature when the points passed are those of `l`. -/
noncomputable def Mineral.branch (p : Mineral) (l : List ℝ) (P t : ℝ) : ℝ :=
  p.Gf - p.Sr * (t - Tr)
    + (∑ i ∈ Finset.range l.length, p.cpT i ((Tr :: l).getD i 0) ((Tr :: l).getD (i + 1) 0)
      + p.cpT l.length ((Tr :: l).getD l.length 0) t)
    - t * (∑ i ∈ Finset.range l.length, p.cplnT i ((Tr :: l).getD i 0) ((Tr :: l).getD (i + 1) 0)
      + p.cplnT l.length ((Tr :: l).getD l.length 0) t)
    + ((p.Vr + ∑ i ∈ Finset.range l.length, p.Vtr.getD i 0) * (P - Pr) - p.crossing t P)
    - ∑ i ∈ Finset.range l.length, p.Htr.getD i 0 * (t - l.getD i 0) / l.getD i 0

theorem G_eq_branch (p : Mineral) (T P : ℝ) : p.G T P = p.branch (p.passed T) P T := by
  unfold Mineral.G Mineral.branch
  rw [VdP_eq, Vbase_eq, GdH_eq]
  unfold Mineral.CpdT Mineral.CpdlnT
  rw [Ti_sum, Ti_sum]

theorem cpT_self (p : Mineral) (i : ℕ) (T : ℝ) : p.cpT i T T = 0 := by simp [Mineral.cpT]
theorem cplnT_self (p : Mineral) (i : ℕ) (T : ℝ) : p.cplnT i T T = 0 := by
  by_cases h : T = 0 <;> simp [Mineral.cplnT, h]

/-- Adding the transition at its own temperature changes the Gibbs energy by its volume change
times the distance of the pressure to the reference pressure. -/
theorem branch_step (p : Mineral) (l : List ℝ) (s P : ℝ) :
    p.branch (l ++ [s]) P s = p.branch l P s + p.Vtr.getD l.length 0 * (P - Pr) := by
  have g1 : ∀ i, i ≤ l.length → (Tr :: (l ++ [s])).getD i 0 = (Tr :: l).getD i 0 := by
    intro i hi
    rw [← List.cons_append, List.getD_append _ _ _ _ (by simp; omega)]
  have g2 : (Tr :: (l ++ [s])).getD (l.length + 1) 0 = s := by simp
  have g3 : ∀ i, i < l.length → (l ++ [s]).getD i 0 = l.getD i 0 := fun i hi =>
    List.getD_append _ _ _ _ hi
  have g4 : (l ++ [s]).getD l.length 0 = s := by simp
  have hs : ∀ f : ℕ → ℝ → ℝ → ℝ, ∑ i ∈ Finset.range l.length, f i ((Tr :: (l ++ [s])).getD i 0) ((Tr :: (l ++ [s])).getD (i + 1) 0)
      = ∑ i ∈ Finset.range l.length, f i ((Tr :: l).getD i 0) ((Tr :: l).getD (i + 1) 0) := by
    intro f
    refine Finset.sum_congr rfl fun i hi => ?_
    have := Finset.mem_range.1 hi
    rw [g1 i (by omega), g1 (i + 1) (by omega)]
  have hh : ∑ i ∈ Finset.range l.length, p.Htr.getD i 0 * (s - (l ++ [s]).getD i 0) / (l ++ [s]).getD i 0
      = ∑ i ∈ Finset.range l.length, p.Htr.getD i 0 * (s - l.getD i 0) / l.getD i 0 := by
    refine Finset.sum_congr rfl fun i hi => ?_
    rw [g3 i (Finset.mem_range.1 hi)]
  unfold Mineral.branch
  simp only [List.length_append, List.length_singleton, Finset.sum_range_succ]
  rw [hs, hs, hh, g1 l.length le_rfl, g2, g4, cpT_self, cplnT_self]
  ring

theorem branch_continuous (p : Mineral) (l : List ℝ) {s P : ℝ} (hs : 0 < s) (hl : ∀ x ∈ l, 0 < x)
    (hoff : ∀ j < (p.Ptr s).length, (p.Ptr s).getD j 0 ≠ 0) :
    ContinuousAt (fun t => p.branch l P t) s := by
  have hlast : (Tr :: l).getD l.length 0 ≠ 0 := by
    have hmem : (Tr :: l).getD l.length 0 ∈ (Tr :: l) := by
      rw [List.getD_eq_getElem _ _ (by simp)]; exact List.getElem_mem _
    rcases List.mem_cons.1 hmem with h | h
    · rw [h]; exact Tr_pos.ne'
    · exact (hl _ h).ne'
  have hid : ContinuousAt (fun t : ℝ => t) s := continuousAt_id
  have hI : ContinuousAt (fun t => p.cpT l.length ((Tr :: l).getD l.length 0) t) s :=
    (deriv_cpT _ _ _ _ hs).continuousAt
  have hJ : ContinuousAt (fun t => p.cplnT l.length ((Tr :: l).getD l.length 0) t) s :=
    (deriv_cplnT _ _ _ hlast hs).continuousAt
  have hX := crossing_continuous p s P hoff
  have hH : ContinuousAt (fun t => ∑ i ∈ Finset.range l.length, p.Htr.getD i 0 * (t - l.getD i 0) / l.getD i 0) s :=
    tendsto_finsetSum _ fun i _ => ((continuousAt_const.mul (hid.sub continuousAt_const)).div_const _)
  unfold Mineral.branch
  exact ((((continuousAt_const.sub (continuousAt_const.mul (hid.sub continuousAt_const))).add
    (continuousAt_const.add hI)).sub (hid.mul (continuousAt_const.add hJ))).add
    (continuousAt_const.sub hX)).sub hH

/-- C53, minerals, transitions: as the temperature goes through a transition temperature, listed in
increasing order with the others, the Gibbs energy is continuous from below and its limit from above
is larger by the volume change of the transition times `P - Pr`. -/
theorem C53_mineral_jump (p : Mineral) (P s : ℝ) (l1 l2 : List ℝ) (hwf : p.WellFormed)
    (hsplit : p.Ttr.take p.ntr = l1 ++ s :: l2) (h1 : ∀ x ∈ l1, x < s) (h2 : ∀ x ∈ l2, s < x)
    (hpos : ∀ x ∈ p.Ttr.take p.ntr, 0 < x)
    (hoff : ∀ j < (p.Ptr s).length, (p.Ptr s).getD j 0 ≠ 0) :
    ∃ g : ℝ → Props, (∀ t, mineral p t P = .ok (g t)) ∧
      Tendsto (fun t => (g t).G0) (𝓝[≤] s) (𝓝 (g s).G0) ∧
      Tendsto (fun t => (g t).G0) (𝓝[>] s) (𝓝 ((g s).G0 + p.Vtr.getD l1.length 0 * (P - Pr))) := by
  have hs : 0 < s := hpos s (by rw [hsplit]; simp)
  have hl1 : ∀ x ∈ l1, 0 < x := fun x hx => hpos x (by rw [hsplit]; simp [hx])
  refine ⟨_, fun t => if_pos (inRange_of_wellFormed hwf t P), ?_, ?_⟩
  · show Tendsto (fun t => p.G t P) _ (𝓝 (p.G s P))
    have hb := branch_continuous p l1 (P := P) hs hl1 hoff
    have hev := passed_before hsplit h1 h2
    have hself : p.passed s = l1 := hev.self_of_nhdsWithin (Set.mem_Iic.2 le_rfl)
    rw [G_eq_branch, hself]
    refine Tendsto.congr' (hev.mono fun t ht => ?_) (hb.mono_left nhdsWithin_le_nhds)
    show _ = p.G t P
    rw [G_eq_branch, ht]
  · show Tendsto (fun t => p.G t P) _ (𝓝 (p.G s P + _))
    have hl1s : ∀ x ∈ l1 ++ [s], 0 < x := by
      intro x hx
      rcases List.mem_append.1 hx with h | h
      · exact hl1 x h
      · rw [List.mem_singleton.1 h]; exact hs
    have hb := branch_continuous p (l1 ++ [s]) (P := P) hs hl1s hoff
    have hself : p.passed s = l1 := (passed_before hsplit h1 h2).self_of_nhdsWithin (Set.mem_Iic.2 le_rfl)
    rw [G_eq_branch, hself, ← branch_step]
    refine Tendsto.congr' ((passed_after hsplit h1 h2).mono fun t ht => ?_) (hb.mono_left nhdsWithin_le_nhds)
    show _ = p.G t P
    rw [G_eq_branch, ht]

/-- C53, minerals, transitions: at the reference pressure the Gibbs energy is continuous across every
transition temperature; at any other pressure it is continuous exactly when the transition has no
volume change.  The full property asks for continuity at every pressure. -/
theorem C53_mineral_continuous_partial (p : Mineral) (P s : ℝ) (l1 l2 : List ℝ) (hwf : p.WellFormed)
    (hsplit : p.Ttr.take p.ntr = l1 ++ s :: l2) (h1 : ∀ x ∈ l1, x < s) (h2 : ∀ x ∈ l2, s < x)
    (hpos : ∀ x ∈ p.Ttr.take p.ntr, 0 < x)
    (hoff : ∀ j < (p.Ptr s).length, (p.Ptr s).getD j 0 ≠ 0) :
    ∃ g : ℝ → Props, (∀ t, mineral p t P = .ok (g t)) ∧
      (ContinuousAt (fun t => (g t).G0) s ↔ P = Pr ∨ p.Vtr.getD l1.length 0 = 0) := by
  obtain ⟨g, hg, hle, hgt⟩ := C53_mineral_jump p P s l1 l2 hwf hsplit h1 h2 hpos hoff
  refine ⟨g, hg, ?_⟩
  constructor
  · intro hc
    have hgt' : Tendsto (fun t => (g t).G0) (𝓝[>] s) (𝓝 (g s).G0) := hc.tendsto.mono_left nhdsWithin_le_nhds
    have := tendsto_nhds_unique hgt hgt'
    have hz : p.Vtr.getD l1.length 0 * (P - Pr) = 0 := by linarith
    rcases mul_eq_zero.1 hz with h | h
    · exact Or.inr h
    · exact Or.inl (by linarith)
  · intro h
    have hz : p.Vtr.getD l1.length 0 * (P - Pr) = 0 := by
      rcases h with h | h
      · rw [h, sub_self, mul_zero]
      · rw [h, zero_mul]
    rw [hz, add_zero] at hgt
    rw [ContinuousAt, ← nhdsLE_sup_nhdsGT s]
    exact hle.sup hgt

/-- A mineral with one transition at 848 K, like quartz : volume change 1, slope 1e4 Pa/K. -/
def quartzLike : Mineral :=
  { Gf := 0, Hf := 0, Sr := 0, Vr := 22, ntr := 1, a := [44, 59], b := [0, 0], c := [0, 0]
    Ttr := [848], Htr := [1], Vtr := [1], dPdTtr := [10000] }

theorem quartz_wellFormed : quartzLike.WellFormed := by simp [Mineral.WellFormed, quartzLike]

theorem quartz_sloped : quartzLike.sloped = [0] := by
  simp [Mineral.sloped, quartzLike, List.range_succ]

theorem quartz_Ptr (T : ℝ) : quartzLike.Ptr T = [Pr + 10000 * (T - 848)] := by
  unfold Mineral.Ptr
  rw [quartz_sloped]
  simp [quartzLike]

/-- C53, minerals: at twice the reference pressure the Gibbs energy of this mineral jumps at its
transition temperature. -/
theorem C53_mineral_continuous_wrong :
    ∃ g : ℝ → Props, (∀ t, mineral quartzLike t 200000 = .ok (g t)) ∧
      ¬ ContinuousAt (fun t => (g t).G0) 848 := by
  obtain ⟨g, hg, h⟩ := C53_mineral_continuous_partial quartzLike 200000 848 [] [] quartz_wellFormed
    (by simp [quartzLike]) (by simp) (by simp) (by simp [quartzLike])
    (by rw [quartz_Ptr]; simp [Pr])
  refine ⟨g, hg, fun hc => ?_⟩
  rcases h.1 hc with h | h
  · norm_num [Pr] at h
  · norm_num [quartzLike] at h

/-- C53, minerals: just below the transition temperature of this mineral, where no transition has
taken place, the model removes the volume change of the transition from the volume. -/
theorem C53_mineral_below_wrong (T P : ℝ) (h1 : 838 < T) (h2 : T ≤ 848) (hP : Pr < P) :
    ∃ x, mineral quartzLike T P = .ok x ∧ x.V0 = quartzLike.Vr - 1 := by
  refine ⟨_, if_pos (inRange_of_wellFormed quartz_wellFormed T P), ?_⟩
  show quartzLike.V T P = _
  have hp : quartzLike.passed T = [] := by
    simp [Mineral.passed, quartzLike, h2]
  have hc : quartzLike.crossed T P 0 := by
    unfold Mineral.crossed
    rw [quartz_Ptr]
    simp only [List.getD_cons_zero]
    constructor
    · norm_num [Pr]; linarith
    · have : 10000 * (T - 848) ≤ 0 := by linarith
      linarith
  unfold Mineral.V
  rw [Vbase_eq, hp, quartz_Ptr]
  simp only [List.length_nil, Finset.range_zero, Finset.sum_empty, List.length_singleton,
    Finset.range_one, Finset.sum_singleton, if_pos hc]
  simp [quartzLike]

/-- The hypotheses of `C53_mineral_crossed_wrong` are met: at 850 K and 2 bar the boundary of this
mineral, at 1.2 bar, has been crossed. -/
example : quartzLike.OffBoundary 850 200000 ∧ quartzLike.clapeyron 850 200000 ≠ 0 := by
  have hP : (quartzLike.Ptr 850).getD 0 0 = 120000 := by rw [quartz_Ptr]; norm_num [Pr]
  refine ⟨⟨by norm_num [quartzLike], fun j hj => ?_⟩, ?_⟩
  · rw [quartz_Ptr] at hj
    have : j = 0 := by simpa using hj
    subst this
    rw [hP]; norm_num
  · have hc : quartzLike.crossed 850 200000 0 := by
      unfold Mineral.crossed; rw [hP]; norm_num
    unfold Mineral.clapeyron
    rw [quartz_sloped]
    simp only [List.length_singleton, Finset.range_one, Finset.sum_singleton, if_pos hc]
    norm_num [quartzLike]

/-- C53, minerals: the volume change removed for a crossed boundary is taken from the wrong
transition when an earlier transition has a zero slope.  Here the second transition (volume change 5)
is crossed and the volume change of the first (volume change 1) is removed. -/
theorem C53_mineral_pairing_wrong :
    ∃ p : Mineral, p.WellFormed ∧ p.Vtr = [1, 5] ∧ p.dPdTtr = [0, 10000] ∧
      ∃ x, mineral p 602 200000 = .ok x ∧ p.Ttr = [500, 600] ∧ x.V0 = p.Vr + 5 := by
  let p : Mineral :=
    { Gf := 0, Hf := 0, Sr := 0, Vr := 22, ntr := 2, a := [1, 1, 1], b := [0, 0, 0], c := [0, 0, 0]
      Ttr := [500, 600], Htr := [0, 0], Vtr := [1, 5], dPdTtr := [0, 10000] }
  have hwf : p.WellFormed := by simp [p, Mineral.WellFormed]
  refine ⟨p, hwf, rfl, rfl, _, if_pos (inRange_of_wellFormed hwf _ _), rfl, ?_⟩
  show p.V 602 200000 = _
  have hp : p.passed 602 = [500, 600] := by norm_num [Mineral.passed, p]
  have hs : p.sloped = [1] := by norm_num [Mineral.sloped, p, List.range_succ, List.filter_cons]
  have hP : p.Ptr 602 = [120000] := by
    unfold Mineral.Ptr
    rw [hs]
    norm_num [p, Pr]
  have hc : p.crossed 602 200000 0 := by unfold Mineral.crossed; rw [hP]; norm_num
  unfold Mineral.V
  rw [Vbase_eq, hp, hP]
  simp only [List.length_cons, List.length_nil, Finset.sum_range_succ, Finset.range_zero, Finset.sum_empty, if_pos hc]
  norm_num [p]

end Verif.StandardModels
