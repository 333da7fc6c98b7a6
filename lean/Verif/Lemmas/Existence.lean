import Verif.Spec.Existence
import Verif.Lemmas.IdealEquilibrium
import Verif.Lemmas.Brouwer
import Verif.Lemmas.Farkas
import Verif.Theorems.Reference

/-!
# Lemmas for C114
-/

namespace Verif.Existence

open ChemicalProps IdealEquilibrium Brouwer
open Reference (locate gradient_species gradient_titrant)
open ArraySerialization (Props)

/-- The unknowns of a problem. -/
abbrev unknowns (pr : Problem) : Nat := count pr.phases + pr.uq.length

/-- A vector as a list. -/
noncomputable def listOf {N : Nat} (v : E N) : List ℝ := List.ofFn fun i => v i

noncomputable def speciesOf (pr : Problem) (v : E (unknowns pr)) : List ℝ := (listOf v).take (count pr.phases)
noncomputable def titrantsOf (pr : Problem) (v : E (unknowns pr)) : List ℝ := (listOf v).drop (count pr.phases)

theorem listOf_length {N : Nat} (v : E N) : (listOf v).length = N := by simp [listOf]

theorem parts (pr : Problem) (v : E (unknowns pr)) : speciesOf pr v ++ titrantsOf pr v = listOf v := List.take_append_drop _ _

theorem speciesOf_length (pr : Problem) (v : E (unknowns pr)) : (speciesOf pr v).length = count pr.phases := by
  simp [speciesOf, listOf_length]

theorem titrantsOf_length (pr : Problem) (v : E (unknowns pr)) : (titrantsOf pr v).length = pr.uq.length := by
  simp [titrantsOf, listOf_length]

theorem getD_listOf {N : Nat} (v : E N) (j : Nat) : (listOf v).getD j 0 = if h : j < N then v ⟨j, h⟩ else 0 := by
  split_ifs with h
  · rw [List.getD_eq_getElem _ _ (by simpa [listOf] using h)]
    simp [listOf]
  · rw [List.getD_eq_getElem?_getD, List.getElem?_eq_none (by simpa [listOf] using h)]
    rfl

theorem getD_fin {N : Nat} (v : E N) (j : Fin N) : (listOf v).getD j 0 = v j := by
  rw [getD_listOf, dif_pos j.2]

theorem getD_speciesOf (pr : Problem) (v : E (unknowns pr)) (j : Nat) (h : j < count pr.phases) : (speciesOf pr v).getD j 0 = (listOf v).getD j 0 := by
  rw [← parts pr v, List.getD_append _ _ _ _ (by rw [speciesOf_length]; exact h)]

theorem continuous_getD {N : Nat} (j : Nat) : Continuous fun v : E N => (listOf v).getD j 0 := by
  simp only [getD_listOf]
  by_cases h : j < N
  · simp only [dif_pos h]
    exact (EuclideanSpace.proj (𝕜 := ℝ) (⟨j, h⟩ : Fin N)).continuous
  · simp only [dif_neg h]
    exact continuous_const

theorem linear_getD {N : Nat} (j : Nat) (a b : ℝ) (v w : E N) : (listOf (a • v + b • w)).getD j 0 = a * (listOf v).getD j 0 + b * (listOf w).getD j 0 := by
  simp only [getD_listOf]
  split_ifs <;> simp

/-- The vectors of feasible amounts. -/
def feasibleSet (pr : Problem) : Set (E (unknowns pr)) := {v | Feasible pr (speciesOf pr v) (titrantsOf pr v)}

theorem mem_feasibleSet (pr : Problem) (v : E (unknowns pr)) : v ∈ feasibleSet pr ↔
    (∀ i < pr.A.length, ∑ j ∈ Finset.range (unknowns pr), (((pr.A.getD i []).getD j 0 : Rat) : ℝ) * (listOf v).getD j 0 = pr.b.getD i 0) ∧
    (∀ (j : Nat) (w : Rat), pr.lower[j]? = some (some w) → (w : ℝ) ≤ (listOf v).getD j 0) ∧
    ∀ (j : Nat) (w : Rat), pr.upper[j]? = some (some w) → (listOf v).getD j 0 ≤ (w : ℝ) := by
  constructor
  · intro h
    have h : Feasible pr (speciesOf pr v) (titrantsOf pr v) := h
    have h1 := h.balances
    have h2 := h.lower
    have h3 := h.upper
    unfold balance at h1
    rw [parts] at h1 h2 h3
    rw [listOf_length] at h1
    exact ⟨h1, h2, h3⟩
  · rintro ⟨h1, h2, h3⟩
    refine ⟨speciesOf_length pr v, titrantsOf_length pr v, ?_, ?_, ?_⟩
    · unfold balance
      rw [parts, listOf_length]
      exact h1
    · rw [parts]; exact h2
    · rw [parts]; exact h3

theorem feasible_closed (pr : Problem) : IsClosed (feasibleSet pr) := by
  have : feasibleSet pr = (⋂ i ∈ {i | i < pr.A.length}, {v | ∑ j ∈ Finset.range (unknowns pr), (((pr.A.getD i []).getD j 0 : Rat) : ℝ) * (listOf v).getD j 0 = pr.b.getD i 0}) ∩
      ((⋂ j : Nat, ⋂ w : Rat, ⋂ _ : pr.lower[j]? = some (some w), {v | (w : ℝ) ≤ (listOf v).getD j 0}) ∩
      ⋂ j : Nat, ⋂ w : Rat, ⋂ _ : pr.upper[j]? = some (some w), {v | (listOf v).getD j 0 ≤ (w : ℝ)}) := by
    ext v
    rw [mem_feasibleSet]
    simp only [Set.mem_inter_iff, Set.mem_iInter, Set.mem_setOf_eq]
  rw [this]
  refine IsClosed.inter ?_ (IsClosed.inter ?_ ?_)
  · refine isClosed_biInter fun i _ => isClosed_eq ?_ continuous_const
    exact continuous_finsetSum _ fun j _ => continuous_const.mul (continuous_getD j)
  · exact isClosed_iInter fun j => isClosed_iInter fun w => isClosed_iInter fun _ => isClosed_le continuous_const (continuous_getD j)
  · exact isClosed_iInter fun j => isClosed_iInter fun w => isClosed_iInter fun _ => isClosed_le (continuous_getD j) continuous_const

theorem feasible_convex (pr : Problem) : Convex ℝ (feasibleSet pr) := by
  intro v hv w hw a b ha hb hab
  rw [mem_feasibleSet] at hv hw ⊢
  simp only [linear_getD]
  refine ⟨?_, ?_, ?_⟩
  · intro i hi
    have h1 := hv.1 i hi
    have h2 := hw.1 i hi
    calc _ = a * ∑ j ∈ Finset.range (unknowns pr), (((pr.A.getD i []).getD j 0 : Rat) : ℝ) * (listOf v).getD j 0 +
          b * ∑ j ∈ Finset.range (unknowns pr), (((pr.A.getD i []).getD j 0 : Rat) : ℝ) * (listOf w).getD j 0 := by
          rw [Finset.mul_sum, Finset.mul_sum, ← Finset.sum_add_distrib]
          exact Finset.sum_congr rfl fun j _ => by ring
      _ = pr.b.getD i 0 := by rw [h1, h2, ← add_mul, hab, one_mul]
  · intro j z hz
    have h1 := hv.2.1 j z hz
    have h2 := hw.2.1 j z hz
    calc (z : ℝ) = a * z + b * z := by rw [← add_mul, hab, one_mul]
      _ ≤ _ := by gcongr
  · intro j z hz
    have h1 := hv.2.2 j z hz
    have h2 := hw.2.2 j z hz
    calc _ ≤ a * (z : ℝ) + b * z := by gcongr
      _ = z := by rw [← add_mul, hab, one_mul]

theorem feasible_compact (pr : Problem) (hb : Bounded pr) : IsCompact (feasibleSet pr) := by
  apply Metric.isCompact_of_isClosed_isBounded (feasible_closed pr)
  obtain ⟨M, hM⟩ := hb
  rw [isBounded_iff_forall_norm_le]
  refine ⟨Real.sqrt (∑ _i : Fin (unknowns pr), M ^ 2), fun v hv => ?_⟩
  rw [EuclideanSpace.norm_eq]
  apply Real.sqrt_le_sqrt
  refine Finset.sum_le_sum fun j _ => ?_
  have := hM _ _ hv (v j) (by
    rw [parts]
    exact List.mem_ofFn.2 ⟨j, rfl⟩)
  rw [Real.norm_eq_abs, sq_abs]
  exact sq_le_sq' this.1 this.2

theorem feasible_nonempty (pr : Problem) (n q : List ℝ) (h : Feasible pr n q) : ∃ v : E (unknowns pr), speciesOf pr v = n ∧ titrantsOf pr v = q := by
  have hl : (n ++ q).length = unknowns pr := by rw [List.length_append, h.species, h.titrants]
  have e : listOf (WithLp.toLp 2 fun i : Fin (unknowns pr) => (n ++ q).getD i 0 : E (unknowns pr)) = n ++ q := by
    apply List.ext_getElem
    · rw [listOf_length, hl]
    · intro i h1 h2
      simp only [listOf, List.getElem_ofFn]
      rw [List.getD_eq_getElem _ _ h2]
  refine ⟨WithLp.toLp 2 fun i : Fin (unknowns pr) => (n ++ q).getD i 0, ?_, ?_⟩
  · unfold speciesOf
    rw [e, ← h.species, List.take_left]
  · unfold titrantsOf
    rw [e, ← h.species, List.drop_left]

theorem positive_of_mem (pr : Problem) (hr : Computable pr) (v : E (unknowns pr)) (hv : v ∈ feasibleSet pr) (j : Nat) (hj : j < count pr.phases) :
    0 < (listOf v).getD j 0 := by
  obtain ⟨w, h1, h2⟩ := hr.positive j hj
  have := ((mem_feasibleSet pr v).1 hv).2.1 j w h1
  have h3 : (0 : ℝ) < w := by exact_mod_cast h2
  linarith

theorem species_positive (pr : Problem) (hr : Computable pr) (v : E (unknowns pr)) (hv : v ∈ feasibleSet pr) : ∀ y ∈ speciesOf pr v, 0 < y := by
  intro y hy
  obtain ⟨j, hj, rfl⟩ := List.getElem_of_mem hy
  have hj' : j < count pr.phases := by rwa [speciesOf_length] at hj
  have := positive_of_mem pr hr v hv j hj'
  rwa [← getD_speciesOf pr v j hj', List.getD_eq_getElem _ _ hj] at this

/-- The mole fractions of a phase. -/
noncomputable def composition (pr : Problem) (i : Nat) (m : Nat) (v : E (unknowns pr)) : Fin m → ℝ :=
  fun k => (listOf v).getD (before pr.phases i + k) 0 / ∑ l : Fin m, (listOf v).getD (before pr.phases i + l) 0

theorem block_ofFn (pr : Problem) (v : E (unknowns pr)) (i : Nat) (hi : i < pr.phases.length) :
    block pr (speciesOf pr v) i = List.ofFn fun k : Fin pr.phases[i].size => (listOf v).getD (before pr.phases i + k) 0 := by
  have hl := block_length pr (speciesOf pr v) (speciesOf_length pr v) i hi
  have hb := before_le pr.phases i hi
  rw [sizeAt_of_lt pr.phases i hi] at hl hb
  apply List.ext_getElem
  · rw [hl, List.length_ofFn]
  · intro k h1 h2
    rw [List.getElem_ofFn]
    have hk : k < pr.phases[i].size := by simpa using h2
    have e : (block pr (speciesOf pr v) i)[k]? = (speciesOf pr v)[before pr.phases i + k]? := by
      unfold block
      rw [getElem?_seg, if_pos (by rw [sizeAt_of_lt pr.phases i hi]; exact hk)]
    rw [List.getElem?_eq_getElem h1, List.getElem?_eq_getElem (by rw [speciesOf_length]; omega)] at e
    injection e with e
    rw [e, ← getD_speciesOf pr v _ (by omega), List.getD_eq_getElem]

theorem fractions_ofFn (pr : Problem) (v : E (unknowns pr)) (i : Nat) (hi : i < pr.phases.length) :
    fractions (block pr (speciesOf pr v) i) = List.ofFn (composition pr i pr.phases[i].size v) := by
  rw [block_ofFn pr v i hi]
  unfold fractions
  rw [List.sum_ofFn, List.map_ofFn]
  rfl

theorem composition_mem (pr : Problem) (hr : Computable pr) (v : E (unknowns pr)) (hv : v ∈ feasibleSet pr) (i : Nat) (hi : i < pr.phases.length) :
    composition pr i pr.phases[i].size v ∈ Compositions pr.phases[i].size ∧ 0 < ∑ l : Fin pr.phases[i].size, (listOf v).getD (before pr.phases i + l) 0 := by
  have hb := before_le pr.phases i hi
  rw [sizeAt_of_lt pr.phases i hi] at hb
  have hp : ∀ k : Fin pr.phases[i].size, 0 < (listOf v).getD (before pr.phases i + k) 0 := fun k => positive_of_mem pr hr v hv _ (by have := k.2; omega)
  have hne : (Finset.univ : Finset (Fin pr.phases[i].size)).Nonempty :=
    ⟨⟨0, Nat.pos_of_ne_zero (hr.nonempty _ (List.getElem_mem hi))⟩, Finset.mem_univ _⟩
  have hs : 0 < ∑ l : Fin pr.phases[i].size, (listOf v).getD (before pr.phases i + l) 0 := Finset.sum_pos (fun k _ => hp k) hne
  refine ⟨⟨fun k => div_pos (hp k) hs, ?_⟩, hs⟩
  unfold composition
  rw [← Finset.sum_div, div_self hs.ne']

theorem composition_continuous (pr : Problem) (hr : Computable pr) (i : Nat) (hi : i < pr.phases.length) :
    ContinuousOn (composition pr i pr.phases[i].size) (feasibleSet pr) := by
  refine continuousOn_pi.2 fun k => ContinuousOn.div (continuous_getD _).continuousOn (continuous_finsetSum _ fun l _ => continuous_getD _).continuousOn ?_
  intro v hv
  exact (composition_mem pr hr v hv i hi).2.ne'

/-- The gradient is a continuous function of the amounts. -/
theorem gradient_continuous (pr : Problem) (hr : Computable pr) (j : Fin (unknowns pr)) :
    ∃ G : E (unknowns pr) → ℝ, ContinuousOn G (feasibleSet pr) ∧
      ∀ v ∈ feasibleSet pr, ∀ props, Has pr (speciesOf pr v) props → (pr.gradient (speciesOf pr v) props.u).getD j 0 = G v := by
  by_cases hj : (j : Nat) < count pr.phases
  · have hj' := hj
    rw [← before_length] at hj'
    obtain ⟨i, hi, k, hk, hjk⟩ := locate pr.phases j pr.phases.length (Nat.le_refl _) hj'
    have hmem := List.getElem_mem (l := pr.phases) (n := i) hi
    have hk' : k < pr.phases[i].size := by rwa [sizeAt_of_lt pr.phases i hi] at hk
    obtain ⟨f, hf, hf'⟩ := (hr.models _ hmem).continuous
    have hk2 : k < pr.phases[i].species.length := hk'
    obtain ⟨s, hs⟩ := Option.isSome_iff_exists.1 (hr.standard _ hmem pr.phases[i].species[k] (List.getElem_mem hk2))
    refine ⟨fun v => (s.G0 + pr.R * pr.T * f (composition pr i pr.phases[i].size v) ⟨k, hk'⟩) / (pr.R * pr.T) - pr.eps * pr.factor / (listOf v).getD j 0, ?_, ?_⟩
    · apply ContinuousOn.sub
      · apply ContinuousOn.div_const
        apply ContinuousOn.add continuousOn_const
        apply ContinuousOn.mul continuousOn_const
        have h1 : ContinuousOn (fun v => f (composition pr i pr.phases[i].size v)) (feasibleSet pr) :=
          hf.comp (composition_continuous pr hr i hi) fun v hv => (composition_mem pr hr v hv i hi).1
        exact continuousOn_pi.1 h1 ⟨k, hk'⟩
      · exact ContinuousOn.div continuousOn_const (continuous_getD _).continuousOn fun v hv => (positive_of_mem pr hr v hv j hj).ne'
    · intro v hv props hp
      have hlen := speciesOf_length pr v
      have hshape := props_shape pr hr.toProper _ props hp
      have hu : props.u.length = (speciesOf pr v).length := by
        rw [hlen]
        exact hshape.perSpecies props.u (by simp)
      rw [gradient_species pr _ _ hu j (by rw [hlen]; exact hj), getD_speciesOf pr v j hj]
      obtain ⟨-, ⟨old, a, ha, hln⟩, hpot⟩ := phase_props pr hr.toProper _ hlen (species_positive pr hr v hv) props hp i hi
      rw [fractions_ofFn pr v i hi] at ha
      have h1 := hf' _ (composition_mem pr hr v hv i hi).1 old a ha
      rw [← hln, h1] at hpot
      have h2 : (view pr.phases props i).u[k]? = props.u[(j : Nat)]? := by
        show (seg props.u (before pr.phases i) (sizeAt pr.phases i))[k]? = _
        rw [getElem?_seg, if_pos hk, hjk]
      have h3 : (view pr.phases props i).G0[k]? = some s.G0 := by
        obtain ⟨o, hs', hu'⟩ := hp
        obtain ⟨-, -, -, hc⟩ := C32_update pr.R pr.phases hr.sizes hr.nonempty false o hs' pr.T pr.P _ props hu'
        obtain ⟨s', b1, b2, -⟩ := (hc i hi).standard k _ (List.getElem?_eq_getElem hk2)
        rw [hs] at b1
        injection b1 with b1
        rw [b2, b1]
      rw [hpot, List.getElem?_zipWith, h3, List.getElem?_eq_getElem (by simpa using hk')] at h2
      rw [List.getD_eq_getElem?_getD, ← h2]
      simp
  · have hk : (j : Nat) - count pr.phases < pr.uq.length := by have := j.2; unfold unknowns at this; omega
    refine ⟨fun _ => pr.uq.getD (j - count pr.phases) 0 / (pr.R * pr.T), continuousOn_const, ?_⟩
    intro v hv props hp
    have hlen := speciesOf_length pr v
    have hshape := props_shape pr hr.toProper _ props hp
    have hu : props.u.length = (speciesOf pr v).length := by
      rw [hlen]
      exact hshape.perSpecies props.u (by simp)
    have := gradient_titrant pr _ _ hu _ hk
    rw [hlen, Nat.add_sub_of_le (by omega)] at this
    exact this

/-- A step in a direction that keeps the balances and leaves no bound. -/
theorem step_feasible (pr : Problem) (v : E (unknowns pr)) (hv : v ∈ feasibleSet pr) (d : E (unknowns pr))
    (hA : ∀ i < pr.A.length, ∑ j ∈ Finset.range (unknowns pr), (((pr.A.getD i []).getD j 0 : Rat) : ℝ) * (listOf d).getD j 0 = 0)
    (hL : ∀ (j : Fin (unknowns pr)) (w : Rat), pr.lower[(j : Nat)]? = some (some w) → v j = w → 0 ≤ d j)
    (hU : ∀ (j : Fin (unknowns pr)) (w : Rat), pr.upper[(j : Nat)]? = some (some w) → v j = w → d j ≤ 0) :
    ∃ t : ℝ, 0 < t ∧ v + t • d ∈ feasibleSet pr := by
  have hv' := (mem_feasibleSet pr v).1 hv
  have tend : ∀ j : Fin (unknowns pr), Filter.Tendsto (fun t : ℝ => v j + t * d j) (nhdsWithin 0 (Set.Ioi 0)) (nhds (v j)) := by
    intro j
    have : Filter.Tendsto (fun t : ℝ => v j + t * d j) (nhds 0) (nhds (v j + 0 * d j)) := by
      apply Continuous.tendsto
      fun_prop
    rw [zero_mul, add_zero] at this
    exact this.mono_left nhdsWithin_le_nhds
  have lo : ∀ᶠ t : ℝ in nhdsWithin 0 (Set.Ioi 0), ∀ j : Fin (unknowns pr), ∀ w : Rat, pr.lower[(j : Nat)]? = some (some w) → (w : ℝ) ≤ v j + t * d j := by
    rw [Filter.eventually_all]
    intro j
    cases hb : pr.lower[(j : Nat)]? with
    | none => simp
    | some o =>
      cases o with
      | none => simp
      | some w =>
        have h1 := hv'.2.1 j w hb
        rw [getD_fin] at h1
        rcases h1.eq_or_lt with heq | hlt
        · filter_upwards [self_mem_nhdsWithin] with t ht w' hw'
          simp only [Option.some.injEq] at hw'
          subst hw'
          have := hL j w hb heq.symm
          have : 0 ≤ t * d j := mul_nonneg (le_of_lt ht) this
          linarith
        · filter_upwards [(tend j).eventually (lt_mem_nhds hlt)] with t ht w' hw'
          simp only [Option.some.injEq] at hw'
          subst hw'
          exact ht.le
  have up : ∀ᶠ t : ℝ in nhdsWithin 0 (Set.Ioi 0), ∀ j : Fin (unknowns pr), ∀ w : Rat, pr.upper[(j : Nat)]? = some (some w) → v j + t * d j ≤ (w : ℝ) := by
    rw [Filter.eventually_all]
    intro j
    cases hb : pr.upper[(j : Nat)]? with
    | none => simp
    | some o =>
      cases o with
      | none => simp
      | some w =>
        have h1 := hv'.2.2 j w hb
        rw [getD_fin] at h1
        rcases h1.eq_or_lt with heq | hlt
        · filter_upwards [self_mem_nhdsWithin] with t ht w' hw'
          simp only [Option.some.injEq] at hw'
          subst hw'
          have := hU j w hb heq
          have : t * d j ≤ 0 := mul_nonpos_of_nonneg_of_nonpos (le_of_lt ht) this
          linarith
        · filter_upwards [(tend j).eventually (gt_mem_nhds hlt)] with t ht w' hw'
          simp only [Option.some.injEq] at hw'
          subst hw'
          exact ht.le
  obtain ⟨t, ⟨h1, h2⟩, ht⟩ := ((lo.and up).and self_mem_nhdsWithin).exists
  refine ⟨t, ht, (mem_feasibleSet pr _).2 ⟨?_, ?_, ?_⟩⟩
  · intro i hi
    have e : ∀ j, (listOf (v + t • d)).getD j 0 = (listOf v).getD j 0 + t * (listOf d).getD j 0 := by
      intro j
      have := linear_getD j 1 t v d
      rwa [one_smul, one_mul] at this
    simp only [e, mul_add, Finset.sum_add_distrib]
    rw [hv'.1 i hi]
    have : ∑ j ∈ Finset.range (unknowns pr), (((pr.A.getD i []).getD j 0 : Rat) : ℝ) * (t * (listOf d).getD j 0) =
        t * ∑ j ∈ Finset.range (unknowns pr), (((pr.A.getD i []).getD j 0 : Rat) : ℝ) * (listOf d).getD j 0 := by
      rw [Finset.mul_sum]
      exact Finset.sum_congr rfl fun j _ => by ring
    rw [this, hA i hi, mul_zero, add_zero]
  · intro j w hw
    by_cases hj : j < unknowns pr
    · have := h1 ⟨j, hj⟩ w hw
      rw [getD_listOf, dif_pos hj]
      exact this
    · have := hv'.2.1 j w hw
      rw [getD_listOf, dif_neg hj] at this ⊢
      exact this
  · intro j w hw
    by_cases hj : j < unknowns pr
    · have := h2 ⟨j, hj⟩ w hw
      rw [getD_listOf, dif_pos hj]
      exact this
    · have := hv'.2.2 j w hw
      rw [getD_listOf, dif_neg hj] at this ⊢
      exact this

/-- A bounded problem with a feasible point has an equilibrium. -/
theorem exists_equilibrium (pr : Problem) (hr : Computable pr) (hb : Bounded pr) (n0 q0 : List ℝ) (h0 : Feasible pr n0 q0) :
    ∃ n q props, Equilibrium pr n q props := by
  choose G hG hG' using gradient_continuous pr hr
  obtain ⟨v0, e1, e2⟩ := feasible_nonempty pr n0 q0 h0
  have hne : (feasibleSet pr).Nonempty := ⟨v0, by
    show Feasible pr (speciesOf pr v0) (titrantsOf pr v0)
    rw [e1, e2]; exact h0⟩
  let F : E (unknowns pr) → E (unknowns pr) := fun v => WithLp.toLp 2 fun j => G j v
  have hF : ContinuousOn F (feasibleSet pr) :=
    (PiLp.continuous_toLp 2 _).comp_continuousOn (continuousOn_pi.2 hG)
  obtain ⟨v, hv, hvi⟩ := variational_inequality (feasibleSet pr) hne (feasible_compact pr hb) (feasible_convex pr) F hF
  obtain ⟨props, hp⟩ := has_exists' pr hr.toProper (speciesOf pr v) (speciesOf_length pr v) (species_positive pr hr v hv) hr.standard
    fun ph hph => (hr.models ph hph).returns
  have inner_eq : ∀ d : E (unknowns pr), inner ℝ (F v) d = Farkas.dotN (fun j => G j v) d := by
    intro d
    rw [PiLp.inner_apply]
    unfold Farkas.dotN
    exact Finset.sum_congr rfl fun j _ => by simp [F, mul_comm]
  obtain ⟨y, hy⟩ := Farkas.multipliers (fun (i : Fin pr.A.length) (j : Fin (unknowns pr)) => (((pr.A.getD i []).getD j 0 : Rat) : ℝ))
    (fun j => ∃ w : Rat, pr.lower[(j : Nat)]? = some (some w) ∧ v j = w) (fun j => ∃ w : Rat, pr.upper[(j : Nat)]? = some (some w) ∧ v j = w)
    (fun j => G j v) (by
      intro d hA hL hU
      obtain ⟨t, ht, hmem⟩ := step_feasible pr v hv (WithLp.toLp 2 d) (by
        intro i hi
        have := hA ⟨i, hi⟩
        unfold Farkas.dotN at this
        rw [Finset.sum_range]
        refine Eq.trans ?_ this
        exact Finset.sum_congr rfl fun j _ => by rw [getD_fin])
        (fun j w hw hj => hL j ⟨w, hw, hj⟩) (fun j w hw hj => hU j ⟨w, hw, hj⟩)
      have h1 := hvi _ hmem
      rw [add_sub_cancel_left, inner_smul_right, inner_eq] at h1
      exact nonneg_of_mul_nonneg_right h1 ht)
  refine ⟨speciesOf pr v, titrantsOf pr v, props, hv, hp, fun i => if h : i < pr.A.length then y ⟨i, h⟩ else 0, ?_⟩
  intro j hj
  rw [speciesOf_length, titrantsOf_length] at hj
  have := hy ⟨j, hj⟩
  have e : ∑ i ∈ Finset.range pr.A.length, (if h : i < pr.A.length then y ⟨i, h⟩ else 0) * (((pr.A.getD i []).getD j 0 : Rat) : ℝ) =
      ∑ i : Fin pr.A.length, y i * (((pr.A.getD i []).getD j 0 : Rat) : ℝ) := by
    rw [Finset.sum_range]
    exact Finset.sum_congr rfl fun i _ => by rw [dif_pos i.2]
  dsimp only
  rw [e, hG' ⟨j, hj⟩ v hv props hp, parts, getD_listOf, dif_pos hj]
  exact this

end Verif.Existence
