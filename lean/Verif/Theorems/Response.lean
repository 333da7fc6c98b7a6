import Verif.Spec.Response
import Verif.Theorems.IdealEquilibrium
import Mathlib.Analysis.Calculus.MeanValue
import Mathlib.Analysis.SpecialFunctions.Log.Deriv

/-!
# C113: how equilibria respond to changes
-/

namespace Verif.Response

open ChemicalProps IdealEquilibrium Activity
open ArraySerialization (Props)

/-! ## Matter -/

/-- The gradient along the way to a point with other amounts of elements. -/
theorem variational_matter (pr : Problem) (n q n' q' b b' : List ℝ) (props : Props ℝ) (y : Nat → ℝ)
    (hf : Feasible (withAmounts pr b) n q) (hy : Potentials pr n q props y) (h' : Feasible (withAmounts pr b') n' q') :
    ∑ i ∈ Finset.range pr.A.length, y i * (b'.getD i 0 - b.getD i 0) ≤
      ∑ j ∈ Finset.range (n.length + q.length), (pr.gradient n props.u).getD j 0 * ((n' ++ q').getD j 0 - (n ++ q).getD j 0) := by
  have hl : (n ++ q).length = n.length + q.length := List.length_append
  have hl' : (n' ++ q').length = n.length + q.length := by
    rw [List.length_append, hf.species, hf.titrants, h'.species, h'.titrants]
    rfl
  have hz : ∑ j ∈ Finset.range (n.length + q.length), (∑ i ∈ Finset.range pr.A.length, y i * (((pr.A.getD i []).getD j 0 : Rat) : ℝ)) *
      ((n' ++ q').getD j 0 - (n ++ q).getD j 0) = ∑ i ∈ Finset.range pr.A.length, y i * (b'.getD i 0 - b.getD i 0) := by
    have e : ∀ j ∈ Finset.range (n.length + q.length),
        (∑ i ∈ Finset.range pr.A.length, y i * (((pr.A.getD i []).getD j 0 : Rat) : ℝ)) * ((n' ++ q').getD j 0 - (n ++ q).getD j 0) =
        ∑ i ∈ Finset.range pr.A.length, y i * ((((pr.A.getD i []).getD j 0 : Rat) : ℝ) * (n' ++ q').getD j 0 -
          (((pr.A.getD i []).getD j 0 : Rat) : ℝ) * (n ++ q).getD j 0) := by
      intro j _
      rw [Finset.sum_mul]
      exact Finset.sum_congr rfl fun i _ => by ring
    rw [Finset.sum_congr rfl e, Finset.sum_comm]
    apply Finset.sum_congr rfl
    intro i hi
    rw [Finset.mem_range] at hi
    rw [← Finset.mul_sum, Finset.sum_sub_distrib]
    have b1 := hf.balances i hi
    have b2 := h'.balances i hi
    unfold balance at b1 b2
    rw [hl] at b1
    rw [hl'] at b2
    simp only [withAmounts] at b1 b2
    rw [b1, b2]
  rw [← hz, ← sub_nonneg, ← Finset.sum_sub_distrib]
  apply Finset.sum_nonneg
  intro j hj
  rw [Finset.mem_range] at hj
  rw [← sub_mul]
  obtain ⟨y1, y2⟩ := hy j hj
  rcases lt_trichotomy ((pr.gradient n props.u).getD j 0 -
      ∑ i ∈ Finset.range pr.A.length, y i * (((pr.A.getD i []).getD j 0 : Rat) : ℝ)) 0 with hlt | heq | hgt
  · obtain ⟨v, hv, hx⟩ := y2 hlt
    have := h'.upper j v hv
    exact mul_nonneg_of_nonpos_of_nonpos hlt.le (by rw [hx]; linarith)
  · rw [heq, zero_mul]
  · obtain ⟨v, hv, hx⟩ := y1 hgt
    have := h'.lower j v hv
    exact mul_nonneg hgt.le (by rw [hx]; linarith)

/-- **C113 (matter).** Adding matter to a system does not lower the chemical potential of what was added: for two equilibria that differ in the amounts of the elements,
the changes of the chemical potentials of the elements times the changes of their amounts have a sum that is not negative. -/
theorem C113_matter (pr : Problem) (hr : Regular pr) (b b' : List ℝ) (n q n' q' : List ℝ) (props props' : Props ℝ) (y y' : Nat → ℝ)
    (hf : Feasible (withAmounts pr b) n q) (hh : Has pr n props) (hy : Potentials pr n q props y)
    (hf' : Feasible (withAmounts pr b') n' q') (hh' : Has pr n' props') (hy' : Potentials pr n' q' props' y') :
    0 ≤ ∑ i ∈ Finset.range pr.A.length, (y' i - y i) * (b'.getD i 0 - b.getD i 0) := by
  have hp : ∀ z ∈ n, 0 < z := positive_of_feasible (withAmounts pr b) ⟨⟨hr.sizes, hr.nonempty⟩, hr.gas, hr.barrier, hr.stable, hr.positive⟩ n q hf
  have hp' : ∀ z ∈ n', 0 < z := positive_of_feasible (withAmounts pr b') ⟨⟨hr.sizes, hr.nonempty⟩, hr.gas, hr.barrier, hr.stable, hr.positive⟩ n' q' hf'
  have hs : n.length = count pr.phases := hf.species
  have hs' : n'.length = count pr.phases := hf'.species
  have ht : q.length = pr.uq.length := hf.titrants
  have ht' : q'.length = pr.uq.length := hf'.titrants
  have hu := u_length pr hr.toProper n hs props hh
  have hu' := u_length pr hr.toProper n' hs' props' hh'
  have hnn : n'.length = n.length := by rw [hs, hs']
  have hqq : q'.length = q.length := by rw [ht, ht']
  have v1 := variational_matter pr n q n' q' b b' props y hf hy hf'
  have v2 := variational_matter pr n' q' n q b' b props' y' hf' hy' hf
  rw [gradient_sum pr n q n' q' props.u hu hnn ht hqq] at v1
  rw [gradient_sum pr n' q' n q props'.u hu' hnn.symm ht' hqq.symm, hnn] at v2
  have t1 := (system_tangent pr hr n n' hs hs' hp hp' props props' hh hh').1
  have t2 := (system_tangent pr hr n' n hs' hs hp' hp props' props hh' hh).1
  have hterm : ∀ j ∈ Finset.range n.length, 0 ≤ (n'.getD j 0 / n.getD j 0 - n.getD j 0 / n.getD j 0) +
      (n.getD j 0 / n'.getD j 0 - n'.getD j 0 / n'.getD j 0) := by
    intro j hj
    rw [Finset.mem_range] at hj
    have h1 := getD_pos n hp j hj
    have h2 := getD_pos n' hp' j (by omega)
    have : (n'.getD j 0 / n.getD j 0 - n.getD j 0 / n.getD j 0) + (n.getD j 0 / n'.getD j 0 - n'.getD j 0 / n'.getD j 0) =
        (n'.getD j 0 - n.getD j 0) ^ 2 / (n.getD j 0 * n'.getD j 0) := by
      field_simp
      ring
    rw [this]
    positivity
  have hsum := Finset.sum_nonneg hterm
  rw [Finset.sum_add_distrib] at hsum
  have hk := mul_nonneg hr.barrier hsum
  have hle : ((dot n' props.u - dot n' props'.u) + (dot n props'.u - dot n props.u)) / (pr.R * pr.T) ≤ 0 :=
    div_nonpos_of_nonpos_of_nonneg (by linarith) hr.gas.le
  have e1 : ∑ i ∈ Finset.range pr.A.length, (y' i - y i) * (b'.getD i 0 - b.getD i 0) =
      -(∑ i ∈ Finset.range pr.A.length, y i * (b'.getD i 0 - b.getD i 0) + ∑ i ∈ Finset.range pr.A.length, y' i * (b.getD i 0 - b'.getD i 0)) := by
    rw [← Finset.sum_add_distrib, ← Finset.sum_neg_distrib]
    exact Finset.sum_congr rfl fun i _ => by ring
  rw [e1]
  have e2 : ((dot n' props.u - dot n' props'.u) + (dot n props'.u - dot n props.u)) / (pr.R * pr.T) =
      (dot n' props.u - dot n props.u) / (pr.R * pr.T) + (dot n props'.u - dot n' props'.u) / (pr.R * pr.T) := by ring
  have e3 : (dot q pr.uq - dot q' pr.uq) / (pr.R * pr.T) = -((dot q' pr.uq - dot q pr.uq) / (pr.R * pr.T)) := by ring
  rw [e2] at hle
  rw [e3] at v2
  rw [mul_add] at hk
  linarith

/-- **C113 (one species).** Adding some of a species does not lower its chemical potential, less the contribution of the barrier. -/
theorem C113_species (pr : Problem) (hr : Regular pr) (b b' : List ℝ) (n q n' q' : List ℝ) (props props' : Props ℝ) (y y' : Nat → ℝ)
    (hf : Feasible (withAmounts pr b) n q) (hh : Has pr n props) (hy : Potentials pr n q props y)
    (hf' : Feasible (withAmounts pr b') n' q') (hh' : Has pr n' props') (hy' : Potentials pr n' q' props' y')
    (j : Nat) (hj : j < n.length) (hfree : Free pr n q j) (hfree' : Free pr n' q' j)
    (t : ℝ) (ht : 0 < t) (hb : ∀ i < pr.A.length, b'.getD i 0 = b.getD i 0 + t * (((pr.A.getD i []).getD j 0 : Rat) : ℝ)) :
    props.u.getD j 0 / (pr.R * pr.T) - pr.eps * pr.factor / n.getD j 0 ≤ props'.u.getD j 0 / (pr.R * pr.T) - pr.eps * pr.factor / n'.getD j 0 ∧
      (pr.eps * pr.factor = 0 → props.u.getD j 0 ≤ props'.u.getD j 0) := by
  have h := C113_matter pr hr b b' n q n' q' props props' y y' hf hh hy hf' hh' hy'
  have hs : n.length = count pr.phases := hf.species
  have hs' : n'.length = count pr.phases := hf'.species
  have hu := u_length pr hr.toProper n hs props hh
  have hu' := u_length pr hr.toProper n' hs' props' hh'
  have key : ∀ (m p : List ℝ) (P : Props ℝ) (z : Nat → ℝ), P.u.length = m.length → j < m.length → Potentials pr m p P z → Free pr m p j →
      ∑ i ∈ Finset.range pr.A.length, z i * (((pr.A.getD i []).getD j 0 : Rat) : ℝ) = P.u.getD j 0 / (pr.R * pr.T) - pr.eps * pr.factor / m.getD j 0 := by
    intro m p P z hm hjm hz hfr
    obtain ⟨z1, z2⟩ := hz j (by omega)
    have hg : (pr.gradient m P.u).getD j 0 = P.u.getD j 0 / (pr.R * pr.T) - pr.eps * pr.factor / m.getD j 0 := by
      unfold Problem.gradient EquilibriumSetup.gradX
      rw [List.getD_append _ _ _ _ (by simp [EquilibriumSetup.gradN, hm, hjm])]
      unfold EquilibriumSetup.gradN
      simp only [List.getD_eq_getElem?_getD, List.getElem?_zipWith, List.getElem?_eq_getElem hjm, List.getElem?_eq_getElem (show j < P.u.length by omega), Option.getD_some]
    rw [hg] at z1 z2
    rcases lt_trichotomy (P.u.getD j 0 / (pr.R * pr.T) - pr.eps * pr.factor / m.getD j 0 -
      ∑ i ∈ Finset.range pr.A.length, z i * (((pr.A.getD i []).getD j 0 : Rat) : ℝ)) 0 with hlt | heq | hgt
    · obtain ⟨v, hv, hx⟩ := z2 hlt
      exact absurd hx (hfr.2 v hv)
    · linarith
    · obtain ⟨v, hv, hx⟩ := z1 hgt
      exact absurd hx (hfr.1 v hv)
  have e : ∑ i ∈ Finset.range pr.A.length, (y' i - y i) * (b'.getD i 0 - b.getD i 0) =
      t * (∑ i ∈ Finset.range pr.A.length, y' i * (((pr.A.getD i []).getD j 0 : Rat) : ℝ) - ∑ i ∈ Finset.range pr.A.length, y i * (((pr.A.getD i []).getD j 0 : Rat) : ℝ)) := by
    rw [← Finset.sum_sub_distrib, Finset.mul_sum]
    apply Finset.sum_congr rfl
    intro i hi
    rw [hb i (Finset.mem_range.1 hi)]
    ring
  rw [e, key n q props y hu hj hy hfree, key n' q' props' y' hu' (by omega) hy' hfree'] at h
  have h2 := nonneg_of_mul_nonneg_right h ht
  refine ⟨by linarith, fun h0 => ?_⟩
  rw [h0, zero_div, zero_div, sub_zero, sub_zero, ← sub_div] at h2
  have := (div_nonneg_iff.1 h2)
  rcases this with h3 | h3
  · linarith [h3.1]
  · linarith [h3.2, hr.gas]

/-! ## Two systems together -/

theorem getD_together (n n' : List ℝ) (h : n.length = n'.length) (j : Nat) : (together n n').getD j 0 = n.getD j 0 + n'.getD j 0 := by
  unfold together
  simp only [List.getD_eq_getElem?_getD, List.getElem?_zipWith]
  by_cases hj : j < n.length
  · rw [List.getElem?_eq_getElem hj, List.getElem?_eq_getElem (by omega : j < n'.length)]
    simp
  · rw [List.getElem?_eq_none (by omega), List.getElem?_eq_none (by omega)]
    simp

theorem dot_together : ∀ n n' u : List ℝ, n.length = n'.length → dot (together n n') u = dot n u + dot n' u := by
  intro n
  induction n with
  | nil => intro n' u h; rw [List.length_eq_zero_iff.1 h.symm]; simp [together, dot]
  | cons a n ih =>
    intro n' u h
    cases n' with
    | nil => simp at h
    | cons a' n' =>
      cases u with
      | nil => simp [dot]
      | cons v u =>
        have e := ih n' u (by simpa using h)
        unfold together at e ⊢
        rw [List.zipWith_cons_cons, dot_cons, dot_cons, dot_cons, e]
        ring

theorem logs_eq (n : List ℝ) : logs n = ∑ j ∈ Finset.range n.length, Real.log (n.getD j 0) := by
  unfold logs
  induction n with
  | nil => simp
  | cons a n ih =>
    rw [List.map_cons, List.sum_cons, ih, List.length_cons, Finset.sum_range_succ']
    simp [add_comm]

theorem energy_closed (pr : Problem) (n u : List ℝ) (hu : u.length = n.length) :
    energy pr n [] u = dot n u / (pr.R * pr.T) - pr.eps * pr.factor * logs n := by
  unfold energy
  rw [objective_eq pr _ _ hu, ← logs_eq]
  simp [dot]

/-- **C113 (two systems).** When two closed systems at the same temperature and pressure are put together, the Gibbs energy of the equilibrium state is not greater than the sum
of the Gibbs energies of the two, whatever states they were in, apart from the contribution of the barrier. Without barrier it is the same only if each phase
had the same composition in both systems. -/
theorem C113_together (pr : Problem) (hr : Regular pr) (hclosed : pr.uq = []) (b b' : List ℝ) (hb : ∀ i < pr.A.length, pr.b.getD i 0 = b.getD i 0 + b'.getD i 0)
    (n1 n2 n : List ℝ) (p1 p2 p12 p : Props ℝ)
    (hf1 : Feasible (withAmounts pr b) n1 []) (hh1 : Has pr n1 p1) (hf2 : Feasible (withAmounts pr b') n2 []) (hh2 : Has pr n2 p2)
    (hupper : ∀ (j : Nat) (v : Rat), pr.upper[j]? = some (some v) → n1.getD j 0 + n2.getD j 0 ≤ v)
    (hh12 : Has pr (together n1 n2) p12) (h : Equilibrium pr n [] p) :
    dot n p.u / (pr.R * pr.T) - pr.eps * pr.factor * logs n ≤
      (dot n1 p1.u + dot n2 p2.u) / (pr.R * pr.T) - pr.eps * pr.factor * logs (together n1 n2) ∧
    (pr.eps * pr.factor = 0 → dot n p.u ≤ dot n1 p1.u + dot n2 p2.u ∧
      (dot n p.u = dot n1 p1.u + dot n2 p2.u → ∀ i < pr.phases.length, fractions (block pr n1 i) = fractions (block pr n2 i))) := by
  have hs1 : n1.length = count pr.phases := hf1.species
  have hs2 : n2.length = count pr.phases := hf2.species
  have hl : n1.length = n2.length := by rw [hs1, hs2]
  have hs12 : (together n1 n2).length = count pr.phases := by unfold together; rw [List.length_zipWith, ← hl, min_self, hs1]
  have hp1 : ∀ z ∈ n1, 0 < z := positive_of_feasible (withAmounts pr b) ⟨⟨hr.sizes, hr.nonempty⟩, hr.gas, hr.barrier, hr.stable, hr.positive⟩ n1 [] hf1
  have hp2 : ∀ z ∈ n2, 0 < z := positive_of_feasible (withAmounts pr b') ⟨⟨hr.sizes, hr.nonempty⟩, hr.gas, hr.barrier, hr.stable, hr.positive⟩ n2 [] hf2
  have hf12 : Feasible pr (together n1 n2) [] := by
    refine ⟨hs12, by rw [hclosed], ?_, ?_, ?_⟩
    · intro i hi
      have b1 := hf1.balances i hi
      have b2 := hf2.balances i hi
      simp only [withAmounts, balance, List.append_nil] at b1 b2 ⊢
      rw [hb i hi, ← b1, ← b2, hs12, hs1, hs2, ← Finset.sum_add_distrib]
      apply Finset.sum_congr rfl
      intro j _
      rw [getD_together _ _ hl]
      ring
    · intro j v hv
      rw [List.append_nil, getD_together _ _ hl]
      have l1 := hf1.lower j v hv
      have l2 := hf2.lower j v hv
      rw [List.append_nil] at l1 l2
      by_cases hj : j < n2.length
      · have := getD_pos n2 hp2 j hj
        linarith
      · rw [List.getD_eq_default _ _ (by omega : n2.length ≤ j)] at l2 ⊢
        rw [List.getD_eq_default _ _ (by omega : n1.length ≤ j)] at l1 ⊢
        linarith
    · intro j v hv
      rw [List.append_nil, getD_together _ _ hl]
      exact hupper j v hv
  have hp12 := positive_of_feasible pr hr _ _ hf12
  have hmin := C105_minimum_partial pr hr n [] (together n1 n2) [] p p12 h hf12 hh12
  have hu := u_length pr hr.toProper n h.1.species p h.2.1
  have hu12 := u_length pr hr.toProper _ hs12 p12 hh12
  rw [energy_closed pr _ _ hu, energy_closed pr _ _ hu12, dot_together _ _ _ hl] at hmin
  obtain ⟨t1, t1'⟩ := system_tangent pr hr (together n1 n2) n1 hs12 hs1 hp12 hp1 p12 p1 hh12 hh1
  obtain ⟨t2, t2'⟩ := system_tangent pr hr (together n1 n2) n2 hs12 hs2 hp12 hp2 p12 p2 hh12 hh2
  have hd : (dot n1 p12.u + dot n2 p12.u) / (pr.R * pr.T) ≤ (dot n1 p1.u + dot n2 p2.u) / (pr.R * pr.T) :=
    div_le_div_of_nonneg_right (by linarith) hr.gas.le
  refine ⟨by linarith, fun h0 => ?_⟩
  rw [h0, zero_mul, zero_mul, sub_zero, sub_zero, div_le_div_iff_of_pos_right hr.gas] at hmin
  refine ⟨by linarith, fun he i hi => ?_⟩
  rw [← t1' (by linarith) i hi, t2' (by linarith) i hi]

/-! ## Temperature -/

/-- **C113 (temperature).** What happens when a closed system is heated takes up heat: if one state is the equilibrium at a temperature and the other one at a higher temperature,
then at some temperature between them the second one has at least the enthalpy of the first. -/
theorem C113_temperature (pr : Problem) (lo hi : ℝ) (hlo : 0 < lo) (hlt : lo < hi) (hr : Regular (atT pr lo)) (hr' : Regular (atT pr hi))
    (n n' : List ℝ) (path path' : ℝ → Props ℝ)
    (hpath : ∀ T ∈ Set.Icc lo hi, Has (atT pr T) n (path T) ∧ Has (atT pr T) n' (path' T))
    (hcont : ContinuousOn (fun T => dot n (path T).u / T) (Set.Icc lo hi) ∧ ContinuousOn (fun T => dot n' (path' T).u / T) (Set.Icc lo hi))
    (hderiv : ∀ T ∈ Set.Ioo lo hi, HasDerivAt (fun T => dot n (path T).u / T) (-enthalpy pr.phases (path T) / T ^ 2) T ∧
      HasDerivAt (fun T => dot n' (path' T).u / T) (-enthalpy pr.phases (path' T) / T ^ 2) T)
    (h : Equilibrium (atT pr lo) n [] (path lo)) (h' : Equilibrium (atT pr hi) n' [] (path' hi)) :
    ∃ T ∈ Set.Ioo lo hi, enthalpy pr.phases (path T) ≤ enthalpy pr.phases (path' T) := by
  have hR : 0 < pr.R := (pos_iff_pos_of_mul_pos hr.gas).2 hlo
  have hhi : 0 < hi := hlo.trans hlt
  have m1 := C105_minimum_partial _ hr n [] n' [] _ _ h ⟨h'.1.species, h'.1.titrants, h'.1.balances, h'.1.lower, h'.1.upper⟩ (hpath lo ⟨le_refl _, hlt.le⟩).2
  have m2 := C105_minimum_partial _ hr' n' [] n [] _ _ h' ⟨h.1.species, h.1.titrants, h.1.balances, h.1.lower, h.1.upper⟩ (hpath hi ⟨hlt.le, le_refl _⟩).1
  have hn : n.length = count pr.phases := h.1.species
  have hn' : n'.length = count pr.phases := h'.1.species
  rw [energy_closed _ _ _ (u_length _ hr.toProper n hn _ (hpath lo ⟨le_refl _, hlt.le⟩).1), energy_closed _ _ _ (u_length _ hr.toProper n' hn' _ (hpath lo ⟨le_refl _, hlt.le⟩).2)] at m1
  rw [energy_closed _ _ _ (u_length _ hr'.toProper n hn _ (hpath hi ⟨hlt.le, le_refl _⟩).1), energy_closed _ _ _ (u_length _ hr'.toProper n' hn' _ (hpath hi ⟨hlt.le, le_refl _⟩).2)] at m2
  simp only [atT] at m1 m2
  have e : ∀ a T, a / (pr.R * T) = a / T / pr.R := fun a T => by rw [div_div, mul_comm]
  rw [e, e] at m1 m2
  have m : (dot n (path lo).u / lo - dot n' (path' lo).u / lo) / pr.R ≤ (dot n (path hi).u / hi - dot n' (path' hi).u / hi) / pr.R := by
    rw [sub_div, sub_div]
    linarith
  rw [div_le_div_iff_of_pos_right hR] at m
  obtain ⟨T, hT, hd⟩ := exists_hasDerivAt_eq_slope (fun T => dot n (path T).u / T - dot n' (path' T).u / T)
    (fun T => -enthalpy pr.phases (path T) / T ^ 2 - -enthalpy pr.phases (path' T) / T ^ 2) hlt (hcont.1.sub hcont.2) fun T hT => (hderiv T hT).1.sub (hderiv T hT).2
  refine ⟨T, hT, ?_⟩
  have hTpos : 0 < T ^ 2 := by have := hlo.trans hT.1; positivity
  have hslope : 0 ≤ -enthalpy pr.phases (path T) / T ^ 2 - -enthalpy pr.phases (path' T) / T ^ 2 := by
    rw [hd]
    exact div_nonneg (by linarith) (by linarith)
  rw [← sub_div] at hslope
  have := (div_nonneg_iff.1 hslope)
  rcases this with h3 | h3
  · linarith [h3.1]
  · linarith [h3.2]

/-! ## Pressure -/

/-- **C113 (pressure).** What happens when a system is compressed makes it smaller: if one state is the equilibrium at a pressure and the other one at a higher pressure,
then at some pressure between them the second one has at most the volume of the first. -/
theorem C113_pressure (pr : Problem) (lo hi : ℝ) (hlt : lo < hi) (hr : Regular (atP pr lo)) (hr' : Regular (atP pr hi))
    (n q n' q' : List ℝ) (path path' : ℝ → Props ℝ)
    (hpath : ∀ P ∈ Set.Icc lo hi, Has (atP pr P) n (path P) ∧ Has (atP pr P) n' (path' P))
    (hcont : ContinuousOn (fun P => dot n (path P).u) (Set.Icc lo hi) ∧ ContinuousOn (fun P => dot n' (path' P).u) (Set.Icc lo hi))
    (hderiv : ∀ P ∈ Set.Ioo lo hi, HasDerivAt (fun P => dot n (path P).u) (volume pr.phases (path P)) P ∧
      HasDerivAt (fun P => dot n' (path' P).u) (volume pr.phases (path' P)) P)
    (h : Equilibrium (atP pr lo) n q (path lo)) (h' : Equilibrium (atP pr hi) n' q' (path' hi)) :
    ∃ P ∈ Set.Ioo lo hi, volume pr.phases (path' P) ≤ volume pr.phases (path P) := by
  have hRT : 0 < pr.R * pr.T := hr.gas
  have m1 := C105_minimum_partial _ hr n q n' q' _ _ h ⟨h'.1.species, h'.1.titrants, h'.1.balances, h'.1.lower, h'.1.upper⟩ (hpath lo ⟨le_refl _, hlt.le⟩).2
  have m2 := C105_minimum_partial _ hr' n' q' n q _ _ h' ⟨h.1.species, h.1.titrants, h.1.balances, h.1.lower, h.1.upper⟩ (hpath hi ⟨hlt.le, le_refl _⟩).1
  have hn : n.length = count pr.phases := h.1.species
  have hn' : n'.length = count pr.phases := h'.1.species
  unfold energy at m1 m2
  rw [objective_eq _ _ _ (u_length _ hr.toProper n hn _ (hpath lo ⟨le_refl _, hlt.le⟩).1), objective_eq _ _ _ (u_length _ hr.toProper n' hn' _ (hpath lo ⟨le_refl _, hlt.le⟩).2)] at m1
  rw [objective_eq _ _ _ (u_length _ hr'.toProper n hn _ (hpath hi ⟨hlt.le, le_refl _⟩).1), objective_eq _ _ _ (u_length _ hr'.toProper n' hn' _ (hpath hi ⟨hlt.le, le_refl _⟩).2)] at m2
  simp only [atP] at m1 m2
  have m : (dot n (path lo).u - dot n' (path' lo).u) / (pr.R * pr.T) ≤ (dot n (path hi).u - dot n' (path' hi).u) / (pr.R * pr.T) := by
    rw [sub_div, sub_div]
    linarith
  rw [div_le_div_iff_of_pos_right hRT] at m
  obtain ⟨P, hP, hd⟩ := exists_hasDerivAt_eq_slope (fun P => dot n (path P).u - dot n' (path' P).u)
    (fun P => volume pr.phases (path P) - volume pr.phases (path' P)) hlt (hcont.1.sub hcont.2) fun P hP => (hderiv P hP).1.sub (hderiv P hP).2
  refine ⟨P, hP, ?_⟩
  have hslope : 0 ≤ volume pr.phases (path P) - volume pr.phases (path' P) := by
    rw [hd]
    exact div_nonneg (by linarith) (by linarith)
  linarith

/-! ## Ideal phases -/

theorem solution_fn (species : List (Aqueous.Species ℝ)) (T P : ℝ) (x : List ℝ) (old a : AProps ℝ) (h : activityFn idealSolution species T P x old = (a, true)) :
    a.ln_a = x.map (fun y => Real.log y + 0) ∧ a.Hex = 0 ∧ a.Vex = 0 := by
  unfold activityFn at h
  simp only [Activity.idealSolution, Res.bind_ok'] at h
  split_ifs at h
  · simp at h
  · simp only [Prod.mk.injEq, and_true] at h
    rw [← h]
    exact ⟨by simp, rfl, rfl⟩

theorem gas_fn (species : List (Aqueous.Species ℝ)) (T P : ℝ) (x : List ℝ) (old a : AProps ℝ) (h : activityFn idealGas species T P x old = (a, true)) :
    a.ln_a = x.map (fun y => Real.log y + Real.log (P * (1 / 100000))) ∧ a.Hex = 0 ∧ a.Vex = 0 := by
  unfold activityFn at h
  simp only [Activity.idealGas, Res.bind_ok'] at h
  split_ifs at h
  · simp at h
  · simp only [Prod.mk.injEq, and_true] at h
    rw [← h]
    exact ⟨rfl, rfl, rfl⟩

theorem list_of_entries (l : List ℝ) (m : Nat) (f : Nat → ℝ) (hl : l.length = m) (h : ∀ k < m, l[k]? = some (f k)) (w : List ℝ) (hw : w.length = m) :
    dot w l = ∑ k ∈ Finset.range m, w.getD k 0 * f k := by
  rw [dot_range w l (by omega), hw]
  apply Finset.sum_congr rfl
  intro k hk
  rw [List.getD_eq_getElem?_getD (l := l), h k (Finset.mem_range.1 hk), Option.getD_some]

/-- The Gibbs energy, enthalpy and volume of a system with ideal phases. -/
theorem ideal_sums (pr : Problem) (hr : Proper pr) (n : List ℝ) (hn : n.length = count pr.phases) (hpos : ∀ z ∈ n, 0 < z) (props : Props ℝ) (h : Has pr n props)
    (s : Nat → Nat → Std ℝ) (c : Nat → ℝ)
    (hs : ∀ i (hi : i < pr.phases.length) k (hk : k < pr.phases[i].species.length), pr.phases[i].species[k] pr.T pr.P = some (s i k))
    (ha : ∀ i (hi : i < pr.phases.length) x old a, pr.phases[i].activity pr.T pr.P x old = (a, true) →
      a.ln_a = x.map (fun y => Real.log y + c i) ∧ a.Hex = 0 ∧ a.Vex = 0) :
    dot n props.u = ∑ i ∈ Finset.range pr.phases.length, ∑ k ∈ Finset.range (sizeAt pr.phases i), (block pr n i).getD k 0 *
      ((s i k).G0 + pr.R * pr.T * (Real.log ((block pr n i).getD k 0 / (block pr n i).sum) + c i)) ∧
    enthalpy pr.phases props = ∑ i ∈ Finset.range pr.phases.length, ∑ k ∈ Finset.range (sizeAt pr.phases i), (block pr n i).getD k 0 * (s i k).H0 ∧
    volume pr.phases props = ∑ i ∈ Finset.range pr.phases.length, ∑ k ∈ Finset.range (sizeAt pr.phases i), (block pr n i).getD k 0 * (s i k).V0 := by
  have hsh := props_shape pr hr n props h
  obtain ⟨old, hso, hu⟩ := id h
  obtain ⟨-, -, -, hc⟩ := C32_update pr.R pr.phases hr.sizes hr.nonempty false old hso pr.T pr.P n props hu
  have en : n = (List.range pr.phases.length).flatMap (block pr n) := (blocks_cover pr.phases n hn).symm
  have eu := (C32_blocks pr.phases props hsh).2.2.2.2.2.2.2.2.2.2
  have hb : ∀ i (hi : i < pr.phases.length), seg n (before pr.phases i) pr.phases[i].size = block pr n i := fun i hi => by
    unfold block; rw [sizeAt_of_lt pr.phases i hi]
  have hsum : ∀ i (hi : i < pr.phases.length), (block pr n i).sum ≠ 0 := by
    intro i hi
    have hlen := block_length pr n hn i hi
    refine (sum_pos' _ ?_ (fun y hy => hpos y (block_mem pr n i y hy))).ne'
    intro h0
    rw [h0, List.length_nil, sizeAt_of_lt pr.phases i hi] at hlen
    exact hr.nonempty _ (List.getElem_mem hi) hlen.symm
  have hstd : ∀ i (hi : i < pr.phases.length) k, k < sizeAt pr.phases i → (view pr.phases props i).G0[k]? = some (s i k).G0 ∧
      (view pr.phases props i).H0[k]? = some (s i k).H0 ∧ (view pr.phases props i).V0[k]? = some (s i k).V0 := by
    intro i hi k hk
    rw [sizeAt_of_lt pr.phases i hi] at hk
    obtain ⟨s', b1, b2, b3, b4, -⟩ := (hc i hi).standard k _ (List.getElem?_eq_getElem hk)
    rw [hs i hi k hk] at b1
    cases b1
    exact ⟨b2, b3, b4⟩
  have molar : ∀ i (hi : i < pr.phases.length) (l : List ℝ) (f : Nat → ℝ), l.length = sizeAt pr.phases i → (∀ k < sizeAt pr.phases i, l[k]? = some (f k)) →
      (List.zipWith (· * ·) (view pr.phases props i).x l).sum * (view pr.phases props i).nsum = ∑ k ∈ Finset.range (sizeAt pr.phases i), (block pr n i).getD k 0 * f k := by
    intro i hi l f hl hf
    have hx := (hc i hi).fractions (by rw [hb i hi]; exact hsum i hi)
    have hns := (hc i hi).amount
    rw [hb i hi] at hx hns
    rw [hx, hns]
    change dot _ l * _ = _
    rw [list_of_entries l _ f hl hf _ (by rw [List.length_map, block_length pr n hn i hi]), Finset.sum_mul]
    apply Finset.sum_congr rfl
    intro k hk
    rw [Finset.mem_range] at hk
    have hkb : k < (block pr n i).length := by rw [block_length pr n hn i hi]; exact hk
    have := hsum i hi
    rw [List.getD_eq_getElem?_getD, List.getD_eq_getElem?_getD, List.getElem?_map, List.getElem?_eq_getElem hkb, Option.map_some, Option.getD_some, Option.getD_some]
    field_simp
  have lists : ∀ f : Nat → ℝ, ((List.range pr.phases.length).map f).sum = ∑ i ∈ Finset.range pr.phases.length, f i := fun f => by
    rw [Finset.sum_range, ← List.sum_ofFn]
    congr 1
    apply List.ext_getElem
    · simp
    · intro k _ _
      simp
  refine ⟨?_, ?_, ?_⟩
  · conv_lhs => rw [eu, en]
    rw [dot_flatMap _ _ _ (by
      intro i hi
      rw [List.mem_range] at hi
      rw [block_length pr n hn i hi, (view_sized pr.phases props hsh i hi).u]), lists]
    apply Finset.sum_congr rfl
    intro i hi
    rw [Finset.mem_range] at hi
    have l1 := view_sized pr.phases props hsh i hi
    obtain ⟨-, ⟨o, a, ho, ea⟩, hu⟩ := phase_props pr hr n hn hpos props h i hi
    apply list_of_entries _ _ _ l1.u _ _ (block_length pr n hn i hi)
    intro k hk
    have hkb : k < (block pr n i).length := by rw [block_length pr n hn i hi]; exact hk
    rw [hu, ← ea, (ha i hi _ _ _ ho).1, List.getElem?_zipWith, (hstd i hi k hk).1, List.getElem?_map]
    unfold fractions
    rw [List.getElem?_map, List.getElem?_eq_getElem hkb, List.getD_eq_getElem?_getD, List.getElem?_eq_getElem hkb]
    rfl
  · unfold enthalpy
    rw [total_eq, lists]
    apply Finset.sum_congr rfl
    intro i hi
    rw [Finset.mem_range] at hi
    obtain ⟨o, ho⟩ := (hc i hi).activity (by rw [hb i hi]; exact hsum i hi)
    have hex : (view pr.phases props i).Hex = 0 := (ha i hi _ _ _ ho).2.1
    unfold PhaseData.H PhaseData.molarH PhaseData.amount
    rw [hex, add_zero]
    exact molar i hi _ _ (view_sized pr.phases props hsh i hi).H0 fun k hk => (hstd i hi k hk).2.1
  · unfold volume
    rw [total_eq, lists]
    apply Finset.sum_congr rfl
    intro i hi
    rw [Finset.mem_range] at hi
    obtain ⟨o, ho⟩ := (hc i hi).activity (by rw [hb i hi]; exact hsum i hi)
    have hex : (view pr.phases props i).Vex = 0 := (ha i hi _ _ _ ho).2.2
    unfold PhaseData.V PhaseData.molarV PhaseData.amount
    rw [hex, add_zero]
    exact molar i hi _ _ (view_sized pr.phases props hsh i hi).V0 fun k hk => (hstd i hi k hk).2.2

/-- A phase with an ideal model meets Gibbs' criterion and returns for arrays of the right size. -/
theorem ideal_phase (ph : PhaseModel ℝ) (model : Model) (hm : Ideal model) (h : HasModel ph model) (T P : ℝ) :
    Stable ph T P ∧ ∀ x a, x.length = ph.size → a.ln_g.length = ph.size → a.ln_a.length = ph.size → (ph.activity T P x a).2 = true := by
  obtain ⟨standard, species, ideal, hl, rfl⟩ := h
  refine ⟨C105_ideal_stable standard species model ideal hm T P, ?_⟩
  intro x a h1 h2 h3
  have e : (phase standard species model ideal).size = species.length := by rw [hl]; rfl
  rw [e] at h1 h2 h3
  exact (activityFn_ideal model hm species).2.2 T P x a h1 h2 h3

/-- **C113 (temperature, ideal phases).** In a closed system of ideal phases, whose species have standard models that satisfy the equation of Gibbs and Helmholtz, the equilibrium
state at the higher temperature has at least the enthalpy of the equilibrium state at the lower temperature, when both are brought to some temperature between. -/
theorem C113_ideal_temperature (pr : Problem) (hp : Proper pr) (hR : 0 < pr.R) (hbarrier : 0 ≤ pr.eps * pr.factor)
    (hpositive : ∀ j < count pr.phases, ∃ v : Rat, pr.lower[j]? = some (some v) ∧ 0 < v)
    (hideal : ∀ ph ∈ pr.phases, HasModel ph idealSolution ∨ HasModel ph idealGas) (lo hi : ℝ) (hlo : 0 < lo) (hlt : lo < hi)
    (hstd : ∀ ph ∈ pr.phases, ∀ f ∈ ph.species, GibbsHelmholtz f pr.P lo hi)
    (n n' : List ℝ) (props props' : Props ℝ) (h : Equilibrium (atT pr lo) n [] props) (h' : Equilibrium (atT pr hi) n' [] props') :
    ∃ T ∈ Set.Ioo lo hi, (∃ p p', Has (atT pr T) n p ∧ Has (atT pr T) n' p') ∧
      ∀ p p', Has (atT pr T) n p → Has (atT pr T) n' p' → enthalpy pr.phases p ≤ enthalpy pr.phases p' := by
  have hideal' : ∀ ph ∈ pr.phases, ∃ model, Ideal model ∧ HasModel ph model := fun ph hph => by
    rcases hideal ph hph with h | h
    · exact ⟨_, Or.inl rfl, h⟩
    · exact ⟨_, Or.inr rfl, h⟩
  have hproper : ∀ T, Proper (atT pr T) := fun T => ⟨hp.sizes, hp.nonempty⟩
  have hregular : ∀ T, 0 < T → Regular (atT pr T) := fun T hT => ⟨hproper T, mul_pos hR hT, hbarrier, fun ph hph => by
    obtain ⟨model, hm, hph⟩ := hideal' ph hph
    exact (ideal_phase ph model hm hph T pr.P).1, hpositive⟩
  have hhi := hlo.trans hlt
  have hn : n.length = count pr.phases := h.1.species
  have hn' : n'.length = count pr.phases := h'.1.species
  have hpos := positive_of_feasible _ (hregular lo hlo) n [] h.1
  have hpos' := positive_of_feasible _ (hregular hi hhi) n' [] h'.1
  have hex : ∀ T ∈ Set.Icc lo hi, ∀ m : List ℝ, m.length = count pr.phases → (∀ z ∈ m, 0 < z) → ∃ p, Has (atT pr T) m p := by
    intro T hT m hm hmpos
    refine has_exists (atT pr T) (hproper T) m hm hmpos ?_ ?_
    · intro ph hph f hf
      obtain ⟨s, hs, -⟩ := hstd ph hph f hf
      change (f T pr.P).isSome = true
      rw [hs T hT]
      rfl
    · intro ph hph
      obtain ⟨model, hm, hph⟩ := hideal' ph hph
      exact (ideal_phase ph model hm hph T pr.P).2
  -- the standard models and the constants of the activities
  have hs0 : ∀ i k, ∃ s : ℝ → Std ℝ, ∀ (hi' : i < pr.phases.length) (hk : k < pr.phases[i].species.length),
      (∀ T ∈ Set.Icc lo hi, pr.phases[i].species[k] T pr.P = some (s T)) ∧ ContinuousOn (fun T => (s T).G0) (Set.Icc lo hi) ∧
        ∀ T ∈ Set.Ioo lo hi, HasDerivAt (fun T => (s T).G0 / T) (-(s T).H0 / T ^ 2) T := by
    intro i k
    by_cases hik : ∃ hi' : i < pr.phases.length, k < pr.phases[i].species.length
    · obtain ⟨hi', hk⟩ := hik
      obtain ⟨s, hs⟩ := hstd _ (List.getElem_mem hi') _ (List.getElem_mem hk)
      exact ⟨s, fun _ _ => hs⟩
    · exact ⟨fun _ => ⟨0, 0, 0, 0, 0⟩, fun hi' hk => absurd ⟨hi', hk⟩ hik⟩
  choose s hs using hs0
  have hc0 : ∀ i, ∃ c : ℝ, ∀ (hi' : i < pr.phases.length) T x old a, pr.phases[i].activity T pr.P x old = (a, true) →
      a.ln_a = x.map (fun y => Real.log y + c) ∧ a.Hex = 0 ∧ a.Vex = 0 := by
    intro i
    by_cases hi' : i < pr.phases.length
    · rcases hideal _ (List.getElem_mem hi') with ⟨standard, species, ideal, -, e⟩ | ⟨standard, species, ideal, -, e⟩
      · refine ⟨0, fun _ T x old a ha => ?_⟩
        rw [e] at ha
        exact solution_fn species T pr.P x old a ha
      · refine ⟨Real.log (pr.P * (1 / 100000)), fun _ T x old a ha => ?_⟩
        rw [e] at ha
        exact gas_fn species T pr.P x old a ha
    · exact ⟨0, fun h => absurd h hi'⟩
  choose c hc using hc0
  -- Gibbs energy and enthalpy
  have sums : ∀ m : List ℝ, m.length = count pr.phases → (∀ z ∈ m, 0 < z) → ∀ T ∈ Set.Icc lo hi, ∀ p, Has (atT pr T) m p →
      dot m p.u / T = (∑ i ∈ Finset.range pr.phases.length, ∑ k ∈ Finset.range (sizeAt pr.phases i), (block pr m i).getD k 0 *
        ((s i k T).G0 / T + pr.R * (Real.log ((block pr m i).getD k 0 / (block pr m i).sum) + c i))) ∧
      enthalpy pr.phases p = ∑ i ∈ Finset.range pr.phases.length, ∑ k ∈ Finset.range (sizeAt pr.phases i), (block pr m i).getD k 0 * (s i k T).H0 := by
    intro m hm hmpos T hT p hhas
    obtain ⟨e1, e2, -⟩ := ideal_sums (atT pr T) (hproper T) m hm hmpos p hhas (fun i k => s i k T) c (fun i hi' k hk => (hs i k hi' hk).1 T hT)
      (fun i hi' x old a ha => hc i hi' T x old a ha)
    refine ⟨?_, e2⟩
    have hT0 : T ≠ 0 := (hlo.trans_le hT.1).ne'
    rw [e1, Finset.sum_div]
    apply Finset.sum_congr rfl
    intro i _
    rw [Finset.sum_div]
    apply Finset.sum_congr rfl
    intro k _
    simp only [atT, block]
    field_simp
  have hsize : ∀ i k, i ∈ Finset.range pr.phases.length → k ∈ Finset.range (sizeAt pr.phases i) → ∃ hi' : i < pr.phases.length, k < pr.phases[i].species.length := by
    intro i k h1 h2
    rw [Finset.mem_range] at h1 h2
    rw [sizeAt_of_lt pr.phases i h1] at h2
    exact ⟨h1, h2⟩
  have cont : ∀ m : List ℝ, ContinuousOn (fun T => ∑ i ∈ Finset.range pr.phases.length, ∑ k ∈ Finset.range (sizeAt pr.phases i), (block pr m i).getD k 0 *
        ((s i k T).G0 / T + pr.R * (Real.log ((block pr m i).getD k 0 / (block pr m i).sum) + c i))) (Set.Icc lo hi) := by
    intro m
    refine continuousOn_finset_sum _ fun i h1 => continuousOn_finset_sum _ fun k h2 => ?_
    obtain ⟨hi', hk⟩ := hsize i k h1 h2
    exact continuousOn_const.mul (((hs i k hi' hk).2.1.div continuousOn_id fun T hT => (hlo.trans_le hT.1).ne').add continuousOn_const)
  have der : ∀ m : List ℝ, ∀ T ∈ Set.Ioo lo hi, HasDerivAt (fun T => ∑ i ∈ Finset.range pr.phases.length, ∑ k ∈ Finset.range (sizeAt pr.phases i), (block pr m i).getD k 0 *
        ((s i k T).G0 / T + pr.R * (Real.log ((block pr m i).getD k 0 / (block pr m i).sum) + c i)))
      (-(∑ i ∈ Finset.range pr.phases.length, ∑ k ∈ Finset.range (sizeAt pr.phases i), (block pr m i).getD k 0 * (s i k T).H0) / T ^ 2) T := by
    intro m T hT
    have e : -(∑ i ∈ Finset.range pr.phases.length, ∑ k ∈ Finset.range (sizeAt pr.phases i), (block pr m i).getD k 0 * (s i k T).H0) / T ^ 2 =
        ∑ i ∈ Finset.range pr.phases.length, ∑ k ∈ Finset.range (sizeAt pr.phases i), (block pr m i).getD k 0 * (-(s i k T).H0 / T ^ 2) := by
      rw [neg_div, Finset.sum_div, ← Finset.sum_neg_distrib]
      refine Finset.sum_congr rfl fun i _ => ?_
      rw [Finset.sum_div, ← Finset.sum_neg_distrib]
      exact Finset.sum_congr rfl fun k _ => by ring
    rw [e]
    refine HasDerivAt.fun_sum fun i h1 => HasDerivAt.fun_sum fun k h2 => ?_
    obtain ⟨hi', hk⟩ := hsize i k h1 h2
    exact (((hs i k hi' hk).2.2 T hT).add_const _).const_mul _
  -- the properties along the way
  classical
  have hpath : ∀ (m : List ℝ) (T0 : ℝ) (p0 : Props ℝ), m.length = count pr.phases → (∀ z ∈ m, 0 < z) → T0 ∈ Set.Icc lo hi → Has (atT pr T0) m p0 →
      ∃ path : ℝ → Props ℝ, path T0 = p0 ∧ ∀ T ∈ Set.Icc lo hi, Has (atT pr T) m (path T) := by
    intro m T0 p0 hm hmpos hT0 h0
    have : ∀ T, ∃ p, (T = T0 → p = p0) ∧ (T ∈ Set.Icc lo hi → Has (atT pr T) m p) := by
      intro T
      by_cases e : T = T0
      · exact ⟨p0, fun _ => rfl, fun _ => by rw [e]; exact h0⟩
      · by_cases hT : T ∈ Set.Icc lo hi
        · obtain ⟨p, hp⟩ := hex T hT m hm hmpos
          exact ⟨p, fun h => absurd h e, fun _ => hp⟩
        · exact ⟨p0, fun h => absurd h e, fun h => absurd h hT⟩
    choose path h1 h2 using this
    exact ⟨path, h1 T0 rfl, h2⟩
  have hlo' : lo ∈ Set.Icc lo hi := ⟨le_refl _, hlt.le⟩
  have hhi' : hi ∈ Set.Icc lo hi := ⟨hlt.le, le_refl _⟩
  obtain ⟨path, e1, w1⟩ := hpath n lo props hn hpos hlo' h.2.1
  obtain ⟨path', e2, w2⟩ := hpath n' hi props' hn' hpos' hhi' h'.2.1
  subst e1 e2
  have near : ∀ (m : List ℝ) (path : ℝ → Props ℝ), m.length = count pr.phases → (∀ z ∈ m, 0 < z) → (∀ T ∈ Set.Icc lo hi, Has (atT pr T) m (path T)) →
      ContinuousOn (fun T => dot m (path T).u / T) (Set.Icc lo hi) ∧
      ∀ T ∈ Set.Ioo lo hi, HasDerivAt (fun T => dot m (path T).u / T) (-enthalpy pr.phases (path T) / T ^ 2) T := by
    intro m path hm hmpos w
    refine ⟨(cont m).congr fun T hT => (sums m hm hmpos T hT _ (w T hT)).1, fun T hT => ?_⟩
    have hT' : T ∈ Set.Icc lo hi := ⟨hT.1.le, hT.2.le⟩
    rw [(sums m hm hmpos T hT' _ (w T hT')).2]
    refine (der m T hT).congr_of_eventuallyEq ?_
    filter_upwards [Ioo_mem_nhds hT.1 hT.2] with T hT
    have hT' : T ∈ Set.Icc lo hi := ⟨hT.1.le, hT.2.le⟩
    exact (sums m hm hmpos T hT' _ (w T hT')).1
  obtain ⟨c1, d1⟩ := near n path hn hpos w1
  obtain ⟨c2, d2⟩ := near n' path' hn' hpos' w2
  obtain ⟨T, hT, hle⟩ := C113_temperature pr lo hi hlo hlt (hregular lo hlo) (hregular hi hhi) n n' path path' (fun T hT => ⟨w1 T hT, w2 T hT⟩) ⟨c1, c2⟩
    (fun T hT => ⟨d1 T hT, d2 T hT⟩) h h'
  have hT' : T ∈ Set.Icc lo hi := ⟨hT.1.le, hT.2.le⟩
  refine ⟨T, hT, ⟨path T, path' T, w1 T hT', w2 T hT'⟩, fun p p' q1 q2 => ?_⟩
  rw [(sums n hn hpos T hT' p q1).2, (sums n' hn' hpos' T hT' p' q2).2, ← (sums n hn hpos T hT' _ (w1 T hT')).2, ← (sums n' hn' hpos' T hT' _ (w2 T hT')).2]
  exact hle

/-- **C113 (pressure, ideal phases).** In a system of ideal phases, whose species have standard models with volumes that are derivatives of Gibbs energies (those of a gas with the
volume `RT/P` of an ideal gas besides), the equilibrium state at the higher pressure has at most the volume of the equilibrium state at the lower pressure, when both are brought to
some pressure between. -/
theorem C113_ideal_pressure (pr : Problem) (hp : Proper pr) (hRT : 0 < pr.R * pr.T) (hbarrier : 0 ≤ pr.eps * pr.factor)
    (hpositive : ∀ j < count pr.phases, ∃ v : Rat, pr.lower[j]? = some (some v) ∧ 0 < v) (lo hi : ℝ) (hlo : 0 < lo) (hlt : lo < hi)
    (hideal : ∀ ph ∈ pr.phases, (HasModel ph idealSolution ∧ ∀ f ∈ ph.species, VolumeIs f pr.T lo hi fun _ => 0) ∨
      (HasModel ph idealGas ∧ ∀ f ∈ ph.species, VolumeIs f pr.T lo hi fun P => pr.R * pr.T / P))
    (n q n' q' : List ℝ) (props props' : Props ℝ) (h : Equilibrium (atP pr lo) n q props) (h' : Equilibrium (atP pr hi) n' q' props') :
    ∃ P ∈ Set.Ioo lo hi, (∃ p p', Has (atP pr P) n p ∧ Has (atP pr P) n' p') ∧
      ∀ p p', Has (atP pr P) n p → Has (atP pr P) n' p' → volume pr.phases p' ≤ volume pr.phases p := by
  have hideal' : ∀ ph ∈ pr.phases, ∃ model, Ideal model ∧ HasModel ph model := fun ph hph => by
    rcases hideal ph hph with h | h
    · exact ⟨_, Or.inl rfl, h.1⟩
    · exact ⟨_, Or.inr rfl, h.1⟩
  have hproper : ∀ P, Proper (atP pr P) := fun P => ⟨hp.sizes, hp.nonempty⟩
  have hregular : ∀ P, Regular (atP pr P) := fun P => ⟨hproper P, hRT, hbarrier, fun ph hph => by
    obtain ⟨model, hm, hph⟩ := hideal' ph hph
    exact (ideal_phase ph model hm hph pr.T P).1, hpositive⟩
  have hn : n.length = count pr.phases := h.1.species
  have hn' : n'.length = count pr.phases := h'.1.species
  have hpos := positive_of_feasible _ (hregular lo) n q h.1
  have hpos' := positive_of_feasible _ (hregular hi) n' q' h'.1
  -- the standard models and the terms of the activities
  have hs0 : ∀ i, ∃ c e : ℝ → ℝ, ∀ k, ∃ s : ℝ → Std ℝ, ∀ (hi' : i < pr.phases.length), ((∀ P x old a, pr.phases[i].activity pr.T P x old = (a, true) →
      a.ln_a = x.map (fun y => Real.log y + c P) ∧ a.Hex = 0 ∧ a.Vex = 0) ∧ ContinuousOn c (Set.Icc lo hi) ∧
        ∀ P ∈ Set.Ioo lo hi, HasDerivAt (fun P => pr.R * pr.T * c P) (e P) P) ∧ ∀ (hk : k < pr.phases[i].species.length),
      (∀ P ∈ Set.Icc lo hi, pr.phases[i].species[k] pr.T P = some (s P)) ∧ ContinuousOn (fun P => (s P).G0) (Set.Icc lo hi) ∧
        ∀ P ∈ Set.Ioo lo hi, HasDerivAt (fun P => (s P).G0) ((s P).V0 - e P) P := by
    intro i
    by_cases hi' : i < pr.phases.length
    · have pick : ∀ e : ℝ → ℝ, (∀ f ∈ pr.phases[i].species, VolumeIs f pr.T lo hi e) → ∀ k, ∃ s : ℝ → Std ℝ, ∀ (hk : k < pr.phases[i].species.length),
          (∀ P ∈ Set.Icc lo hi, pr.phases[i].species[k] pr.T P = some (s P)) ∧ ContinuousOn (fun P => (s P).G0) (Set.Icc lo hi) ∧
          ∀ P ∈ Set.Ioo lo hi, HasDerivAt (fun P => (s P).G0) ((s P).V0 - e P) P := by
        intro e he k
        by_cases hk : k < pr.phases[i].species.length
        · obtain ⟨s, hs⟩ := he _ (List.getElem_mem hk)
          exact ⟨s, fun _ => hs⟩
        · exact ⟨fun _ => ⟨0, 0, 0, 0, 0⟩, fun h => absurd h hk⟩
      rcases hideal _ (List.getElem_mem hi') with ⟨⟨standard, species, ideal, -, e⟩, hv⟩ | ⟨⟨standard, species, ideal, -, e⟩, hv⟩
      · refine ⟨fun _ => 0, fun _ => 0, fun k => ?_⟩
        obtain ⟨s, hs⟩ := pick _ hv k
        refine ⟨s, fun _ => ⟨⟨fun P x old a ha => ?_, continuousOn_const, fun P _ => by simpa using hasDerivAt_const P (0 : ℝ)⟩, hs⟩⟩
        rw [e] at ha
        exact solution_fn species pr.T P x old a ha
      · refine ⟨fun P => Real.log (P * (1 / 100000)), fun P => pr.R * pr.T / P, fun k => ?_⟩
        obtain ⟨s, hs⟩ := pick _ hv k
        refine ⟨s, fun _ => ⟨⟨fun P x old a ha => ?_, ?_, fun P hP => ?_⟩, hs⟩⟩
        · rw [e] at ha
          exact gas_fn species pr.T P x old a ha
        · refine ContinuousOn.log (by fun_prop) fun P hP => ?_
          have := hlo.trans_le hP.1
          positivity
        · have hP0 : 0 < P := hlo.trans hP.1
          have := (((hasDerivAt_id P).mul_const (1 / 100000)).log (by simp only [id]; positivity)).const_mul (pr.R * pr.T)
          refine this.congr_deriv ?_
          simp only [id]
          field_simp
    · exact ⟨fun _ => 0, fun _ => 0, fun k => ⟨fun _ => ⟨0, 0, 0, 0, 0⟩, fun h => absurd h hi'⟩⟩
  choose c e s hs using hs0
  have hsome : ∀ P ∈ Set.Icc lo hi, ∀ m : List ℝ, m.length = count pr.phases → (∀ z ∈ m, 0 < z) → ∃ p, Has (atP pr P) m p := by
    intro P hP m hm hmpos
    refine has_exists (atP pr P) (hproper P) m hm hmpos ?_ ?_
    · intro ph hph f hf
      change (f pr.T P).isSome = true
      rcases hideal ph hph with h | h
      · obtain ⟨s, hs, -⟩ := h.2 f hf
        rw [hs P hP]
        rfl
      · obtain ⟨s, hs, -⟩ := h.2 f hf
        rw [hs P hP]
        rfl
    · intro ph hph
      obtain ⟨model, hm, hph⟩ := hideal' ph hph
      exact (ideal_phase ph model hm hph pr.T P).2
  -- Gibbs energy and volume
  have sums : ∀ m : List ℝ, m.length = count pr.phases → (∀ z ∈ m, 0 < z) → ∀ P ∈ Set.Icc lo hi, ∀ p, Has (atP pr P) m p →
      dot m p.u = (∑ i ∈ Finset.range pr.phases.length, ∑ k ∈ Finset.range (sizeAt pr.phases i), (block pr m i).getD k 0 *
        ((s i k P).G0 + (pr.R * pr.T * c i P + pr.R * pr.T * Real.log ((block pr m i).getD k 0 / (block pr m i).sum)))) ∧
      volume pr.phases p = ∑ i ∈ Finset.range pr.phases.length, ∑ k ∈ Finset.range (sizeAt pr.phases i), (block pr m i).getD k 0 * (s i k P).V0 := by
    intro m hm hmpos P hP p hhas
    obtain ⟨e1, -, e2⟩ := ideal_sums (atP pr P) (hproper P) m hm hmpos p hhas (fun i k => s i k P) (fun i => c i P) (fun i hi' k hk => ((hs i k hi').2 hk).1 P hP)
      (fun i hi' x old a ha => (hs i 0 hi').1.1 P x old a ha)
    refine ⟨?_, e2⟩
    rw [e1]
    refine Finset.sum_congr rfl fun i _ => Finset.sum_congr rfl fun k _ => ?_
    simp only [atP, block]
    ring
  have hsize : ∀ i k, i ∈ Finset.range pr.phases.length → k ∈ Finset.range (sizeAt pr.phases i) → ∃ hi' : i < pr.phases.length, k < pr.phases[i].species.length := by
    intro i k h1 h2
    rw [Finset.mem_range] at h1 h2
    rw [sizeAt_of_lt pr.phases i h1] at h2
    exact ⟨h1, h2⟩
  have cont : ∀ m : List ℝ, ContinuousOn (fun P => ∑ i ∈ Finset.range pr.phases.length, ∑ k ∈ Finset.range (sizeAt pr.phases i), (block pr m i).getD k 0 *
        ((s i k P).G0 + (pr.R * pr.T * c i P + pr.R * pr.T * Real.log ((block pr m i).getD k 0 / (block pr m i).sum)))) (Set.Icc lo hi) := by
    intro m
    refine continuousOn_finset_sum _ fun i h1 => continuousOn_finset_sum _ fun k h2 => ?_
    obtain ⟨hi', hk⟩ := hsize i k h1 h2
    exact continuousOn_const.mul (((hs i k hi').2 hk).2.1.add ((continuousOn_const.mul (hs i k hi').1.2.1).add continuousOn_const))
  have der : ∀ m : List ℝ, ∀ P ∈ Set.Ioo lo hi, HasDerivAt (fun P => ∑ i ∈ Finset.range pr.phases.length, ∑ k ∈ Finset.range (sizeAt pr.phases i), (block pr m i).getD k 0 *
        ((s i k P).G0 + (pr.R * pr.T * c i P + pr.R * pr.T * Real.log ((block pr m i).getD k 0 / (block pr m i).sum))))
      (∑ i ∈ Finset.range pr.phases.length, ∑ k ∈ Finset.range (sizeAt pr.phases i), (block pr m i).getD k 0 * (s i k P).V0) P := by
    intro m P hP
    refine HasDerivAt.fun_sum fun i h1 => HasDerivAt.fun_sum fun k h2 => ?_
    obtain ⟨hi', hk⟩ := hsize i k h1 h2
    refine ((((hs i k hi').2 hk).2.2 P hP).add (((hs i k hi').1.2.2 P hP).add_const _)).const_mul _ |>.congr_deriv ?_
    rw [sub_add_cancel]
  -- the properties along the way
  classical
  have hpath : ∀ (m : List ℝ) (P0 : ℝ) (p0 : Props ℝ), m.length = count pr.phases → (∀ z ∈ m, 0 < z) → P0 ∈ Set.Icc lo hi → Has (atP pr P0) m p0 →
      ∃ path : ℝ → Props ℝ, path P0 = p0 ∧ ∀ P ∈ Set.Icc lo hi, Has (atP pr P) m (path P) := by
    intro m P0 p0 hm hmpos hP0 h0
    have : ∀ P, ∃ p, (P = P0 → p = p0) ∧ (P ∈ Set.Icc lo hi → Has (atP pr P) m p) := by
      intro P
      by_cases e : P = P0
      · exact ⟨p0, fun _ => rfl, fun _ => by rw [e]; exact h0⟩
      · by_cases hP : P ∈ Set.Icc lo hi
        · obtain ⟨p, hp⟩ := hsome P hP m hm hmpos
          exact ⟨p, fun h => absurd h e, fun _ => hp⟩
        · exact ⟨p0, fun h => absurd h e, fun h => absurd h hP⟩
    choose path h1 h2 using this
    exact ⟨path, h1 P0 rfl, h2⟩
  have hlo' : lo ∈ Set.Icc lo hi := ⟨le_refl _, hlt.le⟩
  have hhi' : hi ∈ Set.Icc lo hi := ⟨hlt.le, le_refl _⟩
  obtain ⟨path, e1, w1⟩ := hpath n lo props hn hpos hlo' h.2.1
  obtain ⟨path', e2, w2⟩ := hpath n' hi props' hn' hpos' hhi' h'.2.1
  subst e1 e2
  have near : ∀ (m : List ℝ) (path : ℝ → Props ℝ), m.length = count pr.phases → (∀ z ∈ m, 0 < z) → (∀ P ∈ Set.Icc lo hi, Has (atP pr P) m (path P)) →
      ContinuousOn (fun P => dot m (path P).u) (Set.Icc lo hi) ∧
      ∀ P ∈ Set.Ioo lo hi, HasDerivAt (fun P => dot m (path P).u) (volume pr.phases (path P)) P := by
    intro m path hm hmpos w
    refine ⟨(cont m).congr fun P hP => (sums m hm hmpos P hP _ (w P hP)).1, fun P hP => ?_⟩
    have hP' : P ∈ Set.Icc lo hi := ⟨hP.1.le, hP.2.le⟩
    rw [(sums m hm hmpos P hP' _ (w P hP')).2]
    refine (der m P hP).congr_of_eventuallyEq ?_
    filter_upwards [Ioo_mem_nhds hP.1 hP.2] with P hP
    have hP' : P ∈ Set.Icc lo hi := ⟨hP.1.le, hP.2.le⟩
    exact (sums m hm hmpos P hP' _ (w P hP')).1
  obtain ⟨c1, d1⟩ := near n path hn hpos w1
  obtain ⟨c2, d2⟩ := near n' path' hn' hpos' w2
  obtain ⟨P, hP, hle⟩ := C113_pressure pr lo hi hlt (hregular lo) (hregular hi) n q n' q' path path' (fun P hP => ⟨w1 P hP, w2 P hP⟩) ⟨c1, c2⟩
    (fun P hP => ⟨d1 P hP, d2 P hP⟩) h h'
  have hP' : P ∈ Set.Icc lo hi := ⟨hP.1.le, hP.2.le⟩
  refine ⟨P, hP, ⟨path P, path' P, w1 P hP', w2 P hP'⟩, fun p p' q1 q2 => ?_⟩
  rw [(sums n hn hpos P hP' p q1).2, (sums n' hn' hpos' P hP' p' q2).2, ← (sums n hn hpos P hP' _ (w1 P hP')).2, ← (sums n' hn' hpos' P hP' _ (w2 P hP')).2]
  exact hle

end Verif.Response
