import Verif.Spec.Repeat
import Verif.Theorems.Reference
import Verif.Theorems.EquilibriumSolver
import Verif.Theorems.Restrictions

/-!
# C110: an equilibrium state stays one when the calculation is repeated or continued
-/

namespace Verif.Repeat

open ChemicalProps ChemicalSystem EquilibriumSpecs EquilibriumSetup IdealEquilibrium Imposed
open ArraySerialization (Props)
open Restrictions (Lim)

variable {Pr : Type}

/-- The column of a species. -/
theorem species_column {sys : System} {s : Specs Rat Pr} {A : List (List Rat)} (hs : Sound sys s) (hA : matrixAex sys s = .ok A) (j : Nat)
    (x : Chem.Species) (hx : sys.species[j]? = some x) (i : Nat) (hi : i < A.length) :
    (A.getD i []).getD j 0 = (sys.elements.map (fun e => elementContent x e.symbol) ++ [x.charge]).getD i 0 := by
  obtain ⟨phases, hphases⟩ := hs.system
  have hj : j < sys.species.length := (List.getElem?_eq_some_iff.1 hx).1
  rw [Reference.entry A _ (rows_Aex phases sys hphases _ _ hA) _ (by omega) i hi, Reference.unit_append _ _ _ _ hj,
    mulVec_Aex phases sys hphases _ hs.symbols hs.formulas A hA _ _ (unit_length _ _ _)]
  congr 1
  congr 1
  · apply List.map_congr_left
    intro e _
    unfold ChemicalSystem.total titrants
    rw [zip_zero (fun f : Formula => formulaContent f e.symbol), zip_unit (fun x : Chem.Species => elementContent x e.symbol) _ _ _ _ hx]
    ring
  · unfold ChemicalSystem.total titrants
    rw [zip_zero (fun f : Formula => f.charge), zip_unit (fun x : Chem.Species => x.charge) _ _ _ _ hx]
    simp

/-- The column of a titrant. -/
theorem titrant_column {sys : System} {s : Specs Rat Pr} {A : List (List Rat)} (hs : Sound sys s) (hA : matrixAex sys s = .ok A) (k : Nat)
    (f : Formula) (hk : s.titrantsImplicit[k]? = some f) (i : Nat) (hi : i < A.length) :
    (A.getD i []).getD (sys.species.length + k) 0 = (sys.elements.map (fun e => formulaContent f e.symbol) ++ [f.charge]).getD i 0 := by
  obtain ⟨phases, hphases⟩ := hs.system
  have hkl : k < s.titrantsImplicit.length := (List.getElem?_eq_some_iff.1 hk).1
  rw [Reference.entry A _ (rows_Aex phases sys hphases _ _ hA) _ (by omega) i hi, Reference.append_unit,
    mulVec_Aex phases sys hphases _ hs.symbols hs.formulas A hA _ _ (by simp)]
  congr 1
  congr 1
  · apply List.map_congr_left
    intro e _
    unfold ChemicalSystem.total titrants
    rw [zip_zero (fun x : Chem.Species => elementContent x e.symbol), zip_unit (fun f : Formula => formulaContent f e.symbol) _ _ _ _ hk]
    ring
  · unfold ChemicalSystem.total titrants
    rw [zip_zero (fun x : Chem.Species => x.charge), zip_unit (fun f : Formula => f.charge) _ _ _ _ hk]
    simp

/-- The balances of rational amounts. -/
theorem balance_cast (A : List (List Rat)) (v : List Rat) (hA : ∀ row ∈ A, row.length = v.length) (i : Nat) (hi : i < A.length) :
    balance A (v.map fun x : Rat => (x : ℝ)) i = (((mulVec A v).getD i 0 : Rat) : ℝ) := by
  unfold balance mulVec
  have h1 := hA _ (List.getElem_mem hi)
  rw [List.getD_eq_getElem (List.map _ A) _ (by simpa using hi), List.getElem_map, EquilibriumSetup.dot_range _ _ h1, Rat.cast_sum, List.length_map,
    List.getD_eq_getElem A _ hi]
  apply Finset.sum_congr rfl
  intro j hj
  have hj := Finset.mem_range.1 hj
  rw [Rat.cast_mul, List.getD_eq_getElem (List.map _ v) _ (by simpa using hj), List.getElem_map, List.getD_eq_getElem v _ hj]

/-- The bounds of a problem. -/
structure Bounds (sys : Conditions.Sys) (calls : List Restrictions.Call) (n0 : List Rat) (eps : Rat) (N M : Nat) (pr : Problem) : Prop where
  lower : ∀ i (hi : i < n0.length), pr.lower[i]? = some (some ((Restrictions.last (Restrictions.effectDown sys i) calls).lower n0[i] eps))
  upper : ∀ i (hi : i < n0.length), pr.upper[i]? = some ((Restrictions.last (Restrictions.effectUp sys i) calls).upper n0[i] eps)
  rest : ∀ i, N ≤ i → pr.lower[i]?.join = none ∧ pr.upper[i]?.join = none

theorem posed_bounds {sys : System} {me : Rat} {s : Specs Rat Pr} {n0 : List Rat} {c : Conditions.Cond} {calls : List Restrictions.Call}
    {eps : Rat} {pr : Problem} (h : Posed sys me s n0 c calls eps pr) :
    matrixAex sys s = .ok pr.A ∧ (∃ be, Conditions.initialComponentAmounts (EquilibriumSolver.condSys sys me) c = .ok be ∧ pr.b = be.map fun x : Rat => (x : ℝ)) ∧
    Bounds (EquilibriumSolver.condSys sys me) calls n0 eps sys.species.length s.titrantsImplicit.length pr := by
  obtain ⟨r0, r, p, h1, h2, h3, h4, h5, h6, h7, h8, h9, h10⟩ := h.problem
  obtain ⟨p1, -, p3, p4, p5⟩ := EquilibriumSolver.problem_parts h6
  obtain ⟨xl, l1, l2, l3, l4⟩ := Restrictions.C40_lower_bounds (EquilibriumSolver.condSys sys me) calls r0 h1 _ _ h2 h3 n0 h.amounts s.titrantsImplicit.length eps
  obtain ⟨xu, u1, u2, u3, u4⟩ := Restrictions.C40_upper_bounds (EquilibriumSolver.condSys sys me) calls r0 h1 _ _ h4 h5 n0 h.amounts s.titrantsImplicit.length eps
  have e1 : p.xlower = xl := by
    have := p4.symm.trans l1
    injection this
  have e2 : p.xupper = xu := by
    have := p5.symm.trans u1
    injection this
  refine ⟨by rw [h7]; exact p1, ⟨_, p3, h8⟩, ?_, ?_, ?_⟩
  · rw [h9, e1]; exact l3
  · rw [h10, e2]; exact u3
  · intro i hi
    rw [h9, h10, e1, e2]
    by_cases hlt : i < sys.species.length + s.titrantsImplicit.length
    · rw [l4 i hi hlt, u4 i hi hlt]; exact ⟨rfl, rfl⟩
    · have l2 : xl.length = sys.species.length + s.titrantsImplicit.length := l2
      have u2 : xu.length = sys.species.length + s.titrantsImplicit.length := u2
      rw [List.getElem?_eq_none (by omega), List.getElem?_eq_none (by omega)]; exact ⟨rfl, rfl⟩

/-- Amounts within the bounds are within the bounds made from themselves, and at a bound if they were. -/
theorem bounds_again {sys : Conditions.Sys} {calls : List Restrictions.Call} {n0 n1 : List Rat} {eps : Rat} {N M M' : Nat} {pr pr' : Problem}
    (h : Bounds sys calls n0 eps N M pr) (h' : Bounds sys calls n1 eps N M' pr') (l : n0.length = N) (l' : n1.length = N) (j : Nat) (hj : j < n1.length)
    (hl : ∀ v : Rat, pr.lower[j]? = some (some v) → v ≤ n1[j]) (hu : ∀ v : Rat, pr.upper[j]? = some (some v) → n1[j] ≤ v) :
    (∀ v : Rat, pr'.lower[j]? = some (some v) → v ≤ n1[j]) ∧ (∀ v : Rat, pr'.upper[j]? = some (some v) → n1[j] ≤ v) ∧
    (pr.lower[j]? = some (some n1[j]) → pr'.lower[j]? = some (some n1[j])) ∧ (pr.upper[j]? = some (some n1[j]) → pr'.upper[j]? = some (some n1[j])) := by
  have a := h.lower j (by omega)
  have a' := h'.lower j hj
  have b := h.upper j (by omega)
  have b' := h'.upper j hj
  have hl := hl _ a
  have heps : eps ≤ n1[j] := by
    refine le_trans ?_ hl
    cases Restrictions.last (Restrictions.effectDown sys j) calls <;> simp [Lim.lower]
  rw [a, a', b, b']
  rw [b] at hu
  refine ⟨?_, ?_, ?_, ?_⟩
  · intro v hv
    simp only [Option.some.injEq] at hv
    subst hv
    cases hL : Restrictions.last (Restrictions.effectDown sys j) calls with
    | free => exact heps
    | fixed => exact max_le (le_refl _) heps
    | bound a => rw [hL] at hl; exact hl
  · intro v hv
    cases hL : Restrictions.last (Restrictions.effectUp sys j) calls with
    | free => rw [hL] at hv; simp [Lim.upper] at hv
    | fixed => rw [hL] at hv; simp only [Lim.upper, Option.some.injEq] at hv; subst hv; exact le_max_left _ _
    | bound a => rw [hL] at hv hu; exact hu v hv
  · cases hL : Restrictions.last (Restrictions.effectDown sys j) calls with
    | free => exact id
    | fixed => intro _; simp only [Lim.lower, Option.some.injEq]; exact max_eq_left heps
    | bound a => exact id
  · cases hL : Restrictions.last (Restrictions.effectUp sys j) calls with
    | free => exact id
    | fixed => intro _; simp only [Lim.upper, Option.some.injEq]; exact max_eq_left heps
    | bound a => exact id

/-- What is the same in two problems. -/
theorem same_parts {pr pr' : Problem} (h : SameSystem pr pr') :
    pr'.phases = pr.phases ∧ pr'.R = pr.R ∧ pr'.T = pr.T ∧ pr'.P = pr.P ∧ pr'.eps = pr.eps ∧ pr'.factor = pr.factor := by
  unfold SameSystem at h
  rw [h]
  exact ⟨rfl, rfl, rfl, rfl, rfl, rfl⟩

theorem gradient_at (pr : Problem) (n u : List ℝ) (hu : u.length = n.length) (j : Nat) :
    (j < n.length → (pr.gradient n u).getD j 0 = u.getD j 0 / (pr.R * pr.T) - pr.eps * pr.factor / n.getD j 0) ∧
    (∀ k < pr.uq.length, j = n.length + k → (pr.gradient n u).getD j 0 = pr.uq.getD k 0 / (pr.R * pr.T)) := by
  have hl : (gradN pr.R pr.T pr.eps pr.factor n u).length = n.length := by simp [gradN, hu]
  constructor
  · intro hj
    unfold Problem.gradient gradX
    rw [List.getD_append _ _ _ _ (by omega), List.getD_eq_getElem _ _ (by omega), List.getD_eq_getElem n _ hj, List.getD_eq_getElem u _ (by omega)]
    simp [gradN]
  · rintro k hk rfl
    unfold Problem.gradient gradX
    rw [List.getD_append_right _ _ _ _ (by omega), hl, Nat.add_sub_cancel_left, List.getD_eq_getElem _ _ (by simpa [gradQ] using hk),
      List.getD_eq_getElem pr.uq _ hk]
    simp [gradQ]

/-- The core: another problem for the same system, with bounds made from the amounts in the state. -/
theorem core {sys : System} {me : Rat} {s s' : Specs Rat Pr} {n0 n1 : List Rat} {c c' : Conditions.Cond} {calls : List Restrictions.Call} {eps : Rat}
    {pr pr' : Problem} (hs : Sound sys s) (hs' : Sound sys s') (hp : Proper pr) (h : Posed sys me s n0 c calls eps pr) (h' : Posed sys me s' n1 c' calls eps pr')
    (hsame : SameSystem pr pr') (q q' : List ℝ) (props : Props ℝ) (he : Equilibrium pr (n1.map fun x : Rat => (x : ℝ)) q props)
    (hq : q'.length = pr'.uq.length)
    (hbal : ∀ i < pr'.A.length, balance pr'.A (n1.map (fun x : Rat => (x : ℝ)) ++ q') i = pr'.b.getD i 0)
    (htit : ∀ k f, s'.titrantsImplicit[k]? = some f →
      (∃ k', s.titrantsImplicit[k']? = some f ∧ pr'.uq.getD k 0 = pr.uq.getD k' 0) ∨
      (∃ j, SameAs sys j f ∧ Inside pr (n1.map fun x : Rat => (x : ℝ)) j ∧
        pr'.uq.getD k 0 / (pr.R * pr.T) = props.u.getD j 0 / (pr.R * pr.T) - pr.eps * pr.factor / ((n1.getD j 0 : Rat) : ℝ))) :
    Equilibrium pr' (n1.map fun x : Rat => (x : ℝ)) q' props := by
  obtain ⟨hA, -, hB⟩ := posed_bounds h
  obtain ⟨hA', -, hB'⟩ := posed_bounds h'
  obtain ⟨e1, e2, e3, e4, e5, e6⟩ := same_parts hsame
  obtain ⟨hf, hh, y, hy⟩ := he
  have hul := u_length pr hp _ hf.species props hh
  have l0 := h.amounts
  have l1 := h'.amounts
  have hAl : pr'.A.length = pr.A.length := by rw [Reference.matrix_length hA, Reference.matrix_length hA']
  have hj : ∀ j (hj : j < n1.length), _ := fun j hj => bounds_again hB hB' l0 l1 j hj
    (fun v hv => by
      have := hf.lower j v hv
      rw [List.getD_append _ _ _ _ (by simpa using hj), List.getD_eq_getElem _ _ (by simpa using hj), List.getElem_map] at this
      exact_mod_cast this)
    (fun v hv => by
      have := hf.upper j v hv
      rw [List.getD_append _ _ _ _ (by simpa using hj), List.getD_eq_getElem _ _ (by simpa using hj), List.getElem_map] at this
      exact_mod_cast this)
  obtain ⟨n, hn⟩ : ∃ n : List ℝ, n = n1.map fun x : Rat => (x : ℝ) := ⟨_, rfl⟩
  rw [← hn] at hf hh hy hul hbal htit ⊢
  have ln : n.length = n1.length := by rw [hn, List.length_map]
  have hnj : ∀ j (hj : j < n1.length), n.getD j 0 = ((n1[j] : Rat) : ℝ) := by
    intro j hj
    rw [hn, List.getD_eq_getElem _ _ (by simpa using hj), List.getElem_map]
  have hjoin : ∀ (l : List (Option Rat)) (j : Nat) (v : Rat), l[j]?.join = none → l[j]? ≠ some (some v) := by
    intro l j v h1 h2
    rw [h2] at h1
    cases h1
  have zero : ∀ j < n.length + q.length, (∀ v : Rat, pr.lower[j]? = some (some v) → (n ++ q).getD j 0 ≠ (v : ℝ)) →
      (∀ v : Rat, pr.upper[j]? = some (some v) → (n ++ q).getD j 0 ≠ (v : ℝ)) →
      (pr.gradient n props.u).getD j 0 = ∑ i ∈ Finset.range pr.A.length, y i * (((pr.A.getD i []).getD j 0 : Rat) : ℝ) := by
    intro j hj g1 g2
    have := hy j hj
    dsimp only at this
    rcases lt_trichotomy ((pr.gradient n props.u).getD j 0 -
        ∑ i ∈ Finset.range pr.A.length, y i * (((pr.A.getD i []).getD j 0 : Rat) : ℝ)) 0 with h0 | h0 | h0
    · obtain ⟨v, v1, v2⟩ := this.2 h0
      exact absurd v2 (g2 v v1)
    · linarith
    · obtain ⟨v, v1, v2⟩ := this.1 h0
      exact absurd v2 (g1 v v1)
  refine ⟨⟨?_, hq, hbal, ?_, ?_⟩, ?_, y, ?_⟩
  · rw [ln, l1, h'.species]
  · intro j v hv
    by_cases hjn : j < n1.length
    · rw [List.getD_append _ _ _ _ (by omega), hnj j hjn]
      exact_mod_cast (hj j hjn).1 v hv
    · exact absurd hv (hjoin _ _ _ (hB'.rest j (by omega)).1)
  · intro j v hv
    by_cases hjn : j < n1.length
    · rw [List.getD_append _ _ _ _ (by omega), hnj j hjn]
      exact_mod_cast (hj j hjn).2.1 v hv
    · exact absurd hv (hjoin _ _ _ (hB'.rest j (by omega)).2)
  · obtain ⟨old, o1, o2⟩ := hh
    refine ⟨old, ?_, ?_⟩
    · rw [e1]; exact o1
    · rw [e1, e2, e3, e4]; exact o2
  · intro j hjlt
    dsimp only
    by_cases hjn : j < n1.length
    · have hx : ∃ x, sys.species[j]? = some x := ⟨_, List.getElem?_eq_getElem (by omega)⟩
      obtain ⟨x, hx⟩ := hx
      have hr : (pr'.gradient n props.u).getD j 0 - ∑ i ∈ Finset.range pr'.A.length, y i * (((pr'.A.getD i []).getD j 0 : Rat) : ℝ) =
          (pr.gradient n props.u).getD j 0 - ∑ i ∈ Finset.range pr.A.length, y i * (((pr.A.getD i []).getD j 0 : Rat) : ℝ) := by
        rw [(gradient_at pr' n props.u hul j).1 (by omega), (gradient_at pr n props.u hul j).1 (by omega), e2, e3, e5, e6, hAl]
        congr 1
        apply Finset.sum_congr rfl
        intro i hi
        have hi := Finset.mem_range.1 hi
        rw [species_column hs' hA' j x hx i (by omega), species_column hs hA j x hx i hi]
      rw [hr]
      have := hy j (by omega)
      dsimp only at this
      rw [List.getD_append _ _ _ _ (by omega), hnj j hjn] at this ⊢
      refine ⟨fun h0 => ?_, fun h0 => ?_⟩
      · obtain ⟨v, v1, v2⟩ := this.1 h0
        have v2 : n1[j] = v := by exact_mod_cast v2
        subst v2
        exact ⟨_, (hj j hjn).2.2.1 v1, rfl⟩
      · obtain ⟨v, v1, v2⟩ := this.2 h0
        have v2 : n1[j] = v := by exact_mod_cast v2
        subst v2
        exact ⟨_, (hj j hjn).2.2.2 v1, rfl⟩
    · obtain ⟨k, rfl⟩ : ∃ k, j = n.length + k := ⟨j - n.length, by omega⟩
      have hk : k < pr'.uq.length := by omega
      obtain ⟨f, hkf⟩ : ∃ f, s'.titrantsImplicit[k]? = some f := ⟨_, List.getElem?_eq_getElem (by rw [← h'.titrants]; exact hk)⟩
      have hz : (pr'.gradient n props.u).getD (n.length + k) 0 -
          ∑ i ∈ Finset.range pr'.A.length, y i * (((pr'.A.getD i []).getD (n.length + k) 0 : Rat) : ℝ) = 0 := by
        rw [(gradient_at pr' n props.u hul _).2 k hk rfl, e2, e3, hAl, sub_eq_zero]
        have col : ∀ i < pr.A.length, _ := fun i hi => titrant_column hs' hA' k _ hkf i (by omega)
        rcases htit k _ hkf with ⟨k', f1, f2⟩ | ⟨j, ⟨x, x1, x2, x3⟩, j1, j2⟩
        · have hk' : k' < pr.uq.length := by rw [h.titrants]; exact (List.getElem?_eq_some_iff.1 f1).1
          rw [f2, ← (gradient_at pr n props.u hul _).2 k' hk' rfl, zero (n.length + k') (by rw [hf.titrants]; omega)
            (fun v hv => absurd hv (hjoin _ _ _ (hB.rest _ (by omega)).1)) (fun v hv => absurd hv (hjoin _ _ _ (hB.rest _ (by omega)).2))]
          apply Finset.sum_congr rfl
          intro i hi
          have hi := Finset.mem_range.1 hi
          rw [show n.length = sys.species.length by omega, col i hi, titrant_column hs hA k' _ f1 i hi]
        · have hjl : j < sys.species.length := (List.getElem?_eq_some_iff.1 x1).1
          rw [j2, show ((n1.getD j 0 : Rat) : ℝ) = n.getD j 0 by rw [hnj j (by omega), List.getD_eq_getElem _ _ (by omega)],
            ← (gradient_at pr n props.u hul j).1 (by omega), zero j (by omega)
            (fun v hv => by rw [List.getD_append _ _ _ _ (by omega)]; exact (j1 v).1 hv)
            (fun v hv => by rw [List.getD_append _ _ _ _ (by omega)]; exact (j1 v).2 hv)]
          apply Finset.sum_congr rfl
          intro i hi
          have hi := Finset.mem_range.1 hi
          rw [show n.length = sys.species.length by omega, col i hi, species_column hs hA j x x1 i hi, x3]
          congr 4
          apply List.map_congr_left
          intro e he
          exact x2 e he
      rw [hz]
      exact ⟨fun h => absurd h (lt_irrefl _), fun h => absurd h (lt_irrefl _)⟩

/-- The balances of conditions that start with the amounts in a state. -/
theorem balances_start {sys : System} {me : Rat} {s : Specs Rat Pr} {n0 n1 : List Rat} {c : Conditions.Cond} {calls : List Restrictions.Call} {eps : Rat}
    {pr : Problem} (hs : Sound sys s) (h : Posed sys me s n0 c calls eps pr) (hn : n1.length = sys.species.length) (hne : n1 ≠ [])
    (hc : c.components = [] ∧ c.amounts = n1) (q : List ℝ) (hq : q = List.replicate pr.uq.length 0) :
    ∀ i < pr.A.length, balance pr.A (n1.map (fun x : Rat => (x : ℝ)) ++ q) i = pr.b.getD i 0 := by
  intro i hi
  obtain ⟨hA, ⟨be, hbe, hb⟩, -⟩ := posed_bounds h
  obtain ⟨phases, hphases⟩ := hs.system
  have hrows := rows_Aex phases sys hphases _ _ hA
  have e : n1.map (fun x : Rat => (x : ℝ)) ++ q = (n1 ++ List.replicate s.titrantsImplicit.length 0).map fun x : Rat => (x : ℝ) := by
    rw [hq, List.map_append, List.map_replicate, h.titrants, Rat.cast_zero]
  rw [e, balance_cast _ _ (by intro row hr; rw [hrows row hr]; simp [hn]) i hi]
  unfold Conditions.initialComponentAmounts at hbe
  rw [hc.1, hc.2] at hbe
  simp only [List.length_nil, ne_eq, not_true_eq_false, if_false, List.length_eq_zero_iff, if_neg hne] at hbe
  injection hbe with hbe
  obtain ⟨-, ht⟩ := C29_totals_partial phases sys hphases n1 hn hs.symbols
  rw [mulVec_Aex phases sys hphases _ hs.symbols hs.formulas _ hA _ _ hn, hb, ← hbe]
  have ez : ∀ f : Formula → Rat, titrants f s.titrantsImplicit (List.replicate s.titrantsImplicit.length 0) = 0 := by
    intro f
    unfold titrants
    exact zip_zero f _ _
  simp only [ez, add_zero]
  rw [show (EquilibriumSolver.condSys sys me).formulaMatrix = sys.formulaMatrix from rfl, ht]
  have hil : i < sys.elements.length + 1 := by rw [← Reference.matrix_length hA]; exact hi
  rw [List.getD_eq_getElem (List.map _ _) _ (by simpa using hil), List.getElem_map, List.getD_eq_getElem _ _ (by simpa using hil)]

/-- **C110 (repeated).** If the calculation is repeated from the state that it returned, with the same conditions and restrictions, this state is a
solution: same amounts of species and titrants, same properties. -/
theorem C110_repeat (sys : System) (me : Rat) (s : Specs Rat Pr) (n0 n1 : List Rat) (c : Conditions.Cond) (calls : List Restrictions.Call) (eps : Rat)
    (pr pr' : Problem) (hs : Sound sys s) (hp : Proper pr) (h : Posed sys me s n0 c calls eps pr) (h' : Posed sys me s n1 c calls eps pr')
    (hsame : SameSystem pr pr') (huq : pr'.uq = pr.uq) (q : List ℝ) (props : Props ℝ) (he : Equilibrium pr (n1.map fun x : Rat => (x : ℝ)) q props) :
    Equilibrium pr' (n1.map fun x : Rat => (x : ℝ)) q props := by
  obtain ⟨hA, ⟨be, hbe, hb⟩, -⟩ := posed_bounds h
  obtain ⟨hA', ⟨be', hbe', hb'⟩, -⟩ := posed_bounds h'
  have e1 : pr'.A = pr.A := by
    have := hA'.symm.trans hA
    injection this
  have e2 : pr'.b = pr.b := by
    have := hbe'.symm.trans hbe
    injection this with this
    rw [hb, hb', this]
  apply core hs hs hp h h' hsame q q props he
  · rw [huq]; exact he.1.titrants
  · rw [e1, e2]; exact he.1.balances
  · intro k f hk
    exact Or.inl ⟨k, hk, by rw [huq]⟩

/-- **C110 (continued).** If another calculation for the same system at the same temperature and pressure starts with the state, it is a solution without
any amount of titrants, if each titrant is either one of the first calculation, with the same chemical potential, or consists of
the same elements and charge as a species that is not at a bound, with the chemical potential at which this species is in equilibrium. -/
theorem C110_continue (sys : System) (me : Rat) (s s' : Specs Rat Pr) (n0 n1 : List Rat) (c c' : Conditions.Cond) (calls : List Restrictions.Call)
    (eps : Rat) (pr pr' : Problem) (hs : Sound sys s) (hs' : Sound sys s') (hp : Proper pr) (h : Posed sys me s n0 c calls eps pr)
    (h' : Posed sys me s' n1 c' calls eps pr') (hne : n1 ≠ []) (hc : c'.components = [] ∧ c'.amounts = n1) (hsame : SameSystem pr pr') (hRT : pr.R * pr.T ≠ 0)
    (q : List ℝ) (props : Props ℝ) (he : Equilibrium pr (n1.map fun x : Rat => (x : ℝ)) q props)
    (htit : ∀ k f, s'.titrantsImplicit[k]? = some f →
      (∃ k', s.titrantsImplicit[k']? = some f ∧ pr'.uq.getD k 0 = pr.uq.getD k' 0) ∨
      (∃ j, SameAs sys j f ∧ Inside pr (n1.map fun x : Rat => (x : ℝ)) j ∧
        pr'.uq.getD k 0 = props.u.getD j 0 - pr.R * pr.T * (pr.eps * pr.factor / ((n1.getD j 0 : Rat) : ℝ)))) :
    Equilibrium pr' (n1.map fun x : Rat => (x : ℝ)) (List.replicate pr'.uq.length 0) props := by
  apply core hs hs' hp h h' hsame q _ props he (by simp) (balances_start hs' h' h'.amounts hne hc _ rfl)
  intro k f hk
  rcases htit k f hk with hk | ⟨j, j1, j2, j3⟩
  · exact Or.inl hk
  · refine Or.inr ⟨j, j1, j2, ?_⟩
    rw [j3, sub_div, mul_div_cancel_left₀ _ hRT]

/-- **C110 (closed).** A system that was in equilibrium with its surroundings stays as it is when it is closed. -/
theorem C110_closed (sys : System) (me : Rat) (s s' : Specs Rat Pr) (n0 n1 : List Rat) (c c' : Conditions.Cond) (calls : List Restrictions.Call)
    (eps : Rat) (pr pr' : Problem) (hs : Sound sys s) (hp : Proper pr) (h : Posed sys me s n0 c calls eps pr)
    (h' : Posed sys me s' n1 c' calls eps pr') (hne : n1 ≠ []) (hc : c'.components = [] ∧ c'.amounts = n1) (hclosed : s'.titrantsImplicit = [])
    (hsame : SameSystem pr pr') (hRT : pr.R * pr.T ≠ 0)
    (q : List ℝ) (props : Props ℝ) (he : Equilibrium pr (n1.map fun x : Rat => (x : ℝ)) q props) :
    Equilibrium pr' (n1.map fun x : Rat => (x : ℝ)) [] props := by
  have hl : pr'.uq.length = 0 := by rw [h'.titrants, hclosed]; rfl
  have := C110_continue sys me s s' n0 n1 c c' calls eps pr pr' hs ⟨hs.system, hs.symbols, by rw [hclosed]; simp⟩ hp h h' hne hc hsame hRT q props he
    (by rw [hclosed]; simp)
  rwa [hl] at this

/-- **C110 (only solution).** With phases that meet Gibbs' criterion and the default options, the repeated calculation has no other solution: every
equilibrium state of it has the same amounts, activities and chemical potentials of all species. -/
theorem C110_unique (sys : System) (me : Rat) (s' : Specs Rat Pr) (n1 : List Rat) (c' : Conditions.Cond) (calls : List Restrictions.Call)
    (eps : Rat) (heps : 0 < eps) (pr pr' : Problem) (hr : Regular pr) (hb : 0 < pr.eps * pr.factor) (h' : Posed sys me s' n1 c' calls eps pr')
    (hsame : SameSystem pr pr') (q : List ℝ) (props : Props ℝ) (he : Equilibrium pr' (n1.map fun x : Rat => (x : ℝ)) q props)
    (n' q' : List ℝ) (props' : Props ℝ) (he' : Equilibrium pr' n' q' props') :
    n' = n1.map (fun x : Rat => (x : ℝ)) ∧ props'.ln_a = props.ln_a ∧ props'.u = props.u := by
  obtain ⟨e1, e2, e3, e4, e5, e6⟩ := same_parts hsame
  have hr' : Regular pr' := by
    refine { sizes := by rw [e1]; exact hr.sizes, nonempty := by rw [e1]; exact hr.nonempty, gas := by rw [e2, e3]; exact hr.gas, barrier := by rw [e5, e6]; exact hr.barrier, stable := by rw [e1, e3, e4]; exact hr.stable, positive := ?_ }
    intro j hj
    obtain ⟨-, -, hB⟩ := posed_bounds h'
    have hj : j < n1.length := by rw [h'.amounts, h'.species]; exact hj
    refine ⟨_, hB.lower j hj, lt_of_lt_of_le heps ?_⟩
    cases Restrictions.last (Restrictions.effectDown (EquilibriumSolver.condSys sys me) j) calls <;> simp [Lim.lower]
  have hu := C105_unique_properties_partial pr' hr' n' q' _ q props' props he' he
  exact ⟨C105_unique_amounts_partial pr' hr' (by rw [e5, e6]; exact hb) n' q' _ q props' props he' he, hu.2.1, hu.2.2⟩

/-! ### Example: water and an acid at a given pH -/

/-- Temperature, pressure and pH are given. -/
def opened : Specs Rat Unit := run parseProton database [.temperature, .pressure, .pH]

/-- Temperature and pressure are given. -/
def closed : Specs Rat Unit := run parseProton database [.temperature, .pressure]

/-- The amount of water (the first species) may not decrease. -/
def keepWater : List Restrictions.Call := [.cannotDecrease (.index 0)]

/-- Conditions with the given initial amounts. -/
def initially (n : List Rat) : Conditions.Cond := { inputs := [], values := [], amounts := n }

/-- The problem of 9 moles of water and 3/2 moles of the ion, of which 1/2 mole is lost at the given pH. -/
noncomputable def losing (v : ℝ) : Problem :=
  { acid 9 1 v with
    b := [39 / 2, 9, 3 / 2]
    lower := [some 9, some (1 / 10 ^ 16), none] }

/-- The problem for the closed system. -/
noncomputable def afterwards (v : ℝ) : Problem :=
  { losing v with
    A := [[2, 1], [1, 0], [0, 1]]
    b := [19, 9, 1]
    lower := [some 9, some (1 / 10 ^ 16)]
    upper := [none, none]
    uq := [] }

theorem losing_posed (v : ℝ) (x : Rat) (hx : x = 1 ∨ x = 3 / 2) : Posed acidSystem 1 opened [9, x] (initially [9, 3 / 2]) keepWater (1 / 10 ^ 16) (losing v) where
  amounts := by
    show 2 = _
    decide +kernel
  species := by
    show _ = 0 + 2
    decide +kernel
  titrants := by
    show 1 = _
    decide +kernel
  closed := by decide +kernel
  problem := by
    refine ⟨{ cannotDecrease := [0] }, { cannotDecrease := [0] }, ⟨[[2, 1, 1], [1, 0, 0], [0, 1, 1]], [[], [], []], [39 / 2, 9, 3 / 2], [some 9, some (1 / 10 ^ 16), none], [none, none, none]⟩,
      by decide +kernel, .refl _, .refl _, .refl _, .refl _, ?_, rfl, ?_, rfl, rfl⟩
    · rcases hx with rfl | rfl <;> decide +kernel
    · simp [losing]

theorem afterwards_posed (v : ℝ) : Posed acidSystem 1 closed [9, 1] (initially [9, 1]) keepWater (1 / 10 ^ 16) (afterwards v) where
  amounts := by decide +kernel
  species := by
    show _ = 0 + 2
    decide +kernel
  titrants := by
    show 0 = _
    decide +kernel
  closed := by decide +kernel
  problem := by
    refine ⟨{ cannotDecrease := [0] }, { cannotDecrease := [0] }, ⟨[[2, 1], [1, 0], [0, 1]], [[], [], []], [19, 9, 1], [some 9, some (1 / 10 ^ 16)], [none, none]⟩,
      by decide +kernel, .refl _, .refl _, .refl _, .refl _, by decide +kernel, rfl, ?_, rfl, rfl⟩
    simp [afterwards]

theorem opened_sound : Sound acidSystem opened where
  system := ⟨acidPhases, acidSystem_constructed⟩
  symbols := by decide +kernel
  formulas := by decide +kernel

theorem losing_equilibrium : ∃ v props, Equilibrium (losing v) (([9, 1] : List Rat).map fun x : Rat => (x : ℝ)) [1 / 2] props := by
  obtain ⟨v, props, h, -⟩ := C108_barrier_wrong
  refine ⟨v, props, ?_⟩
  obtain ⟨hf, hh, l, hl⟩ := h.equilibrium
  have e : (([9, 1] : List Rat).map fun x : Rat => (x : ℝ)) = [9, 1] := by simp
  rw [e]
  refine ⟨⟨rfl, rfl, ?_, ?_, ?_⟩, hh, l, ?_⟩
  · intro i hi
    have hi : i < 3 := hi
    interval_cases i <;> simp [balance, losing, acid, Finset.sum_range_succ] <;> norm_num
  · intro j u hu
    rcases j with _ | _ | _ | j <;> simp [losing, acid] at hu <;> subst hu <;> norm_num
  · intro j u hu
    rcases j with _ | _ | _ | j <;> simp [losing, acid] at hu
  · intro j hj
    obtain ⟨h1, h2⟩ := hl j hj
    refine ⟨fun hg => ?_, fun hg => ?_⟩
    swap
    · obtain ⟨u, u1, u2⟩ := h2 hg
      rcases j with _ | _ | _ | j <;> simp [acid] at u1
    obtain ⟨u, u1, u2⟩ := h1 hg
    rcases j with _ | _ | _ | j <;> simp [acid] at u1 <;> subst u1
    · norm_num at u2
    · norm_num at u2

/-- The calculation is repeated from the state, with the same conditions; then the system is closed. -/
example : ∃ v props, Equilibrium (losing v) (([9, 1] : List Rat).map fun x : Rat => (x : ℝ)) [1 / 2] props ∧
    Equilibrium (losing v) (([9, 1] : List Rat).map fun x : Rat => (x : ℝ)) [1 / 2] props ∧
    Equilibrium (afterwards v) (([9, 1] : List Rat).map fun x : Rat => (x : ℝ)) [] props := by
  obtain ⟨v, props, h⟩ := losing_equilibrium
  have hp : Proper (losing v) := ⟨(acid_proper 9 1 v).sizes, (acid_proper 9 1 v).nonempty⟩
  refine ⟨v, props, h, ?_, ?_⟩
  · exact C110_repeat acidSystem 1 opened [9, 3 / 2] [9, 1] _ keepWater _ (losing v) (losing v) opened_sound hp (losing_posed v _ (Or.inr rfl))
      (losing_posed v _ (Or.inl rfl)) rfl rfl _ _ h
  · exact C110_closed acidSystem 1 opened closed [9, 3 / 2] [9, 1] _ _ keepWater _ (losing v) (afterwards v) opened_sound hp (losing_posed v _ (Or.inr rfl))
      (afterwards_posed v) (by simp) ⟨rfl, rfl⟩ rfl rfl gas_ne _ _ h

/-- The phase meets Gibbs' criterion. -/
theorem losing_regular (v : ℝ) : Regular (losing v) := by
  refine { sizes := (acid_proper 9 1 v).sizes, nonempty := (acid_proper 9 1 v).nonempty, gas := ?_, barrier := ?_, stable := ?_, positive := ?_ }
  · norm_num [losing, acid, Activity.gasConstant]
  · norm_num [losing, acid]
  · intro ph h
    simp only [losing, acid, List.mem_singleton] at h
    subst h
    exact C105_ideal_stable _ _ _ _ (Or.inl rfl) _ _
  · intro j hj
    have hj : j < 2 := hj
    interval_cases j <;> simp [losing, acid]

/-- The closed system has no other equilibrium state. -/
example : ∃ v props, Equilibrium (afterwards v) (([9, 1] : List Rat).map fun x : Rat => (x : ℝ)) [] props ∧
    (∀ n' q' props', Equilibrium (afterwards v) n' q' props' → n' = ([9, 1] : List Rat).map fun x : Rat => (x : ℝ)) := by
  obtain ⟨v, props, h⟩ := losing_equilibrium
  have hp : Proper (losing v) := ⟨(acid_proper 9 1 v).sizes, (acid_proper 9 1 v).nonempty⟩
  have h2 := C110_closed acidSystem 1 opened closed [9, 3 / 2] [9, 1] _ _ keepWater _ (losing v) (afterwards v) opened_sound hp (losing_posed v _ (Or.inr rfl))
      (afterwards_posed v) (by simp) ⟨rfl, rfl⟩ rfl rfl gas_ne _ _ h
  refine ⟨v, props, h2, ?_⟩
  intro n' q' props' h3
  exact (C110_unique acidSystem 1 closed [9, 1] _ keepWater (1 / 10 ^ 16) (by norm_num) (losing v) (afterwards v) (losing_regular v)
    (by norm_num [losing, acid]) (afterwards_posed v) rfl [] props h2 n' q' props' h3).1

/-- The problem for the system in contact with its surroundings again, at the chemical potential `u` of the ion. -/
noncomputable def reopened (v u : ℝ) : Problem :=
  { losing v with
    b := [19, 9, 1]
    uq := [u] }

theorem reopened_posed (v u : ℝ) : Posed acidSystem 1 opened [9, 1] (initially [9, 1]) keepWater (1 / 10 ^ 16) (reopened v u) where
  amounts := by decide +kernel
  species := by
    show _ = 0 + 2
    decide +kernel
  titrants := by
    show 1 = _
    decide +kernel
  closed := by decide +kernel
  problem := by
    refine ⟨{ cannotDecrease := [0] }, { cannotDecrease := [0] }, ⟨[[2, 1, 1], [1, 0, 0], [0, 1, 1]], [[], [], []], [19, 9, 1], [some 9, some (1 / 10 ^ 16), none], [none, none, none]⟩,
      by decide +kernel, .refl _, .refl _, .refl _, .refl _, by decide +kernel, rfl, ?_, rfl, rfl⟩
    simp [reopened]

/-- The closed system in contact with its surroundings again, at the potential that the ion has. -/
example : ∃ v u props, Equilibrium (afterwards v) (([9, 1] : List Rat).map fun x : Rat => (x : ℝ)) [] props ∧
    Equilibrium (reopened v u) (([9, 1] : List Rat).map fun x : Rat => (x : ℝ)) [0] props := by
  obtain ⟨v, props, h⟩ := losing_equilibrium
  have hp : Proper (losing v) := ⟨(acid_proper 9 1 v).sizes, (acid_proper 9 1 v).nonempty⟩
  have h2 := C110_closed acidSystem 1 opened closed [9, 3 / 2] [9, 1] _ _ keepWater _ (losing v) (afterwards v) opened_sound hp (losing_posed v _ (Or.inr rfl))
      (afterwards_posed v) (by simp) ⟨rfl, rfl⟩ rfl rfl gas_ne _ _ h
  refine ⟨v, props.u.getD 1 0 - Activity.gasConstant * 300 * (1 / 10 ^ 16 * 1 / ((([9, 1] : List Rat).getD 1 0 : Rat) : ℝ)), props, h2, ?_⟩
  refine C110_continue acidSystem 1 closed opened [9, 1] [9, 1] _ _ keepWater _ (afterwards v) (reopened v _)
    ⟨opened_sound.system, opened_sound.symbols, by decide +kernel⟩ opened_sound ⟨hp.sizes, hp.nonempty⟩ (afterwards_posed v) (reopened_posed v _)
    (by simp) ⟨rfl, rfl⟩ rfl gas_ne _ _ h2 ?_
  intro k f hk
  rcases k with _ | k
  · refine Or.inr ⟨1, ?_, ?_, rfl⟩
    · have e : opened.titrantsImplicit[0]? = some proton := by decide +kernel
      rw [e] at hk
      cases hk
      exact acid_call.2.2
    · intro w
      refine ⟨fun hw => ?_, fun hw => ?_⟩
      · simp [afterwards] at hw
        subst hw
        norm_num
      · simp [afterwards] at hw
  · have e : opened.titrantsImplicit = [proton] := by decide +kernel
    rw [e] at hk
    simp at hk

end Verif.Repeat
