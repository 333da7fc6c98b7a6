import Verif.Spec.Components
import Verif.Theorems.ChemicalSystem
import Verif.Theorems.IdealEquilibrium

/-!
# C116: the components in which matter is counted do not matter
-/

namespace Verif.Components

open ChemicalProps IdealEquilibrium
open ArraySerialization (Props)

theorem balance_combined (A A' : List (List Rat)) (i : Nat) (w : Nat → Rat) (x : List ℝ)
    (h : ∀ j < x.length, (A'.getD i []).getD j 0 = combined A A.length w j) :
    balance A' x i = ∑ k ∈ Finset.range A.length, (w k : ℝ) * balance A x k := by
  unfold balance
  simp only [Finset.mul_sum]
  rw [Finset.sum_comm]
  apply Finset.sum_congr rfl
  intro j hj
  rw [h j (Finset.mem_range.1 hj), combined]
  push_cast
  rw [Finset.sum_mul]
  apply Finset.sum_congr rfl
  intro k _
  ring

theorem feasible_of (pr pr' : Problem) (ho : OnlyBalances pr pr') (h : Follow pr pr') (n q : List ℝ) (hf : Feasible pr n q) : Feasible pr' n q := by
  have e : ∀ {γ : Type} (f : Problem → γ), f pr' = f { pr with A := pr'.A, b := pr'.b } := fun f => congrArg f ho
  refine ⟨by rw [e Problem.phases]; exact hf.species, by rw [e Problem.uq]; exact hf.titrants, ?_, by rw [e Problem.lower]; exact hf.lower, by rw [e Problem.upper]; exact hf.upper⟩
  intro i hi
  obtain ⟨w, h1, h2⟩ := h i hi
  rw [balance_combined pr.A pr'.A i w (n ++ q) (by
    intro j hj
    apply h1
    rw [List.length_append, hf.species, hf.titrants] at hj
    exact hj), h2]
  apply Finset.sum_congr rfl
  intro k hk
  rw [hf.balances k (Finset.mem_range.1 hk)]

theorem equilibrium_of (pr pr' : Problem) (ho : OnlyBalances pr pr') (h : Follow pr pr') (h' : Follow pr' pr) (n q : List ℝ) (props : Props ℝ)
    (he : Equilibrium pr n q props) : Equilibrium pr' n q props := by
  have e : ∀ {γ : Type} (f : Problem → γ), f pr' = f { pr with A := pr'.A, b := pr'.b } := fun f => congrArg f ho
  obtain ⟨hf, ⟨old, hs, hu⟩, y, hy⟩ := he
  refine ⟨feasible_of pr pr' ho h n q hf, ⟨old, by rw [e Problem.phases]; exact hs, ?_⟩, ?_⟩
  · rw [e Problem.R, e Problem.phases, e Problem.T, e Problem.P]
    exact hu
  · choose! w h1 h2 using h'
    refine ⟨fun k => ∑ i ∈ Finset.range pr.A.length, y i * (w i k : ℝ), ?_⟩
    intro j hj
    have hj' : j < count pr'.phases + pr'.uq.length := by
      rw [e Problem.phases, e Problem.uq]
      change j < count pr.phases + pr.uq.length
      rw [← hf.species, ← hf.titrants]
      exact hj
    have hsum : ∑ k ∈ Finset.range pr'.A.length, (∑ i ∈ Finset.range pr.A.length, y i * (w i k : ℝ)) * (((pr'.A.getD k []).getD j 0 : Rat) : ℝ) =
        ∑ i ∈ Finset.range pr.A.length, y i * (((pr.A.getD i []).getD j 0 : Rat) : ℝ) := by
      simp only [Finset.sum_mul]
      rw [Finset.sum_comm]
      apply Finset.sum_congr rfl
      intro i hi
      rw [h1 i (Finset.mem_range.1 hi) j hj', combined]
      push_cast
      rw [Finset.mul_sum]
      apply Finset.sum_congr rfl
      intro k _
      ring
    have hg : pr'.gradient n props.u = pr.gradient n props.u := by rw [ho]; rfl
    have := hy j hj
    dsimp only at this ⊢
    rw [hsum, hg, e Problem.lower, e Problem.upper]
    exact this

/-- **C116 (components).** If the balances of two problems are combinations of each other, with the amounts given for them, the problems have the same equilibrium states, with
the same properties. So matter can be counted in any components: elements, oxides, species. -/
theorem C116_same (pr pr' : Problem) (ho : OnlyBalances pr pr') (h : Follow pr pr') (h' : Follow pr' pr) (n q : List ℝ) (props : Props ℝ) :
    Equilibrium pr n q props ↔ Equilibrium pr' n q props := by
  refine ⟨equilibrium_of pr pr' ho h h' n q props, equilibrium_of pr' pr ?_ h' h n q props⟩
  unfold OnlyBalances at ho ⊢
  rw [ho]

theorem follow_of_mem (pr pr' : Problem) (hb : pr.b.length = pr.A.length) (hb' : pr'.b.length = pr'.A.length)
    (h : ∀ r ∈ pr'.A.zip pr'.b, r ∈ pr.A.zip pr.b) : Follow pr pr' := by
  intro i hi
  have hr := h (pr'.A[i], pr'.b[i]'(by omega)) (List.mem_iff_getElem.2 ⟨i, by rw [List.length_zip]; omega, by rw [List.getElem_zip]⟩)
  obtain ⟨k, hk, he⟩ := List.mem_iff_getElem.1 hr
  rw [List.getElem_zip, Prod.mk.injEq] at he
  rw [List.length_zip] at hk
  have hkA : k < pr.A.length := by omega
  have hkb : k < pr.b.length := by omega
  refine ⟨fun l => if l = k then 1 else 0, ?_, ?_⟩
  · intro j _
    unfold combined
    rw [Finset.sum_eq_single_of_mem k (Finset.mem_range.2 hkA) (by intro l _ hl; simp [hl])]
    dsimp only
    rw [if_pos rfl, one_mul, List.getD_eq_getElem _ _ hi, List.getD_eq_getElem _ _ hkA, he.1]
  · rw [Finset.sum_eq_single_of_mem k (Finset.mem_range.2 hkA) (by intro l _ hl; simp [hl])]
    dsimp only
    rw [if_pos rfl, Rat.cast_one, one_mul, List.getD_eq_getElem _ _ hkb, List.getD_eq_getElem _ _ (by omega), he.2]

/-- **C116 (order).** The order of the elements, and listing one twice, makes no difference: if two problems have the same balances with the same amounts, in whatever order and
number, they have the same equilibrium states. -/
theorem C116_order (pr pr' : Problem) (ho : OnlyBalances pr pr') (hb : pr.b.length = pr.A.length) (hb' : pr'.b.length = pr'.A.length)
    (h : ∀ r, r ∈ pr.A.zip pr.b ↔ r ∈ pr'.A.zip pr'.b) (n q : List ℝ) (props : Props ℝ) :
    Equilibrium pr n q props ↔ Equilibrium pr' n q props :=
  C116_same pr pr' ho (follow_of_mem pr pr' hb hb' fun r hr => (h r).2 hr) (follow_of_mem pr' pr hb' hb fun r hr => (h r).1 hr) n q props

/-- **C116 (dependent balances).** A balance that is a combination of the others, with the amount that follows from theirs, may be left out (for example that of charge, if no species is
charged). With any other amount no state meets the balances. -/
theorem C116_dependent (pr : Problem) (hb : pr.b.length = pr.A.length) (row : List Rat) (amount : ℝ) (w : Nat → Rat)
    (hrow : ∀ j < count pr.phases + pr.uq.length, row.getD j 0 = combined pr.A pr.A.length w j) (n q : List ℝ) (props : Props ℝ) :
    (amount = ∑ k ∈ Finset.range pr.A.length, (w k : ℝ) * pr.b.getD k 0 →
      (Equilibrium { pr with A := pr.A ++ [row], b := pr.b ++ [amount] } n q props ↔ Equilibrium pr n q props)) ∧
    (amount ≠ ∑ k ∈ Finset.range pr.A.length, (w k : ℝ) * pr.b.getD k 0 → ¬ Feasible { pr with A := pr.A ++ [row], b := pr.b ++ [amount] } n q) := by
  have hA : ∀ k < pr.A.length, (pr.A ++ [row]).getD k [] = pr.A.getD k [] := fun k hk => List.getD_append _ _ _ _ hk
  have hB : ∀ k < pr.A.length, (pr.b ++ [amount]).getD k 0 = pr.b.getD k 0 := fun k hk => List.getD_append _ _ _ _ (by omega)
  have hlast : (pr.A ++ [row]).getD pr.A.length [] = row := by simp
  have hlastb : (pr.b ++ [amount]).getD pr.A.length 0 = amount := by rw [← hb]; simp
  constructor
  · intro ha
    refine C116_same _ _ (by unfold OnlyBalances; rfl) ?_ ?_ n q props
    · intro i hi
      refine ⟨fun l => if l = i then 1 else 0, ?_, ?_⟩
      · intro j _
        unfold combined
        rw [Finset.sum_eq_single_of_mem i (Finset.mem_range.2 (by simp; omega)) (by intro l _ hl; simp [hl])]
        dsimp only
        rw [if_pos rfl, one_mul, hA i hi]
      · rw [Finset.sum_eq_single_of_mem i (Finset.mem_range.2 (by simp; omega)) (by intro l _ hl; simp [hl])]
        dsimp only
        rw [if_pos rfl, Rat.cast_one, one_mul, hB i hi]
    · intro i hi
      have hi : i < pr.A.length + 1 := by simpa using hi
      by_cases h : i < pr.A.length
      · refine ⟨fun l => if l = i then 1 else 0, ?_, ?_⟩
        · intro j _
          unfold combined
          rw [Finset.sum_eq_single_of_mem i (Finset.mem_range.2 h) (by intro l _ hl; simp [hl])]
          dsimp only
          rw [if_pos rfl, one_mul, hA i h]
        · rw [Finset.sum_eq_single_of_mem i (Finset.mem_range.2 h) (by intro l _ hl; simp [hl])]
          dsimp only
          rw [if_pos rfl, Rat.cast_one, one_mul, hB i h]
      · obtain rfl : i = pr.A.length := by omega
        refine ⟨w, ?_, ?_⟩
        · intro j hj
          dsimp only
          rw [hlast]
          exact hrow j hj
        · dsimp only
          rw [hlastb]
          exact ha
  · intro ha hf
    apply ha
    have h1 := hf.balances pr.A.length (by simp)
    dsimp only at h1
    rw [hlastb] at h1
    rw [← h1, balance_combined pr.A (pr.A ++ [row]) pr.A.length w (n ++ q) (by
      intro j hj
      rw [hlast]
      apply hrow
      rw [List.length_append, hf.species, hf.titrants] at hj
      exact hj)]
    apply Finset.sum_congr rfl
    intro k hk
    have hk := Finset.mem_range.1 hk
    have h2 := hf.balances k (by simp; omega)
    dsimp only at h2
    rw [hB k hk] at h2
    rw [← h2]
    unfold balance
    rw [hA k hk]

section Systems

open ChemicalSystem

/-- **C116 (systems).** Elements with the same molar mass can be in either order in a system (`std::sort` does not fix it). For every order of the elements the equilibrium states are the
same; `amount` are the amounts of the elements and `charge` is the charge. -/
theorem C116_system (pr : Problem) (species : List Chem.Species) (elements elements' : List Chem.Element) (hperm : elements.Perm elements') (amount : Chem.Element → ℝ) (charge : ℝ)
    (n q : List ℝ) (props : Props ℝ) :
    Equilibrium { pr with A := formulaMatrix species elements, b := elements.map amount ++ [charge] } n q props ↔
      Equilibrium { pr with A := formulaMatrix species elements', b := elements'.map amount ++ [charge] } n q props := by
  have rows : ∀ e : List Chem.Element, (formulaMatrix species e).zip (e.map amount ++ [charge]) =
      (e.map fun e => (species.map fun s => Chem.coefficient s.elements e.symbol, amount e)) ++ [(species.map fun s => s.charge, charge)] := by
    intro e
    unfold formulaMatrix
    rw [List.zip_append (by simp), List.zip_map']
    rfl
  refine C116_order _ _ (by unfold OnlyBalances; rfl) (by simp [formulaMatrix]) (by simp [formulaMatrix]) ?_ n q props
  intro r
  dsimp only
  rw [rows, rows]
  exact ((hperm.map _).append_right _).mem_iff

end Systems

/-! ### Examples -/

/-- Two minerals without charge: the balance of charge may be given or left out. -/
example : (∃ props, Equilibrium { polymorphs with A := [[1, 1], [0, 0]], b := [2, 0] } [1, 2 - 1] [] props) ∧
    ∀ n q, ¬ Feasible { polymorphs with A := [[1, 1], [0, 0]], b := [2, 1] } n q := by
  constructor
  · obtain ⟨props, h⟩ := polymorphs_equilibrium 1 (by norm_num) (le_refl _)
    exact ⟨props, ((C116_dependent polymorphs rfl [0, 0] 0 (fun _ => 0)
      (by intro j hj; have hj : j < 2 := hj; interval_cases j <;> simp [combined]) [1, 2 - 1] [] props).1 (by simp)).2 h⟩
  · intro n q
    exact (C116_dependent polymorphs rfl [0, 0] 1 (fun _ => 0)
      (by intro j hj; have hj : j < 2 := hj; interval_cases j <;> simp [combined]) n q (newProps [])).2 (by simp)

/-- Two minerals XY: the amounts of X and Y, of Y and X, or of XY and Y. -/
example : ∃ props, Equilibrium { polymorphs with A := [[1, 1], [3, 3]], b := [2, 6] } [1, 2 - 1] [] props ∧
    Equilibrium { polymorphs with A := [[3, 3], [1, 1], [3, 3]], b := [6, 2, 6] } [1, 2 - 1] [] props := by
  obtain ⟨props, h⟩ := polymorphs_equilibrium 1 (by norm_num) (le_refl _)
  have h1 := ((C116_dependent polymorphs rfl [3, 3] 6 (fun _ => 3)
      (by intro j hj; have hj : j < 2 := hj; interval_cases j <;> simp [combined, polymorphs]) [1, 2 - 1] [] props).1 (by norm_num [polymorphs])).2 h
  refine ⟨props, h1, (C116_order _ _ (by unfold OnlyBalances; rfl) rfl rfl ?_ _ _ _).1 h1⟩
  intro r
  simp [polymorphs]
  tauto

open ChemicalSystem

def ice : List Chem.Species := [H2O c!"X" .Solid, H2O c!"Y" .Solid]

noncomputable def amountIce (e : Chem.Element) : ℝ := if e.symbol = c!"H" then 4 else 2

/-- Two polymorphs of ice, with hydrogen before oxygen and after it. -/
example : ∃ props, Equilibrium { polymorphs with A := formulaMatrix ice [O, H], b := [O, H].map amountIce ++ [0] } [1, 2 - 1] [] props := by
  obtain ⟨props, h⟩ := polymorphs_equilibrium 1 (by norm_num) (le_refl _)
  refine ⟨props, (C116_system polymorphs ice [H, O] [O, H] (.swap _ _ _)
    amountIce 0 [1, 2 - 1] [] props).1 ?_⟩
  have hA : formulaMatrix ice [H, O] = [[2, 2], [1, 1], [0, 0]] := by decide +kernel
  have hb : [H, O].map amountIce ++ [0] = [4, 2, 0] := by
    have h1 : H.symbol = c!"H" := by decide +kernel
    have h2 : ¬ O.symbol = c!"H" := by decide +kernel
    simp only [amountIce, List.map_cons, List.map_nil, if_pos h1, if_neg h2, List.cons_append, List.nil_append]
  rw [hA, hb]
  refine (C116_same polymorphs _ (by unfold OnlyBalances; rfl) ?_ ?_ _ _ _).1 h
  · intro i hi
    refine ⟨fun _ => [2, 1, 0].getD i 0, ?_, ?_⟩
    · intro j hj
      have hj : j < 2 := hj
      have hi : i < 3 := hi
      interval_cases i <;> interval_cases j <;> simp [combined, polymorphs]
    · have hi : i < 3 := hi
      interval_cases i <;> norm_num [polymorphs]
  · intro i hi
    refine ⟨fun k => [1 / 2, 0, 0].getD k 0, ?_, ?_⟩
    · intro j hj
      have hj : j < 2 := hj
      have hi : i < 1 := hi
      interval_cases i
      interval_cases j <;> simp [combined, polymorphs, Finset.sum_range_succ]
    · have hi : i < 1 := hi
      interval_cases i
      norm_num [polymorphs, Finset.sum_range_succ]

end Verif.Components
