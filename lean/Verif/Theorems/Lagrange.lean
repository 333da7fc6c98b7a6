import Verif.Model.Lagrange
import Mathlib.LinearAlgebra.Lagrange
import Mathlib.Data.List.GetD
import Mathlib.Tactic.Linarith

/-!
# Theorem C17: Lagrange interpolation
-/

namespace Verif.Lagrange

open Polynomial

variable {K : Type} [Field K] [LinearOrder K] [IsStrictOrderedRing K]

theorem basisLoop_eq (x : K) (xi : List K) (i : Nat) : ∀ (l : List K) (j : Nat) (li : K),
    basisLoop x xi i j l li = li * ∏ k ∈ Finset.range l.length,
      (if i = j + k then 1 else (x - l.getD k 0) / (xi.getD i 0 - l.getD k 0)) := by
  intro l
  induction l with
  | nil => intro j li; simp [basisLoop]
  | cons a l ih =>
    intro j li
    rw [basisLoop, ih, List.length_cons, Finset.prod_range_succ']
    simp only [List.getD_cons_succ, List.getD_cons_zero, Nat.add_zero]
    rw [mul_assoc, mul_comm (ite _ _ _)]
    congr 2
    refine Finset.prod_congr rfl fun k _ => ?_
    rw [show j + 1 + k = j + (k + 1) by omega]

theorem outerLoop_eq (x : K) (xi : List K) : ∀ (l : List K) (i : Nat) (y : K),
    outerLoop x xi i l y = y + ∑ k ∈ Finset.range l.length, l.getD k 0 * basisLoop x xi (i + k) 0 xi 1 := by
  intro l
  induction l with
  | nil => intro i y; simp [outerLoop]
  | cons a l ih =>
    intro i y
    rw [outerLoop, ih, List.length_cons, Finset.sum_range_succ']
    simp only [List.getD_cons_succ, List.getD_cons_zero, Nat.add_zero]
    rw [add_assoc, add_comm (a * _)]
    congr 2
    refine Finset.sum_congr rfl fun k _ => ?_
    rw [show i + 1 + k = i + (k + 1) by omega]

/-- The loops compute the Lagrange polynomial through the points. -/
theorem outerLoop_interpolate (x : K) (xs ys : List K) (h : xs.length = ys.length) :
    outerLoop x xs 0 ys 0 =
      (_root_.Lagrange.interpolate (Finset.range xs.length) (fun k => xs.getD k 0) (fun k => ys.getD k 0)).eval x := by
  rw [outerLoop_eq, zero_add, _root_.Lagrange.interpolate_apply, eval_finset_sum, h]
  refine Finset.sum_congr rfl fun i hi => ?_
  rw [zero_add, eval_mul, eval_C, basisLoop_eq, one_mul, _root_.Lagrange.basis, eval_prod]
  congr 1
  rw [← Finset.mul_prod_erase _ _ (show i ∈ Finset.range xs.length by rw [h]; exact hi)]
  simp only [zero_add, if_true, one_mul, ← h]
  refine Finset.prod_congr rfl fun j hj => ?_
  rw [if_neg (Ne.symm (Finset.ne_of_mem_erase hj))]
  simp only [_root_.Lagrange.basisDivisor, eval_mul, eval_C, eval_sub, eval_X]
  rw [div_eq_inv_mul]

theorem scan_spec (x : K) : ∀ (l : List K) (j : Nat), (∃ a ∈ l, x ≤ a) →
    ∃ i, scan x j l = .ok (j + i) ∧ i < l.length ∧ x ≤ l.getD i 0 ∧ ∀ k < i, l.getD k 0 < x := by
  intro l
  induction l with
  | nil => intro j h; simp at h
  | cons a l ih =>
    intro j h
    by_cases ha : a < x
    · have h' : ∃ b ∈ l, x ≤ b := by
        obtain ⟨b, hb, hx⟩ := h
        rcases List.mem_cons.1 hb with rfl | hb
        · exact absurd hx (not_le.2 ha)
        · exact ⟨b, hb, hx⟩
      obtain ⟨i, h1, h2, h3, h4⟩ := ih (j + 1) h'
      refine ⟨i + 1, ?_, by simpa using h2, by simpa using h3, ?_⟩
      · rw [scan, if_pos ha, h1]; congr 1; omega
      · intro k hk
        cases k with
        | zero => simpa using ha
        | succ k => simpa using h4 k (by omega)
    · exact ⟨0, by rw [scan, if_neg ha]; rfl, by simp, by simpa using ha, by simp⟩

/-- Strictly increasing tables have different entries at different positions. -/
theorem sorted_lt (xi : List K) (h : xi.Pairwise (· < ·)) (i j : Nat) (hij : i < j) (hj : j < xi.length) :
    xi.getD i 0 < xi.getD j 0 := by
  rw [List.getD_eq_getElem _ _ (by omega), List.getD_eq_getElem _ _ hj]
  exact List.pairwise_iff_getElem.1 h i j _ _ hij

/-- What evaluation does strictly inside the table: it finds the first node `i` not below `x` and evaluates the Lagrange
polynomial through the nodes `i, i+1, ...` (at most `order + 1` of them). -/
theorem evaluate_inside (xi yi : List K) (order : Nat) (hlen : xi.length = yi.length) (x : K)
    (hf : ∀ a ∈ xi.head?, a < x) (hb : ∀ a ∈ xi.getLast?, x < a) (hne : xi ≠ []) :
    ∃ i, i < xi.length ∧ 0 < i ∧ x ≤ xi.getD i 0 ∧ (∀ k < i, xi.getD k 0 < x) ∧
      evaluate xi yi order x = .ok ((_root_.Lagrange.interpolate (Finset.range (min (order + 1) (xi.length - i)))
        (fun k => xi.getD (i + k) 0) (fun k => yi.getD (i + k) 0)).eval x) := by
  obtain ⟨a, ha⟩ : ∃ a, xi.head? = some a := by
    cases xi with
    | nil => exact absurd rfl hne
    | cons a l => exact ⟨a, rfl⟩
  obtain ⟨b, hbb⟩ : ∃ b, xi.getLast? = some b := by
    cases hl : xi.getLast? with
    | none => exact absurd (List.getLast?_eq_none_iff.1 hl) hne
    | some b => exact ⟨b, rfl⟩
  have hax := hf a (by simp [ha])
  have hxb := hb b (by simp [hbb])
  obtain ⟨i, h1, h2, h3, h4⟩ := scan_spec x xi 0 ⟨b, List.mem_of_getLast? hbb, le_of_lt hxb⟩
  rw [Nat.zero_add] at h1
  have hi0 : 0 < i := by
    rcases Nat.eq_zero_or_pos i with rfl | h
    · exfalso
      cases xi with
      | nil => exact hne rfl
      | cons c l =>
        simp only [List.head?_cons, Option.some.injEq] at ha
        subst ha
        simp only [List.getD_cons_zero] at h3
        exact absurd h3 (not_le.2 hax)
    · exact h
  refine ⟨i, h2, hi0, h3, h4, ?_⟩
  have hn : (if i + order + 1 > xi.length then xi.length - i else order + 1) = min (order + 1) (xi.length - i) := by
    split <;> omega
  unfold evaluate
  rw [ha, hbb]
  simp only [not_le.2 hax, if_false, ge_iff_le, not_le.2 hxb, h1, Res.bind_ok', hn]
  generalize hndef : min (order + 1) (xi.length - i) = n
  have hlx : (xi.drop i).length = xi.length - i := List.length_drop
  have hly : (yi.drop i).length = xi.length - i := by rw [List.length_drop, hlen]
  unfold interpolate
  rw [if_neg (by rw [hlx, hly]; omega)]
  have l1 : ((xi.drop i).take n).length = n := by rw [List.length_take, hlx]; omega
  have l2 : ((yi.drop i).take n).length = n := by rw [List.length_take, hly]; omega
  rw [outerLoop_interpolate _ _ _ (by rw [l1, l2]), l1]
  congr 2
  have hget : ∀ (l : List K) k, k < n → ((l.drop i).take n).getD k 0 = l.getD (i + k) 0 := by
    intro l k hk
    simp only [List.getD_eq_getElem?_getD, List.getElem?_take, hk, if_true, List.getElem?_drop]
  have hcx : ∀ k ∈ Finset.range n, ((xi.drop i).take n).getD k 0 = xi.getD (i + k) 0 :=
    fun k hk => hget xi k (Finset.mem_range.1 hk)
  have hcy : ∀ k ∈ Finset.range n, ((yi.drop i).take n).getD k 0 = yi.getD (i + k) 0 :=
    fun k hk => hget yi k (Finset.mem_range.1 hk)
  rw [_root_.Lagrange.interpolate_apply, _root_.Lagrange.interpolate_apply]
  refine Finset.sum_congr rfl fun k hk => ?_
  rw [hcy k hk]
  congr 1
  unfold _root_.Lagrange.basis
  refine Finset.prod_congr rfl fun j hj => ?_
  beta_reduce
  rw [hcx k hk, hcx j (Finset.mem_of_mem_erase hj)]

/-- **C17 (safety).** For every non-empty table (the same number of abscissae and ordinates, in any order), every order and
every `x`, evaluation returns a value: it reads nothing outside the tables. -/
theorem C17_no_out_of_range (xi yi : List K) (order : Nat) (hlen : xi.length = yi.length) (hne : xi ≠ []) (x : K) :
    ∃ y, evaluate xi yi order x = .ok y := by
  have hney : yi ≠ [] := by rintro rfl; simp at hlen; exact hne hlen
  obtain ⟨a, ha⟩ : ∃ a, xi.head? = some a := by
    cases xi with
    | nil => exact absurd rfl hne
    | cons a l => exact ⟨a, rfl⟩
  obtain ⟨b, hb⟩ : ∃ b, xi.getLast? = some b := by
    cases hl : xi.getLast? with
    | none => exact absurd (List.getLast?_eq_none_iff.1 hl) hne
    | some b => exact ⟨b, rfl⟩
  obtain ⟨c, hc⟩ : ∃ a, yi.head? = some a := by
    cases yi with
    | nil => exact absurd rfl hney
    | cons a l => exact ⟨a, rfl⟩
  obtain ⟨d, hd⟩ : ∃ b, yi.getLast? = some b := by
    cases hl : yi.getLast? with
    | none => exact absurd (List.getLast?_eq_none_iff.1 hl) hney
    | some b => exact ⟨b, rfl⟩
  by_cases h1 : x ≤ a
  · exact ⟨c, by simp [evaluate, ha, hb, h1, hc]⟩
  · by_cases h2 : x ≥ b
    · exact ⟨d, by simp only [evaluate, ha, hb, h1, if_false, h2, if_true, hd]⟩
    · obtain ⟨i, -, -, -, -, h⟩ := evaluate_inside xi yi order hlen x (by simpa [ha] using h1) (by simpa [hb] using h2) hne
      exact ⟨_, h⟩

/-- **C17 (nodes).** For strictly increasing abscissae, the value at each node is the given ordinate, for every order. -/
theorem C17_nodes (xi yi : List K) (order : Nat) (hlen : xi.length = yi.length) (hs : xi.Pairwise (· < ·)) (k : Nat)
    (hk : k < xi.length) : evaluate xi yi order (xi.getD k 0) = .ok (yi.getD k 0) := by
  have hne : xi ≠ [] := by rintro rfl; simp at hk
  have hhead : xi.head? = some (xi.getD 0 0) := by
    cases xi with
    | nil => exact absurd rfl hne
    | cons a l => rfl
  have hlast : xi.getLast? = some (xi.getD (xi.length - 1) 0) := by
    rw [List.getLast?_eq_getElem?, List.getD_eq_getElem?_getD, List.getElem?_eq_getElem (by omega)]; rfl
  have hyhead : yi.head? = some (yi.getD 0 0) := by
    cases yi with
    | nil => simp at hlen; exact absurd hlen hne
    | cons a l => rfl
  have hylast : yi.getLast? = some (yi.getD (xi.length - 1) 0) := by
    rw [List.getLast?_eq_getElem?, List.getD_eq_getElem?_getD, ← hlen, List.getElem?_eq_getElem (by omega)]; rfl
  rcases Nat.eq_zero_or_pos k with rfl | hk0
  · simp [evaluate, hhead, hlast, hyhead]
  · have h0 := sorted_lt xi hs 0 k hk0 hk
    by_cases hkl : k = xi.length - 1
    · subst hkl
      simp only [evaluate, hhead, hlast, not_le.2 h0, if_false, ge_iff_le, le_refl, if_true, hylast]
    · have h1 := sorted_lt xi hs k (xi.length - 1) (by omega) (by omega)
      obtain ⟨i, hi, -, hxi, hlt, he⟩ := evaluate_inside xi yi order hlen (xi.getD k 0) (by simpa [hhead] using h0)
        (by simpa [hlast] using h1) hne
      have hik : i = k := by
        rcases Nat.lt_trichotomy i k with h | h | h
        · exact absurd hxi (not_le.2 (sorted_lt xi hs i k h hk))
        · exact h
        · exact absurd (hlt k h) (lt_irrefl _)
      subst hik
      rw [he]
      congr 1
      have hinj : Set.InjOn (fun j => xi.getD (i + j) 0) (Finset.range (min (order + 1) (xi.length - i)) : Set ℕ) := by
        intro p hp q hq hpq
        simp only [Finset.coe_range, Set.mem_Iio] at hp hq
        by_contra hne'
        rcases Nat.lt_or_gt_of_ne hne' with h | h
        · exact absurd hpq (ne_of_lt (sorted_lt xi hs _ _ (by omega) (by omega)))
        · exact absurd hpq.symm (ne_of_lt (sorted_lt xi hs _ _ (by omega) (by omega)))
      have := _root_.Lagrange.eval_interpolate_at_node (r := fun j => yi.getD (i + j) 0) hinj
        (i := 0) (by rw [Finset.mem_range]; omega)
      simpa using this

/-- **C17 (exactness on polynomials).** For strictly increasing abscissae and ordinates taken from a polynomial `p`, the
value at `x` inside the table is `p x`, provided the degree of `p` is at most the order and there are more than `deg p`
nodes at or to the right of `x`. The second condition is not part of the English claim: see
`C17_not_exact_in_last_interval`. -/
theorem C17_polynomial_exact_partial (xi : List K) (order : Nat) (hs : xi.Pairwise (· < ·)) (p : K[X])
    (hp : p.natDegree ≤ order) (x : K) (hf : ∀ a ∈ xi.head?, a < x) (hb : ∀ a ∈ xi.getLast?, x < a)
    (hr : p.natDegree < (xi.filter (fun a => x ≤ a)).length) :
    evaluate xi (xi.map p.eval) order x = .ok (p.eval x) := by
  have hne : xi ≠ [] := by rintro rfl; simp at hr
  obtain ⟨i, hi, -, hxi, hlt, he⟩ := evaluate_inside xi (xi.map p.eval) order (by simp) x hf hb hne
  rw [he]
  congr 1
  have hcount : (xi.filter (fun a => x ≤ a)).length = xi.length - i := by
    conv_lhs => rw [← List.take_append_drop i xi, List.filter_append]
    have e1 : (xi.take i).filter (fun a => x ≤ a) = [] := by
      rw [List.filter_eq_nil_iff]
      intro a ha
      obtain ⟨k, hk, rfl⟩ := List.getElem_of_mem ha
      rw [List.length_take] at hk
      have := hlt k (by omega)
      rw [List.getD_eq_getElem _ _ (by omega)] at this
      simpa using this
    have e2 : (xi.drop i).filter (fun a => x ≤ a) = xi.drop i := by
      rw [List.filter_eq_self]
      intro a ha
      obtain ⟨k, hk, rfl⟩ := List.getElem_of_mem ha
      rw [List.length_drop] at hk
      have h2 : xi.getD i 0 ≤ xi.getD (i + k) 0 := by
        rcases Nat.eq_zero_or_pos k with rfl | h
        · rfl
        · exact le_of_lt (sorted_lt xi hs _ _ (by omega) (by omega))
      rw [List.getElem_drop]
      rw [List.getD_eq_getElem _ _ (show i + k < xi.length by omega)] at h2
      simpa using le_trans hxi h2
    rw [e1, e2]; simp
  generalize hndef : min (order + 1) (xi.length - i) = n
  have hn : p.natDegree < n := by rw [hcount] at hr; omega
  have hinj : Set.InjOn (fun j => xi.getD (i + j) 0) (Finset.range n : Set ℕ) := by
    intro a ha b hb' hab
    simp only [Finset.coe_range, Set.mem_Iio] at ha hb'
    by_contra hne'
    rcases Nat.lt_or_gt_of_ne hne' with h | h
    · exact absurd hab (ne_of_lt (sorted_lt xi hs _ _ (by omega) (by omega)))
    · exact absurd hab.symm (ne_of_lt (sorted_lt xi hs _ _ (by omega) (by omega)))
  have hdeg : p.degree < (Finset.range n).card := by
    rw [Finset.card_range]
    exact lt_of_le_of_lt degree_le_natDegree (by exact_mod_cast hn)
  have key := _root_.Lagrange.eq_interpolate_of_eval_eq (r := fun k => (xi.map p.eval).getD (i + k) 0) hinj hdeg (by
    intro k hk
    rw [Finset.mem_range] at hk
    have h1 : i + k < xi.length := by omega
    rw [List.getD_eq_getElem _ _ h1, List.getD_eq_getElem _ _ (by simpa using h1), List.getElem_map])
  rw [← key]

example : ([0, 1, 2, 4] : List ℚ).Pairwise (· < ·) ∧ (∀ a ∈ ([0, 1, 2, 4] : List ℚ).head?, a < 1 / 2) ∧
    (∀ a ∈ ([0, 1, 2, 4] : List ℚ).getLast?, (1 / 2 : ℚ) < a) ∧
    (X ^ 2 : ℚ[X]).natDegree < (([0, 1, 2, 4] : List ℚ).filter (fun a => (1 / 2 : ℚ) ≤ a)).length := by
  refine ⟨by decide +kernel, by decide +kernel, by decide +kernel, ?_⟩
  rw [natDegree_X_pow]
  decide +kernel

/-- **C17 (outside the table).** Below the first abscissa the first ordinate is returned, above the last the last. -/
theorem C17_constant_outside (xi yi : List K) (order : Nat) (x : K) (a b c d : K) (h1 : xi.head? = some a)
    (h2 : xi.getLast? = some b) (h3 : yi.head? = some c) (h4 : yi.getLast? = some d) :
    (x ≤ a → evaluate xi yi order x = .ok c) ∧ (b ≤ x → a < x → evaluate xi yi order x = .ok d) := by
  refine ⟨fun h => by simp [evaluate, h1, h2, h3, h], fun h h' => ?_⟩
  simp [evaluate, h1, h2, h4, not_le.2 h', h]

/-- **C17 is false of the code in the last interval.** Only nodes to the right of `x` are used, so between the last two
nodes the interpolation is constant: linear data `y = x` on `0, 1, 2` with order 1 gives 2 at `x = 3/2`, and the
interpolated function jumps from 1 to 2 just after the node `x = 1`. -/
theorem C17_not_exact_in_last_interval :
    evaluate [0, 1, 2] [0, 1, 2] 1 (3 / 2 : ℚ) = .ok 2 ∧ evaluate [0, 1, 2] [0, 1, 2] 1 (1 : ℚ) = .ok 1 ∧
    ∀ x : ℚ, 1 < x → x < 2 → evaluate [0, 1, 2] [0, 1, 2] 1 x = .ok 2 := by
  refine ⟨by decide +kernel, by decide +kernel, ?_⟩
  intro x h1 h2
  have h0 : (0 : ℚ) < x := by linarith
  simp [evaluate, not_le.2 h0, not_le.2 h2, scan, h0, h1, not_lt.2 (le_of_lt h2), interpolate, outerLoop, basisLoop]

/-- **C17, limit.** The sizes of the tables are not checked: with fewer ordinates than abscissae, interpolation through all nodes above `x` reads beyond the
table for every `x` strictly inside, and empty tables are always read beyond. -/
theorem C17_lengths_wrong (xi yi : List K) (order : Nat) (hlen : yi.length < xi.length) (ho : xi.length ≤ order) (x : K)
    (hf : ∀ a ∈ xi.head?, a < x) (hb : ∀ a ∈ xi.getLast?, x < a) : evaluate xi yi order x = .ub ∧ evaluate [] yi order x = .ub := by
  refine ⟨?_, rfl⟩
  have hne : xi ≠ [] := by rintro rfl; simp at hlen
  obtain ⟨a, ha⟩ : ∃ a, xi.head? = some a := by
    cases xi with
    | nil => exact absurd rfl hne
    | cons a l => exact ⟨a, rfl⟩
  obtain ⟨b, hbb⟩ : ∃ b, xi.getLast? = some b := by
    cases hl : xi.getLast? with
    | none => exact absurd (List.getLast?_eq_none_iff.1 hl) hne
    | some b => exact ⟨b, rfl⟩
  have hax := hf a (by simp [ha])
  have hxb := hb b (by simp [hbb])
  obtain ⟨i, h1, h2, -, -⟩ := scan_spec x xi 0 ⟨b, List.mem_of_getLast? hbb, le_of_lt hxb⟩
  rw [Nat.zero_add] at h1
  unfold evaluate
  rw [ha, hbb]
  simp only [not_le.2 hax, if_false, ge_iff_le, not_le.2 hxb, h1, Res.bind_ok']
  unfold interpolate
  rw [if_pos]
  right
  rw [if_pos (by omega), List.length_drop]
  omega

example : evaluate [1, 2, 3] [(5 : ℚ), 7] 3 (3 / 2) = .ub := by
  refine (C17_lengths_wrong [1, 2, 3] [(5 : ℚ), 7] 3 (by decide) (by decide) (3 / 2) ?_ ?_).1
  · intro a ha; simp at ha; subst ha; norm_num
  · intro a ha; simp at ha; subst ha; norm_num

end Verif.Lagrange
