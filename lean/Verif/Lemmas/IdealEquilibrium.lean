import Verif.Spec.IdealEquilibrium
import Verif.Theorems.ChemicalProps
import Verif.Theorems.Restrictions
import Mathlib.Analysis.SpecialFunctions.Log.Basic
import Mathlib.Tactic.Linarith
import Mathlib.Tactic.FieldSimp
import Mathlib.Tactic.Ring
import Mathlib.Algebra.Order.BigOperators.Group.Finset
import Mathlib.Algebra.BigOperators.Field
import Mathlib.Data.List.GetD

/-!
# Lemmas for C105
-/

namespace Verif.IdealEquilibrium

open ChemicalProps Activity
open ArraySerialization (Props)

/-! ### Dot products -/

theorem dot_nil : dot [] [] = 0 := rfl

theorem dot_cons (a b : ℝ) (l m : List ℝ) : dot (a :: l) (b :: m) = a * b + dot l m := by
  simp [dot]

theorem dot_append : ∀ (l m l' m' : List ℝ), l.length = m.length → dot (l ++ l') (m ++ m') = dot l m + dot l' m' := by
  intro l
  induction l with
  | nil => intro m l' m' h; rw [List.length_eq_zero_iff.1 h.symm]; simp [dot_nil]
  | cons a l ih =>
    intro m l' m' h
    cases m with
    | nil => simp at h
    | cons b m =>
      simp only [List.cons_append, dot_cons]
      rw [ih m l' m' (by simpa using h)]
      ring

theorem dot_range (l m : List ℝ) : l.length = m.length →
    dot l m = ∑ j ∈ Finset.range l.length, l.getD j 0 * m.getD j 0 := by
  induction l generalizing m with
  | nil => intro h; rw [List.length_eq_zero_iff.1 h.symm]; simp [dot_nil]
  | cons a l ih =>
    intro h
    cases m with
    | nil => simp at h
    | cons b m =>
      rw [dot_cons, ih m (by simpa using h), List.length_cons, Finset.sum_range_succ']
      simp only [List.getD_cons_succ, List.getD_cons_zero]
      ring

theorem dot_flatMap (f g : Nat → List ℝ) : ∀ l : List Nat, (∀ i ∈ l, (f i).length = (g i).length) →
    dot (l.flatMap f) (l.flatMap g) = (l.map fun i => dot (f i) (g i)).sum := by
  intro l
  induction l with
  | nil => intro _; rfl
  | cons i l ih =>
    intro h
    rw [List.flatMap_cons, List.flatMap_cons, dot_append _ _ _ _ (h i (by simp)), ih (fun j hj => h j (List.mem_cons_of_mem _ hj))]
    simp

theorem dot_zipWith (R T : ℝ) : ∀ (n g a : List ℝ), n.length = g.length → n.length = a.length →
    dot n (List.zipWith (fun g a => g + R * T * a) g a) = dot n g + R * T * dot n a := by
  intro n
  induction n with
  | nil => intro g a h1 h2; rw [List.length_eq_zero_iff.1 h1.symm, List.length_eq_zero_iff.1 h2.symm]; simp [dot]
  | cons y n ih =>
    intro g a h1 h2
    cases g with
    | nil => simp at h1
    | cons u g =>
      cases a with
      | nil => simp at h2
      | cons v a =>
        rw [List.zipWith_cons_cons, dot_cons, dot_cons, dot_cons, ih g a (by simpa using h1) (by simpa using h2)]
        ring

/-! ### Gibbs' inequality -/

theorem gibbs_terms (c : ℝ) (s s' : ℝ) (hs : 0 < s) (hs' : 0 < s') : ∀ (n n' : List ℝ), n.length = n'.length → (∀ y ∈ n, 0 < y) →
    (∀ y ∈ n', 0 < y) →
    n'.sum - s' / s * n.sum ≤ dot n' ((n'.map (· / s')).map fun x => Real.log x + c) - dot n' ((n.map (· / s)).map fun x => Real.log x + c) ∧
    (n'.sum - s' / s * n.sum =
        dot n' ((n'.map (· / s')).map fun x => Real.log x + c) - dot n' ((n.map (· / s)).map fun x => Real.log x + c) →
      n.map (· / s) = n'.map (· / s')) := by
  intro n
  induction n with
  | nil =>
    intro n' h _ _
    rw [List.length_eq_zero_iff.1 h.symm]
    simp [dot]
  | cons y n ih =>
    intro n' h hn hn'
    cases n' with
    | nil => simp at h
    | cons y' n' =>
      obtain ⟨h1, h2⟩ := ih n' (by simpa using h) (fun z hz => hn z (List.mem_cons_of_mem _ hz)) (fun z hz => hn' z (List.mem_cons_of_mem _ hz))
      have hy : 0 < y := hn y (by simp)
      have hy' : 0 < y' := hn' y' (by simp)
      simp only [List.map_cons, List.sum_cons, dot_cons]
      have hr : 0 < (y / s) / (y' / s') := by positivity
      have e1 : Real.log ((y / s) / (y' / s')) = Real.log (y / s) - Real.log (y' / s') :=
        Real.log_div (by positivity) (by positivity)
      have e2 : y' * ((y / s) / (y' / s') - 1) = s' / s * y - y' := by field_simp
      have hle : Real.log (y / s) - Real.log (y' / s') ≤ (y / s) / (y' / s') - 1 := by
        rw [← e1]; exact Real.log_le_sub_one_of_pos hr
      have hle' := mul_le_mul_of_nonneg_left hle hy'.le
      rw [e2] at hle'
      constructor
      · nlinarith
      · intro heq
        have hterm : y' * (Real.log (y / s) - Real.log (y' / s')) = s' / s * y - y' := by nlinarith
        have h3 : n'.sum - s' / s * n.sum =
            dot n' ((n'.map (· / s')).map fun x => Real.log x + c) - dot n' ((n.map (· / s)).map fun x => Real.log x + c) := by
          nlinarith
        rw [h2 h3]
        congr 1
        by_contra hne
        have hr1 : (y / s) / (y' / s') ≠ 1 := by
          intro h1
          exact hne ((div_eq_one_iff_eq (by positivity)).1 h1)
        have hlt := Real.log_lt_sub_one_of_pos hr hr1
        rw [e1] at hlt
        have := mul_lt_mul_of_pos_left hlt hy'
        rw [e2] at this
        linarith

theorem sum_pos' (n : List ℝ) (h : n ≠ []) (hn : ∀ y ∈ n, 0 < y) : 0 < n.sum := by
  induction n with
  | nil => exact absurd rfl h
  | cons a n ih =>
    rw [List.sum_cons]
    by_cases hnil : n = []
    · subst hnil; simpa using hn a (by simp)
    · have := ih hnil (fun y hy => hn y (List.mem_cons_of_mem _ hy))
      have := hn a (by simp)
      linarith

/-- Gibbs' inequality for the logarithms of mole fractions, with an additive constant. -/
theorem gibbs_inequality (c : ℝ) (n n' : List ℝ) (h : n.length = n'.length) (hne : n ≠ []) (hn : ∀ y ∈ n, 0 < y) (hn' : ∀ y ∈ n', 0 < y) :
    dot n' ((fractions n).map fun x => Real.log x + c) ≤ dot n' ((fractions n').map fun x => Real.log x + c) ∧
    (dot n' ((fractions n).map fun x => Real.log x + c) = dot n' ((fractions n').map fun x => Real.log x + c) →
      fractions n = fractions n') := by
  have hne' : n' ≠ [] := by intro h'; subst h'; exact hne (List.length_eq_zero_iff.1 h)
  have hs := sum_pos' n hne hn
  have hs' := sum_pos' n' hne' hn'
  obtain ⟨h1, h2⟩ := gibbs_terms c n.sum n'.sum hs hs' n n' h hn hn'
  have e : n'.sum - n'.sum / n.sum * n.sum = 0 := by field_simp; ring
  rw [e] at h1 h2
  unfold fractions
  exact ⟨by linarith, fun heq => h2 (by linarith)⟩

/-! ### Phases -/

/-- The block of a phase. -/
noncomputable def block (pr : Problem) (n : List ℝ) (i : Nat) : List ℝ := seg n (before pr.phases i) (sizeAt pr.phases i)

theorem block_length (pr : Problem) (n : List ℝ) (hn : n.length = count pr.phases) (i : Nat) (hi : i < pr.phases.length) :
    (block pr n i).length = sizeAt pr.phases i := by
  unfold block
  apply seg_length
  rw [hn]
  exact before_le pr.phases i hi

theorem block_mem (pr : Problem) (n : List ℝ) (i : Nat) (y : ℝ) (hy : y ∈ block pr n i) : y ∈ n :=
  List.mem_of_mem_drop (List.mem_of_mem_take hy)

/-- What is known of the properties of a phase at positive amounts. -/
theorem phase_props (pr : Problem) (hr : Proper pr) (n : List ℝ) (hn : n.length = count pr.phases) (hpos : ∀ y ∈ n, 0 < y)
    (props : Props ℝ) (h : Has pr n props) (i : Nat) (hi : i < pr.phases.length) :
    (view pr.phases props i).x = fractions (block pr n i) ∧
    (∃ old a, pr.phases[i].activity pr.T pr.P (fractions (block pr n i)) old = (a, true) ∧ a.ln_a = (view pr.phases props i).ln_a) ∧
    (view pr.phases props i).u = List.zipWith (fun g a => g + pr.R * pr.T * a) (view pr.phases props i).G0 (view pr.phases props i).ln_a := by
  obtain ⟨old, hs, hu⟩ := h
  obtain ⟨-, -, -, hc⟩ := C32_update pr.R pr.phases hr.sizes hr.nonempty false old hs pr.T pr.P n props hu
  have hc := hc i hi
  have hb : seg n (before pr.phases i) pr.phases[i].size = block pr n i := by
    unfold block; rw [sizeAt_of_lt pr.phases i hi]
  rw [hb] at hc
  have hlen := block_length pr n hn i hi
  have hne : block pr n i ≠ [] := by
    intro h0
    rw [h0, List.length_nil, sizeAt_of_lt pr.phases i hi] at hlen
    exact hr.nonempty _ (List.getElem_mem hi) hlen.symm
  have hsum : (block pr n i).sum ≠ 0 := (sum_pos' _ hne (fun y hy => hpos y (block_mem pr n i y hy))).ne'
  have hx := hc.fractions hsum
  refine ⟨hx, ?_, hc.potential⟩
  obtain ⟨old', ho⟩ := hc.activity hsum
  rw [hx] at ho
  exact ⟨old', _, ho, rfl⟩

theorem view_G0 (pr : Problem) (hr : Proper pr) (n n' : List ℝ) (props props' : Props ℝ) (h : Has pr n props) (h' : Has pr n' props')
    (i : Nat) (hi : i < pr.phases.length) : (view pr.phases props i).G0 = (view pr.phases props' i).G0 := by
  obtain ⟨old, hs, hu⟩ := h
  obtain ⟨old', hs', hu'⟩ := h'
  obtain ⟨a1, -, -, hc⟩ := C32_update pr.R pr.phases hr.sizes hr.nonempty false old hs pr.T pr.P n props hu
  obtain ⟨a1', -, -, hc'⟩ := C32_update pr.R pr.phases hr.sizes hr.nonempty false old' hs' pr.T pr.P n' props' hu'
  have hc := hc i hi
  have hc' := hc' i hi
  have l1 := (view_sized pr.phases props a1 i hi)
  have l2 := (view_sized pr.phases props' a1' i hi)
  rw [sizeAt_of_lt pr.phases i hi] at l1 l2
  have e1 : (view pr.phases props i).G0.length = pr.phases[i].species.length := l1.G0
  have e2 : (view pr.phases props' i).G0.length = pr.phases[i].species.length := l2.G0
  apply List.ext_getElem?
  intro k
  by_cases hk : k < pr.phases[i].species.length
  · obtain ⟨s, b1, b2, -⟩ := hc.standard k _ (List.getElem?_eq_getElem hk)
    obtain ⟨s', b1', b2', -⟩ := hc'.standard k _ (List.getElem?_eq_getElem hk)
    rw [b1] at b1'
    injection b1' with b
    rw [b2, b2', b]
  · rw [List.getElem?_eq_none (by omega), List.getElem?_eq_none (by omega)]

theorem props_shape (pr : Problem) (hr : Proper pr) (n : List ℝ) (props : Props ℝ) (h : Has pr n props) : Shape pr.phases props := by
  obtain ⟨old, hs, hu⟩ := h
  exact (C32_update pr.R pr.phases hr.sizes hr.nonempty false old hs pr.T pr.P n props hu).1

theorem sum_le_of_terms (f g : Nat → ℝ) : ∀ l : List Nat, (∀ i ∈ l, f i ≤ g i) →
    (l.map f).sum ≤ (l.map g).sum ∧ ((l.map f).sum = (l.map g).sum → ∀ i ∈ l, f i = g i) := by
  intro l
  induction l with
  | nil => intro _; exact ⟨le_refl _, fun _ i hi => by simp at hi⟩
  | cons a l ih =>
    intro h
    obtain ⟨h1, h2⟩ := ih (fun i hi => h i (List.mem_cons_of_mem _ hi))
    have ha := h a (by simp)
    simp only [List.map_cons, List.sum_cons]
    refine ⟨by linarith, fun he i hi => ?_⟩
    rcases List.mem_cons.1 hi with rfl | hi
    · linarith
    · exact h2 (by linarith) i hi

/-- Gibbs' criterion for the whole system. -/
theorem system_tangent (pr : Problem) (hr : Regular pr) (n n' : List ℝ) (hn : n.length = count pr.phases) (hn' : n'.length = count pr.phases)
    (hpos : ∀ y ∈ n, 0 < y) (hpos' : ∀ y ∈ n', 0 < y) (props props' : Props ℝ) (h : Has pr n props) (h' : Has pr n' props') :
    dot n' props.u ≤ dot n' props'.u ∧
    (dot n' props.u = dot n' props'.u → ∀ i < pr.phases.length, fractions (block pr n i) = fractions (block pr n' i)) := by
  have hs := props_shape pr hr.toProper n props h
  have hs' := props_shape pr hr.toProper n' props' h'
  have eu := (C32_blocks pr.phases props hs).2.2.2.2.2.2.2.2.2.2
  have eu' := (C32_blocks pr.phases props' hs').2.2.2.2.2.2.2.2.2.2
  have en' : n' = (List.range pr.phases.length).flatMap (block pr n') := (blocks_cover pr.phases n' hn').symm
  have key : ∀ i (hi : i < pr.phases.length),
      dot (block pr n' i) (view pr.phases props i).u ≤ dot (block pr n' i) (view pr.phases props' i).u ∧
      (dot (block pr n' i) (view pr.phases props i).u = dot (block pr n' i) (view pr.phases props' i).u →
        fractions (block pr n i) = fractions (block pr n' i)) := by
    intro i hi
    obtain ⟨-, ⟨o, a, ho, ha⟩, hu⟩ := phase_props pr hr.toProper n hn hpos props h i hi
    obtain ⟨-, ⟨o', a', ho', ha'⟩, hu'⟩ := phase_props pr hr.toProper n' hn' hpos' props' h' i hi
    have l1 := view_sized pr.phases props hs i hi
    have l2 := view_sized pr.phases props' hs' i hi
    have hb := block_length pr n hn i hi
    have hb' := block_length pr n' hn' i hi
    have hsz := sizeAt_of_lt pr.phases i hi
    obtain ⟨t1, t2⟩ := (hr.stable _ (List.getElem_mem hi)).tangent (block pr n i) (block pr n' i) (by rw [hb, hsz]) (by rw [hb', hsz])
      (fun y hy => hpos y (block_mem pr n i y hy)) (fun y hy => hpos' y (block_mem pr n' i y hy)) o o' a a' ho ho'
    rw [ha, ha'] at t1 t2
    rw [hu, hu', dot_zipWith _ _ _ _ _ (by rw [hb', l1.G0]) (by rw [hb', l1.ln_a]),
      dot_zipWith _ _ _ _ _ (by rw [hb', l2.G0]) (by rw [hb', l2.ln_a]), view_G0 pr hr.toProper n n' props props' h h' i hi]
    refine ⟨by nlinarith [hr.gas], fun he => t2 ?_⟩
    have : pr.R * pr.T * dot (block pr n' i) (view pr.phases props i).ln_a =
        pr.R * pr.T * dot (block pr n' i) (view pr.phases props' i).ln_a := by linarith
    exact mul_left_cancel₀ hr.gas.ne' this
  have d1 : ∀ q : Props ℝ, Shape pr.phases q → q.u = (List.range pr.phases.length).flatMap (fun i => (view pr.phases q i).u) →
      dot n' q.u = ((List.range pr.phases.length).map fun i => dot (block pr n' i) (view pr.phases q i).u).sum := by
    intro q hq hqu
    conv_lhs => rw [hqu, en']
    apply dot_flatMap
    intro i hi
    rw [List.mem_range] at hi
    rw [block_length pr n' hn' i hi, (view_sized pr.phases q hq i hi).u]
  rw [d1 props hs eu, d1 props' hs' eu']
  obtain ⟨s1, s2⟩ := sum_le_of_terms (fun i => dot (block pr n' i) (view pr.phases props i).u)
    (fun i => dot (block pr n' i) (view pr.phases props' i).u) (List.range pr.phases.length)
    (fun i hi => (key i (List.mem_range.1 hi)).1)
  exact ⟨s1, fun he i hi => (key i hi).2 (s2 he i (List.mem_range.2 hi))⟩

/-- Phases with the same mole fractions have the same activities and chemical potentials. -/
theorem same_fractions (pr : Problem) (hr : Regular pr) (n n' : List ℝ) (hn : n.length = count pr.phases) (hn' : n'.length = count pr.phases)
    (hpos : ∀ y ∈ n, 0 < y) (hpos' : ∀ y ∈ n', 0 < y) (props props' : Props ℝ) (h : Has pr n props) (h' : Has pr n' props')
    (hx : ∀ i < pr.phases.length, fractions (block pr n i) = fractions (block pr n' i)) :
    props.x = props'.x ∧ props.ln_a = props'.ln_a ∧ props.u = props'.u := by
  have hs := props_shape pr hr.toProper n props h
  have hs' := props_shape pr hr.toProper n' props' h'
  have b := C32_blocks pr.phases props hs
  have b' := C32_blocks pr.phases props' hs'
  have ex : ∀ i ∈ List.range pr.phases.length, (view pr.phases props i).x = (view pr.phases props' i).x := by
    intro i hi
    rw [List.mem_range] at hi
    rw [(phase_props pr hr.toProper n hn hpos props h i hi).1, (phase_props pr hr.toProper n' hn' hpos' props' h' i hi).1, hx i hi]
  have ea : ∀ i ∈ List.range pr.phases.length, (view pr.phases props i).ln_a = (view pr.phases props' i).ln_a := by
    intro i hi
    rw [List.mem_range] at hi
    obtain ⟨-, ⟨o, a, ho, ha⟩, -⟩ := phase_props pr hr.toProper n hn hpos props h i hi
    obtain ⟨-, ⟨o', a', ho', ha'⟩, -⟩ := phase_props pr hr.toProper n' hn' hpos' props' h' i hi
    rw [← ha, ← ha']
    rw [← hx i hi] at ho'
    exact (hr.stable _ (List.getElem_mem hi)).function _ o o' a a' ho ho'
  have eu : ∀ i ∈ List.range pr.phases.length, (view pr.phases props i).u = (view pr.phases props' i).u := by
    intro i hi
    have h1 := ea i hi
    rw [List.mem_range] at hi
    rw [(phase_props pr hr.toProper n hn hpos props h i hi).2.2, (phase_props pr hr.toProper n' hn' hpos' props' h' i hi).2.2, h1,
      view_G0 pr hr.toProper n n' props props' h h' i hi]
  refine ⟨?_, ?_, ?_⟩
  · rw [b.2.2.1, b'.2.2.1]; exact List.flatMap_congr ex
  · rw [b.2.2.2.2.2.2.2.2.2.1, b'.2.2.2.2.2.2.2.2.2.1]; exact List.flatMap_congr ea
  · rw [b.2.2.2.2.2.2.2.2.2.2, b'.2.2.2.2.2.2.2.2.2.2]; exact List.flatMap_congr eu

/-! ### The optimality conditions -/

theorem positive_of_feasible (pr : Problem) (hr : Regular pr) (n q : List ℝ) (h : Feasible pr n q) : ∀ y ∈ n, 0 < y := by
  intro y hy
  obtain ⟨j, hj, rfl⟩ := List.getElem_of_mem hy
  obtain ⟨v, hv, hv0⟩ := hr.positive j (by rw [← h.species]; exact hj)
  have := h.lower j v hv
  rw [List.getD_append _ _ _ _ hj, List.getD_eq_getElem?_getD, List.getElem?_eq_getElem hj, Option.getD_some] at this
  have : (0 : ℝ) < v := by exact_mod_cast hv0
  linarith

theorem gradient_length (pr : Problem) (n q u : List ℝ) (hu : u.length = n.length) (hq : q.length = pr.uq.length) :
    (pr.gradient n u).length = n.length + q.length := by
  simp [Problem.gradient, EquilibriumSetup.gradX, EquilibriumSetup.gradN, EquilibriumSetup.gradQ, hu, hq]

/-- The gradient does not decrease towards any feasible point. -/
theorem variational (pr : Problem) (hr : Regular pr) (n q n' q' : List ℝ) (props : Props ℝ) (h : Equilibrium pr n q props)
    (h' : Feasible pr n' q') :
    0 ≤ ∑ j ∈ Finset.range (n.length + q.length), (pr.gradient n props.u).getD j 0 * ((n' ++ q').getD j 0 - (n ++ q).getD j 0) := by
  obtain ⟨hf, -, y, hy⟩ := h
  have hl : (n ++ q).length = n.length + q.length := List.length_append
  have hl' : (n' ++ q').length = n.length + q.length := by
    rw [List.length_append, hf.species, hf.titrants, h'.species, h'.titrants]
  have hz : ∑ j ∈ Finset.range (n.length + q.length), (∑ i ∈ Finset.range pr.A.length, y i * (((pr.A.getD i []).getD j 0 : Rat) : ℝ)) *
      ((n' ++ q').getD j 0 - (n ++ q).getD j 0) = 0 := by
    have e : ∀ j ∈ Finset.range (n.length + q.length),
        (∑ i ∈ Finset.range pr.A.length, y i * (((pr.A.getD i []).getD j 0 : Rat) : ℝ)) * ((n' ++ q').getD j 0 - (n ++ q).getD j 0) =
        ∑ i ∈ Finset.range pr.A.length, y i * ((((pr.A.getD i []).getD j 0 : Rat) : ℝ) * (n' ++ q').getD j 0 -
          (((pr.A.getD i []).getD j 0 : Rat) : ℝ) * (n ++ q).getD j 0) := by
      intro j _
      rw [Finset.sum_mul]
      exact Finset.sum_congr rfl fun i _ => by ring
    rw [Finset.sum_congr rfl e, Finset.sum_comm]
    apply Finset.sum_eq_zero
    intro i hi
    rw [Finset.mem_range] at hi
    rw [← Finset.mul_sum, Finset.sum_sub_distrib]
    have b1 := hf.balances i hi
    have b2 := h'.balances i hi
    unfold balance at b1 b2
    rw [hl] at b1
    rw [hl'] at b2
    rw [b1, b2, sub_self, mul_zero]
  have hsplit : ∑ j ∈ Finset.range (n.length + q.length), (pr.gradient n props.u).getD j 0 * ((n' ++ q').getD j 0 - (n ++ q).getD j 0) =
      ∑ j ∈ Finset.range (n.length + q.length), ((pr.gradient n props.u).getD j 0 -
        ∑ i ∈ Finset.range pr.A.length, y i * (((pr.A.getD i []).getD j 0 : Rat) : ℝ)) * ((n' ++ q').getD j 0 - (n ++ q).getD j 0) := by
    simp only [sub_mul ((pr.gradient n props.u).getD _ 0)]
    rw [Finset.sum_sub_distrib, hz, sub_zero]
  rw [hsplit]
  apply Finset.sum_nonneg
  intro j hj
  rw [Finset.mem_range] at hj
  obtain ⟨y1, y2⟩ := hy j hj
  rcases lt_trichotomy ((pr.gradient n props.u).getD j 0 -
      ∑ i ∈ Finset.range pr.A.length, y i * (((pr.A.getD i []).getD j 0 : Rat) : ℝ)) 0 with hlt | heq | hgt
  · obtain ⟨v, hv, hx⟩ := y2 hlt
    have := h'.upper j v hv
    exact mul_nonneg_of_nonpos_of_nonpos hlt.le (by rw [hx]; linarith)
  · rw [heq, zero_mul]
  · obtain ⟨v, hv, hx⟩ := y1 hgt
    have := h'.lower j v hv
    exact mul_nonneg hgt.le (by rw [hx]; linarith)

/-- The sum of the previous lemma, in terms of chemical potentials. -/
theorem gradient_sum (pr : Problem) (n q n' q' u : List ℝ) (hu : u.length = n.length) (hn : n'.length = n.length)
    (hq : q.length = pr.uq.length) (hq' : q'.length = q.length) :
    ∑ j ∈ Finset.range (n.length + q.length), (pr.gradient n u).getD j 0 * ((n' ++ q').getD j 0 - (n ++ q).getD j 0) =
    (dot n' u - dot n u) / (pr.R * pr.T) -
      pr.eps * pr.factor * ∑ j ∈ Finset.range n.length, (n'.getD j 0 / n.getD j 0 - n.getD j 0 / n.getD j 0) +
      (dot q' pr.uq - dot q pr.uq) / (pr.R * pr.T) := by
  rw [Finset.sum_range_add]
  have hgl : (EquilibriumSetup.gradN pr.R pr.T pr.eps pr.factor n u).length = n.length := by
    simp [EquilibriumSetup.gradN, hu]
  have e1 : ∀ j ∈ Finset.range n.length, (pr.gradient n u).getD j 0 * ((n' ++ q').getD j 0 - (n ++ q).getD j 0) =
      (n'.getD j 0 * u.getD j 0 - n.getD j 0 * u.getD j 0) / (pr.R * pr.T) -
        pr.eps * pr.factor * (n'.getD j 0 / n.getD j 0 - n.getD j 0 / n.getD j 0) := by
    intro j hj
    rw [Finset.mem_range] at hj
    rw [List.getD_append _ _ _ _ hj, List.getD_append _ _ _ _ (by omega : j < n'.length)]
    have : (pr.gradient n u).getD j 0 = u.getD j 0 / (pr.R * pr.T) - pr.eps * pr.factor / n.getD j 0 := by
      unfold Problem.gradient EquilibriumSetup.gradX
      rw [List.getD_append _ _ _ _ (by omega)]
      unfold EquilibriumSetup.gradN
      simp only [List.getD_eq_getElem?_getD, List.getElem?_zipWith, List.getElem?_eq_getElem hj,
        List.getElem?_eq_getElem (by omega : j < u.length), Option.getD_some]
    rw [this]
    ring
  have e2 : ∀ k ∈ Finset.range q.length, (pr.gradient n u).getD (n.length + k) 0 * ((n' ++ q').getD (n.length + k) 0 - (n ++ q).getD (n.length + k) 0) =
      (q'.getD k 0 * pr.uq.getD k 0 - q.getD k 0 * pr.uq.getD k 0) / (pr.R * pr.T) := by
    intro k hk
    rw [Finset.mem_range] at hk
    rw [List.getD_append_right _ _ _ _ (by omega), List.getD_append_right _ _ _ _ (by omega)]
    have : (pr.gradient n u).getD (n.length + k) 0 = pr.uq.getD k 0 / (pr.R * pr.T) := by
      unfold Problem.gradient EquilibriumSetup.gradX
      rw [List.getD_append_right _ _ _ _ (by omega), hgl]
      unfold EquilibriumSetup.gradQ
      simp only [List.getD_eq_getElem?_getD, List.getElem?_map, Nat.add_sub_cancel_left]
      rw [List.getElem?_eq_getElem (by omega)]
      simp
    rw [this, hn, Nat.add_sub_cancel_left]
    ring
  rw [Finset.sum_congr rfl e1, Finset.sum_congr rfl e2, Finset.sum_sub_distrib, ← Finset.sum_div, ← Finset.sum_div, Finset.sum_sub_distrib,
    Finset.sum_sub_distrib, ← Finset.mul_sum, dot_range n' u (by omega), dot_range n u hu.symm, dot_range q' pr.uq (by omega),
    dot_range q pr.uq hq, hn, hq']

/-! ### Updates return -/

/-- The properties of a new object, `ChemicalProps.cpp:99-124`. -/
def newProps (phases : List (PhaseModel ℝ)) : Props ℝ :=
  let s := List.replicate (count phases) (0 : ℝ)
  let f := List.replicate phases.length (0 : ℝ)
  ⟨0, 0, f, f, s, f, s, s, s, s, s, s, f, f, f, f, f, f, f, s, s, s⟩

theorem newProps_shape (phases : List (PhaseModel ℝ)) : Shape phases (newProps phases) := by
  constructor <;> simp [newProps]

theorem phaseUpdate_returns (R : ℝ) (ph : PhaseModel ℝ) (T P : ℝ) (n : List ℝ) (hn : n.length = ph.size) (hne : ph.size ≠ 0)
    (d : PhaseData ℝ) (hd : Sized ph.size d) (hstd : ∀ f ∈ ph.species, (f T P).isSome)
    (hact : ∀ x a, x.length = ph.size → (∀ y ∈ x, 0 < y) → x.sum = 1 → a.ln_g.length = ph.size → a.ln_a.length = ph.size →
      (ph.activity T P x a).2 = true)
    (hpos : ∀ y ∈ n, 0 < y) : (phaseUpdate R ph false T P n d).2 = true := by
  unfold phaseUpdate
  dsimp only
  have h1 := stdLoop_true T P ph.species 0 { d with T := T, P := P, n := n } hstd
  have h2 := stdLoop_frame T P ph.species 0 { d with T := T, P := P, n := n }
  dsimp only at h2
  generalize stdLoop T P ph.species 0 { d with T := T, P := P, n := n } = r at h1 h2 ⊢
  rw [if_neg (by simp [h1])]
  have hnn : n ≠ [] := by rintro rfl; exact hne hn.symm
  have hsum : 0 < n.sum := sum_pos' n hnn hpos
  rw [if_neg hsum.ne']
  have hmin : ¬ minCoeff (n.map (fun y => y / n.sum)) = 0 := by
    rw [minCoeff_zero _ (by simpa using hnn)]
    rintro ⟨h, -⟩
    obtain ⟨y, hy, h⟩ := List.mem_map.1 h
    exact (div_pos (hpos y hy) hsum).ne' h
  rw [if_neg hmin, if_neg hsum.ne']
  rw [if_neg]
  rw [Bool.not_eq_false]
  simp only [Bool.false_eq_true, if_false]
  apply hact
  · simpa using hn
  · intro z hz
    obtain ⟨y, hy, rfl⟩ := List.mem_map.1 hz
    exact div_pos (hpos y hy) hsum
  · simp only [div_eq_mul_inv]
    rw [List.sum_map_mul_right, List.map_id']
    exact mul_inv_cancel₀ hsum.ne'
  · simp only [PhaseData.aprops]; rw [h2.2.2.2.2.1]; exact hd.ln_g
  · simp only [PhaseData.aprops]; rw [h2.2.2.2.2.2.1]; exact hd.ln_a

theorem has_exists' (pr : Problem) (hr : Proper pr) (n : List ℝ) (hn : n.length = count pr.phases) (hpos : ∀ y ∈ n, 0 < y)
    (hstd : ∀ ph ∈ pr.phases, ∀ f ∈ ph.species, (f pr.T pr.P).isSome)
    (hact : ∀ ph ∈ pr.phases, ∀ x a, x.length = ph.size → (∀ y ∈ x, 0 < y) → x.sum = 1 → a.ln_g.length = ph.size → a.ln_a.length = ph.size →
      (ph.activity pr.T pr.P x a).2 = true) : ∃ props, Has pr n props := by
  have hs := newProps_shape pr.phases
  obtain ⟨⟨p', ok⟩, h⟩ := C32_defined pr.R pr.phases false (newProps pr.phases) pr.T pr.P n hn
  have hs1 : Shape pr.phases { newProps pr.phases with T := pr.T, P := pr.P } := ⟨hs.perPhase, hs.perSpecies⟩
  obtain ⟨-, -, -, k, -, a5, a6, -, a8⟩ := updateLoop_spec pr.R pr.phases hr.sizes false pr.T pr.P n [] pr.phases rfl _ hs1 p' ok h
  have hk : k = pr.phases.length := by
    by_contra hk
    have hlt : k < pr.phases.length := by omega
    obtain ⟨b1, -, b3⟩ := a8 k hlt (Nat.zero_le _) (Nat.le_refl _)
    have hmem := List.getElem_mem (l := pr.phases) (n := k) hlt
    have hv := view_sized pr.phases _ hs1 k hlt
    rw [sizeAt_of_lt pr.phases k hlt] at hv
    have := phaseUpdate_returns pr.R pr.phases[k] pr.T pr.P (seg n (before pr.phases k) pr.phases[k].size) (seg_length _ _ _ b1)
      (hr.nonempty _ hmem) _ hv (hstd _ hmem) (hact _ hmem)
      (fun y hy => hpos y (List.mem_of_mem_drop (List.mem_of_mem_take hy)))
    have := b3.1 this
    omega
  rw [a6.2 hk] at h
  exact ⟨p', _, hs, h⟩

theorem has_exists (pr : Problem) (hr : Proper pr) (n : List ℝ) (hn : n.length = count pr.phases) (hpos : ∀ y ∈ n, 0 < y)
    (hstd : ∀ ph ∈ pr.phases, ∀ f ∈ ph.species, (f pr.T pr.P).isSome)
    (hact : ∀ ph ∈ pr.phases, ∀ x a, x.length = ph.size → a.ln_g.length = ph.size → a.ln_a.length = ph.size →
      (ph.activity pr.T pr.P x a).2 = true) : ∃ props, Has pr n props :=
  has_exists' pr hr n hn hpos hstd fun ph h x a h1 _ _ => hact ph h x a h1

/-- The chemical potentials of the species of a phase whose standard Gibbs energies are `g` and whose activities are `f x`. -/
theorem u_of_has (pr : Problem) (hr : Proper pr) (n : List ℝ) (hn : n.length = count pr.phases) (hpos : ∀ y ∈ n, 0 < y)
    (props : Props ℝ) (h : Has pr n props) (g : Nat → List ℝ) (f : Nat → List ℝ → List ℝ)
    (hg : ∀ i (hi : i < pr.phases.length), pr.phases[i].species.map (fun s => (s pr.T pr.P).map Std.G0) = (g i).map some)
    (hf : ∀ i (hi : i < pr.phases.length) x old a, pr.phases[i].activity pr.T pr.P x old = (a, true) → a.ln_a = f i x) :
    props.u = (List.range pr.phases.length).flatMap
      (fun i => List.zipWith (fun g a => g + pr.R * pr.T * a) (g i) (f i (fractions (block pr n i)))) := by
  have hs := props_shape pr hr n props h
  rw [(C32_blocks pr.phases props hs).2.2.2.2.2.2.2.2.2.2]
  apply List.flatMap_congr
  intro i hi
  rw [List.mem_range] at hi
  obtain ⟨-, ⟨o, a, ho, ha⟩, hu⟩ := phase_props pr hr n hn hpos props h i hi
  rw [hu, ← ha, hf i hi _ _ _ ho]
  congr 1
  obtain ⟨old, hs', hu'⟩ := h
  obtain ⟨-, -, -, hc⟩ := C32_update pr.R pr.phases hr.sizes hr.nonempty false old hs' pr.T pr.P n props hu'
  have hc := hc i hi
  have l1 := view_sized pr.phases props hs i hi
  rw [sizeAt_of_lt pr.phases i hi] at l1
  have e1 : (view pr.phases props i).G0.length = pr.phases[i].species.length := l1.G0
  have hgi := hg i hi
  have e2 : (g i).length = pr.phases[i].species.length := by simpa using (congrArg List.length hgi).symm
  apply List.ext_getElem?
  intro k
  by_cases hk : k < pr.phases[i].species.length
  · obtain ⟨s, b1, b2, -⟩ := hc.standard k _ (List.getElem?_eq_getElem hk)
    rw [b2]
    have := congrArg (fun l => l[k]?) hgi
    simp only [List.getElem?_map, List.getElem?_eq_getElem hk, Option.map_some, b1] at this
    rw [List.getElem?_eq_getElem (by omega)] at this ⊢
    simpa using this
  · rw [List.getElem?_eq_none (by omega), List.getElem?_eq_none (by omega)]

end Verif.IdealEquilibrium
