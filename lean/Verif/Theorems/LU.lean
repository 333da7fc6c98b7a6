import Mathlib.Tactic.NormNum
import Mathlib.Tactic.IntervalCases
import Mathlib.Tactic.Positivity
import Mathlib.Algebra.Order.Ring.Rat
import Mathlib.Algebra.Field.Rat
import Verif.Lemmas.LU

/-!
# C83: the LU solver

Whatever was factorised before, the factors kept after a call are those of the matrix of that call; they
multiply to the permuted matrix; and the two solvers find a solution of `A X = B` and of `Aᵀ X = B` for
every right-hand side that has one, as long as the pivots are not so different that Eigen takes one for
zero. The code fails in the shape of `U` for weighted factorisations with more rows than columns, in
`empty`, and when the first matrix is empty.
-/

namespace Verif.LU

open Finset

variable {K : Type} [Field K] [LinearOrder K] [IsStrictOrderedRing K]

/-! ## History -/

/-- As many weights as columns, as Eigen demands. -/
def Op.Sized : Op K → Prop
  | .plain _ => True
  | .weighted A W => W.size = A.cols

/-- The factors of a call, computed afresh. -/
def Op.fresh : Op K → Factors K
  | .plain A => factor A
  | .weighted A W => factorW A W

theorem equalM_iff (A B : Mat K) : equalM A B = true ↔ A.stored = B.stored := by
  constructor
  · intro h
    simp only [equalM, Bool.and_eq_true, beq_iff_eq, List.all_eq_true, List.mem_range,
      decide_eq_true_eq] at h
    obtain ⟨⟨h1, h2⟩, h3⟩ := h
    simp only [Mat.stored, Mat.mk.injEq]
    refine ⟨h1, h2, ?_⟩
    funext i j
    rw [← h1, ← h2]
    split_ifs with h
    · exact h3 i h.1 j h.2
    · rfl
  · intro h
    simp only [Mat.stored, Mat.mk.injEq] at h
    obtain ⟨h1, h2, h3⟩ := h
    simp only [equalM, Bool.and_eq_true, beq_iff_eq, List.all_eq_true, List.mem_range,
      decide_eq_true_eq]
    refine ⟨⟨h1, h2⟩, fun i hi j hj => ?_⟩
    have := congrFun (congrFun h3 i) j
    rwa [if_pos ⟨hi, hj⟩, if_pos ⟨h1 ▸ hi, h2 ▸ hj⟩] at this

theorem equalV_iff (v w : Vct K) : equalV v w = true ↔ v.stored = w.stored := by
  constructor
  · intro h
    simp only [equalV, Bool.and_eq_true, beq_iff_eq, List.all_eq_true, List.mem_range,
      decide_eq_true_eq] at h
    obtain ⟨h1, h3⟩ := h
    simp only [Vct.stored, Vct.mk.injEq]
    refine ⟨h1, ?_⟩
    funext i
    rw [← h1]
    split_ifs with h
    · exact h3 i h
    · rfl
  · intro h
    simp only [Vct.stored, Vct.mk.injEq] at h
    obtain ⟨h1, h3⟩ := h
    simp only [equalV, Bool.and_eq_true, beq_iff_eq, List.all_eq_true, List.mem_range,
      decide_eq_true_eq]
    refine ⟨h1, fun i hi => ?_⟩
    have := congrFun h3 i
    rwa [if_pos hi, if_pos (h1 ▸ hi)] at this

theorem stored_sizes {A B : Mat K} (h : A.stored = B.stored) : A.rows = B.rows ∧ A.cols = B.cols := by
  simp only [Mat.stored, Mat.mk.injEq] at h; exact ⟨h.1, h.2.1⟩

theorem factor_congr {A B : Mat K} (h : A.stored = B.stored) : factor A = factor B := by
  obtain ⟨h1, h2⟩ := stored_sizes h
  have : fullPivLU A = fullPivLU B := by rw [fullPivLU, fullPivLU, h, h1, h2]
  simp only [factor, this, h1, h2]

theorem factorW_congr {A B : Mat K} {v w : Vct K} (h : A.stored = B.stored) (hv : v.stored = w.stored) :
    factorW A v = factorW B w := by
  obtain ⟨h1, h2⟩ := stored_sizes h
  simp only [factorW, h, hv, h1, h2]

/-- What is known of the object after every call. -/
def Good (s : Obj K) : Prop :=
  (s.factors = none ∧ s.Alast.cols = 0 ∧ s.Wlast.size = 0) ∨
  (s.factors = some (factor s.Alast) ∧ s.Wlast.size = 0) ∨
  (s.factors = some (factorW s.Alast s.Wlast) ∧ s.Wlast.size = s.Alast.cols)

theorem good_run (s : Obj K) (op : Op K) (hs : Good s) (hop : op.Sized) : Good (s.run op) := by
  cases op with
  | plain A =>
    simp only [Obj.run, Obj.compute]
    split_ifs
    · exact hs
    · exact Or.inr (Or.inl ⟨rfl, rfl⟩)
  | weighted A W =>
    simp only [Obj.run, Obj.computeW]
    split_ifs
    · exact hs
    · exact Or.inr (Or.inr ⟨rfl, hop⟩)

theorem good_runs (ops : List (Op K)) (h : ∀ op ∈ ops, op.Sized) (s : Obj K) (hs : Good s) :
    Good (ops.foldl Obj.run s) := by
  induction ops generalizing s with
  | nil => exact hs
  | cons op ops ih =>
    exact ih (fun o ho => h o (List.mem_cons_of_mem _ ho)) _ (good_run s op hs (h op (by simp)))

/-- **C83.** Whatever was computed before, after a call with a matrix that is not empty the factors are
those of this matrix (and these weights). -/
theorem C83_history (ops : List (Op K)) (h : ∀ op ∈ ops, op.Sized) (op : Op K) (hop : op.Proper) :
    ((ops.foldl Obj.run Obj.new).run op).factors = some op.fresh := by
  have hg := good_runs ops h Obj.new (Or.inl ⟨rfl, rfl, rfl⟩)
  revert hg
  generalize ops.foldl Obj.run Obj.new = s
  intro hg
  cases op with
  | plain A =>
    simp only [Obj.run, Obj.compute]
    split_ifs with hc
    · simp only [Bool.and_eq_true, beq_iff_eq] at hc
      have he := (equalM_iff A s.Alast).1 hc.1
      have hsz := stored_sizes he
      rcases hg with hg | hg | hg
      · have := hop.2; omega
      · rw [hg.1, Op.fresh, factor_congr he]
      · have := hop.2; omega
    · rfl
  | weighted A W =>
    simp only [Obj.run, Obj.computeW]
    split_ifs with hc
    · simp only [Bool.and_eq_true] at hc
      have he := (equalM_iff A s.Alast).1 hc.1
      have hw := (equalV_iff W s.Wlast).1 hc.2
      have hsz := stored_sizes he
      have hws : W.size = s.Wlast.size := by
        simp only [Vct.stored, Vct.mk.injEq] at hw; exact hw.1
      obtain ⟨h1, h2, h3, h4⟩ := hop
      rcases hg with hg | hg | hg
      · omega
      · omega
      · rw [hg.1, Op.fresh, factorW_congr he hw]
    · rfl

/-! ## The factors -/

/-- `L`, `U`, `P`, `Q` are a factorisation `P A Q = L U` of the matrix into a lower and an upper
triangular one. -/
structure IsFactorisation (A : Mat K) (f : Factors K) : Prop where
  shape : f.L.rows = A.rows ∧ f.L.cols = f.U.rows ∧ f.U.cols = A.cols
  perm : IsPerm A.rows f.P ∧ IsPerm A.cols f.Q
  prod : ∀ i < A.rows, ∀ j < A.cols, permuted f.P A f.Q i j = mul f.L f.U i j
  lower : ∀ i j, i < j → f.L.e i j = 0
  upper : ∀ i j, j < i → f.U.e i j = 0

theorem factor_isFactorisation (A : Mat K) : IsFactorisation A (factor A) := by
  have hd := done_fullPivLU A
  refine ⟨⟨rfl, rfl, rfl⟩, ⟨hd.inv.hp, hd.inv.hq⟩, ?_, ?_, ?_⟩
  · intro i hi j hj
    exact full_prod A i hi j hj
  · intro i j hij
    simp only [factor]
    rw [if_neg (by omega), if_neg (by omega)]
  · intro i j hij
    simp only [factor]
    rw [if_neg (by omega)]

/-- The entries of the weighted factor `U`. -/
theorem factorW_U (A : Mat K) (W : Vct K) (i j : Nat) :
    (factorW A W).U.e i j
      = (if i = j then 1 else if i < j then (fullPivLU (weigh A.stored W.stored).tr).lu j i else 0)
        * (1 / W.stored.e ((factorW A W).Q j)) := by
  simp only [factorW, permCols, unweigh, inv_inv]
  simp

theorem factorW_prod (A : Mat K) (W : Vct K) (hs : W.size = A.cols) (hw : ∀ j < A.cols, W.e j ≠ 0)
    (i : Nat) (hi : i < A.rows) (j : Nat) (hj : j < A.cols) :
    permuted (factorW A W).P A (factorW A W).Q i j
      = ∑ k ∈ range (min A.rows A.cols), (factorW A W).L.e i k * (factorW A W).U.e k j := by
  set B := (weigh A.stored W.stored).tr with hB
  have hd := done_fullPivLU B
  have hp : IsPerm A.cols (fullPivLU B).p := hd.inv.hp
  have hq : IsPerm A.rows (fullPivLU B).q := hd.inv.hq
  have h := full_prod B j hj i hi
  have hj' : (fullPivLU B).p⁻¹ j < A.cols := (hp.inv j).1 hj
  have hi' : (fullPivLU B).q i < A.rows := (hq i).1 hi
  have hwj : W.stored.e ((fullPivLU B).p⁻¹ j) = W.e ((fullPivLU B).p⁻¹ j) := by
    simp only [Vct.stored]; rw [if_pos (by omega)]
  have e1 : B.e ((fullPivLU B).p⁻¹ j) ((fullPivLU B).q i)
      = A.e ((fullPivLU B).q i) ((fullPivLU B).p⁻¹ j) * W.e ((fullPivLU B).p⁻¹ j) := by
    have hall : ∀ a b, B.e a b = A.stored.e b a * W.stored.e a := fun a b => rfl
    rw [hall, hwj]
    simp only [Mat.stored]
    rw [if_pos ⟨hi', hj'⟩]
  have hne := hw _ hj'
  have e2 : permuted (factorW A W).P A (factorW A W).Q i j
      = A.e ((fullPivLU B).q i) ((fullPivLU B).p⁻¹ j) := by
    simp only [permuted, factorW, inv_inv, ← hB]
  have e3 : min A.rows A.cols = min B.rows B.cols := by
    simp [hB, Mat.tr, weigh, Mat.stored, Nat.min_comm]
  rw [e2, e3]
  rw [e1] at h
  have h5 : A.e ((fullPivLU B).q i) ((fullPivLU B).p⁻¹ j)
      = (∑ t ∈ range (min B.rows B.cols), lower (fullPivLU B).lu j t * upper (fullPivLU B).lu t i)
        * (1 / W.e ((fullPivLU B).p⁻¹ j)) := by
    rw [← h]; field_simp
  rw [h5, sum_mul]
  apply sum_congr rfl
  intro k _
  rw [factorW_U]
  have e4 : W.stored.e ((factorW A W).Q j) = W.e ((fullPivLU B).p⁻¹ j) := by
    rw [← hwj]; simp only [factorW, ← hB]
  rw [e4]
  have e5 : (factorW A W).L.e i k = upper (fullPivLU B).lu k i := by
    simp only [factorW, upper, ← hB]
  have e6 : (if k = j then (1 : K) else if k < j then (fullPivLU B).lu j k else 0)
      = lower (fullPivLU B).lu j k := by
    simp only [lower, eq_comm]
  rw [e5, e6]
  ring

theorem factorW_isFactorisation (A : Mat K) (W : Vct K) (hs : W.size = A.cols)
    (hw : ∀ j < A.cols, W.e j ≠ 0) (hmn : A.rows ≤ A.cols) : IsFactorisation A (factorW A W) := by
  have hd := done_fullPivLU (weigh A.stored W.stored).tr
  refine ⟨⟨rfl, ?_, rfl⟩, ⟨IsPerm.inv hd.inv.hq, IsPerm.inv hd.inv.hp⟩, ?_, ?_, ?_⟩
  · simp [factorW, permCols, unweigh, hmn]
  · intro i hi j hj
    exact factorW_prod A W hs hw i hi j hj
  · intro i j hij
    simp only [factorW]
    rw [if_neg (by omega)]
  · intro i j hij
    rw [factorW_U, if_neg (by omega), if_neg (by omega), zero_mul]

/-- A call whose matrix has no more rows than columns, or that has no weights. -/
def Op.Wide : Op K → Prop
  | .plain _ => True
  | .weighted A _ => A.rows ≤ A.cols

/-- **C83 (partial).** After any history, the factors kept after a call are triangular and multiply to
the permuted matrix. Missing: weighted calls with more rows than columns, see `C83_factors_wrong`. -/
theorem C83_factors_partial (ops : List (Op K)) (h : ∀ op ∈ ops, op.Sized) (op : Op K)
    (hop : op.Proper) (hwide : op.Wide) :
    ∃ f, ((ops.foldl Obj.run Obj.new).run op).factors = some f ∧ IsFactorisation op.matrix f := by
  refine ⟨op.fresh, C83_history ops h op hop, ?_⟩
  cases op with
  | plain A => exact factor_isFactorisation A
  | weighted A W => exact factorW_isFactorisation A W hop.2.2.1 hop.2.2.2 hwide

/-- **C83 fails** for weighted calls with more rows than columns: `L` has as many columns as the matrix,
`U` as many rows as the matrix, so the product `L U` does not exist. -/
theorem C83_factors_wrong (A : Mat K) (W : Vct K) (h : A.cols < A.rows) :
    (factorW A W).L.cols ≠ (factorW A W).U.rows := by
  simp only [factorW, permCols, unweigh]
  omega

/-! ## The solvers -/

theorem solves_of_factors (A : Mat K) (f : Factors K) (N : Nat)
    (hU : f.U.cols = A.cols) (hperm : IsPerm A.rows f.P ∧ IsPerm A.cols f.Q)
    (hA : ∀ i < A.rows, ∀ j < A.cols, A.e (f.P⁻¹ i) (f.Q j) = ∑ k ∈ range N, f.L.e i k * f.U.e k j)
    (hrN : f.rank ≤ N) (hrm : f.rank ≤ A.rows) (hrn : f.rank ≤ A.cols)
    (hl : ∀ i k, i < k → f.L.e i k = 0) (hu : ∀ k j, j < k → f.U.e k j = 0)
    (hdl : ∀ k < f.rank, f.L.e k k ≠ 0) (hdu : ∀ k < f.rank, f.U.e k k ≠ 0)
    (hz : ∀ k, f.rank ≤ k → k < N →
      (∀ i < A.rows, f.L.e i k = 0) ∨ ∀ j < A.cols, f.U.e k j = 0)
    (s : Obj K) (hs : s.factors = some f) (B : Mat K) (X0 : Mat K) (hX0 : Solves A X0 B) :
    ∃ X, s.solve B = .ok X ∧ Solves A X B := by
  refine ⟨f.solve B, by rw [Obj.solve, hs], hU, hX0.2.1, rfl, ?_⟩
  intro i hi j hj
  exact solve_core A.rows A.cols N f.rank A.e f.L.e f.U.e f.P f.Q hperm.1 hperm.2 hA hrN hrm hrn hl hu
    hdl hdu hz (fun i => B.e i j) (fun k => X0.e k j) (fun i hi => hX0.2.2.2 i hi j hj) i hi

theorem trsolves_of_factors (A : Mat K) (f : Factors K) (N : Nat)
    (hL : f.L.rows = A.rows) (hperm : IsPerm A.rows f.P ∧ IsPerm A.cols f.Q)
    (hA : ∀ i < A.rows, ∀ j < A.cols, A.e (f.P⁻¹ i) (f.Q j) = ∑ k ∈ range N, f.L.e i k * f.U.e k j)
    (hrN : f.rank ≤ N) (hrm : f.rank ≤ A.rows) (hrn : f.rank ≤ A.cols)
    (hl : ∀ i k, i < k → f.L.e i k = 0) (hu : ∀ k j, j < k → f.U.e k j = 0)
    (hdl : ∀ k < f.rank, f.L.e k k ≠ 0) (hdu : ∀ k < f.rank, f.U.e k k ≠ 0)
    (hz : ∀ k, f.rank ≤ k → k < N →
      (∀ i < A.rows, f.L.e i k = 0) ∨ ∀ j < A.cols, f.U.e k j = 0)
    (s : Obj K) (hs : s.factors = some f) (B : Mat K) (X0 : Mat K) (hX0 : Solves A.tr X0 B) :
    ∃ X, s.trsolve B = .ok X ∧ Solves A.tr X B := by
  refine ⟨f.trsolve B, by rw [Obj.trsolve, hs], hL, hX0.2.1, rfl, ?_⟩
  intro i hi j hj
  have := solve_core A.cols A.rows N f.rank (fun a b => A.e b a) (fun a b => f.U.e b a)
    (fun a b => f.L.e b a) f.Q⁻¹ f.P⁻¹ hperm.2.inv hperm.1.inv
    (fun i hi j hj => by
      rw [inv_inv, hA j hj i hi]; exact sum_congr rfl fun k _ => mul_comm _ _)
    hrN hrn hrm (fun i k h => hu k i h) (fun k j h => hl j k h) hdu hdl
    (fun k h1 h2 => (hz k h1 h2).symm)
    (fun i => B.e i j) (fun k => X0.e k j) (fun i hi => hX0.2.2.2 i hi j hj) i hi
  simp only [inv_inv] at this
  exact this

theorem plain_data (A : Mat K) (h : ClearRank A) :
    (factor A).rank = (fullPivLU A).nonzero := rank_eq _ _ _ h

theorem weighted_data (A : Mat K) (W : Vct K) (h : ClearRank (weigh A.stored W.stored).tr) :
    (factorW A W).rank = (fullPivLU (weigh A.stored W.stored).tr).nonzero := rank_eq _ _ _ h

/-- The facts about the factors of a call that the solvers use. -/
theorem fresh_data (op : Op K) (hop : op.Proper) (hc : op.Clear) :
    let A := op.matrix
    let f := op.fresh
    f.U.cols = A.cols ∧ f.L.rows = A.rows ∧ (IsPerm A.rows f.P ∧ IsPerm A.cols f.Q) ∧
    (∀ i < A.rows, ∀ j < A.cols, A.e (f.P⁻¹ i) (f.Q j)
      = ∑ k ∈ range (min A.rows A.cols), f.L.e i k * f.U.e k j) ∧
    f.rank ≤ min A.rows A.cols ∧
    (∀ i k, i < k → f.L.e i k = 0) ∧ (∀ k j, j < k → f.U.e k j = 0) ∧
    (∀ k < f.rank, f.L.e k k ≠ 0) ∧ (∀ k < f.rank, f.U.e k k ≠ 0) ∧
    (∀ k, f.rank ≤ k → k < min A.rows A.cols →
      (∀ i < A.rows, f.L.e i k = 0) ∨ ∀ j < A.cols, f.U.e k j = 0) := by
  cases op with
  | plain A =>
    have hd := done_fullPivLU A
    have hf := factor_isFactorisation A
    have hr := plain_data A hc
    refine ⟨rfl, rfl, hf.perm, hf.prod, ?_, hf.lower, hf.upper, ?_, ?_, ?_⟩
    · show (factor A).rank ≤ _
      rw [hr]; exact hd.le
    · intro k _
      simp [Op.fresh, factor]
    · intro k hk
      have hk : k < (fullPivLU A).nonzero := hr ▸ hk
      simpa [Op.fresh, factor] using hd.inv.piv k hk
    · intro k hk hkm
      right
      intro j hj
      have hk : (fullPivLU A).nonzero ≤ k := hr ▸ hk
      simp only [Op.matrix] at hkm hj
      have := upper_zero (A := A) hk (by omega) hj
      simpa [Op.fresh, factor, upper] using this
  | weighted A W =>
    obtain ⟨h1, h2, h3, h4⟩ := hop
    set B := (weigh A.stored W.stored).tr with hB
    have hd := done_fullPivLU B
    have hr := weighted_data A W hc
    rw [← hB] at hr
    have hle : (fullPivLU B).nonzero ≤ min A.rows A.cols := by
      have := hd.le
      simp only [hB, Mat.tr, weigh, Mat.stored] at this
      rw [Nat.min_comm]
      exact this
    refine ⟨rfl, rfl, ⟨IsPerm.inv hd.inv.hq, IsPerm.inv hd.inv.hp⟩, factorW_prod A W h3 h4, ?_, ?_, ?_,
      ?_, ?_, ?_⟩
    · show (factorW A W).rank ≤ _
      rw [hr]; exact hle
    · intro i j hij
      simp only [Op.fresh, factorW]
      rw [if_neg (by omega)]
    · intro i j hij
      simp only [Op.fresh]
      rw [factorW_U, if_neg (by omega), if_neg (by omega), zero_mul]
    · intro k hk
      have hk : k < (fullPivLU B).nonzero := hr ▸ hk
      simpa [Op.fresh, factorW, ← hB] using hd.inv.piv k hk
    · intro k hk
      have hk : k < (fullPivLU B).nonzero := hr ▸ hk
      have hkn : k < A.cols := by omega
      simp only [Op.fresh]
      rw [factorW_U, if_pos rfl, one_mul]
      have hQ : IsPerm A.cols (factorW A W).Q := IsPerm.inv hd.inv.hp
      have hQk : (factorW A W).Q k < A.cols := (hQ k).1 hkn
      simp only [Vct.stored]
      rw [if_pos (by omega)]
      exact one_div_ne_zero (h4 _ hQk)
    · intro k hk hkm
      left
      intro i hi
      have hk : (fullPivLU B).nonzero ≤ k := hr ▸ hk
      simp only [Op.matrix] at hkm hi
      have := upper_zero (A := B) (t := k) (j := i) hk
        (by simp only [hB, Mat.tr, weigh, Mat.stored]; omega)
        (by simp only [hB, Mat.tr, weigh, Mat.stored]; omega)
      simpa [Op.fresh, factorW, upper, ← hB] using this

/-- **C83.** After any history, `solve` finds a solution of `A X = B` for every right-hand side that has
one, whatever the shape and the rank of the matrix, with and without weights. -/
theorem C83_solve (ops : List (Op K)) (h : ∀ op ∈ ops, op.Sized) (op : Op K) (hop : op.Proper)
    (hc : op.Clear) (B : Mat K) (hB : ∃ X, Solves op.matrix X B) :
    ∃ X, ((ops.foldl Obj.run Obj.new).run op).solve B = .ok X ∧ Solves op.matrix X B := by
  obtain ⟨X0, hX0⟩ := hB
  obtain ⟨a1, _, a3, a4, a5, a6, a7, a8, a9, a10⟩ := fresh_data op hop hc
  exact solves_of_factors op.matrix op.fresh _ a1 a3 a4 a5 (a5.trans (Nat.min_le_left _ _))
    (a5.trans (Nat.min_le_right _ _)) a6 a7 a8 a9 a10 _ (C83_history ops h op hop) B X0 hX0

/-- **C83.** After any history, `trsolve` finds a solution of `Aᵀ X = B` for every right-hand side that
has one. -/
theorem C83_trsolve (ops : List (Op K)) (h : ∀ op ∈ ops, op.Sized) (op : Op K) (hop : op.Proper)
    (hc : op.Clear) (B : Mat K) (hB : ∃ X, Solves op.matrix.tr X B) :
    ∃ X, ((ops.foldl Obj.run Obj.new).run op).trsolve B = .ok X ∧ Solves op.matrix.tr X B := by
  obtain ⟨X0, hX0⟩ := hB
  obtain ⟨_, a2, a3, a4, a5, a6, a7, a8, a9, a10⟩ := fresh_data op hop hc
  exact trsolves_of_factors op.matrix op.fresh _ a2 a3 a4 a5 (a5.trans (Nat.min_le_left _ _))
    (a5.trans (Nat.min_le_right _ _)) a6 a7 a8 a9 a10 _ (C83_history ops h op hop) B X0 hX0

/-! ## Failures -/

/-- **C83 fails**: `empty` is false for an object that holds nothing and true for one that holds the
factors of a matrix. -/
theorem C83_empty_wrong : (Obj.new : Obj K).empty = false ∧
    ∀ A : Mat K, 0 < A.rows → 0 < A.cols → ((Obj.new : Obj K).compute A).empty = true := by
  refine ⟨rfl, fun A h1 h2 => ?_⟩
  have := C83_history [] (by simp) (.plain A) ⟨h1, h2⟩
  simp only [List.foldl_nil, Obj.run] at this
  rw [Obj.empty, this]
  simp only [Op.fresh, factor, bne_iff_ne, ne_eq, Nat.mul_eq_zero, not_or]
  omega

/-- **C83 fails** for an empty matrix in a new object: the call is taken for a repetition, and the
solvers read a rank that was never set. -/
theorem C83_unset_wrong (e : Nat → Nat → K) (B : Mat K) :
    ((Obj.new : Obj K).compute ⟨0, 0, e⟩).solve B = .ub := by
  simp [Obj.new, Obj.compute, equalM, Obj.solve]

/-- A diagonal matrix with the entries `1` and `2⁻⁶⁰`. -/
def thin : Mat ℚ := ⟨2, 2, fun i j => if i = j then (if i = 0 then 1 else 1 / 2 ^ 60) else 0⟩

/-- The second unit vector. -/
def unit2 : Mat ℚ := ⟨2, 1, fun i _ => if i = 1 then 1 else 0⟩

/-- **C83 fails** when the pivots are very different: the matrix is invertible, but its second pivot is
taken for zero, and what `solve` returns is not a solution. -/
theorem C83_solve_wrong :
    (∃ X, Solves thin X unit2) ∧
    ∀ X, ((Obj.new : Obj ℚ).compute thin).solve unit2 = .ok X → ¬ Solves thin X unit2 := by
  refine ⟨⟨⟨2, 1, fun i _ => if i = 1 then 2 ^ 60 else 0⟩, rfl, rfl, rfl, ?_⟩, ?_⟩
  · intro i hi j hj
    simp only [thin, unit2] at hi hj ⊢
    interval_cases i <;> interval_cases j <;> simp [mul, Finset.sum_range_succ]
  · intro X hX hS
    have hf : ((Obj.new : Obj ℚ).compute thin).factors = some (factor thin) :=
      C83_history [] (by simp) (.plain thin) ⟨by decide, by decide⟩
    rw [Obj.solve, hf] at hX
    injection hX with hX
    have h1 := hS.2.2.2 1 (by decide) 0 (by decide)
    have h2 : X.e 1 0 = 0 := by
      rw [← hX]
      simp only [Factors.solve]
      rw [if_neg]
      have hr : (factor thin).rank = 1 := by decide +kernel
      have hq : (factor thin).Q⁻¹ 1 = 1 := by
        rw [Equiv.Perm.inv_eq_iff_eq]
        decide +kernel
      rw [hr, hq]
      decide
    simp [mul, thin, unit2, Finset.sum_range_succ, h2] at h1

/-- A singular matrix of three rows and two columns, with weights. -/
def tall : Mat ℚ := ⟨3, 2, fun i j => (i + 1 : ℚ) * (j + 2)⟩

def tallWeights : Vct ℚ := ⟨2, fun j => j + 3⟩

/-- The hypotheses of the theorems hold for this singular matrix, with and without weights, and for a
right-hand side that is not zero. -/
example : (Op.plain tall).Proper ∧ (Op.plain tall).Clear ∧
    (Op.weighted tall tallWeights).Proper ∧ (Op.weighted tall tallWeights).Clear ∧
    (fullPivLU tall).nonzero = 1 ∧
    ∃ X, Solves tall X ⟨3, 1, fun i _ => 7 * (i + 1)⟩ := by
  have h1 : ClearRank tall := by
    unfold ClearRank
    decide +kernel
  have h2 : ClearRank (weigh tall.stored tallWeights.stored).tr := by
    unfold ClearRank
    decide +kernel
  refine ⟨⟨by decide, by decide⟩, h1, ⟨by decide, by decide, rfl, ?_⟩, h2, by decide +kernel,
    ⟨2, 1, fun i _ => if i = 0 then 2 else 1⟩, rfl, rfl, rfl, ?_⟩
  · intro j hj
    simp only [tallWeights]
    positivity
  · intro i hi j hj
    simp [mul, tall, Finset.sum_range_succ]
    ring

end Verif.LU
