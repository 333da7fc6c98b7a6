import Mathlib.Tactic.Ring
import Mathlib.Tactic.FieldSimp
import Mathlib.Tactic.Linarith
import Verif.Spec.LU

namespace Verif.LU

open Finset

variable {K : Type} [Field K] [LinearOrder K] [IsStrictOrderedRing K]

/-! ## Triangular systems -/

omit [LinearOrder K] [IsStrictOrderedRing K] in
theorem forward_spec (T : Nat → Nat → K) (c : Nat → K) (i : Nat) (h : T i i ≠ 0) :
    ∑ j ∈ range (i + 1), T i j * forward T c j = c i := by
  rw [sum_range_succ, forward, ← Fin.sum_univ_eq_sum_range (fun j => T i j * forward T c j) i]
  field_simp
  ring

omit [LinearOrder K] [IsStrictOrderedRing K] in
theorem backward_spec (r : Nat) (T : Nat → Nat → K) (c : Nat → K) (i : Nat) (hi : i < r) (h : T i i ≠ 0) :
    ∑ j ∈ range (r - i), T i (i + j) * backward r T c (i + j) = c i := by
  have e : r - i = (r - 1 - i) + 1 := by omega
  rw [e, sum_range_succ']
  rw [sum_congr rfl (fun j _ => by rw [show i + (j + 1) = i + 1 + j by omega] :
    ∀ j ∈ range (r - 1 - i), T i (i + (j + 1)) * backward r T c (i + (j + 1))
      = T i (i + 1 + j) * backward r T c (i + 1 + j)), Nat.add_zero]
  rw [← Fin.sum_univ_eq_sum_range (fun j => T i (i + 1 + j) * backward r T c (i + 1 + j)) (r - 1 - i)]
  rw [show T i (i + 0) * backward r T c (i + 0) = T i i * backward r T c i from rfl]
  conv_lhs => rhs; rw [backward]
  rw [mul_div_cancel₀ _ h]
  ring

omit [LinearOrder K] [IsStrictOrderedRing K] in
/-- Back substitution solves the upper triangular system. -/
theorem backward_solves (r : Nat) (T : Nat → Nat → K) (c : Nat → K)
    (hu : ∀ i j, j < i → T i j = 0) (i : Nat) (hi : i < r) (h : T i i ≠ 0) :
    ∑ j ∈ range r, T i j * backward r T c j = c i := by
  rw [← backward_spec r T c i hi h]
  have e : r = i + (r - i) := by omega
  conv_lhs => rw [e, sum_range_add]
  rw [sum_eq_zero (s := range i) (fun j hj => by rw [hu i j (by simpa using hj), zero_mul]), zero_add,
    ← e]

omit [LinearOrder K] [IsStrictOrderedRing K] in
/-- Forward substitution finds the solution. -/
theorem forward_unique (r : Nat) (T : Nat → Nat → K) (c v : Nat → K)
    (hl : ∀ i j, i < j → T i j = 0) (hd : ∀ i < r, T i i ≠ 0)
    (hv : ∀ i < r, ∑ j ∈ range r, T i j * v j = c i) : ∀ i < r, forward T c i = v i := by
  intro i
  induction i using Nat.strong_induction_on with
  | _ i ih =>
    intro hi
    have h1 := forward_spec T c i (hd i hi)
    have h2 := hv i hi
    have e : r = (i + 1) + (r - (i + 1)) := by omega
    rw [e, sum_range_add, sum_eq_zero (s := range (r - (i + 1))) (fun j hj => by
      rw [hl i (i + 1 + j) (by omega), zero_mul]), add_zero] at h2
    rw [sum_range_succ] at h1 h2
    have h3 : ∑ j ∈ range i, T i j * forward T c j = ∑ j ∈ range i, T i j * v j :=
      sum_congr rfl fun j hj => by
        have hj : j < i := by simpa using hj
        rw [ih j hj (by omega)]
    rw [h3, ← h2] at h1
    exact mul_left_cancel₀ (hd i hi) (add_left_cancel h1)

/-- The core of both solvers. -/
theorem solve_core (m n N r : Nat) (A L U : Nat → Nat → K) (p q : Equiv.Perm Nat)
    (hp : IsPerm m p) (hq : IsPerm n q)
    (hA : ∀ i < m, ∀ j < n, A (p⁻¹ i) (q j) = ∑ k ∈ range N, L i k * U k j)
    (hrN : r ≤ N) (hrm : r ≤ m) (hrn : r ≤ n)
    (hl : ∀ i k, i < k → L i k = 0) (hu : ∀ k j, j < k → U k j = 0)
    (hdl : ∀ k < r, L k k ≠ 0) (hdu : ∀ k < r, U k k ≠ 0)
    (hz : ∀ k, r ≤ k → k < N → (∀ i < m, L i k = 0) ∨ ∀ j < n, U k j = 0)
    (b x0 : Nat → K) (hx0 : ∀ i < m, ∑ j ∈ range n, A i j * x0 j = b i) (i : Nat) (hi : i < m) :
    ∑ j ∈ range n, A i j * (if q⁻¹ j < r then
      backward r U (forward L fun k => b (p⁻¹ k)) (q⁻¹ j) else 0) = b i := by
  -- sums over columns may be permuted
  have hperm : ∀ f : Nat → K, ∑ j ∈ range n, f j = ∑ j ∈ range n, f (q j) := by
    intro f
    symm
    apply sum_bij (fun j _ => q j)
    · intro j hj; simp at hj ⊢; exact (hq j).1 hj
    · intro a _ b _ h; exact q.injective h
    · intro j hj
      refine ⟨q⁻¹ j, ?_, by simp⟩
      simp at hj ⊢
      exact (hq _).2 (by simpa using hj)
    · intros; rfl
  have hpi : ∀ i < m, p i < m := fun i hi => (hp i).1 hi
  -- the product restricted to the rank
  have hcut : ∀ i < m, ∀ x : Nat → K,
      ∑ j ∈ range n, A (p⁻¹ i) (q j) * x j = ∑ k ∈ range r, L i k * ∑ j ∈ range n, U k j * x j := by
    intro i hi x
    have e1 : ∑ j ∈ range n, A (p⁻¹ i) (q j) * x j
        = ∑ j ∈ range n, ∑ k ∈ range N, L i k * (U k j * x j) := by
      apply sum_congr rfl
      intro j hj
      rw [hA i hi j (by simpa using hj), sum_mul]
      exact sum_congr rfl fun k _ => by ring
    rw [e1, sum_comm]
    have e2 : N = r + (N - r) := by omega
    rw [e2, sum_range_add]
    have e3 : ∑ k ∈ range (N - r), ∑ j ∈ range n, L i (r + k) * (U (r + k) j * x j) = 0 := by
      apply sum_eq_zero
      intro k hk
      have hk : k < N - r := by simpa using hk
      apply sum_eq_zero
      intro j hj
      rcases hz (r + k) (by omega) (by omega) with h | h
      · rw [h i hi, zero_mul]
      · rw [h j (by simpa using hj), zero_mul, mul_zero]
    rw [e3, add_zero]
    exact sum_congr rfl fun k _ => by rw [mul_sum]
  set c : Nat → K := fun k => b (p⁻¹ k) with hc
  set v : Nat → K := fun k => ∑ j ∈ range n, U k j * x0 (q j) with hv
  have hcv : ∀ i < m, ∑ k ∈ range r, L i k * v k = c i := by
    intro i hi
    rw [hv, ← hcut i hi (fun j => x0 (q j))]
    have hpm : p⁻¹ i < m := (hp _).2 (by simpa using hi)
    rw [hc]
    simp only
    rw [← hx0 _ hpm, hperm fun j => A (p⁻¹ i) j * x0 j]
  have hy : ∀ k < r, forward L c k = v k :=
    forward_unique r L c v hl hdl fun i hi => hcv i (by omega)
  set z := backward r U (forward L c) with hzdef
  have hUz : ∀ k < r, ∑ j ∈ range n, U k j * (if j < r then z j else 0) = v k := by
    intro k hk
    rw [← hy k hk, ← backward_solves r U (forward L c) hu k hk (hdu k hk)]
    have e : n = r + (n - r) := by omega
    rw [e, sum_range_add]
    rw [sum_eq_zero (s := range (n - r)) (fun j _ => by
      rw [if_neg (by omega), mul_zero]), add_zero]
    exact sum_congr rfl fun j hj => by rw [if_pos (by simpa using hj)]
  have hfin := hcut (p i) (hpi i hi) fun j => if j < r then z j else 0
  have hsum : ∑ k ∈ range r, L (p i) k * ∑ j ∈ range n, U k j * (if j < r then z j else 0)
      = ∑ k ∈ range r, L (p i) k * v k :=
    sum_congr rfl fun k hk => by rw [hUz k (by simpa using hk)]
  rw [hsum, hcv (p i) (hpi i hi)] at hfin
  rw [hperm]
  simpa [hc] using hfin

/-! ## The factorisation with full pivoting -/

/-- Entries of the two factors that are packed in one matrix. -/
def lower (lu : Nat → Nat → K) (i j : Nat) : K := if i = j then 1 else if j < i then lu i j else 0
def upper (lu : Nat → Nat → K) (i j : Nat) : K := if i ≤ j then lu i j else 0

/-- The invariant of the loop. -/
structure Inv (A : Nat → Nat → K) (m n k : Nat) (w : FullPiv K) : Prop where
  hp : IsPerm m w.p
  hq : IsPerm n w.q
  prod : ∀ i < m, ∀ j < n, A (w.p⁻¹ i) (w.q j)
    = (∑ t ∈ range k, lower w.lu i t * upper w.lu t j) + if k ≤ i ∧ k ≤ j then w.lu i j else 0
  piv : ∀ t < k, w.lu t t ≠ 0

theorem argmax_mem (e : Nat → Nat → K) (l : List (Nat × Nat)) (b : Nat × Nat) :
    argmax e l b = b ∨ argmax e l b ∈ l := by
  induction l generalizing b with
  | nil => simp [argmax]
  | cons x xs ih =>
    rw [argmax]
    rcases ih (if |e b.1 b.2| < |e x.1 x.2| then x else b) with h | h
    · rw [h]
      split_ifs
      · right; simp
      · left; rfl
    · right; exact List.mem_cons_of_mem _ h

theorem argmax_ge (e : Nat → Nat → K) (l : List (Nat × Nat)) (b : Nat × Nat) :
    |e b.1 b.2| ≤ |e (argmax e l b).1 (argmax e l b).2| ∧
    ∀ x ∈ l, |e x.1 x.2| ≤ |e (argmax e l b).1 (argmax e l b).2| := by
  induction l generalizing b with
  | nil => simp [argmax]
  | cons x xs ih =>
    rw [argmax]
    have h := ih (if |e b.1 b.2| < |e x.1 x.2| then x else b)
    by_cases hlt : |e b.1 b.2| < |e x.1 x.2|
    · rw [if_pos hlt] at h ⊢
      refine ⟨hlt.le.trans h.1, ?_⟩
      intro y hy
      rcases List.mem_cons.1 hy with rfl | hy
      · exact h.1
      · exact h.2 y hy
    · rw [if_neg hlt] at h ⊢
      refine ⟨h.1, ?_⟩
      intro y hy
      rcases List.mem_cons.1 hy with rfl | hy
      · exact (not_lt.1 hlt).trans h.1
      · exact h.2 y hy

theorem mem_corner (m n k : Nat) (x : Nat × Nat) :
    x ∈ corner m n k ↔ k ≤ x.1 ∧ x.1 < m ∧ k ≤ x.2 ∧ x.2 < n := by
  obtain ⟨a, b⟩ := x
  simp only [corner, List.mem_flatMap, List.mem_range, List.mem_map, Prod.mk.injEq]
  constructor
  · rintro ⟨j, hj, i, hi, rfl, rfl⟩; omega
  · rintro ⟨h1, h2, h3, h4⟩
    exact ⟨b - k, by omega, a - k, by omega, by omega, by omega⟩

theorem isPerm_swap {m k r : Nat} (hk : k < m) (hr : r < m) : IsPerm m (Equiv.swap k r) := by
  intro i
  by_cases h1 : i = k
  · subst h1; simp [hk, hr]
  · by_cases h2 : i = r
    · subst h2; simp [hk, hr]
    · rw [Equiv.swap_apply_of_ne_of_ne h1 h2]

theorem IsPerm.mul {m : Nat} {a b : Equiv.Perm Nat} (ha : IsPerm m a) (hb : IsPerm m b) :
    IsPerm m (a * b) := fun i => (hb i).trans (ha (b i))

theorem IsPerm.inv {m : Nat} {a : Equiv.Perm Nat} (ha : IsPerm m a) : IsPerm m a⁻¹ := fun i => by
  have := ha (a⁻¹ i)
  simp at this
  exact this.symm

theorem isPerm_one (m : Nat) : IsPerm m 1 := fun i => by simp

theorem swap_lt {k r t : Nat} (hkr : k ≤ r) (ht : t < k) : Equiv.swap k r t = t :=
  Equiv.swap_apply_of_ne_of_ne (by omega) (by omega)

theorem swap_ge {k r i : Nat} (hkr : k ≤ r) (hi : k ≤ i) : k ≤ Equiv.swap k r i := by
  by_cases h1 : i = k
  · subst h1; simp [hkr]
  · by_cases h2 : i = r
    · subst h2; simp
    · rw [Equiv.swap_apply_of_ne_of_ne h1 h2]; exact hi

theorem swap_le_iff {k r i : Nat} (hkr : k ≤ r) : k ≤ Equiv.swap k r i ↔ k ≤ i := by
  constructor
  · intro h
    by_contra hlt
    rw [swap_lt hkr (by omega)] at h
    exact hlt h
  · exact swap_ge hkr

theorem inv_exchange {A : Nat → Nat → K} {m n k r c : Nat} {w : FullPiv K} (h : Inv A m n k w)
    (hkr : k ≤ r) (hr : r < m) (hkc : k ≤ c) (hc : c < n) : Inv A m n k (exchange k r c w) := by
  have hsp := isPerm_swap (m := m) (k := k) (r := r) (by omega) hr
  have hsq := isPerm_swap (m := n) (k := k) (r := c) (by omega) hc
  refine ⟨hsp.mul h.hp, h.hq.mul hsq, ?_, ?_⟩
  · intro i hi j hj
    have e := h.prod (Equiv.swap k r i) ((hsp i).1 hi) (Equiv.swap k c j) ((hsq j).1 hj)
    have e1 : (exchange k r c w).p⁻¹ i = w.p⁻¹ (Equiv.swap k r i) := by
      simp [exchange, mul_inv_rev]
    have e2 : (exchange k r c w).q j = w.q (Equiv.swap k c j) := by simp [exchange]
    rw [e1, e2, e]
    congr 1
    · apply sum_congr rfl
      intro t ht
      have ht : t < k := by simpa using ht
      congr 1
      · simp only [lower, exchange]
        rw [swap_lt hkc ht]
        by_cases hik : i < k
        · rw [swap_lt hkr hik]
        · have h1 := swap_ge hkr (not_lt.1 hik)
          rw [if_neg (by omega), if_pos (by omega), if_neg (by omega), if_pos (by omega)]
      · simp only [upper, exchange]
        rw [swap_lt hkr ht]
        by_cases hjk : j < k
        · rw [swap_lt hkc hjk]
        · have h1 := swap_ge hkc (not_lt.1 hjk)
          rw [if_pos (by omega), if_pos (by omega)]
    · simp only [swap_le_iff hkr, swap_le_iff hkc, exchange]
  · intro t ht
    simp only [exchange]
    rw [swap_lt hkr ht, swap_lt hkc ht]
    exact h.piv t ht

theorem inv_eliminate {A : Nat → Nat → K} {m n k : Nat} {w : FullPiv K} (h : Inv A m n k w)
    (hk : w.lu k k ≠ 0) : Inv A m n (k + 1) (eliminate k w) := by
  refine ⟨h.hp, h.hq, ?_, ?_⟩
  · intro i hi j hj
    have e := h.prod i hi j hj
    have e0 : A ((eliminate k w).p⁻¹ i) ((eliminate k w).q j) = A (w.p⁻¹ i) (w.q j) := rfl
    rw [e0, e, sum_range_succ]
    have e1 : ∑ t ∈ range k, lower (eliminate k w).lu i t * upper (eliminate k w).lu t j
        = ∑ t ∈ range k, lower w.lu i t * upper w.lu t j := by
      apply sum_congr rfl
      intro t ht
      have ht : t < k := by simpa using ht
      simp only [lower, upper, eliminate]
      rw [if_neg (show ¬ (k < i ∧ t = k) by omega), if_neg (show ¬ (k < i ∧ k < t) by omega),
        if_neg (show ¬ (k < t ∧ j = k) by omega), if_neg (show ¬ (k < t ∧ k < j) by omega)]
    rw [e1, add_assoc]
    congr 1
    simp only [lower, upper, eliminate, lt_irrefl, false_and, if_false]
    by_cases hik : i < k
    · rw [if_neg (show ¬ (k ≤ i ∧ k ≤ j) by omega), if_neg (show ¬ i = k by omega),
        if_neg (show ¬ k < i by omega), if_neg (show ¬ (k + 1 ≤ i ∧ k + 1 ≤ j) by omega)]
      simp
    · by_cases hi2 : i = k
      · subst hi2
        by_cases hjk : i ≤ j
        · simp [hjk]
        · simp [hjk]
      · have hki : k < i := by omega
        by_cases hjk : j < k
        · rw [if_neg (show ¬ (k ≤ i ∧ k ≤ j) by omega), if_neg (show ¬ k ≤ j by omega),
            if_neg (show ¬ (k + 1 ≤ i ∧ k + 1 ≤ j) by omega)]
          simp
        · by_cases hj2 : j = k
          · subst hj2
            rw [if_pos (show j ≤ i ∧ j ≤ j by omega), if_neg hi2, if_pos hki]
            simp [hki]
            field_simp
          · have hkj : k < j := by omega
            rw [if_pos (show k ≤ i ∧ k ≤ j by omega), if_neg hi2, if_pos hki,
              if_pos (show k ≤ j by omega), if_pos (show k + 1 ≤ i ∧ k + 1 ≤ j by omega)]
            simp [hki, hkj, hj2]
  · intro t ht
    simp only [eliminate]
    rw [if_neg (by omega), if_neg (by omega)]
    by_cases h2 : t = k
    · subst h2; exact hk
    · exact h.piv t (by omega)

/-- What the factorisation gives. -/
structure Done (A : Nat → Nat → K) (m n : Nat) (w : FullPiv K) : Prop where
  inv : Inv A m n w.nonzero w
  le : w.nonzero ≤ min m n
  zero : ∀ i < m, ∀ j < n, w.nonzero ≤ i → w.nonzero ≤ j → w.lu i j = 0

theorem done_steps {A : Nat → Nat → K} {m n : Nat} (s k : Nat) (w : FullPiv K) (h : Inv A m n k w)
    (hs : k + s = min m n) : Done A m n (steps m n s k w) := by
  induction s generalizing k w with
  | zero =>
    refine ⟨⟨h.hp, h.hq, h.prod, h.piv⟩, by simp [steps]; omega, ?_⟩
    intro i hi j hj h1 h2
    simp only [steps] at h1 h2
    omega
  | succ s ih =>
    rw [steps]
    set rc := argmax w.lu (corner m n k) (k, k) with hrc
    have hkk : (k, k) ∈ corner m n k := (mem_corner _ _ _ _).2 ⟨le_refl _, by dsimp; omega, le_refl _, by dsimp; omega⟩
    have hmem : rc ∈ corner m n k := by
      rcases argmax_mem w.lu (corner m n k) (k, k) with h1 | h1
      · rw [hrc, h1]; exact hkk
      · exact h1
    obtain ⟨h1, h2, h3, h4⟩ := (mem_corner _ _ _ _).1 hmem
    have hge := argmax_ge w.lu (corner m n k) (k, k)
    rw [← hrc] at hge
    by_cases h0 : w.lu rc.1 rc.2 = 0
    · simp only [h0, if_true]
      refine ⟨⟨h.hp, h.hq, h.prod, h.piv⟩, by dsimp; omega, ?_⟩
      intro i hi j hj hki hkj
      have := hge.2 (i, j) ((mem_corner _ _ _ _).2 ⟨hki, hi, hkj, hj⟩)
      rw [h0, abs_zero] at this
      exact abs_nonpos_iff.1 this
    · simp only [h0, if_false]
      apply ih
      · apply inv_eliminate
        · exact inv_exchange (w := { w with maxpivot := max w.maxpivot |w.lu rc.1 rc.2| })
            ⟨h.hp, h.hq, h.prod, h.piv⟩ h1 h2 h3 h4
        · simpa [exchange] using h0
      · omega

/-- Every matrix is factorised. -/
theorem done_fullPivLU (A : Mat K) : Done A.e A.rows A.cols (fullPivLU A) := by
  have h : Inv A.stored.e A.rows A.cols 0 ⟨A.stored.e, 1, 1, 0, 0⟩ := by
    refine ⟨isPerm_one _, isPerm_one _, ?_, by simp⟩
    intro i hi j hj
    simp
  have : Done A.stored.e A.rows A.cols (fullPivLU A) :=
    done_steps (min A.rows A.cols) 0 _ h (by omega)
  have hin : ∀ i < A.rows, ∀ j < A.cols, A.stored.e i j = A.e i j := by
    intro i hi j hj; simp [Mat.stored, hi, hj]
  refine ⟨⟨this.inv.hp, this.inv.hq, ?_, this.inv.piv⟩, this.le, this.zero⟩
  intro i hi j hj
  rw [← hin _ ((this.inv.hp.inv i).1 hi) _ ((this.inv.hq j).1 hj)]
  exact this.inv.prod i hi j hj

/-- All the rows of the second factor past the nonzero pivots vanish. -/
theorem upper_zero {A : Mat K} {t j : Nat} (ht : (fullPivLU A).nonzero ≤ t) (htm : t < A.rows)
    (hj : j < A.cols) : upper (fullPivLU A).lu t j = 0 := by
  rw [upper]
  split_ifs with h
  · exact (done_fullPivLU A).zero t htm j hj ht (by omega)
  · rfl

/-- `P A Q = L U` for the packed factors. -/
theorem full_prod (A : Mat K) (i : Nat) (hi : i < A.rows) (j : Nat) (hj : j < A.cols) :
    A.e ((fullPivLU A).p⁻¹ i) ((fullPivLU A).q j)
      = ∑ t ∈ range (min A.rows A.cols), lower (fullPivLU A).lu i t * upper (fullPivLU A).lu t j := by
  have hd := done_fullPivLU A
  have hle := hd.le
  rw [hd.inv.prod i hi j hj]
  have e : min A.rows A.cols = (fullPivLU A).nonzero + (min A.rows A.cols - (fullPivLU A).nonzero) := by
    omega
  rw [e, sum_range_add]
  congr 1
  rw [sum_eq_zero (s := range (min A.rows A.cols - (fullPivLU A).nonzero))]
  · split_ifs with h
    · exact hd.zero i hi j hj h.1 h.2
    · rfl
  · intro t ht
    have ht : t < min A.rows A.cols - (fullPivLU A).nonzero := by simpa using ht
    rw [upper_zero (by omega) (by omega) hj, mul_zero]

theorem rank_eq (d : FullPiv K) (m n : Nat)
    (h : ∀ i < d.nonzero, |d.maxpivot| * threshold m n < |d.lu i i|) : d.rank m n = d.nonzero := by
  rw [FullPiv.rank, List.filter_eq_self.2, List.length_range]
  intro i hi
  simpa using h i (by simpa using hi)

end Verif.LU
