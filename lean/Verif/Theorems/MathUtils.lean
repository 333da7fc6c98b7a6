import Verif.Lemmas.MathUtils
import Mathlib.LinearAlgebra.Matrix.Notation
import Mathlib.Algebra.Order.Ring.Rat
import Mathlib.Tactic.NormNum

/-!
# C106: the utilities for matrices
-/

namespace Verif.MathUtils

variable {K : Type} [Field K] [LinearOrder K] [IsStrictOrderedRing K]

theorem rank_spec {m n : Nat} (p0 : Fin n × K) (ps' : List (Fin n × K)) (hp0 : 0 ≤ p0.2) (hsize : 0 < min m n)
    (hpw : (p0 :: ps').Pairwise fun p q => q.2 ≤ p.2) :
    let ps := p0 :: ps'
    rank m ps ≤ ps.length ∧ (∀ p ∈ ps.take (rank m ps), 0 < p.2) ∧
      ∀ p, ps[rank m ps]? = some p → p.2 ≤ (1 / 2 ^ 52 * ((min m n : Nat) : K)) ^ 2 * p0.2 := by
  intro ps
  have hM : ∀ p ∈ ps, p.2 ≤ p0.2 := by
    intro p hp
    rcases List.mem_cons.1 hp with rfl | hp
    · exact le_refl _
    · exact (List.pairwise_cons.1 hpw).1 p hp
  obtain ⟨f1, -, f3⟩ := foldl_max ps 0 p0.2 hp0 hM
  set mp := ps.foldl (fun a p => max a p.2) 0 with hmp
  set nz := nonzeroPivots m ps with hnz
  have hnzle : nz ≤ ps.length := by
    rw [hnz]
    show (List.range ps.length).findIdx _ ≤ _
    exact (List.findIdx_le_length).trans (by simp)
  obtain ⟨c1, c2⟩ := count_prefix (fun p : Fin n × K => p.2) (mp * (eps * ((min m n : Nat) : K)) ^ 2) (ps.take nz)
    (hpw.sublist (List.take_sublist _ _))
  have hr : rank m ps = (ps.take nz).countP fun p => decide (mp * (eps * ((min m n : Nat) : K)) ^ 2 < p.2) := rfl
  rw [← hr] at c1 c2
  have hrle : rank m ps ≤ nz := by
    rw [hr]
    refine List.countP_le_length.trans ?_
    rw [List.length_take]
    omega
  have ht : 0 ≤ mp * (eps * ((min m n : Nat) : K)) ^ 2 := mul_nonneg f1 (by positivity)
  refine ⟨hrle.trans hnzle, ?_, ?_⟩
  · intro p hp
    have : ps.take (rank m ps) = (ps.take nz).take (rank m ps) := by rw [List.take_take, min_eq_left hrle]
    rw [this] at hp
    exact lt_of_le_of_lt ht (c1 p hp)
  · intro p hp
    have hs1 : (1 : K) ≤ ((min m n : Nat) : K) := by exact_mod_cast hsize
    by_cases hlt : rank m ps < nz
    · have h1 : (ps.take nz)[rank m ps]? = some p := by rw [List.getElem?_take_of_lt hlt]; exact hp
      have h2 := c2 p h1
      refine h2.trans ?_
      unfold eps
      rw [mul_comm]
      exact mul_le_mul_of_nonneg_left f3 (by positivity)
    · have he : rank m ps = nz := by omega
      rw [he] at hp
      have hlen : nz < ps.length := (List.getElem?_eq_some_iff.1 hp).1
      have h1 : nz = (List.range ps.length).findIdx fun k =>
          match ps[k]? with
          | some p => decide (p.2 < p0.2 * eps ^ 2 / (m : K) * ((m - k : Nat) : K))
          | none => false := rfl
      have h2 := List.findIdx_getElem (w := (by rw [← h1]; simpa using hlen : (List.range ps.length).findIdx (fun k =>
          match ps[k]? with
          | some p => decide (p.2 < p0.2 * eps ^ 2 / (m : K) * ((m - k : Nat) : K))
          | none => false) < (List.range ps.length).length))
      simp only [List.getElem_range] at h2
      rw [← h1, hp] at h2
      simp only [decide_eq_true_eq] at h2
      refine h2.le.trans ?_
      have hm : 0 < (m : K) := by
        have : 0 < m := by omega
        exact_mod_cast this
      have hmk : ((m - nz : Nat) : K) ≤ (m : K) := by exact_mod_cast Nat.sub_le _ _
      calc p0.2 * eps ^ 2 / (m : K) * ((m - nz : Nat) : K) ≤ p0.2 * eps ^ 2 / (m : K) * (m : K) :=
            mul_le_mul_of_nonneg_left hmk (by unfold eps; positivity)
        _ = eps ^ 2 * 1 ^ 2 * p0.2 := by field_simp
        _ ≤ eps ^ 2 * ((min m n : Nat) : K) ^ 2 * p0.2 := by
            apply mul_le_mul_of_nonneg_right _ hp0
            apply mul_le_mul_of_nonneg_left _ (by positivity)
            exact pow_le_pow_left₀ (by norm_num) hs1 2
        _ = _ := by unfold eps; ring

theorem sq_sum {m : Nat} (v : Fin m → K) : sq v = ∑ i, v i ^ 2 := by
  unfold sq dotProduct
  exact Finset.sum_congr rfl fun i _ => (pow_two _).symm

/-- **C106.** `linearlyIndependentCols` returns increasing indices of columns that are linearly independent, and every column of the matrix
is in their span up to a distance of at most `min(m, n)` times the machine epsilon times the length of the longest column. -/
theorem C106_cols {m n : Nat} (hn : n ≠ 0) (A : Matrix (Fin m) (Fin n) K) :
    ∃ idx, linearlyIndependentCols A = .ok idx ∧ idx.Pairwise (· < ·) ∧
      LinearIndepOn K (fun j i => A i j) {j | j ∈ idx} ∧
      ∃ l, (∀ j, ∑ i, A i j ^ 2 ≤ ∑ i, A i l ^ 2) ∧
        ∀ j, ∃ w ∈ Submodule.span K ((fun j i => A i j) '' {j | j ∈ idx}),
          ∑ i, (A i j - w i) ^ 2 ≤ (1 / 2 ^ 52 * ((min m n : Nat) : K)) ^ 2 * ∑ i, A i l ^ 2 := by
  unfold linearlyIndependentCols
  rw [if_neg hn]
  refine ⟨_, rfl, ?_⟩
  set L : List (Fin n × (Fin m → K)) := (List.finRange n).map fun j => (j, fun i => A i j) with hL
  have hLlen : L.length = n := by simp [hL]
  have hLne : L ≠ [] := by
    intro h
    rw [h] at hLlen
    exact hn hLlen.symm
  have hfst : L.map Prod.fst = List.finRange n := by
    rw [hL, List.map_map]
    have : (Prod.fst ∘ fun j : Fin n => (j, fun i => A i j)) = id := rfl
    rw [this, List.map_id]
  have hinv : Inv A ⊥ L := by
    intro q hq
    obtain ⟨j, -, rfl⟩ := List.mem_map.1 hq
    refine ⟨by simp, ?_⟩
    intro w hw
    rw [(Submodule.mem_bot K).1 hw]
    simp
  obtain ⟨p, rest, hperm, hmax, ht⟩ := turn_spec L hLne
  obtain ⟨j0, -, hj0⟩ := List.mem_map.1 (hperm.subset (List.mem_cons_self (a := p) (l := rest)))
  have hp1 : p.1 = j0 := by rw [← hj0]
  have hp2 : p.2 = fun i => A i j0 := by rw [← hj0]
  have hmax' : ∀ j, ∑ i, A i j ^ 2 ≤ ∑ i, A i j0 ^ 2 := by
    intro j
    have := hmax (j, fun i => A i j) (List.mem_map.2 ⟨j, List.mem_finRange j, rfl⟩)
    rw [hp2, sq_sum, sq_sum] at this
    exact this
  obtain ⟨s1, s2, -, -, s5, s6, s7⟩ := pivots_spec A (min m n) ⊥ L (sq p.2) hinv hmax (by rw [hfst]; exact List.nodup_finRange n)
  have hps : pivots (min m n) L = pivotsOf A := rfl
  rw [hps] at s1 s2 s5 s6 s7
  set ps := pivotsOf A with hpsdef
  set r := rank m ps with hr
  -- what the rank says
  have hrank : r ≤ ps.length ∧ (∀ p ∈ ps.take r, 0 < p.2) ∧
      ∀ q, ps[r]? = some q → q.2 ≤ (1 / 2 ^ 52 * ((min m n : Nat) : K)) ^ 2 * ∑ i, A i j0 ^ 2 := by
    by_cases hsz : 0 < min m n
    · have hcons : ∃ ps', ps = (p.1, sq p.2) :: ps' := by
        obtain ⟨k, hk⟩ := Nat.exists_eq_succ_of_ne_zero hsz.ne'
        rw [← hps, hk]
        refine ⟨pivots k (rest.map fun r => (r.1, r.2 - (r.2 ⬝ᵥ p.2 / sq p.2) • p.2)), ?_⟩
        show (match turn L with | none => [] | some (p, L') => p :: pivots k L') = _
        rw [ht]
      obtain ⟨ps', hc⟩ := hcons
      have := rank_spec (m := m) (p.1, sq p.2) ps' (sq_nonneg' _) hsz (by rw [← hc]; exact s5)
      rw [← hc] at this
      refine ⟨this.1, this.2.1, ?_⟩
      intro q hq
      have h := this.2.2 q hq
      rwa [hp2, sq_sum] at h
    · have h0 : ps.length = 0 := by rw [s1]; omega
      have hnil : ps = [] := List.length_eq_zero_iff.1 h0
      have hr0 : r = 0 := by rw [hr, hnil]; rfl
      rw [hr0, hnil]
      simp
  obtain ⟨r1, r2, r3⟩ := hrank
  set chosen := (ps.map fun p => p.1).take r with hch
  have hch' : chosen = (ps.take r).map Prod.fst := by rw [hch, List.map_take]
  have hnd : chosen.Nodup := s2.sublist (List.take_sublist _ _)
  set idx := chosen.insertionSort (· ≤ ·) with hidx
  have hpm : idx.Perm chosen := List.perm_insertionSort _ _
  have hmem : {j | j ∈ idx} = ((chosen.toFinset : Finset (Fin n)) : Set (Fin n)) := by
    ext j
    simp [hpm.mem_iff]
  have hind : LinearIndepOn K (fun j i => A i j) ((chosen.toFinset : Finset (Fin n)) : Set (Fin n)) := by
    rw [linearIndepOn_finset_iff]
    intro f hf j hj
    rw [List.sum_toFinset _ hnd, hch', List.map_map] at hf
    have h := s6 r r2 f (by
      rw [Submodule.mem_bot]
      exact hf)
    rw [List.mem_toFinset, hch'] at hj
    obtain ⟨q, hq, rfl⟩ := List.mem_map.1 hj
    exact h q hq
  have hspan : (⊥ : Submodule K (Fin m → K)) ⊔ Submodule.span K {u | ∃ p ∈ ps.take r, u = fun i => A i p.1} =
      Submodule.span K ((fun j i => A i j) '' {j | j ∈ idx}) := by
    rw [bot_sup_eq]
    congr 1
    ext u
    constructor
    · rintro ⟨q, hq, rfl⟩
      refine ⟨q.1, ?_, rfl⟩
      rw [Set.mem_setOf_eq, hpm.mem_iff, hch']
      exact List.mem_map.2 ⟨q, hq, rfl⟩
    · rintro ⟨j, hj, rfl⟩
      rw [Set.mem_setOf_eq, hpm.mem_iff, hch'] at hj
      obtain ⟨q, hq, rfl⟩ := List.mem_map.1 hj
      exact ⟨q, hq, rfl⟩
  refine ⟨?_, ?_, j0, hmax', ?_⟩
  · have h1 : idx.Pairwise (· ≤ ·) := List.pairwise_insertionSort _ _
    have h2 : idx.Pairwise (· ≠ ·) := hpm.nodup_iff.2 hnd
    exact (h1.and h2).imp fun ⟨ha, hb⟩ => lt_of_le_of_ne ha hb
  · rw [hmem]; exact hind
  · intro j
    obtain ⟨v, w, e, hw, horth, hnext, hzero⟩ := s7 r r1 j (by rw [hfst]; exact List.mem_finRange j)
    rw [hspan] at hw horth
    refine ⟨w, hw, ?_⟩
    have hv : ∀ i, A i j - w i = v i := by
      intro i
      have := congrFun e i
      simp only [Pi.add_apply] at this
      rw [this]; ring
    have hsum : ∑ i, (A i j - w i) ^ 2 = sq v := by
      rw [sq_sum]
      exact Finset.sum_congr rfl fun i _ => by rw [hv]
    rw [hsum]
    have hnn : 0 ≤ (1 / 2 ^ 52 * ((min m n : Nat) : K)) ^ 2 * ∑ i, A i j0 ^ 2 :=
      mul_nonneg (by positivity) (Finset.sum_nonneg fun i _ => by positivity)
    by_cases hlt : r < ps.length
    · have hg : ps[r]? = some ps[r] := List.getElem?_eq_getElem hlt
      exact (hnext _ hg).trans (r3 _ hg)
    · have hre : r = min m n := by rw [s1, hLlen] at r1 hlt; omega
      suffices v = 0 by rw [this]; simpa [sq] using hnn
      by_cases hmn : n ≤ m
      · exact hzero (by rw [hLlen]; omega)
      · -- as many independent columns as rows
        have hcard : Fintype.card (chosen.toFinset : Set (Fin n)) = Module.finrank K (Fin m → K) := by
          rw [Module.finrank_fin_fun]
          simp only [Finset.coe_sort_coe, Fintype.card_coe]
          rw [List.toFinset_card_of_nodup hnd, hch', List.length_map, List.length_take, s1, hLlen]
          omega
        have htop := LinearIndependent.span_eq_top_of_card_eq_finrank' hind hcard
        have hrange : Set.range (fun x : ((chosen.toFinset : Finset (Fin n)) : Set (Fin n)) => fun i => A i x.1) =
            (fun j i => A i j) '' {j | j ∈ idx} := by
          rw [hmem, Set.image_eq_range]
        rw [hrange] at htop
        have := horth v (by rw [htop]; trivial)
        exact sq_eq_zero v this

/-- **C106.** The same for `linearlyIndependentRows`. -/
theorem C106_rows {m n : Nat} (hm : m ≠ 0) (A : Matrix (Fin m) (Fin n) K) :
    ∃ idx, linearlyIndependentRows A = .ok idx ∧ idx.Pairwise (· < ·) ∧
      LinearIndepOn K (fun i j => A i j) {i | i ∈ idx} ∧
      ∃ l, (∀ i, ∑ j, A i j ^ 2 ≤ ∑ j, A l j ^ 2) ∧
        ∀ i, ∃ w ∈ Submodule.span K ((fun i j => A i j) '' {i | i ∈ idx}),
          ∑ j, (A i j - w j) ^ 2 ≤ (1 / 2 ^ 52 * ((min m n : Nat) : K)) ^ 2 * ∑ j, A l j ^ 2 := by
  have := C106_cols hm A.transpose
  rw [min_comm n m] at this
  exact this

/-- **C106.** The form with an output matrix is defined exactly if the caller has given that matrix the size of the result, which they cannot know;
it then stores the columns found. -/
theorem C106_cols_into {m n : Nat} (hn : n ≠ 0) (A : Matrix (Fin m) (Fin n) K) (r c : Nat) :
    ∃ idx, linearlyIndependentCols A = .ok idx ∧
      (r = m ∧ c = idx.length → linearlyIndependentColsInto A r c = .ok (idx, idx.map fun j => List.ofFn fun i => A i j)) ∧
      (¬ (r = m ∧ c = idx.length) → linearlyIndependentColsInto A r c = .ub) := by
  obtain ⟨idx, h, -⟩ := C106_cols hn A
  refine ⟨idx, h, ?_, ?_⟩
  · intro hc
    unfold linearlyIndependentColsInto
    rw [h]
    simp only [Res.bind_ok']
    rw [if_pos hc]
    congr 2
    apply List.map_congr_left
    intro j _
    rw [List.ofFn_eq_map]
  · intro hc
    unfold linearlyIndependentColsInto
    rw [h]
    simp only [Res.bind_ok']
    rw [if_neg hc]

/-- **C106.** The same for rows. -/
theorem C106_rows_into {m n : Nat} (hm : m ≠ 0) (A : Matrix (Fin m) (Fin n) K) (r c : Nat) :
    ∃ idx, linearlyIndependentRows A = .ok idx ∧
      (r = idx.length ∧ c = n → linearlyIndependentRowsInto A r c = .ok (idx, idx.map fun i => List.ofFn fun j => A i j)) ∧
      (¬ (r = idx.length ∧ c = n) → linearlyIndependentRowsInto A r c = .ub) := by
  obtain ⟨idx, h, -⟩ := C106_rows hm A
  refine ⟨idx, h, ?_, ?_⟩
  · intro hc
    unfold linearlyIndependentRowsInto
    rw [h]
    simp only [Res.bind_ok']
    rw [if_pos hc]
    congr 2
    apply List.map_congr_left
    intro j _
    rw [List.ofFn_eq_map]
  · intro hc
    unfold linearlyIndependentRowsInto
    rw [h]
    simp only [Res.bind_ok']
    rw [if_neg hc]

/-- **C106 (fails).** A matrix without columns has no defined result. -/
theorem C106_no_columns_wrong {m : Nat} (A : Matrix (Fin m) (Fin 0) K) : linearlyIndependentCols A = .ub := if_pos rfl

/-- **C106 (fails).** Both columns are independent, and only one is returned: the other one is too small. -/
theorem C106_cols_wrong : linearlyIndependentCols (K := ℚ) !![1, 0; 0, 1 / 10 ^ 16] = .ok [0] ∧
    LinearIndepOn ℚ (fun j i => (!![1, 0; 0, 1 / 10 ^ 16] : Matrix (Fin 2) (Fin 2) ℚ) i j) Set.univ := by
  refine ⟨by decide +kernel, ?_⟩
  have : (Set.univ : Set (Fin 2)) = ((Finset.univ : Finset (Fin 2)) : Set (Fin 2)) := by simp
  rw [this, linearIndepOn_finset_iff]
  intro f hf
  rw [Fin.sum_univ_two] at hf
  have h0 := congrFun hf 0
  have h1 := congrFun hf 1
  simp at h0 h1
  intro i _
  match i with
  | 0 => exact h0
  | 1 => exact h1

/-- Three columns, of which the first two are parallel. -/
example : linearlyIndependentCols (K := ℚ) !![1, 2, 3; 2, 4, 1] = .ok [1, 2] := by decide +kernel
example : linearlyIndependentRows (K := ℚ) !![1, 2; 2, 4; 3, 1] = .ok [1, 2] := by decide +kernel
example : linearlyIndependentColsInto (K := ℚ) !![1, 2, 3; 2, 4, 1] 2 2 = .ok ([1, 2], [[2, 4], [3, 1]]) := by decide +kernel

/-! ## Matrices in memory -/

/-- **C106.** Cleaning a matrix whose columns are stored one after the other changes its entries, each to the result for the number
alone, and nothing else. -/
theorem C106_clean_partial (mem : Nat → K) (A : MatRef) (maxden : Nat) (h : A.stride = A.rows ∨ A.cols ≤ 1) (a : Nat) :
    ((∃ i j, i < A.rows ∧ j < A.cols ∧ a = A.at i j) → cleanMatrix mem A maxden a = clean (mem a) maxden) ∧
    (¬ (∃ i j, i < A.rows ∧ j < A.cols ∧ a = A.at i j) → cleanMatrix mem A maxden a = .ok (some (mem a))) := by
  have key : (∃ i j, i < A.rows ∧ j < A.cols ∧ a = A.at i j) ↔ A.first ≤ a ∧ a < A.first + A.rows * A.cols := by
    unfold MatRef.at
    constructor
    · rintro ⟨i, j, hi, hj, rfl⟩
      rcases h with h | h
      · rw [h]
        have : j * A.rows + A.rows ≤ A.rows * A.cols := by
          rw [mul_comm A.rows, ← Nat.succ_mul]
          exact Nat.mul_le_mul_right _ hj
        omega
      · have hj0 : j = 0 := by omega
        have hc : A.cols = 1 := by omega
        rw [hj0, hc]
        omega
    · rintro ⟨h1, h2⟩
      have hpos : 0 < A.rows := by
        rcases Nat.eq_zero_or_pos A.rows with h0 | h0
        · rw [h0, zero_mul] at h2; omega
        · exact h0
      refine ⟨(a - A.first) % A.rows, (a - A.first) / A.rows, Nat.mod_lt _ hpos, ?_, ?_⟩
      · rw [Nat.div_lt_iff_lt_mul hpos, mul_comm]
        omega
      · have hdm := Nat.div_add_mod (a - A.first) A.rows
        rcases h with h | h
        · rw [h, mul_comm ((a - A.first) / A.rows)]
          omega
        · have hd : (a - A.first) / A.rows = 0 := by
            apply Nat.div_eq_of_lt
            have : A.rows * A.cols ≤ A.rows * 1 := Nat.mul_le_mul_left _ h
            omega
          rw [hd] at hdm ⊢
          omega
  constructor
  · intro he
    unfold cleanMatrix
    rw [if_pos (key.1 he)]
  · intro hne
    unfold cleanMatrix
    rw [if_neg (fun hc => hne (key.2 hc))]

/-- **C106 (fails).** Cleaning a block of a matrix: whatever the block, if it has at least two columns and does not fill the height of the
matrix, an entry outside of it is rounded, and one of its entries is not. -/
theorem C106_clean_block_wrong (A : MatRef) (hr : 0 < A.rows) (hc : 2 ≤ A.cols) (hs : A.rows < A.stride) :
    ∃ (mem : Nat → ℚ), let after := cleanMatrix mem A 6
      (∃ i, A.rows ≤ i ∧ i < A.stride ∧ after (A.at i 0) ≠ .ok (some (mem (A.at i 0)))) ∧
      (after (A.at (A.rows - 1) (A.cols - 1)) = .ok (some (mem (A.at (A.rows - 1) (A.cols - 1)))) ∧
        clean (mem (A.at (A.rows - 1) (A.cols - 1))) 6 ≠ .ok (some (mem (A.at (A.rows - 1) (A.cols - 1))))) := by
  have hv : clean (1 / 7 : ℚ) 6 ≠ .ok (some (1 / 7)) := by decide +kernel
  refine ⟨fun _ => 1 / 7, ⟨A.rows, le_refl _, hs, ?_⟩, ?_, hv⟩
  · unfold cleanMatrix MatRef.at
    have : A.rows * 2 ≤ A.rows * A.cols := Nat.mul_le_mul_left _ hc
    rw [if_pos (by omega)]
    exact hv
  · unfold cleanMatrix MatRef.at
    rw [if_neg]
    intro hcon
    have h1 := hcon.2
    obtain ⟨c, hcc⟩ : ∃ c, A.cols = c + 1 := ⟨A.cols - 1, by omega⟩
    rw [hcc] at h1
    simp only [Nat.add_sub_cancel] at h1
    have h2 : (c) * (A.rows + 1) ≤ c * A.stride := Nat.mul_le_mul_left _ hs
    have h3 : A.rows * (c + 1) = c * A.rows + A.rows := by ring
    have h4 : c * (A.rows + 1) = c * A.rows + c := by ring
    omega

/-- A matrix of two by two entries, and the block of its first row. -/
example : ((⟨0, 2, 2, 2⟩ : MatRef).stride = (⟨0, 2, 2, 2⟩ : MatRef).rows) := rfl
example : cleanMatrix (fun a => if a = 1 then (1 / 7 : ℚ) else 0.3333) ⟨0, 1, 2, 2⟩ 6 0 = .ok (some (1 / 3)) ∧
    cleanMatrix (fun a => if a = 1 then (1 / 7 : ℚ) else 0.3333) ⟨0, 1, 2, 2⟩ 6 1 = .ok (some (1 / 6)) ∧
    cleanMatrix (fun a => if a = 1 then (1 / 7 : ℚ) else 0.3333) ⟨0, 1, 2, 2⟩ 6 2 = .ok (some 0.3333) := by decide +kernel

/-! ## Products with split numbers -/

theorem dot3pLoop_sum (fl rd : K → K) (x : List K) : ∀ (st : K × K) (y : List K), x.length ≤ y.length →
    ∃ st', dot3pLoop fl rd st x y = .ok st' ∧ st'.1 + st'.2 = st.1 + st.2 + (List.zipWith (· * ·) x y).sum := by
  induction x with
  | nil => intro st y _; exact ⟨st, by simp [dot3pLoop], by simp⟩
  | cons a x ih =>
    intro st y hy
    cases y with
    | nil => simp at hy
    | cons b y =>
      obtain ⟨st', h1, h2⟩ := ih (dot3pTurn fl rd st a b) y (by simpa using hy)
      refine ⟨st', h1, ?_⟩
      rw [h2, List.zipWith_cons_cons, List.sum_cons]
      unfold dot3pTurn
      ring

/-- **C106.** `dot3p` returns `s + x·y`, whatever the conversion to `float` does and however the sums of the upper parts are rounded. -/
theorem C106_dot3p (fl rd : K → K) (x y : List K) (s : K) (h : x.length ≤ y.length) :
    dot3p fl rd x y s = .ok (s + (List.zipWith (· * ·) x y).sum) := by
  obtain ⟨st', h1, h2⟩ := dot3pLoop_sum fl rd x (fl s, s - fl s) y h
  unfold dot3p
  rw [h1]
  simp only [Res.bind_ok']
  rw [h2]
  simp

/-- **C106.** If the second vector is shorter it is read beyond its end. -/
theorem C106_dot3p_short (fl rd : K → K) (x y : List K) (s : K) (h : y.length < x.length) : dot3p fl rd x y s = .ub := by
  have : ∀ (x y : List K) (st : K × K), y.length < x.length → dot3pLoop fl rd st x y = .ub := by
    intro x
    induction x with
    | nil => intro y st h; simp at h
    | cons a x ih =>
      intro y st h
      cases y with
      | nil => rfl
      | cons b y => exact ih y _ (by simpa using h)
  unfold dot3p
  rw [this x y _ h]
  rfl

/-- **C106.** `residual3p` returns `A x - b`. -/
theorem C106_residual3p (fl rd : K → K) (A : List (List K)) (x b : List K) (hA : ∀ row ∈ A, row.length = x.length)
    (hb : A.length ≤ b.length) :
    residual3p fl rd A x b = .ok (List.zipWith (fun row bk => (List.zipWith (· * ·) row x).sum - bk) A b) := by
  induction A generalizing b with
  | nil => simp [residual3p]
  | cons row A ih =>
    cases b with
    | nil => simp at hb
    | cons bk b =>
      unfold residual3p
      rw [C106_dot3p fl rd row x (-bk) (hA row List.mem_cons_self).le, ih b (fun r hr => hA r (List.mem_cons_of_mem _ hr)) (by simpa using hb)]
      simp only [Res.bind_ok', List.zipWith_cons_cons]
      congr 2
      ring

/-- The numbers are split at the integers. -/
example : dot3p (K := ℚ) (fun x => (x.floor : ℚ)) (fun x => (x.floor : ℚ)) [1.5, 2.25] [3.75, -1.5] 0.5 = .ok (0.5 + (1.5 * 3.75 + (2.25 * -1.5 + 0))) :=
  C106_dot3p _ _ _ _ _ (by decide)
example : residual3p (K := ℚ) (fun x => (x.floor : ℚ)) (fun x => (x.floor : ℚ)) [[1.5, 2.25], [1, 0]] [3.75, -1.5] [0.5, 3] =
    .ok [1.5 * 3.75 + (2.25 * -1.5 + 0) - 0.5, 1 * 3.75 + (0 * -1.5 + 0) - 3] :=
  C106_residual3p _ _ _ _ _ (by decide) (by decide)

end Verif.MathUtils
