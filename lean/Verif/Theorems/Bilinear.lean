import Verif.Spec.Bilinear
import Mathlib.Data.List.GetD
import Mathlib.Tactic.Linarith
import Mathlib.Tactic.FieldSimp
import Mathlib.Tactic.Ring

/-!
# Theorem C18: bilinear interpolation
-/

namespace Verif.Bilinear

variable {K : Type} [Field K] [LinearOrder K] [IsStrictOrderedRing K]

theorem at!_getD (l : List K) (i : Nat) (h : i < l.length) : at! l i = .ok (l.getD i 0) := by
  rw [at!_of_lt l i h, List.getD_eq_getElem _ _ h]

theorem sorted_lt (l : List K) (h : l.Pairwise (· < ·)) (i j : Nat) (hij : i < j) (hj : j < l.length) :
    l.getD i 0 < l.getD j 0 := by
  rw [List.getD_eq_getElem _ _ (by omega), List.getD_eq_getElem _ _ hj]
  exact List.pairwise_iff_getElem.1 h i j _ _ hij

/-- The search keeps `coordinates[begin] ≤ p` and `p < coordinates[end]` (or `end` is the size). -/
theorem binarySearchHelper_spec (p : K) (l : List K) : ∀ (n b e : Nat), e - b < n → b < e → e ≤ l.length →
    l.getD b 0 ≤ p → (e < l.length → p < l.getD e 0) →
    ∃ i, binarySearchHelper n p l b e = .ok i ∧ i < l.length ∧ l.getD i 0 ≤ p ∧ (i + 1 < l.length → p < l.getD (i + 1) 0) := by
  intro n
  induction n with
  | zero => intro b e h; omega
  | succ n ih =>
    intro b e h1 h2 h3 h4 h5
    rw [binarySearchHelper]
    by_cases h : e - b = 1
    · rw [if_pos h]
      have he : e = b + 1 := by omega
      subst he
      exact ⟨b, rfl, by omega, h4, h5⟩
    · rw [if_neg h]
      simp only [at!_getD l ((b + e) / 2) (by omega), Res.bind_ok']
      by_cases hp : p < l.getD ((b + e) / 2) 0
      · rw [if_pos hp]
        exact ih b ((b + e) / 2) (by omega) (by omega) (by omega) h4 (fun _ => hp)
      · rw [if_neg hp]
        exact ih ((b + e) / 2) e (by omega) (by omega) h3 (not_lt.1 hp) h5

/-- The cell found for a covered coordinate. -/
theorem cell_spec (p : K) (l : List K) (h2 : 2 ≤ l.length) (hlo : l.getD 0 0 ≤ p) (hhi : p ≤ l.getD (l.length - 1) 0) :
    ∃ i, ((binarySearch p l).bind fun ix => cellIndex ix l.length) = .ok i ∧ i + 1 < l.length ∧
      (l.Pairwise (· < ·) → l.getD i 0 ≤ p ∧ p ≤ l.getD (i + 1) 0) := by
  obtain ⟨k, h1, hk, hlow, hup⟩ := binarySearchHelper_spec p l (l.length + 1) 0 l.length (by omega) (by omega) (le_refl _) hlo
    (by omega)
  unfold binarySearch
  rw [h1]
  simp only [Res.bind_ok', cellIndex]
  by_cases hl : k = l.length - 1
  · rw [if_pos hl, if_neg (by omega)]
    refine ⟨k - 1, rfl, by omega, fun hs => ⟨?_, ?_⟩⟩
    · exact le_trans (le_of_lt (sorted_lt l hs (k - 1) k (by omega) hk)) hlow
    · rw [show k - 1 + 1 = l.length - 1 by omega]; exact hhi
  · rw [if_neg hl]
    exact ⟨k, rfl, by omega, fun _ => ⟨hlow, le_of_lt (hup (by omega))⟩⟩

theorem bind_assoc' {α β γ : Type} (x : Res α) (f : α → Res β) (g : β → Res γ) :
    (x.bind f).bind g = x.bind fun a => (f a).bind g := by cases x <;> rfl

/-- **C18 (cells).** For every regular table and every covered `(x, y)`, the value is the weighted mean of the four entries
of a cell that contains `(x, y)`. In particular nothing outside the tables is read. -/
theorem C18_cell (t : Interpolator K) (ht : Regular t) (x y : K) (h : t.Covers x y) :
    ∃ i j, i + 1 < t.xs.length ∧ j + 1 < t.ys.length ∧ t.X i ≤ x ∧ x ≤ t.X (i + 1) ∧ t.Y j ≤ y ∧ y ≤ t.Y (j + 1) ∧
      eval t x y = .ok (mix ((x - t.X i) / (t.X (i + 1) - t.X i)) ((y - t.Y j) / (t.Y (j + 1) - t.Y j))
        (t.Z i j) (t.Z (i + 1) j) (t.Z i (j + 1)) (t.Z (i + 1) (j + 1))) := by
  obtain ⟨hx0, hx1, hy0, hy1⟩ := h
  obtain ⟨i, hi, hil, hix⟩ := cell_spec x t.xs ht.xs2 hx0 hx1
  obtain ⟨j, hj, hjl, hjy⟩ := cell_spec y t.ys ht.ys2 hy0 hy1
  obtain ⟨hi1, hi2⟩ := hix ht.xsorted
  obtain ⟨hj1, hj2⟩ := hjy ht.ysorted
  refine ⟨i, j, hil, hjl, hi1, hi2, hj1, hj2, ?_⟩
  have hx2 := ht.xs2
  have hy2 := ht.ys2
  have hd1 : t.data.length ≠ 1 := by
    rw [ht.size]
    intro hh
    have := Nat.eq_one_of_mul_eq_one_right hh
    omega
  have hk : ∀ a b, a < t.xs.length → b < t.ys.length → a + b * t.xs.length < t.data.length := by
    intro a b ha hb
    rw [ht.size]
    calc a + b * t.xs.length < t.xs.length + b * t.xs.length := by omega
      _ = (b + 1) * t.xs.length := by ring
      _ ≤ t.ys.length * t.xs.length := Nat.mul_le_mul_right _ hb
      _ = t.xs.length * t.ys.length := Nat.mul_comm _ _
  have hne1 : t.X (i + 1) - t.X i ≠ 0 := sub_ne_zero.2 (ne_of_gt (sorted_lt t.xs ht.xsorted i (i + 1) (by omega) hil))
  have hne2 : t.Y (j + 1) - t.Y j ≠ 0 := sub_ne_zero.2 (ne_of_gt (sorted_lt t.ys ht.ysorted j (j + 1) (by omega) hjl))
  unfold eval
  rw [if_neg hd1]
  simp only [at!_getD t.xs 0 (by omega), at!_getD t.xs (t.xs.length - 1) (by omega), at!_getD t.ys 0 (by omega),
    at!_getD t.ys (t.ys.length - 1) (by omega), Res.bind_ok']
  rw [if_neg (by rw [not_or]; exact ⟨not_lt.2 hx0, not_lt.2 hx1⟩), if_neg (by rw [not_or]; exact ⟨not_lt.2 hy0, not_lt.2 hy1⟩)]
  rw [← bind_assoc', hi]
  simp only [Res.bind_ok']
  rw [← bind_assoc', hj]
  simp only [Res.bind_ok', at!_getD t.xs i (by omega), at!_getD t.xs (i + 1) hil, at!_getD t.ys j (by omega),
    at!_getD t.ys (j + 1) hjl, at!_getD t.data _ (hk i j (by omega) (by omega)), at!_getD t.data _ (hk (i + 1) j hil (by omega)),
    at!_getD t.data _ (hk i (j + 1) (by omega) hjl), at!_getD t.data _ (hk (i + 1) (j + 1) hil hjl)]
  congr 1
  show _ = mix ((x - t.X i) / (t.X (i + 1) - t.X i)) ((y - t.Y j) / (t.Y (j + 1) - t.Y j)) (t.Z i j) (t.Z (i + 1) j)
    (t.Z i (j + 1)) (t.Z (i + 1) (j + 1))
  simp only [Interpolator.X, Interpolator.Y, Interpolator.Z, mix] at hne1 hne2 ⊢
  field_simp
  ring

/-- **C18 (bounds).** The value lies between the smallest and the largest of the four entries of the cell. -/
theorem C18_between (t : Interpolator K) (ht : Regular t) (x y : K) (h : t.Covers x y) :
    ∃ i j v, i + 1 < t.xs.length ∧ j + 1 < t.ys.length ∧ t.X i ≤ x ∧ x ≤ t.X (i + 1) ∧ t.Y j ≤ y ∧ y ≤ t.Y (j + 1) ∧
      eval t x y = .ok v ∧
      min (min (t.Z i j) (t.Z (i + 1) j)) (min (t.Z i (j + 1)) (t.Z (i + 1) (j + 1))) ≤ v ∧
      v ≤ max (max (t.Z i j) (t.Z (i + 1) j)) (max (t.Z i (j + 1)) (t.Z (i + 1) (j + 1))) := by
  obtain ⟨i, j, hi, hj, h1, h2, h3, h4, he⟩ := C18_cell t ht x y h
  have hp1 : 0 < t.X (i + 1) - t.X i := sub_pos.2 (sorted_lt t.xs ht.xsorted i (i + 1) (by omega) hi)
  have hp2 : 0 < t.Y (j + 1) - t.Y j := sub_pos.2 (sorted_lt t.ys ht.ysorted j (j + 1) (by omega) hj)
  refine ⟨i, j, _, hi, hj, h1, h2, h3, h4, he, ?_⟩
  generalize hs : (x - t.X i) / (t.X (i + 1) - t.X i) = s
  generalize hu : (y - t.Y j) / (t.Y (j + 1) - t.Y j) = u
  have s0 : 0 ≤ s := by rw [← hs]; exact div_nonneg (by linarith) (le_of_lt hp1)
  have s1 : s ≤ 1 := by rw [← hs, div_le_one hp1]; linarith
  have u0 : 0 ≤ u := by rw [← hu]; exact div_nonneg (by linarith) (le_of_lt hp2)
  have u1 : u ≤ 1 := by rw [← hu, div_le_one hp2]; linarith
  have conv : ∀ a b m w : K, 0 ≤ w → w ≤ 1 → m ≤ a → m ≤ b → m ≤ (1 - w) * a + w * b := by
    intro a b m w w0 w1 ha hb
    nlinarith [mul_le_mul_of_nonneg_left ha (sub_nonneg.2 w1), mul_le_mul_of_nonneg_left hb w0]
  have conv' : ∀ a b m w : K, 0 ≤ w → w ≤ 1 → a ≤ m → b ≤ m → (1 - w) * a + w * b ≤ m := by
    intro a b m w w0 w1 ha hb
    nlinarith [mul_le_mul_of_nonneg_left ha (sub_nonneg.2 w1), mul_le_mul_of_nonneg_left hb w0]
  unfold mix
  constructor
  · exact conv _ _ _ u u0 u1
      (conv _ _ _ s s0 s1 (le_trans (min_le_left _ _) (min_le_left _ _)) (le_trans (min_le_left _ _) (min_le_right _ _)))
      (conv _ _ _ s s0 s1 (le_trans (min_le_right _ _) (min_le_left _ _)) (le_trans (min_le_right _ _) (min_le_right _ _)))
  · exact conv' _ _ _ u u0 u1
      (conv' _ _ _ s s0 s1 (le_trans (le_max_left _ _) (le_max_left _ _)) (le_trans (le_max_right _ _) (le_max_left _ _)))
      (conv' _ _ _ s s0 s1 (le_trans (le_max_left _ _) (le_max_right _ _)) (le_trans (le_max_right _ _) (le_max_right _ _)))

theorem sorted_le (l : List K) (h : l.Pairwise (· < ·)) (i j : Nat) (hij : i ≤ j) (hj : j < l.length) :
    l.getD i 0 ≤ l.getD j 0 := by
  rcases Nat.eq_or_lt_of_le hij with rfl | h'
  · exact le_refl _
  · exact le_of_lt (sorted_lt l h i j h' hj)

/-- A node inside the interval `[i, i+1]` is one of its ends. -/
theorem node_in_interval (l : List K) (h : l.Pairwise (· < ·)) (i p : Nat) (hi : i + 1 < l.length) (hp : p < l.length)
    (h1 : l.getD i 0 ≤ l.getD p 0) (h2 : l.getD p 0 ≤ l.getD (i + 1) 0) : p = i ∨ p = i + 1 := by
  by_contra hne
  rw [not_or] at hne
  rcases Nat.lt_or_ge p i with h' | h'
  · exact absurd h1 (not_le.2 (sorted_lt l h p i h' (by omega)))
  · exact absurd h2 (not_le.2 (sorted_lt l h (i + 1) p (by omega) hp))

/-- **C18 (grid points).** At every grid point the tabulated value is returned. -/
theorem C18_grid_points (t : Interpolator K) (ht : Regular t) (p q : Nat) (hp : p < t.xs.length) (hq : q < t.ys.length) :
    eval t (t.X p) (t.Y q) = .ok (t.Z p q) := by
  have hc : t.Covers (t.X p) (t.Y q) :=
    ⟨sorted_le _ ht.xsorted 0 p (by omega) hp, sorted_le _ ht.xsorted p _ (by omega) (by omega),
     sorted_le _ ht.ysorted 0 q (by omega) hq, sorted_le _ ht.ysorted q _ (by omega) (by omega)⟩
  obtain ⟨i, j, hi, hj, h1, h2, h3, h4, he⟩ := C18_cell t ht _ _ hc
  have hne1 : t.X (i + 1) - t.X i ≠ 0 := sub_ne_zero.2 (ne_of_gt (sorted_lt t.xs ht.xsorted i (i + 1) (by omega) hi))
  have hne2 : t.Y (j + 1) - t.Y j ≠ 0 := sub_ne_zero.2 (ne_of_gt (sorted_lt t.ys ht.ysorted j (j + 1) (by omega) hj))
  rw [he]
  congr 1
  rcases node_in_interval t.xs ht.xsorted i p hi hp h1 h2 with rfl | rfl <;>
  rcases node_in_interval t.ys ht.ysorted j q hj hq h3 h4 with rfl | rfl <;>
  simp [mix, div_self hne1, div_self hne2]

/-- **C18 (bilinear data).** If the entries are those of `a + b x + c y + d x y`, the interpolation is exact. -/
theorem C18_bilinear_exact (t : Interpolator K) (ht : Regular t) (a b c d : K)
    (hz : ∀ p q, p < t.xs.length → q < t.ys.length → t.Z p q = a + b * t.X p + c * t.Y q + d * t.X p * t.Y q)
    (x y : K) (h : t.Covers x y) : eval t x y = .ok (a + b * x + c * y + d * x * y) := by
  obtain ⟨i, j, hi, hj, h1, h2, h3, h4, he⟩ := C18_cell t ht x y h
  have hne1 : t.X (i + 1) - t.X i ≠ 0 := sub_ne_zero.2 (ne_of_gt (sorted_lt t.xs ht.xsorted i (i + 1) (by omega) hi))
  have hne2 : t.Y (j + 1) - t.Y j ≠ 0 := sub_ne_zero.2 (ne_of_gt (sorted_lt t.ys ht.ysorted j (j + 1) (by omega) hj))
  rw [he, hz i j (by omega) (by omega), hz (i + 1) j hi (by omega), hz i (j + 1) (by omega) hj, hz (i + 1) (j + 1) hi hj]
  congr 1
  unfold mix
  field_simp
  ring

/-- **C18 (outside).** Arguments outside the covered rectangle are rejected with an exception. -/
theorem C18_outside_throws (t : Interpolator K) (ht : Regular t) (x y : K) (h : ¬ t.Covers x y) : eval t x y = .throw := by
  have hx2 := ht.xs2
  have hy2 := ht.ys2
  have hd1 : t.data.length ≠ 1 := by
    rw [ht.size]
    intro hh
    have := Nat.eq_one_of_mul_eq_one_right hh
    omega
  unfold eval
  rw [if_neg hd1]
  simp only [at!_getD t.xs 0 (by omega), at!_getD t.xs (t.xs.length - 1) (by omega), at!_getD t.ys 0 (by omega),
    at!_getD t.ys (t.ys.length - 1) (by omega), Res.bind_ok']
  by_cases h1 : x < t.xs.getD 0 0 ∨ x > t.xs.getD (t.xs.length - 1) 0
  · rw [if_pos h1]
  · rw [if_neg h1]
    rw [not_or, not_lt, gt_iff_lt, not_lt] at h1
    rw [if_pos]
    by_contra h2
    rw [not_or, not_lt, gt_iff_lt, not_lt] at h2
    exact h ⟨h1.1, h1.2, h2.1, h2.2⟩

theorem getD_flatMap (xs : List K) (f : K → K → K) : ∀ (ys : List K) (p q : Nat), p < xs.length → q < ys.length →
    (ys.flatMap (fun y => xs.map (fun x => f x y))).getD (p + q * xs.length) 0 = f (xs.getD p 0) (ys.getD q 0) := by
  intro ys
  induction ys with
  | nil => intro p q _ hq; simp at hq
  | cons y ys ih =>
    intro p q hp hq
    rw [List.flatMap_cons]
    cases q with
    | zero =>
      rw [Nat.zero_mul, Nat.add_zero, List.getD_append _ _ _ _ (by simpa using hp), List.getD_cons_zero,
        List.getD_eq_getElem _ _ (by simpa using hp), List.getElem_map, List.getD_eq_getElem _ _ hp]
    | succ q =>
      rw [List.getD_append_right _ _ _ _ (by rw [List.length_map, Nat.succ_mul]; omega), List.length_map, List.getD_cons_succ,
        ← ih p q hp (by simpa using hq)]
      congr 1
      rw [Nat.succ_mul]; omega

/-- **C18 (tabulated functions).** An interpolator built from a function returns the function's value at every grid point,
for all increasing coordinates with at least two per axis. -/
theorem C18_tabulated_function (xs ys : List K) (f : K → K → K) (h1 : 2 ≤ xs.length) (h2 : 2 ≤ ys.length)
    (h3 : xs.Pairwise (· < ·)) (h4 : ys.Pairwise (· < ·)) (p q : Nat) (hp : p < xs.length) (hq : q < ys.length) :
    eval (fromFunction xs ys f) (xs.getD p 0) (ys.getD q 0) = .ok (f (xs.getD p 0) (ys.getD q 0)) := by
  have hr : Regular (fromFunction xs ys f) := by
    refine ⟨h1, h2, h3, h4, ?_⟩
    simp only [fromFunction, List.length_flatMap, List.length_map, List.map_const', List.sum_replicate_nat]
    exact Nat.mul_comm _ _
  have := C18_grid_points (fromFunction xs ys f) hr p q hp hq
  simp only [Interpolator.X, Interpolator.Y, Interpolator.Z, fromFunction] at this ⊢
  rw [this, getD_flatMap xs f ys p q hp hq]

example : Regular (⟨[0, 1, 3], [10, 20], [1, 2, 3, 4, 5, 6]⟩ : Interpolator ℚ) ∧
    (⟨[0, 1, 3], [10, 20], [1, 2, 3, 4, 5, 6]⟩ : Interpolator ℚ).Covers 2 15 ∧
    ¬ (⟨[0, 1, 3], [10, 20], [1, 2, 3, 4, 5, 6]⟩ : Interpolator ℚ).Covers 4 15 := by
  refine ⟨⟨by decide, by decide, by decide +kernel, by decide +kernel, by decide⟩, ?_, ?_⟩ <;>
  simp only [Interpolator.Covers, Interpolator.X, Interpolator.Y] <;> decide +kernel

/-- A table with a single coordinate on one axis only (such as one pressure and several temperatures) is not supported:
evaluation inside it reads outside the table. -/
theorem C18_single_coordinate_ub : eval (⟨[0], [10, 20], [1, 2]⟩ : Interpolator ℚ) 0 15 = .ub := by decide +kernel

end Verif.Bilinear
