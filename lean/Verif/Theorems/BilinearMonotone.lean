import Verif.Theorems.BilinearContinuity
import Verif.Theorems.AqueousParams

/-!
# More of C18 and C101: monotone tables

The interpolation of a table whose values rise (or fall) along an axis rises (or falls) along it. The parameter `A` of the HKF model falls with pressure.
-/

namespace Verif.Bilinear

variable {K : Type} [Field K] [LinearOrder K] [IsStrictOrderedRing K]

/-- Linear interpolation of rising values rises. -/
theorem linear_mono (l : List K) (h : l.Pairwise (· < ·)) (v : Nat → K) (hv : ∀ i, i + 1 < l.length → v i ≤ v (i + 1)) (x y : K) (hxy : x < y) (i k : Nat)
    (hi : i + 1 < l.length) (hk : k + 1 < l.length)
    (h1 : l.getD i 0 ≤ x) (h2 : x ≤ l.getD (i + 1) 0) (h3 : l.getD k 0 ≤ y) (h4 : y ≤ l.getD (k + 1) 0) :
    (1 - (x - l.getD i 0) / (l.getD (i + 1) 0 - l.getD i 0)) * v i + (x - l.getD i 0) / (l.getD (i + 1) 0 - l.getD i 0) * v (i + 1) ≤
    (1 - (y - l.getD k 0) / (l.getD (k + 1) 0 - l.getD k 0)) * v k + (y - l.getD k 0) / (l.getD (k + 1) 0 - l.getD k 0) * v (k + 1) := by
  have pos : ∀ i, i + 1 < l.length → 0 < l.getD (i + 1) 0 - l.getD i 0 := fun i hi => sub_pos.2 (sorted_lt l h i (i + 1) (by omega) hi)
  have hmono : ∀ a b, a ≤ b → b < l.length → v a ≤ v b := by
    intro a b hab hb
    induction b with
    | zero => rw [Nat.le_zero.1 hab]
    | succ b ih =>
      rcases Nat.eq_or_lt_of_le hab with e | e
      · rw [e]
      · exact (ih (by omega) (by omega)).trans (hv b hb)
  have hvi := hv i hi
  have hvk := hv k hk
  have a1 : (x - l.getD i 0) / (l.getD (i + 1) 0 - l.getD i 0) ≤ 1 := (div_le_one (pos i hi)).2 (by linarith)
  have a2 : 0 ≤ (y - l.getD k 0) / (l.getD (k + 1) 0 - l.getD k 0) := div_nonneg (by linarith) (pos k hk).le
  rcases Nat.lt_trichotomy i k with h' | h' | h'
  · have := hmono (i + 1) k h' (by omega)
    nlinarith [mul_nonneg (sub_nonneg.2 a1) (sub_nonneg.2 hvi), mul_nonneg a2 (sub_nonneg.2 hvk)]
  · subst h'
    have : (x - l.getD i 0) / (l.getD (i + 1) 0 - l.getD i 0) ≤ (y - l.getD i 0) / (l.getD (i + 1) 0 - l.getD i 0) :=
      div_le_div_of_nonneg_right (by linarith) (pos i hi).le
    nlinarith [mul_nonneg (sub_nonneg.2 this) (sub_nonneg.2 hvi)]
  · have := sorted_le l h (k + 1) i h' (by omega)
    linarith

/-- **C18 (rising tables).** If the values of a table rise along the first axis, so does the interpolation, everywhere in the rectangle. -/
theorem C18_rising (t : Interpolator K) (ht : Regular t) (hz : ∀ i j, i + 1 < t.xs.length → j < t.ys.length → t.Z i j ≤ t.Z (i + 1) j) (x x' y : K)
    (h : t.Covers x y) (h' : t.Covers x' y) (hx : x ≤ x') : ∃ v v', eval t x y = .ok v ∧ eval t x' y = .ok v' ∧ v ≤ v' := by
  obtain ⟨i, j, hi, hj, g1, g2, g3, g4, he⟩ := C18_cell t ht x y h
  rcases hx.eq_or_lt with rfl | hlt
  · exact ⟨_, _, he, he, le_refl _⟩
  obtain ⟨k, -, hk, -, k1, k2, -, -, -⟩ := C18_cell t ht x' y h'
  refine ⟨_, _, he, C18_any_cell t ht x' y k j hk hj k1 k2 g3 g4, ?_⟩
  have b1 := linear_mono t.xs ht.xsorted (fun p => t.Z p j) (fun p hp => hz p j hp (by omega)) x x' hlt i k hi hk g1 g2 k1 k2
  have b2 := linear_mono t.xs ht.xsorted (fun p => t.Z p (j + 1)) (fun p hp => hz p (j + 1) hp hj) x x' hlt i k hi hk g1 g2 k1 k2
  have hp2 : 0 < t.Y (j + 1) - t.Y j := sub_pos.2 (sorted_lt t.ys ht.ysorted j (j + 1) (by omega) hj)
  have u0 : 0 ≤ (y - t.Y j) / (t.Y (j + 1) - t.Y j) := div_nonneg (by linarith) hp2.le
  have u1 : (y - t.Y j) / (t.Y (j + 1) - t.Y j) ≤ 1 := (div_le_one hp2).2 (by linarith)
  unfold mix
  unfold Interpolator.X at *
  exact add_le_add (mul_le_mul_of_nonneg_left b1 (sub_nonneg.2 u1)) (mul_le_mul_of_nonneg_left b2 u0)

/-- **C18 (falling tables).** If the values of a table fall along the first axis, so does the interpolation, everywhere in the rectangle. -/
theorem C18_falling (t : Interpolator K) (ht : Regular t) (hz : ∀ i j, i + 1 < t.xs.length → j < t.ys.length → t.Z (i + 1) j ≤ t.Z i j) (x x' y : K)
    (h : t.Covers x y) (h' : t.Covers x' y) (hx : x ≤ x') : ∃ v v', eval t x y = .ok v ∧ eval t x' y = .ok v' ∧ v' ≤ v := by
  obtain ⟨i, j, hi, hj, g1, g2, g3, g4, he⟩ := C18_cell t ht x y h
  rcases hx.eq_or_lt with rfl | hlt
  · exact ⟨_, _, he, he, le_refl _⟩
  obtain ⟨k, -, hk, -, k1, k2, -, -, -⟩ := C18_cell t ht x' y h'
  refine ⟨_, _, he, C18_any_cell t ht x' y k j hk hj k1 k2 g3 g4, ?_⟩
  have b1 := linear_mono t.xs ht.xsorted (fun p => -t.Z p j) (fun p hp => neg_le_neg (hz p j hp (by omega))) x x' hlt i k hi hk g1 g2 k1 k2
  have b2 := linear_mono t.xs ht.xsorted (fun p => -t.Z p (j + 1)) (fun p hp => neg_le_neg (hz p (j + 1) hp hj)) x x' hlt i k hi hk g1 g2 k1 k2
  have hp2 : 0 < t.Y (j + 1) - t.Y j := sub_pos.2 (sorted_lt t.ys ht.ysorted j (j + 1) (by omega) hj)
  have u0 : 0 ≤ (y - t.Y j) / (t.Y (j + 1) - t.Y j) := div_nonneg (by linarith) hp2.le
  have u1 : (y - t.Y j) / (t.Y (j + 1) - t.Y j) ≤ 1 := (div_le_one hp2).2 (by linarith)
  unfold mix
  unfold Interpolator.X at *
  simp only [mul_neg, ← neg_add, neg_le_neg_iff] at b1 b2
  exact add_le_add (mul_le_mul_of_nonneg_left b1 (sub_nonneg.2 u1)) (mul_le_mul_of_nonneg_left b2 u0)

/-- **C18 (rising tables).** The same along the second axis. -/
theorem C18_rising_second (t : Interpolator K) (ht : Regular t) (hz : ∀ i j, i < t.xs.length → j + 1 < t.ys.length → t.Z i j ≤ t.Z i (j + 1)) (x y y' : K)
    (h : t.Covers x y) (h' : t.Covers x y') (hy : y ≤ y') : ∃ v v', eval t x y = .ok v ∧ eval t x y' = .ok v' ∧ v ≤ v' := by
  obtain ⟨i, j, hi, hj, g1, g2, g3, g4, he⟩ := C18_cell t ht x y h
  rcases hy.eq_or_lt with rfl | hlt
  · exact ⟨_, _, he, he, le_refl _⟩
  obtain ⟨-, k, -, hk, -, -, k1, k2, -⟩ := C18_cell t ht x y' h'
  refine ⟨_, _, he, C18_any_cell t ht x y' i k hi hk g1 g2 k1 k2, ?_⟩
  have hp2 : 0 < t.X (i + 1) - t.X i := sub_pos.2 (sorted_lt t.xs ht.xsorted i (i + 1) (by omega) hi)
  have s0 : 0 ≤ (x - t.X i) / (t.X (i + 1) - t.X i) := div_nonneg (by linarith) hp2.le
  have s1 : (x - t.X i) / (t.X (i + 1) - t.X i) ≤ 1 := (div_le_one hp2).2 (by linarith)
  exact linear_mono t.ys ht.ysorted (fun q => (1 - (x - t.X i) / (t.X (i + 1) - t.X i)) * t.Z i q + (x - t.X i) / (t.X (i + 1) - t.X i) * t.Z (i + 1) q)
    (fun q hq => add_le_add (mul_le_mul_of_nonneg_left (hz i q (by omega) hq) (sub_nonneg.2 s1)) (mul_le_mul_of_nonneg_left (hz (i + 1) q hi hq) s0))
    y y' hlt j k hj hk g3 g4 k1 k2

/-- A table that rises along both axes. -/
example : Regular (⟨[0, 1, 3], [0, 2], [1, 2, 4, 5, 6, 9]⟩ : Interpolator ℚ) ∧
    (⟨[0, 1, 3], [0, 2], [1, 2, 4, 5, 6, 9]⟩ : Interpolator ℚ).Covers (1 / 2) 1 ∧ (⟨[0, 1, 3], [0, 2], [1, 2, 4, 5, 6, 9]⟩ : Interpolator ℚ).Covers 2 1 ∧
    (∀ j < 2, ∀ i < 2, (⟨[0, 1, 3], [0, 2], [1, 2, 4, 5, 6, 9]⟩ : Interpolator ℚ).Z i j ≤ (⟨[0, 1, 3], [0, 2], [1, 2, 4, 5, 6, 9]⟩ : Interpolator ℚ).Z (i + 1) j) := by
  refine ⟨⟨by decide, by decide, by decide +kernel, by decide +kernel, rfl⟩, ?_, ?_, by decide +kernel⟩ <;>
    norm_num [Interpolator.Covers, Interpolator.X, Interpolator.Y]

end Verif.Bilinear

namespace Verif.AqueousParams

variable {K : Type} [Field K] [LinearOrder K] [IsStrictOrderedRing K]

/-- **C101**, parameters of the HKF model: at a constant temperature in the range of the tables, the Debye-Hückel parameter `A` falls with pressure. -/
theorem C101_A_falls (T P P' : K) (h : InRange T P) (h' : InRange T P') (hP : P ≤ P') :
    ∃ A A', paramA T P = .ok A ∧ paramA T P' = .ok A' ∧ A' ≤ A := by
  have l1 : Agamma_data.length = 210 := by decide +kernel
  have hx : (interpolator Agamma_data : Bilinear.Interpolator K).xs.length = 10 := by simp [interpolator, pressure_range, scaled]
  have hy : (interpolator Agamma_data : Bilinear.Interpolator K).ys.length = 21 := by simp [interpolator, temperature_range, scaled]
  have key : ∀ j < 21, ∀ i < 9, Agamma_data.getD (i + 1 + j * 10) 0 ≤ Agamma_data.getD (i + j * 10) 0 := by decide +kernel
  have hget : ∀ n, (interpolator Agamma_data : Bilinear.Interpolator K).data.getD n 0 = ((Agamma_data.getD n 0 : Rat) : K) := by
    intro n
    simp only [interpolator, List.getD_eq_getElem?_getD, List.getElem?_map]
    cases Agamma_data[n]? <;> simp
  refine Bilinear.C18_falling _ (regular Agamma_data l1) ?_ _ _ _ ((covers_iff _ T P).2 h) ((covers_iff _ T P').2 h') (by linarith)
  intro i j hi hj
  rw [hx] at hi
  rw [hy] at hj
  unfold Bilinear.Interpolator.Z
  rw [hx, hget, hget]
  exact_mod_cast key j hj i (by omega)

/-- At 12.5 °C and 100 and 4900 bar. -/
example : InRange (285650 / 1000 : ℚ) 10000000 ∧ InRange (285650 / 1000 : ℚ) 490000000 ∧ (10000000 : ℚ) ≤ 490000000 := by
  norm_num [InRange]

end Verif.AqueousParams
