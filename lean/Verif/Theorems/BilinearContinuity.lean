import Verif.Theorems.Bilinear
import Mathlib.Topology.LocallyFinite
import Mathlib.Topology.Algebra.Field
import Mathlib.Topology.Instances.Real.Lemmas
import Mathlib.Topology.Order.OrderClosed

/-!
# Theorem C18: continuity and accuracy of bilinear interpolation
-/

namespace Verif.Bilinear

section Field

variable {K : Type} [Field K] [LinearOrder K] [IsStrictOrderedRing K]

/-- Linear interpolation does not depend on which of the intervals that contain the argument is used. -/
theorem linear_any (l : List K) (h : l.Pairwise (· < ·)) (v : Nat → K) (x : K) (i k : Nat) (hi : i + 1 < l.length) (hk : k + 1 < l.length)
    (h1 : l.getD i 0 ≤ x) (h2 : x ≤ l.getD (i + 1) 0) (h3 : l.getD k 0 ≤ x) (h4 : x ≤ l.getD (k + 1) 0) :
    (1 - (x - l.getD i 0) / (l.getD (i + 1) 0 - l.getD i 0)) * v i + (x - l.getD i 0) / (l.getD (i + 1) 0 - l.getD i 0) * v (i + 1) =
    (1 - (x - l.getD k 0) / (l.getD (k + 1) 0 - l.getD k 0)) * v k + (x - l.getD k 0) / (l.getD (k + 1) 0 - l.getD k 0) * v (k + 1) := by
  have key : ∀ i k : Nat, i < k → i + 1 < l.length → k + 1 < l.length → x ≤ l.getD (i + 1) 0 → l.getD k 0 ≤ x →
      (1 - (x - l.getD i 0) / (l.getD (i + 1) 0 - l.getD i 0)) * v i + (x - l.getD i 0) / (l.getD (i + 1) 0 - l.getD i 0) * v (i + 1) =
      (1 - (x - l.getD k 0) / (l.getD (k + 1) 0 - l.getD k 0)) * v k + (x - l.getD k 0) / (l.getD (k + 1) 0 - l.getD k 0) * v (k + 1) := by
    intro i k hik hi hk h2 h3
    have hle := sorted_le l h (i + 1) k hik (by omega)
    have hx : x = l.getD (i + 1) 0 := le_antisymm h2 (hle.trans h3)
    have hk' : k = i + 1 := by
      rcases Nat.eq_or_lt_of_le hik with h' | h'
      · exact h'.symm
      · exact absurd (h3.trans h2) (not_le.2 (sorted_lt l h (i + 1) k h' (by omega)))
    subst hk'
    have hne : l.getD (i + 1) 0 - l.getD i 0 ≠ 0 := sub_ne_zero.2 (ne_of_gt (sorted_lt l h i (i + 1) (by omega) hi))
    rw [hx, div_self hne]
    simp
  rcases Nat.lt_trichotomy i k with h' | h' | h'
  · exact key i k h' hi hk h2 h3
  · rw [h']
  · exact (key k i h' hk hi h4 h1).symm

/-- **C18 (any cell).** The value is the weighted mean of the four entries of any cell that contains the point: on the border of cells all of them agree. -/
theorem C18_any_cell (t : Interpolator K) (ht : Regular t) (x y : K) (i j : Nat) (hi : i + 1 < t.xs.length) (hj : j + 1 < t.ys.length)
    (h1 : t.X i ≤ x) (h2 : x ≤ t.X (i + 1)) (h3 : t.Y j ≤ y) (h4 : y ≤ t.Y (j + 1)) :
    eval t x y = .ok (mix ((x - t.X i) / (t.X (i + 1) - t.X i)) ((y - t.Y j) / (t.Y (j + 1) - t.Y j))
        (t.Z i j) (t.Z (i + 1) j) (t.Z i (j + 1)) (t.Z (i + 1) (j + 1))) := by
  have hc : t.Covers x y :=
    ⟨(sorted_le _ ht.xsorted 0 i (by omega) (by omega)).trans h1, h2.trans (sorted_le _ ht.xsorted (i + 1) _ (by omega) (by omega)),
     (sorted_le _ ht.ysorted 0 j (by omega) (by omega)).trans h3, h4.trans (sorted_le _ ht.ysorted (j + 1) _ (by omega) (by omega))⟩
  obtain ⟨i', j', hi', hj', g1, g2, g3, g4, he⟩ := C18_cell t ht x y hc
  rw [he]
  congr 1
  unfold mix
  have hx := fun q => linear_any t.xs ht.xsorted (fun p => t.Z p q) x i' i hi' hi g1 g2 h1 h2
  have hy := linear_any t.ys ht.ysorted (fun q => (1 - (x - t.X i) / (t.X (i + 1) - t.X i)) * t.Z i q +
    (x - t.X i) / (t.X (i + 1) - t.X i) * t.Z (i + 1) q) y j' j hj' hj g3 g4 h3 h4
  have hx1 := hx j'
  have hx2 := hx (j' + 1)
  unfold Interpolator.X Interpolator.Y at *
  rw [hx1, hx2]
  exact hy

/-- **C18 (accuracy).** For a function that changes by at most `L` per unit along the first argument and `M` along the second, the interpolation of its table differs
from the function, everywhere in the rectangle, by at most `L` times the width plus `M` times the height of the cell. -/
theorem C18_error (xs ys : List K) (f : K → K → K) (h1 : 2 ≤ xs.length) (h2 : 2 ≤ ys.length) (h3 : xs.Pairwise (· < ·)) (h4 : ys.Pairwise (· < ·))
    (L M : K) (hL : ∀ x x' y, |f x y - f x' y| ≤ L * |x - x'|) (hM : ∀ x y y', |f x y - f x y'| ≤ M * |y - y'|)
    (a b : K) (ha : ∀ i, i + 1 < xs.length → xs.getD (i + 1) 0 - xs.getD i 0 ≤ a) (hb : ∀ j, j + 1 < ys.length → ys.getD (j + 1) 0 - ys.getD j 0 ≤ b)
    (x y : K) (hc : (fromFunction xs ys f).Covers x y) :
    ∃ v, eval (fromFunction xs ys f) x y = .ok v ∧ |v - f x y| ≤ L * a + M * b := by
  have hr : Regular (fromFunction xs ys f) := by
    refine ⟨h1, h2, h3, h4, ?_⟩
    simp only [fromFunction, List.length_flatMap, List.length_map, List.map_const', List.sum_replicate_nat]
    exact Nat.mul_comm _ _
  obtain ⟨i, j, hi, hj, g1, g2, g3, g4, he⟩ := C18_cell _ hr x y hc
  have hZ : ∀ p q, p < xs.length → q < ys.length → (fromFunction xs ys f).Z p q = f (xs.getD p 0) (ys.getD q 0) := by
    intro p q hp hq
    have e1 := C18_grid_points (fromFunction xs ys f) hr p q hp hq
    have e2 := C18_tabulated_function xs ys f h1 h2 h3 h4 p q hp hq
    have : Res.ok ((fromFunction xs ys f).Z p q) = Res.ok (f (xs.getD p 0) (ys.getD q 0)) := e1.symm.trans e2
    injection this
  refine ⟨_, he, ?_⟩
  have hi' : i + 1 < xs.length := hi
  have hj' : j + 1 < ys.length := hj
  rw [hZ i j (by omega) (by omega), hZ (i + 1) j hi' (by omega), hZ i (j + 1) (by omega) hj', hZ (i + 1) (j + 1) hi' hj']
  have px : 0 < xs.getD (i + 1) 0 - xs.getD i 0 := sub_pos.2 (sorted_lt xs h3 i (i + 1) (by omega) hi')
  have py : 0 < ys.getD (j + 1) 0 - ys.getD j 0 := sub_pos.2 (sorted_lt ys h4 j (j + 1) (by omega) hj')
  have hwx := ha i hi'
  have hwy := hb j hj'
  have hL0 : 0 ≤ L := by
    have := (abs_nonneg _).trans (hL (0 + 1) 0 0)
    simpa using this
  have hM0 : 0 ≤ M := by
    have := (abs_nonneg _).trans (hM 0 (0 + 1) 0)
    simpa using this
  have near : ∀ p q : Nat, (xs.getD i 0 ≤ xs.getD p 0 ∧ xs.getD p 0 ≤ xs.getD (i + 1) 0) → (ys.getD j 0 ≤ ys.getD q 0 ∧ ys.getD q 0 ≤ ys.getD (j + 1) 0) →
      |f (xs.getD p 0) (ys.getD q 0) - f x y| ≤ L * a + M * b := by
    intro p q hp hq
    have g1' : xs.getD i 0 ≤ x := g1
    have g2' : x ≤ xs.getD (i + 1) 0 := g2
    have g3' : ys.getD j 0 ≤ y := g3
    have g4' : y ≤ ys.getD (j + 1) 0 := g4
    have e : f (xs.getD p 0) (ys.getD q 0) - f x y = (f (xs.getD p 0) (ys.getD q 0) - f x (ys.getD q 0)) + (f x (ys.getD q 0) - f x y) := by ring
    rw [e]
    refine (abs_add_le _ _).trans (add_le_add ?_ ?_)
    · refine (hL _ _ _).trans (mul_le_mul_of_nonneg_left ?_ hL0)
      rw [abs_le]; constructor <;> linarith [hp.1, hp.2]
    · refine (hM _ _ _).trans (mul_le_mul_of_nonneg_left ?_ hM0)
      rw [abs_le]; constructor <;> linarith [hq.1, hq.2]
  have n11 := near i j ⟨le_refl _, by linarith⟩ ⟨le_refl _, by linarith⟩
  have n21 := near (i + 1) j ⟨by linarith, le_refl _⟩ ⟨le_refl _, by linarith⟩
  have n12 := near i (j + 1) ⟨le_refl _, by linarith⟩ ⟨by linarith, le_refl _⟩
  have n22 := near (i + 1) (j + 1) ⟨by linarith, le_refl _⟩ ⟨by linarith, le_refl _⟩
  have hs0 : 0 ≤ (x - xs.getD i 0) / (xs.getD (i + 1) 0 - xs.getD i 0) := div_nonneg (sub_nonneg.2 g1) px.le
  have hs1 : (x - xs.getD i 0) / (xs.getD (i + 1) 0 - xs.getD i 0) ≤ 1 := by
    rw [div_le_one px]; have : x ≤ xs.getD (i + 1) 0 := g2; linarith
  have hu0 : 0 ≤ (y - ys.getD j 0) / (ys.getD (j + 1) 0 - ys.getD j 0) := div_nonneg (sub_nonneg.2 g3) py.le
  have hu1 : (y - ys.getD j 0) / (ys.getD (j + 1) 0 - ys.getD j 0) ≤ 1 := by
    rw [div_le_one py]; have : y ≤ ys.getD (j + 1) 0 := g4; linarith
  show |mix ((x - xs.getD i 0) / (xs.getD (i + 1) 0 - xs.getD i 0)) ((y - ys.getD j 0) / (ys.getD (j + 1) 0 - ys.getD j 0)) _ _ _ _ - f x y| ≤ _
  generalize (x - xs.getD i 0) / (xs.getD (i + 1) 0 - xs.getD i 0) = s at *
  generalize (y - ys.getD j 0) / (ys.getD (j + 1) 0 - ys.getD j 0) = u at *
  generalize f (xs.getD i 0) (ys.getD j 0) = z11 at *
  generalize f (xs.getD (i + 1) 0) (ys.getD j 0) = z21 at *
  generalize f (xs.getD i 0) (ys.getD (j + 1) 0) = z12 at *
  generalize f (xs.getD (i + 1) 0) (ys.getD (j + 1) 0) = z22 at *
  generalize f x y = z at *
  generalize L * a + M * b = r at *
  have e : mix s u z11 z21 z12 z22 - z = (1 - u) * ((1 - s) * (z11 - z) + s * (z21 - z)) + u * ((1 - s) * (z12 - z) + s * (z22 - z)) := by
    unfold mix; ring
  rw [e]
  have conv : ∀ w p q : K, 0 ≤ w → w ≤ 1 → |p| ≤ r → |q| ≤ r → |(1 - w) * p + w * q| ≤ r := by
    intro w p q w0 w1 hp hq
    refine (abs_add_le _ _).trans ?_
    rw [abs_mul, abs_mul, abs_of_nonneg w0, abs_of_nonneg (sub_nonneg.2 w1)]
    nlinarith
  exact conv u _ _ hu0 hu1 (conv s _ _ hs0 hs1 n11 n21) (conv s _ _ hs0 hs1 n12 n22)

/-- **C18 (several functions).** The interpolation of several functions at once is, entry by entry, the interpolation of each of them; outside the rectangle it throws. -/
theorem C18_several (xs ys : List K) (fs : List (K → K → K)) (h1 : 2 ≤ xs.length) (h2 : 2 ≤ ys.length) (h3 : xs.Pairwise (· < ·)) (h4 : ys.Pairwise (· < ·))
    (x y : K) :
    ((xs.getD 0 0 ≤ x ∧ x ≤ xs.getD (xs.length - 1) 0 ∧ ys.getD 0 0 ≤ y ∧ y ≤ ys.getD (ys.length - 1) 0) →
      ∃ r, interpolateAll xs ys fs x y = .ok r ∧ r.length = fs.length ∧
        ∀ (i : Nat) f, fs[i]? = some f → ∃ v, r[i]? = some v ∧ eval (fromFunction xs ys f) x y = .ok v) ∧
    (fs ≠ [] → ¬ (xs.getD 0 0 ≤ x ∧ x ≤ xs.getD (xs.length - 1) 0 ∧ ys.getD 0 0 ≤ y ∧ y ≤ ys.getD (ys.length - 1) 0) →
      interpolateAll xs ys fs x y = .throw) := by
  have hr : ∀ f, Regular (fromFunction xs ys f) := by
    intro f
    refine ⟨h1, h2, h3, h4, ?_⟩
    simp only [fromFunction, List.length_flatMap, List.length_map, List.map_const', List.sum_replicate_nat]
    exact Nat.mul_comm _ _
  unfold interpolateAll
  constructor
  · intro hc
    induction fs with
    | nil => exact ⟨[], rfl, rfl, fun i f h => by cases h⟩
    | cons g fs ih =>
      obtain ⟨r, hr1, hr2, hr3⟩ := ih
      obtain ⟨i, j, -, -, -, -, -, -, he⟩ := C18_cell (fromFunction xs ys g) (hr g) x y hc
      generalize mix (K := K) _ _ _ _ _ _ = w at he
      refine ⟨w :: r, ?_, congrArg (· + 1) hr2, ?_⟩
      · rw [List.map_cons, List.mapM_cons, he, Res.ok_bind, hr1]
        rfl
      · intro k f hk
        cases k with
        | zero =>
          injection hk with hk
          subst hk
          exact ⟨_, rfl, he⟩
        | succ k => exact hr3 k f hk
  · intro hne hc
    cases fs with
    | nil => exact absurd rfl hne
    | cons g fs =>
      rw [List.map_cons, List.mapM_cons, C18_outside_throws (fromFunction xs ys g) (hr g) x y hc]
      rfl

end Field

/-- **C18 (continuity).** The interpolated property is a continuous function on the whole covered rectangle: there are no jumps between cells. -/
theorem C18_continuous (t : Interpolator ℝ) (ht : Regular t) :
    ∃ g : ℝ × ℝ → ℝ, (∀ x y, t.Covers x y → eval t x y = .ok (g (x, y))) ∧ ContinuousOn g {p | t.Covers p.1 p.2} := by
  let g : ℝ × ℝ → ℝ := fun p => match eval t p.1 p.2 with | .ok v => v | _ => 0
  refine ⟨g, fun x y hc => ?_, ?_⟩
  · obtain ⟨i, j, -, -, -, -, -, -, he⟩ := C18_cell t ht x y hc
    show _ = Res.ok (match eval t x y with | .ok v => v | _ => 0)
    rw [he]
  · let cell : (Fin t.xs.length × Fin t.ys.length) → Set (ℝ × ℝ) := fun ij =>
      {p | (ij.1 : Nat) + 1 < t.xs.length ∧ (ij.2 : Nat) + 1 < t.ys.length ∧ t.X ij.1 ≤ p.1 ∧ p.1 ≤ t.X (ij.1 + 1) ∧ t.Y ij.2 ≤ p.2 ∧ p.2 ≤ t.Y (ij.2 + 1)}
    have hcov : {p : ℝ × ℝ | t.Covers p.1 p.2} ⊆ ⋃ ij, cell ij := by
      intro p hp
      obtain ⟨i, j, hi, hj, g1, g2, g3, g4, -⟩ := C18_cell t ht p.1 p.2 hp
      exact Set.mem_iUnion.2 ⟨(⟨i, by omega⟩, ⟨j, by omega⟩), hi, hj, g1, g2, g3, g4⟩
    refine ContinuousOn.mono (LocallyFinite.continuousOn_iUnion (locallyFinite_of_finite cell) (fun ij => ?_) fun ij => ?_) hcov
    · have c1 : IsClosed {p : ℝ × ℝ | t.X ij.1 ≤ p.1} := isClosed_le continuous_const continuous_fst
      have c2 : IsClosed {p : ℝ × ℝ | p.1 ≤ t.X (ij.1 + 1)} := isClosed_le continuous_fst continuous_const
      have c3 : IsClosed {p : ℝ × ℝ | t.Y ij.2 ≤ p.2} := isClosed_le continuous_const continuous_snd
      have c4 : IsClosed {p : ℝ × ℝ | p.2 ≤ t.Y (ij.2 + 1)} := isClosed_le continuous_snd continuous_const
      by_cases h : (ij.1 : Nat) + 1 < t.xs.length ∧ (ij.2 : Nat) + 1 < t.ys.length
      · have e : cell ij = {p | t.X ij.1 ≤ p.1} ∩ ({p | p.1 ≤ t.X (ij.1 + 1)} ∩ ({p | t.Y ij.2 ≤ p.2} ∩ {p | p.2 ≤ t.Y (ij.2 + 1)})) := by
          ext p
          exact ⟨fun hp => ⟨hp.2.2.1, hp.2.2.2.1, hp.2.2.2.2.1, hp.2.2.2.2.2⟩, fun hp => ⟨h.1, h.2, hp.1, hp.2.1, hp.2.2.1, hp.2.2.2⟩⟩
        rw [e]
        exact c1.inter (c2.inter (c3.inter c4))
      · have e : cell ij = ∅ := by
          ext p
          exact ⟨fun hp => h ⟨hp.1, hp.2.1⟩, fun hp => hp.elim⟩
        rw [e]
        exact isClosed_empty
    · have hcont : Continuous fun p : ℝ × ℝ => mix ((p.1 - t.X ij.1) / (t.X (ij.1 + 1) - t.X ij.1)) ((p.2 - t.Y ij.2) / (t.Y (ij.2 + 1) - t.Y ij.2))
          (t.Z ij.1 ij.2) (t.Z (ij.1 + 1) ij.2) (t.Z ij.1 (ij.2 + 1)) (t.Z (ij.1 + 1) (ij.2 + 1)) := by
        unfold mix
        fun_prop
      refine hcont.continuousOn.congr fun p hp => ?_
      have he := C18_any_cell t ht p.1 p.2 ij.1 ij.2 hp.1 hp.2.1 hp.2.2.1 hp.2.2.2.1 hp.2.2.2.2.1 hp.2.2.2.2.2
      show (match eval t p.1 p.2 with | .ok v => v | _ => 0) = _
      rw [he]

/-- A table with more than one cell on each axis, to which the theorems apply. -/
example : Regular (⟨[0, 1, 3], [10, 20, 50], [1, 2, 3, 4, 5, 6, 7, 8, 9]⟩ : Interpolator ℝ) := by
  refine ⟨by decide, by decide, ?_, ?_, rfl⟩ <;> norm_num

end Verif.Bilinear
