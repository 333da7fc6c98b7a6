import Verif.Spec.Pitzer
import Mathlib.Analysis.Calculus.Deriv.Add
import Mathlib.Analysis.Calculus.Deriv.Mul
import Mathlib.Analysis.Calculus.Deriv.Comp
import Mathlib.Analysis.Calculus.Deriv.Pow
import Mathlib.Analysis.Calculus.Deriv.Inv
import Mathlib.Analysis.SpecialFunctions.ExpDeriv
import Mathlib.Analysis.SpecialFunctions.Log.Deriv
import Mathlib.Analysis.SpecialFunctions.Sqrt
import Mathlib.Tactic.Ring
import Mathlib.Tactic.FieldSimp
import Mathlib.Tactic.LinearCombination

/-!
# Sums and derivatives for the Pitzer model
-/

namespace Verif.Pitzer

open Verif.Aqueous

/-! ## Loops -/

theorem total_ofFn {α : Type} {n : Nat} (f : Fin n → α) (h : α → ℝ) : total (List.ofFn f) h = ∑ i, h (f i) := by
  simp [total, List.map_ofFn, List.sum_ofFn]

theorem total_add {α : Type} (l : List α) (f h : α → ℝ) : total l (fun x => f x + h x) = total l f + total l h := by
  induction l with
  | nil => simp [total]
  | cons a l ih => simp only [total, List.map_cons, List.sum_cons] at ih ⊢; linarith

theorem total_cons {α : Type} (a : α) (l : List α) (f : α → ℝ) : total (a :: l) f = f a + total l f := by simp [total]

theorem sumM_ok {α : Type} (f : α → Res ℝ) (h : α → ℝ) (l : List α) (hf : ∀ x ∈ l, f x = .ok (h x)) :
    sumM f l = .ok (total l h) := by
  induction l with
  | nil => simp [sumM, total]
  | cons a l ih => simp [sumM, hf a (by simp), ih (fun x hx => hf x (by simp [hx])), total_cons]

/-- The sum over pairs in the order of the list. -/
noncomputable def pairSum {α : Type} (h : α → α → ℝ) : List α → ℝ
  | [] => 0
  | x :: xs => total xs (h x) + pairSum h xs

theorem pairs_ok {α : Type} (f : α → α → Res ℝ) (h : α → α → ℝ) (l : List α) (hf : ∀ x ∈ l, ∀ y ∈ l, f x y = .ok (h x y)) :
    pairs f l = .ok (pairSum h l) := by
  induction l with
  | nil => simp [pairs, pairSum]
  | cons a l ih =>
    simp [pairs, pairSum, sumM_ok (f a) (h a) l (fun x hx => hf a (by simp) x (by simp [hx])),
      ih (fun x hx y hy => hf x (by simp [hx]) y (by simp [hy]))]

theorem pairSum_eq {α : Type} (h : α → α → ℝ) (l : List α) (hs : ∀ x ∈ l, ∀ y ∈ l, h x y = h y x) (hd : ∀ x ∈ l, h x x = 0) :
    pairSum h l = 1 / 2 * total l (fun x => total l (h x)) := by
  induction l with
  | nil => simp [pairSum, total]
  | cons a l ih =>
    have e : total l (fun x => total (a :: l) (h x)) = total l (h a) + total l (fun x => total l (h x)) := by
      have : total l (fun x => total (a :: l) (h x)) = total l (fun x => h x a + total l (h x)) := by simp [total_cons]
      rw [this, total_add]
      congr 1
      unfold total
      congr 1
      exact List.map_congr_left fun x hx => hs x (by simp [hx]) a (by simp)
    rw [pairSum, ih (fun x hx y hy => hs x (by simp [hx]) y (by simp [hy])) (fun x hx => hd x (by simp [hx])), total_cons, e, total_cons,
      hd a (by simp)]
    ring

theorem pairLoop_ofFn {α : Type} {n : Nat} (f : α → α → Res ℝ) (h : α → α → ℝ) (v : Fin n → α) (hn : 0 < n)
    (hf : ∀ i j, f (v i) (v j) = .ok (h (v i) (v j))) (hs : ∀ i j, h (v i) (v j) = h (v j) (v i)) (hd : ∀ i, h (v i) (v i) = 0) :
    pairLoop f (List.ofFn v) = .ok (1 / 2 * ∑ i, ∑ j, h (v i) (v j)) := by
  have hm : ∀ x ∈ List.ofFn v, ∃ i, v i = x := fun x hx => by simpa [List.mem_ofFn] using hx
  rw [pairLoop, if_neg (by simp; omega), pairs_ok f h]
  · rw [pairSum_eq, total_ofFn]
    · simp [total_ofFn]
    · intro x hx y hy; obtain ⟨i, rfl⟩ := hm x hx; obtain ⟨j, rfl⟩ := hm y hy; exact hs i j
    · intro x hx; obtain ⟨i, rfl⟩ := hm x hx; exact hd i
  · intro x hx y hy; obtain ⟨i, rfl⟩ := hm x hx; obtain ⟨j, rfl⟩ := hm y hy; exact hf i j

theorem sumM_ofFn {α : Type} {n : Nat} (f : α → Res ℝ) (h : α → ℝ) (v : Fin n → α) (hf : ∀ i, f (v i) = .ok (h (v i))) :
    sumM f (List.ofFn v) = .ok (∑ i, h (v i)) := by
  rw [sumM_ok f h, total_ofFn]
  intro x hx
  obtain ⟨i, rfl⟩ : ∃ i, v i = x := by simpa [List.mem_ofFn] using hx
  exact hf i

/-! ## Parameters -/

theorem any_str (f : Formula) (a b c : Formula) : [a, b, c].any (fun y => f.str == y.str) = true ↔
    f.str = a.str ∨ f.str = b.str ∨ f.str = c.str := by simp

/-- `identical` compares the sets of strings. -/
theorem identical_iff (a b : List Formula) :
    identical a b = true ↔ ∀ s : List Char, (s ∈ a.map (·.str)) ↔ s ∈ b.map (·.str) := by
  simp only [identical, Bool.and_eq_true, List.all_eq_true, List.any_eq_true, beq_iff_eq, List.mem_map]
  constructor
  · rintro ⟨h1, h2⟩ s
    constructor
    · rintro ⟨x, hx, rfl⟩; obtain ⟨y, hy, e⟩ := h1 x hx; exact ⟨y, hy, e.symm⟩
    · rintro ⟨x, hx, rfl⟩; obtain ⟨y, hy, e⟩ := h2 x hx; exact ⟨y, hy, e.symm⟩
  · intro h
    constructor
    · intro x hx; obtain ⟨y, hy, e⟩ := (h x.str).1 ⟨x, hx, rfl⟩; exact ⟨y, hy, e.symm⟩
    · intro x hx; obtain ⟨y, hy, e⟩ := (h x.str).2 ⟨x, hx, rfl⟩; exact ⟨y, hy, e.symm⟩

theorem identical_perm (a a' b : List Formula) (h : a.Perm a') : identical a b = identical a' b := by
  rw [Bool.eq_iff_iff, identical_iff, identical_iff]
  have : ∀ s : List Char, s ∈ a.map (·.str) ↔ s ∈ a'.map (·.str) := fun s => (h.map (fun f : Formula => f.str)).mem_iff
  simp [this]

theorem pairParam_comm (data : List (Formula × Formula × List ℚ)) (f g : Formula) : pairParam data f g = pairParam data g f := by
  unfold pairParam
  simp only [identical_perm [f, g] [g, f] _ (List.Perm.swap g f [])]

theorem tripleParam_perm (data : List (Formula × Formula × Formula × List ℚ)) (f g h f' g' h' : Formula)
    (e : [f, g, h].Perm [f', g', h']) : tripleParam data f g h = tripleParam data f' g' h' := by
  unfold tripleParam
  simp only [identical_perm _ _ _ e]

theorem pairParam_self (data : List (Formula × Formula × List ℚ)) (hd : ∀ l ∈ data, l.1.str ≠ l.2.1.str) (f : Formula) :
    pairParam data f f = 0 := by
  unfold pairParam
  rw [List.find?_eq_none.2]
  intro l hl hi
  rw [identical_iff] at hi
  have h1 := (hi l.1.str).2 (by simp)
  have h2 := (hi l.2.1.str).2 (by simp)
  simp at h1 h2
  exact hd l hl (h1.trans h2.symm)

theorem tripleParam_self (data : List (Formula × Formula × Formula × List ℚ))
    (hd : ∀ l ∈ data, l.1.str ≠ l.2.1.str ∧ l.1.str ≠ l.2.2.1.str ∧ l.2.1.str ≠ l.2.2.1.str) (f h : Formula) :
    tripleParam data f f h = 0 := by
  unfold tripleParam
  rw [List.find?_eq_none.2]
  intro l hl hi
  rw [identical_iff] at hi
  have h1 := (hi l.1.str).2 (by simp)
  have h2 := (hi l.2.1.str).2 (by simp)
  have h3 := (hi l.2.2.1.str).2 (by simp)
  simp at h1 h2 h3
  obtain ⟨d1, d2, d3⟩ := hd l hl
  rcases h1 with h1 | h1 <;> rcases h2 with h2 | h2 <;> rcases h3 with h3 | h3 <;> simp_all

theorem theta_comm (f g : Formula) : theta f g = theta g f := pairParam_comm _ f g
theorem theta_self (f : Formula) : theta f f = 0 := pairParam_self _ (by decide +kernel) f
theorem psi_comm (f g h : Formula) : psi f g h = psi g f h := tripleParam_perm _ _ _ _ _ _ _ (List.Perm.swap g f [h])
theorem psi_self (f h : Formula) : psi f f h = 0 := tripleParam_self _ (by decide +kernel) f h

/-! ## Derivatives -/

theorem g_eq (x : ℝ) : g x = shape x := by simp [g, shape, sq]

theorem shape_add (x : ℝ) (hx : x ≠ 0) : shape x + gPrime x = Real.exp (-x) := by
  unfold shape gPrime; field_simp; ring

theorem hasDerivAt_shape (a I : ℝ) (ha : 0 < a) (hI : 0 < I) :
    HasDerivAt (fun I => shape (a * √I)) (gPrime (a * √I) / I) I := by
  have hs : 0 < √I := Real.sqrt_pos.2 hI
  have hq : √I ^ 2 = I := Real.sq_sqrt hI.le
  have hx : HasDerivAt (fun I => a * √I) (a * (1 / (2 * √I))) I := (Real.hasDerivAt_sqrt hI.ne').const_mul a
  have hx0 : a * √I ≠ 0 := by positivity
  have he : HasDerivAt (fun I => Real.exp (-(a * √I))) (Real.exp (-(a * √I)) * -(a * (1 / (2 * √I)))) I := (hx.neg).exp
  have hn : HasDerivAt (fun I => 2 * (1 - (1 + a * √I) * Real.exp (-(a * √I))))
      (2 * (0 - ((0 + a * (1 / (2 * √I))) * Real.exp (-(a * √I)) + (1 + a * √I) * (Real.exp (-(a * √I)) * -(a * (1 / (2 * √I))))))) I :=
    ((((hasDerivAt_const I (1 : ℝ)).add hx).mul he).const_sub 1 |>.const_mul 2).congr_deriv (by simp [Pi.add_apply])
  have h := hn.div (hx.pow 2) (pow_ne_zero 2 hx0)
  refine (h.congr_of_eventuallyEq (Filter.Eventually.of_forall fun t => by simp [shape])).congr_deriv ?_
  unfold gPrime
  simp only [Pi.pow_apply]
  have hI' : I = √I ^ 2 := hq.symm
  generalize hE : Real.exp (-(a * √I)) = E
  generalize √I = q at *
  subst hI'
  field_simp
  ring

theorem hasDerivAt_debye (A I : ℝ) (hI : 0 < I) :
    HasDerivAt (fun I => -(4 * A * I / (12 / 10)) * Real.log (1 + 12 / 10 * √I))
      (2 * (-A * (√I / (1 + 12 / 10 * √I) + 2 / (12 / 10) * Real.log (1 + 12 / 10 * √I)))) I := by
  have hs : 0 < √I := Real.sqrt_pos.2 hI
  have hq : √I ^ 2 = I := Real.sq_sqrt hI.le
  have hp : 0 < 1 + 12 / 10 * √I := by positivity
  have hx : HasDerivAt (fun I => 1 + 12 / 10 * √I) (12 / 10 * (1 / (2 * √I))) I :=
    ((Real.hasDerivAt_sqrt hI.ne').const_mul (12 / 10)).const_add 1
  have hl := hx.log hp.ne'
  have hc : HasDerivAt (fun I => -(4 * A * I / (12 / 10))) (-(4 * A / (12 / 10))) I :=
    ((((hasDerivAt_id I).const_mul (4 * A)).div_const (12 / 10)).neg).congr_deriv (by simp)
  refine (hc.mul hl).congr_deriv ?_
  have hI' : I = √I ^ 2 := hq.symm
  generalize Real.log (1 + 12 / 10 * √I) = L
  generalize √I = q at *
  subst hI'
  field_simp
  ring

theorem hasDerivAt_electrostatic (J J1 : ℝ → ℝ) (A zi zj I : ℝ) (hA : 0 < A) (hI : 0 < I) (hz : 0 < zi * zj)
    (hJ : ∀ x, 0 < x → HasDerivAt J (J1 x / x) x) :
    HasDerivAt (electrostatic J A zi zj)
      (zi * zj / (8 * I * I) * (J1 (6 * zi * zj * A * √I) - 1 / 2 * J1 (6 * zi * zi * A * √I) - 1 / 2 * J1 (6 * zj * zj * A * √I))
        - electrostatic J A zi zj I / I) I := by
  have hs : 0 < √I := Real.sqrt_pos.2 hI
  have hq : √I ^ 2 = I := Real.sq_sqrt hI.le
  have hzi : zi ≠ 0 := fun h => by simp [h] at hz
  have hzj : zj ≠ 0 := fun h => by simp [h] at hz
  have key : ∀ p, 0 < p → HasDerivAt (fun I => J (p * √I)) (J1 (p * √I) / (2 * I)) I := by
    intro p hp
    have h1 : HasDerivAt (fun I => p * √I) (p * (1 / (2 * √I))) I := (Real.hasDerivAt_sqrt hI.ne').const_mul p
    refine ((hJ (p * √I) (by positivity)).comp I h1).congr_deriv ?_
    generalize J1 (p * √I) = w
    have hI' : I = √I ^ 2 := hq.symm
    generalize √I = q at *
    subst hI'
    field_simp
  have hii : 0 < 6 * zi * zi * A := by have := mul_self_pos.2 hzi; nlinarith [mul_pos this hA]
  have hjj : 0 < 6 * zj * zj * A := by have := mul_self_pos.2 hzj; nlinarith [mul_pos this hA]
  have hij : 0 < 6 * zi * zj * A := by nlinarith [mul_pos hz hA]
  have hinv : HasDerivAt (fun I : ℝ => zi * zj / (4 * I)) (-(zi * zj / (4 * I)) / I) I := by
    have h := (((hasDerivAt_id I).const_mul (4 : ℝ)).inv (by simp; exact hI.ne')).const_mul (zi * zj)
    refine (h.congr_of_eventuallyEq (Filter.Eventually.of_forall fun t => by simp [div_eq_mul_inv])).congr_deriv ?_
    simp only [id]; field_simp
  have hsum := ((key _ hij).sub ((key _ hii).const_mul (1 / 2))).sub ((key _ hjj).const_mul (1 / 2))
  refine ((hinv.mul hsum).congr_of_eventuallyEq (Filter.Eventually.of_forall fun t => by simp [electrostatic])).congr_deriv ?_
  unfold electrostatic
  simp only [Pi.sub_apply]
  field_simp
  ring

/-! ## Derivatives of bilinear forms -/

theorem hasDerivAt_bilinear {p q : Nat} (x x' : Fin p → ℝ) (y y' : Fin q → ℝ) (X : Fin p → ℝ → ℝ) (Y : Fin q → ℝ → ℝ)
    (W : Fin p → Fin q → ℝ → ℝ) (w w' : Fin p → Fin q → ℝ) (s : ℝ) (hx : ∀ i, HasDerivAt (X i) (x' i) s) (hx0 : ∀ i, X i s = x i)
    (hy : ∀ j, HasDerivAt (Y j) (y' j) s) (hy0 : ∀ j, Y j s = y j)
    (hw : ∀ i j, HasDerivAt (W i j) (w' i j) s) (hw0 : ∀ i j, W i j s = w i j) :
    HasDerivAt (fun t => ∑ i, ∑ j, X i t * Y j t * W i j t)
      (∑ i, x' i * ∑ j, y j * w i j + ∑ j, y' j * ∑ i, x i * w i j + ∑ i, ∑ j, x i * y j * w' i j) s := by
  have h : HasDerivAt (fun t => ∑ i, ∑ j, X i t * Y j t * W i j t)
      (∑ i, ∑ j, ((x' i * y j + x i * y' j) * w i j + x i * y j * w' i j)) s := by
    refine HasDerivAt.fun_sum fun i _ => HasDerivAt.fun_sum fun j _ => ?_
    refine (((hx i).mul (hy j)).mul (hw i j)).congr_deriv ?_
    simp [hx0, hy0, hw0]
  refine h.congr_deriv ?_
  have e : ∑ j, y' j * ∑ i, x i * w i j = ∑ i, ∑ j, x i * y' j * w i j := by
    rw [Finset.sum_comm]
    refine Finset.sum_congr rfl fun j _ => ?_
    rw [Finset.mul_sum]
    exact Finset.sum_congr rfl fun i _ => by ring
  rw [e]
  simp only [Finset.mul_sum, ← Finset.sum_add_distrib]
  exact Finset.sum_congr rfl fun i _ => Finset.sum_congr rfl fun j _ => by ring

theorem hasDerivAt_quadratic {p : Nat} (x x' : Fin p → ℝ) (X : Fin p → ℝ → ℝ) (W : Fin p → Fin p → ℝ → ℝ) (w w' : Fin p → Fin p → ℝ)
    (s : ℝ) (hx : ∀ i, HasDerivAt (X i) (x' i) s) (hx0 : ∀ i, X i s = x i)
    (hw : ∀ i j, HasDerivAt (W i j) (w' i j) s) (hw0 : ∀ i j, W i j s = w i j) (hsym : ∀ i j, w i j = w j i) :
    HasDerivAt (fun t => 1 / 2 * ∑ i, ∑ j, X i t * X j t * W i j t)
      (∑ i, x' i * ∑ j, x j * w i j + 1 / 2 * ∑ i, ∑ j, x i * x j * w' i j) s := by
  have h := (hasDerivAt_bilinear x x' x x' X X W w w' s hx hx0 hx hx0 hw hw0).const_mul (1 / 2)
  refine h.congr_deriv ?_
  have e : ∑ j, x' j * ∑ i, x i * w i j = ∑ i, x' i * ∑ j, x j * w i j :=
    Finset.sum_congr rfl fun j _ => by rw [Finset.sum_congr rfl fun i _ => by rw [hsym i j]]
  rw [e]; ring

/-! ## The gradient -/

section Gradient

variable {nc na nn : Nat} (x : Fin nc → ℝ) (y : Fin na → ℝ) (u : Fin nn → ℝ) (b b' t : Fin nc → Fin na → ℝ)
  (P P' : Fin nc → Fin nc → ℝ) (Q Q' : Fin na → Fin na → ℝ) (R : Fin nc → Fin nc → Fin na → ℝ) (S : Fin na → Fin na → Fin nc → ℝ)
  (L : Fin nn → Fin nc → ℝ) (M : Fin nn → Fin na → ℝ) (zc : Fin nc → ℝ) (za : Fin na → ℝ) (D Z : ℝ)

noncomputable def gradF : ℝ :=
  D + ∑ c, ∑ a, x c * y a * b' c a + 1 / 2 * ∑ i, ∑ j, x i * x j * P' i j + 1 / 2 * ∑ i, ∑ j, y i * y j * Q' i j

noncomputable def gradCation (c : Fin nc) : ℝ :=
  ∑ a, y a * (2 * b c a + Z * t c a) + ∑ j, x j * (2 * P c j + ∑ a, y a * R c j a) + 1 / 2 * ∑ i, ∑ j, y i * y j * S i j c
    + ∑ i, ∑ a, |zc c| * x i * y a * t i a + ∑ n, 2 * u n * L n c + zc c * zc c * gradF x y b' P' Q' D

noncomputable def gradAnion (a : Fin na) : ℝ :=
  ∑ c, x c * (2 * b c a + Z * t c a) + ∑ j, y j * (2 * Q a j + ∑ c, x c * S a j c) + 1 / 2 * ∑ i, ∑ j, x i * x j * R i j a
    + ∑ c, ∑ j, |za a| * x c * y j * t c j + ∑ n, 2 * u n * M n a + za a * za a * gradF x y b' P' Q' D

noncomputable def gradNeutral (n : Fin nn) : ℝ := ∑ c, 2 * x c * L n c + ∑ a, 2 * y a * M n a

theorem gradient_sum (dx : Fin nc → ℝ) (dy : Fin na → ℝ) (du : Fin nn → ℝ) (I' Z' : ℝ)
    (hI : I' = 1 / 2 * (∑ c, zc c ^ 2 * dx c + ∑ a, za a ^ 2 * dy a)) (hZ : Z' = ∑ c, dx c * |zc c| + ∑ a, dy a * |za a|) :
    ∑ c, dx c * gradCation x y u b b' t P P' Q' R S L zc D Z c + ∑ a, dy a * gradAnion x y u b b' t P' Q Q' R S M za D Z a
      + ∑ n, du n * gradNeutral x y L M n =
    2 * D * I'
    + (∑ c, dx c * ∑ a, y a * (2 * b c a + Z * t c a) + ∑ a, dy a * ∑ c, x c * (2 * b c a + Z * t c a)
        + ∑ c, ∑ a, x c * y a * (2 * (b' c a * I') + Z' * t c a))
    + (∑ i, dx i * ∑ j, x j * (2 * P i j + ∑ a, y a * R i j a)
        + 1 / 2 * ∑ i, ∑ j, x i * x j * (2 * (P' i j * I') + ∑ a, dy a * R i j a))
    + (∑ i, dy i * ∑ j, y j * (2 * Q i j + ∑ c, x c * S i j c)
        + 1 / 2 * ∑ i, ∑ j, y i * y j * (2 * (Q' i j * I') + ∑ c, dx c * S i j c))
    + (∑ n, du n * ∑ c, x c * (2 * L n c) + ∑ c, dx c * ∑ n, u n * (2 * L n c) + ∑ n, ∑ c, u n * x c * 0)
    + (∑ n, du n * ∑ a, y a * (2 * M n a) + ∑ a, dy a * ∑ n, u n * (2 * M n a) + ∑ n, ∑ a, u n * y a * 0) := by
  have e1 : ∑ c, dx c * (1 / 2 * ∑ i, ∑ j, y i * y j * S i j c) = 1 / 2 * ∑ i, ∑ j, y i * y j * ∑ c, dx c * S i j c := by
    simp only [Finset.mul_sum]
    rw [Finset.sum_comm]
    refine Finset.sum_congr rfl fun i _ => ?_
    rw [Finset.sum_comm]
    exact Finset.sum_congr rfl fun j _ => Finset.sum_congr rfl fun c _ => by ring
  have e1' : ∑ a, dy a * (1 / 2 * ∑ i, ∑ j, x i * x j * R i j a) = 1 / 2 * ∑ i, ∑ j, x i * x j * ∑ a, dy a * R i j a := by
    simp only [Finset.mul_sum]
    rw [Finset.sum_comm]
    refine Finset.sum_congr rfl fun i _ => ?_
    rw [Finset.sum_comm]
    exact Finset.sum_congr rfl fun j _ => Finset.sum_congr rfl fun c _ => by ring
  have e2 : ∑ c, dx c * ∑ i, ∑ a, |zc c| * x i * y a * t i a = (∑ c, dx c * |zc c|) * ∑ i, ∑ a, x i * y a * t i a := by
    rw [Finset.sum_mul]
    refine Finset.sum_congr rfl fun c _ => ?_
    simp only [Finset.mul_sum]
    exact Finset.sum_congr rfl fun i _ => Finset.sum_congr rfl fun a _ => by ring
  have e2' : ∑ a, dy a * ∑ c, ∑ j, |za a| * x c * y j * t c j = (∑ a, dy a * |za a|) * ∑ i, ∑ a, x i * y a * t i a := by
    rw [Finset.sum_mul]
    refine Finset.sum_congr rfl fun c _ => ?_
    simp only [Finset.mul_sum]
    exact Finset.sum_congr rfl fun i _ => Finset.sum_congr rfl fun a _ => by ring
  have e3 : ∀ F : ℝ, ∑ c, dx c * (zc c * zc c * F) = (∑ c, zc c ^ 2 * dx c) * F := by
    intro F; rw [Finset.sum_mul]; exact Finset.sum_congr rfl fun c _ => by ring
  have e3' : ∀ F : ℝ, ∑ c, dy c * (za c * za c * F) = (∑ c, za c ^ 2 * dy c) * F := by
    intro F; rw [Finset.sum_mul]; exact Finset.sum_congr rfl fun c _ => by ring
  have e4 : ∀ c, ∑ n, 2 * u n * L n c = ∑ n, u n * (2 * L n c) := fun c => Finset.sum_congr rfl fun n _ => by ring
  have e4' : ∀ a, ∑ n, 2 * u n * M n a = ∑ n, u n * (2 * M n a) := fun c => Finset.sum_congr rfl fun n _ => by ring
  have e5 : ∀ n, ∑ c, 2 * x c * L n c = ∑ c, x c * (2 * L n c) := fun c => Finset.sum_congr rfl fun n _ => by ring
  have e5' : ∀ n, ∑ a, 2 * y a * M n a = ∑ a, y a * (2 * M n a) := fun c => Finset.sum_congr rfl fun n _ => by ring
  have f1 : ∑ c, ∑ a, x c * y a * (2 * (b' c a * I') + Z' * t c a) =
      2 * I' * ∑ c, ∑ a, x c * y a * b' c a + Z' * ∑ c, ∑ a, x c * y a * t c a := by
    simp only [Finset.mul_sum, ← Finset.sum_add_distrib]
    exact Finset.sum_congr rfl fun i _ => Finset.sum_congr rfl fun a _ => by ring
  have f2 : ∑ i, ∑ j, x i * x j * (2 * (P' i j * I') + ∑ a, dy a * R i j a) =
      2 * I' * ∑ i, ∑ j, x i * x j * P' i j + ∑ i, ∑ j, x i * x j * ∑ a, dy a * R i j a := by
    rw [Finset.mul_sum, ← Finset.sum_add_distrib]
    refine Finset.sum_congr rfl fun i _ => ?_
    rw [Finset.mul_sum, ← Finset.sum_add_distrib]
    exact Finset.sum_congr rfl fun a _ => by ring
  have f3 : ∑ i, ∑ j, y i * y j * (2 * (Q' i j * I') + ∑ c, dx c * S i j c) =
      2 * I' * ∑ i, ∑ j, y i * y j * Q' i j + ∑ i, ∑ j, y i * y j * ∑ c, dx c * S i j c := by
    rw [Finset.mul_sum, ← Finset.sum_add_distrib]
    refine Finset.sum_congr rfl fun i _ => ?_
    rw [Finset.mul_sum, ← Finset.sum_add_distrib]
    exact Finset.sum_congr rfl fun a _ => by ring
  rw [f1, f2, f3]
  simp only [gradCation, gradAnion, gradNeutral, mul_add, Finset.sum_add_distrib]
  rw [e1, e1', e2, e2', e3, e3']
  simp only [e4, e4', e5, e5', mul_add, Finset.sum_add_distrib, mul_zero, Finset.sum_const_zero]
  simp only [gradF, hI, hZ]
  ring

end Gradient

end Verif.Pitzer
