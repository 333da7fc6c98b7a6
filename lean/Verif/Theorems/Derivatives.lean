import Mathlib.Analysis.Calculus.MeanValue
import Mathlib.Analysis.Calculus.Deriv.MeanValue
import Mathlib.Analysis.Calculus.Deriv.Mul
import Mathlib.Analysis.Calculus.Deriv.Add
import Mathlib.Analysis.Calculus.Deriv.Pow
import Mathlib.Analysis.Calculus.Deriv.Comp
import Mathlib.Tactic.Positivity
import Mathlib.Tactic.Linarith
import Mathlib.Tactic.FieldSimp
import Verif.Spec.Derivatives

/-!
# C84: numerical derivatives

Error bounds of the three difference schemes for every function with a Lipschitz derivative along the
axis, agreement of the schemes for vector functions with those for scalar functions, and the region in
which the function is evaluated.
-/

namespace Verif.Derivatives

theorem mapM_ok {α β : Type} (l : List α) (f : α → Res β) (g : α → β) (h : ∀ a ∈ l, f a = .ok (g a)) :
    l.mapM f = .ok (l.map g) := by
  induction l with
  | nil => rfl
  | cons a l ih =>
    rw [List.mapM_cons, h a (by simp), ih fun b hb => h b (List.mem_cons_of_mem _ hb)]
    rfl

theorem step_isStep (eps : ℝ) {n : Nat} (x : Pt n) (i : Fin n) : IsStep eps x i (step eps x i) := by
  constructor
  · intro h; rw [step, if_pos h]
  · intro h; rw [step, if_neg (by simpa using h), mul_one]

theorem step_pos {eps : ℝ} (he : 0 < eps) {n : Nat} (x : Pt n) (i : Fin n) : 0 < step eps x i := by
  rw [step]
  split_ifs with h
  · exact mul_pos he (abs_pos.2 h)
  · simpa using he

theorem IsStep.eq {eps : ℝ} {n : Nat} {x : Pt n} {i : Fin n} {h : ℝ} (hs : IsStep eps x i h) :
    h = step eps x i := by
  by_cases hx : x i = 0
  · rw [hs.2 hx, (step_isStep eps x i).2 hx]
  · rw [hs.1 hx, (step_isStep eps x i).1 hx]

theorem eps1_pos : 0 < eps1 := by rw [eps1]; positivity
theorem eps2_pos : 0 < eps2 := by rw [eps2]; positivity

/-! ## Inequalities of calculus -/

/-- A function on `[0, h]` that starts at zero and whose derivative is bounded by that of `B`. -/
theorem le_of_deriv_le {φ φ' B B' : ℝ → ℝ} {h : ℝ} (hh : 0 ≤ h)
    (hφ : ∀ t, 0 ≤ t → t ≤ h → HasDerivAt φ (φ' t) t) (hB : ∀ t, HasDerivAt B (B' t) t)
    (hle : ∀ t, 0 ≤ t → t ≤ h → φ' t ≤ B' t) (h0 : φ 0 = B 0) : φ h ≤ B h := by
  have hanti : AntitoneOn (fun t => φ t - B t) (Set.Icc 0 h) := by
    apply antitoneOn_of_deriv_nonpos (convex_Icc 0 h)
    · intro t ht
      exact ((hφ t ht.1 ht.2).sub (hB t)).continuousAt.continuousWithinAt
    · intro t ht
      rw [interior_Icc] at ht
      exact ((hφ t ht.1.le ht.2.le).sub (hB t)).differentiableAt.differentiableWithinAt
    · intro t ht
      rw [interior_Icc] at ht
      have : deriv (fun t => φ t - B t) t = φ' t - B' t :=
        ((hφ t ht.1.le ht.2.le).sub (hB t)).deriv
      rw [this]
      linarith [hle t ht.1.le ht.2.le]
  have := hanti (Set.left_mem_Icc.2 hh) (Set.right_mem_Icc.2 hh) hh
  simp only at this
  linarith

theorem abs_le_of_deriv_le {φ φ' B B' : ℝ → ℝ} {h : ℝ} (hh : 0 ≤ h)
    (hφ : ∀ t, 0 ≤ t → t ≤ h → HasDerivAt φ (φ' t) t) (hB : ∀ t, HasDerivAt B (B' t) t)
    (hle : ∀ t, 0 ≤ t → t ≤ h → |φ' t| ≤ B' t) (h0 : φ 0 = 0) (hB0 : B 0 = 0) : |φ h| ≤ B h := by
  rw [abs_le]
  constructor
  · have := le_of_deriv_le (φ := fun t => -φ t) (φ' := fun t => -φ' t) (B := B) (B' := B') hh
      (fun t h1 h2 => (hφ t h1 h2).neg) hB
      (fun t h1 h2 => (neg_le_abs _).trans (hle t h1 h2)) (by simp [h0, hB0])
    linarith
  · exact le_of_deriv_le hh hφ hB (fun t h1 h2 => (le_abs_self _).trans (hle t h1 h2)) (by rw [h0, hB0])

/-- Error of the one-sided difference. -/
theorem one_sided {g g' : ℝ → ℝ} {M h : ℝ} (hh : 0 < h)
    (hg : ∀ t, 0 ≤ t → t ≤ h → HasDerivAt g (g' t) t)
    (hL : ∀ t, 0 ≤ t → t ≤ h → |g' t - g' 0| ≤ M * t) :
    |(g h - g 0) / h - g' 0| ≤ M * h / 2 := by
  have key := abs_le_of_deriv_le (φ := fun t => g t - g 0 - t * g' 0) (φ' := fun t => g' t - g' 0)
    (B := fun t => M * t ^ 2 / 2) (B' := fun t => M * t) (h := h) hh.le
    (fun t h1 h2 => by
      have := ((hg t h1 h2).sub_const (g 0)).sub ((hasDerivAt_id t).mul_const (g' 0))
      refine this.congr_deriv ?_
      simp)
    (fun t => by
      have := (((hasDerivAt_id t).pow 2).const_mul M).div_const 2
      refine this.congr_deriv ?_
      simp; ring)
    hL (by simp) (by simp)
  have e : (g h - g 0) / h - g' 0 = (g h - g 0 - h * g' 0) / h := by field_simp
  rw [e, abs_div, abs_of_pos hh, div_le_iff₀ hh]
  calc _ ≤ M * h ^ 2 / 2 := key
    _ = M * h / 2 * h := by ring

/-- Error of the central difference. -/
theorem two_sided {g g' g'' : ℝ → ℝ} {M h : ℝ} (hh : 0 < h)
    (hg : ∀ t, |t| ≤ h → HasDerivAt g (g' t) t)
    (hg' : ∀ t, |t| ≤ h → HasDerivAt g' (g'' t) t)
    (hL : ∀ t, 0 ≤ t → t ≤ h → |g'' t - g'' (-t)| ≤ M * (2 * t)) :
    |(g h - g (-h)) / (2 * h) - g' 0| ≤ M * h ^ 2 / 6 := by
  have habs : ∀ t, 0 ≤ t → t ≤ h → |t| ≤ h ∧ |(-t)| ≤ h := by
    intro t h1 h2
    rw [abs_neg, abs_of_nonneg h1]; exact ⟨h2, h2⟩
  have hneg : ∀ t : ℝ, HasDerivAt (fun t : ℝ => -t) (-1) t := fun t => (hasDerivAt_id t).neg
  -- the derivative of the remainder
  have k1 : ∀ s, 0 ≤ s → s ≤ h → |g' s + g' (-s) - 2 * g' 0| ≤ M * s ^ 2 := by
    intro s hs0 hs
    have := abs_le_of_deriv_le (φ := fun t => g' t + g' (-t) - 2 * g' 0)
      (φ' := fun t => g'' t - g'' (-t)) (B := fun t => M * t ^ 2) (B' := fun t => M * (2 * t)) (h := s) hs0
      (fun t h1 h2 => by
        have h3 := habs t h1 (h2.trans hs)
        have := ((hg' t h3.1).add ((hg' (-t) h3.2).comp t (hneg t))).sub_const (2 * g' 0)
        refine this.congr_deriv ?_
        ring)
      (fun t => by
        have := ((hasDerivAt_id t).pow 2).const_mul M
        refine this.congr_deriv ?_
        simp)
      (fun t h1 h2 => hL t h1 (h2.trans hs)) (by simp; ring) (by simp)
    simpa using this
  have key := abs_le_of_deriv_le (φ := fun t => g t - g (-t) - 2 * t * g' 0)
    (φ' := fun t => g' t + g' (-t) - 2 * g' 0)
    (B := fun t => M * t ^ 3 / 3) (B' := fun t => M * t ^ 2) (h := h) hh.le
    (fun t h1 h2 => by
      have h3 := habs t h1 h2
      have := ((hg t h3.1).sub ((hg (-t) h3.2).comp t (hneg t))).sub
        (((hasDerivAt_id t).const_mul 2).mul_const (g' 0))
      refine this.congr_deriv ?_
      simp)
    (fun t => by
      have := (((hasDerivAt_id t).pow 3).const_mul M).div_const 3
      refine this.congr_deriv ?_
      simp; ring)
    k1 (by simp) (by simp)
  have h2 : 0 < 2 * h := by positivity
  have e : (g h - g (-h)) / (2 * h) - g' 0 = (g h - g (-h) - 2 * h * g' 0) / (2 * h) := by field_simp
  rw [e, abs_div, abs_of_pos h2, div_le_iff₀ h2]
  calc _ ≤ M * h ^ 3 / 3 := key
    _ = M * h ^ 2 / 6 * (2 * h) := by ring

/-! ## The schemes -/

theorem forward_total {n : Nat} (g : Pt n → ℝ) (x : Pt n) :
    forward (total g) x = .ok ((List.finRange n).map fun i =>
      (alongAxis g x i (step eps1 x i) - g x) / step eps1 x i) := by
  rw [forward]
  exact mapM_ok _ _ _ fun i _ => rfl

theorem backward_total {n : Nat} (g : Pt n → ℝ) (x : Pt n) :
    backward (total g) x = .ok ((List.finRange n).map fun i =>
      (g x - alongAxis g x i (-step eps1 x i)) / step eps1 x i) := by
  rw [backward]
  exact mapM_ok _ _ _ fun i _ => rfl

theorem central_total {n : Nat} (g : Pt n → ℝ) (x : Pt n) :
    central (total g) x = .ok ((List.finRange n).map fun i =>
      (alongAxis g x i (step eps2 x i) - alongAxis g x i (-step eps2 x i)) / (2 * step eps2 x i)) := by
  rw [central]
  exact mapM_ok _ _ _ fun i _ => rfl

theorem alongAxis_zero {n : Nat} (g : Pt n → ℝ) (x : Pt n) (i : Fin n) : alongAxis g x i 0 = g x := by
  simp [alongAxis]

/-- **C84.** Forward differences: when the derivative along coordinate `i` changes at rate at most `M`,
the error is at most `M h / 2`, `h` the step. -/
theorem C84_forward {n : Nat} (g : Pt n → ℝ) (x : Pt n) (i : Fin n) (g' : ℝ → ℝ) (M h : ℝ)
    (hh : IsStep (1 / 10 ^ 8) x i h)
    (hg : ∀ t, 0 ≤ t → t ≤ h → HasDerivAt (alongAxis g x i) (g' t) t)
    (hL : ∀ t, 0 ≤ t → t ≤ h → |g' t - g' 0| ≤ M * t) :
    ∃ d, forward (total g) x = .ok d ∧ d.length = n ∧
      ∃ di, d[(i : Nat)]? = some di ∧ |di - g' 0| ≤ M * h / 2 := by
  have hs : h = step eps1 x i := hh.eq
  subst hs
  refine ⟨_, forward_total g x, by simp, _, by simp; rfl, ?_⟩
  rw [← alongAxis_zero g x i]
  exact one_sided (step_pos eps1_pos x i) hg hL

/-- **C84.** Backward differences. -/
theorem C84_backward {n : Nat} (g : Pt n → ℝ) (x : Pt n) (i : Fin n) (g' : ℝ → ℝ) (M h : ℝ)
    (hh : IsStep (1 / 10 ^ 8) x i h)
    (hg : ∀ t, -h ≤ t → t ≤ 0 → HasDerivAt (alongAxis g x i) (g' t) t)
    (hL : ∀ t, -h ≤ t → t ≤ 0 → |g' t - g' 0| ≤ M * -t) :
    ∃ d, backward (total g) x = .ok d ∧ d.length = n ∧
      ∃ di, d[(i : Nat)]? = some di ∧ |di - g' 0| ≤ M * h / 2 := by
  have hs : h = step eps1 x i := hh.eq
  subst hs
  refine ⟨_, backward_total g x, by simp, _, by simp; rfl, ?_⟩
  have := one_sided (g := fun t => -alongAxis g x i (-t)) (g' := fun t => g' (-t)) (M := M)
    (step_pos eps1_pos x i)
    (fun t h1 h2 => by
      have := (hg (-t) (by linarith) (by linarith)).comp t ((hasDerivAt_id t).neg)
      refine this.neg.congr_deriv ?_
      simp)
    (fun t h1 h2 => by
      have := hL (-t) (by linarith) (by linarith)
      simpa using this)
  simp only [neg_zero, alongAxis_zero] at this
  have e : (g x - alongAxis g x i (-step eps1 x i)) / step eps1 x i
      = (-alongAxis g x i (-step eps1 x i) - -g x) / step eps1 x i := by ring
  rw [e]
  exact this

/-- **C84.** Central differences: when the second derivative along coordinate `i` changes at rate at most
`M`, the error is at most `M h² / 6`. -/
theorem C84_central {n : Nat} (g : Pt n → ℝ) (x : Pt n) (i : Fin n) (g' g'' : ℝ → ℝ) (M h : ℝ)
    (hh : IsStep (1 / 10 ^ 6) x i h)
    (hg : ∀ t, |t| ≤ h → HasDerivAt (alongAxis g x i) (g' t) t)
    (hg' : ∀ t, |t| ≤ h → HasDerivAt g' (g'' t) t)
    (hL : ∀ s t, |s| ≤ h → |t| ≤ h → |g'' t - g'' s| ≤ M * |t - s|) :
    ∃ d, central (total g) x = .ok d ∧ d.length = n ∧
      ∃ di, d[(i : Nat)]? = some di ∧ |di - g' 0| ≤ M * h ^ 2 / 6 := by
  have hs : h = step eps2 x i := hh.eq
  subst hs
  refine ⟨_, central_total g x, by simp, _, by simp; rfl, ?_⟩
  apply two_sided (step_pos eps2_pos x i) hg hg'
  intro t h1 h2
  have := hL (-t) t (by rwa [abs_neg, abs_of_nonneg h1]) (by rwa [abs_of_nonneg h1])
  rwa [show t - -t = 2 * t by ring, abs_of_nonneg (by linarith : (0 : ℝ) ≤ 2 * t)] at this

/-! ## Vector functions -/

/-- The matrix with these columns has, in row `r`, the derivatives of component `r`. -/
def RowsAre {n m : Nat} (cols : List (List ℝ)) (scheme : (Pt n → Res ℝ) → Res (List ℝ))
    (gs : Fin m → Pt n → ℝ) : Prop :=
  cols.length = n ∧ ∀ (i : Fin n), ∃ col, cols[(i : Nat)]? = some col ∧ col.length = m ∧
    ∀ r : Fin m, ∃ d, scheme (total (gs r)) = .ok d ∧ col[(r : Nat)]? = d[(i : Nat)]?

theorem column_ofFn {m : Nat} (a b : Fin m → ℝ) (h : ℝ) :
    column (List.ofFn b).length (List.ofFn a) (List.ofFn b) h
      = .ok (List.ofFn fun r => (a r - b r) / h) := by
  rw [column, if_pos (by simp)]
  congr 1
  apply List.ext_getElem (by simp)
  intro k h1 h2
  simp

theorem column_ofFn' {m : Nat} (a b : Fin m → ℝ) (h : ℝ) (c : Fin m → ℝ) :
    column (List.ofFn c).length (List.ofFn a) (List.ofFn b) h
      = .ok (List.ofFn fun r => (a r - b r) / h) := by
  rw [← column_ofFn]; simp [column]

/-- **C84.** The matrix of a vector function has in each row the derivatives that the function for scalars
gives for that component; for the three schemes. -/
theorem C84_vector {n m : Nat} (gs : Fin m → Pt n → ℝ) (x : Pt n) :
    (∃ cols, forwardV (total fun y => List.ofFn fun r => gs r y) x = .ok cols ∧
      RowsAre cols (forward · x) gs) ∧
    (∃ cols, backwardV (total fun y => List.ofFn fun r => gs r y) x = .ok cols ∧
      RowsAre cols (backward · x) gs) ∧
    (∃ cols, centralV (total fun y => List.ofFn fun r => gs r y) x = .ok cols ∧
      RowsAre cols (central · x) gs) := by
  refine ⟨⟨(List.finRange n).map fun i => List.ofFn fun r =>
      (alongAxis (gs r) x i (step eps1 x i) - gs r x) / step eps1 x i, ?_, ?_⟩,
    ⟨(List.finRange n).map fun i => List.ofFn fun r =>
      (gs r x - alongAxis (gs r) x i (-step eps1 x i)) / step eps1 x i, ?_, ?_⟩,
    ⟨(List.finRange n).map fun i => List.ofFn fun r =>
      (alongAxis (gs r) x i (step eps2 x i) - alongAxis (gs r) x i (-step eps2 x i)) /
        (2 * step eps2 x i), ?_, ?_⟩⟩
  · rw [forwardV]
    exact mapM_ok _ _ (fun i => List.ofFn fun r =>
      (alongAxis (gs r) x i (step eps1 x i) - gs r x) / step eps1 x i) fun i _ => column_ofFn' _ _ _ _
  · refine ⟨by simp, fun i => ⟨_, by simp; rfl, by simp, fun r => ⟨_, forward_total _ _, ?_⟩⟩⟩
    simp
  · rw [backwardV]
    exact mapM_ok _ _ (fun i => List.ofFn fun r =>
      (gs r x - alongAxis (gs r) x i (-step eps1 x i)) / step eps1 x i) fun i _ => column_ofFn' _ _ _ _
  · refine ⟨by simp, fun i => ⟨_, by simp; rfl, by simp, fun r => ⟨_, backward_total _ _, ?_⟩⟩⟩
    simp
  · rw [centralV]
    exact mapM_ok _ _ (fun i => List.ofFn fun r =>
      (alongAxis (gs r) x i (step eps2 x i) - alongAxis (gs r) x i (-step eps2 x i)) /
        (2 * step eps2 x i)) fun i _ => column_ofFn' _ _ _ _
  · refine ⟨by simp, fun i => ⟨_, by simp; rfl, by simp, fun r => ⟨_, central_total _ _, ?_⟩⟩⟩
    simp

/-! ## Where the function is evaluated -/

theorem sameSigns_shift {n : Nat} {eps : ℝ} (h0 : 0 < eps) (h1 : eps < 1) (x : Pt n) (hx : ∀ j, x j ≠ 0)
    (i : Fin n) (s : ℝ) (hs : s = step eps x i ∨ s = -step eps x i) : SameSigns x (shift x i s) := by
  intro j
  by_cases hj : j = i
  · subst hj
    have e : shift x j s j = x j + s := by simp [shift]
    rw [e]
    have he : step eps x j = eps * |x j| := (step_isStep eps x j).1 (hx j)
    rcases lt_or_gt_of_ne (hx j) with hneg | hpos
    · rw [abs_of_neg hneg] at he
      have : eps * -x j < -x j := by nlinarith
      have h2 : 0 < eps * -x j := by nlinarith
      rcases hs with rfl | rfl <;> rw [he] <;> constructor <;> constructor <;> intro _ <;> linarith
    · rw [abs_of_pos hpos] at he
      have : eps * x j < x j := by nlinarith
      have h2 : 0 < eps * x j := by nlinarith
      rcases hs with rfl | rfl <;> rw [he] <;> constructor <;> constructor <;> intro _ <;> linarith
  · have e : shift x i s j = x j := by simp [shift, hj]
    rw [e]
    exact ⟨Iff.rfl, Iff.rfl⟩

theorem mapM_returns {α β : Type} (l : List α) (f : α → Res β) (h : ∀ a ∈ l, ∃ b, f a = .ok b) :
    ∃ bs, l.mapM f = .ok bs := by
  induction l with
  | nil => exact ⟨[], rfl⟩
  | cons a l ih =>
    obtain ⟨b, hb⟩ := h a (by simp)
    obtain ⟨bs, hbs⟩ := ih fun c hc => h c (List.mem_cons_of_mem _ hc)
    exact ⟨b :: bs, by rw [List.mapM_cons, hb, hbs]; rfl⟩

/-- **C84.** The steps never change the sign of a coordinate: a function that is defined for all points
with the signs of a point without zero coordinates can be differentiated there by the three schemes. -/
theorem C84_domain {n : Nat} (f : Pt n → Res ℝ) (x : Pt n) (hx : ∀ j, x j ≠ 0)
    (hf : ∀ y, SameSigns x y → ∃ v, f y = .ok v) :
    (∃ d, forward f x = .ok d) ∧ (∃ d, backward f x = .ok d) ∧ ∃ d, central f x = .ok d := by
  obtain ⟨fx, hfx⟩ := hf x fun j => ⟨Iff.rfl, Iff.rfl⟩
  have l1 : eps1 < 1 := by rw [eps1]; norm_num
  have l2 : eps2 < 1 := by rw [eps2]; norm_num
  refine ⟨?_, ?_, ?_⟩
  · rw [forward, hfx]
    apply mapM_returns
    intro i _
    obtain ⟨v, hv⟩ := hf _ (sameSigns_shift eps1_pos l1 x hx i _ (Or.inl rfl))
    exact ⟨_, by rw [hv]; rfl⟩
  · rw [backward, hfx]
    apply mapM_returns
    intro i _
    obtain ⟨v, hv⟩ := hf _ (sameSigns_shift eps1_pos l1 x hx i _ (Or.inr rfl))
    exact ⟨_, by rw [hv]; rfl⟩
  · rw [central]
    apply mapM_returns
    intro i _
    obtain ⟨v, hv⟩ := hf _ (sameSigns_shift eps2_pos l2 x hx i _ (Or.inl rfl))
    obtain ⟨w, hw⟩ := hf _ (sameSigns_shift eps2_pos l2 x hx i _ (Or.inr rfl))
    exact ⟨_, by rw [hv, hw]; rfl⟩

/-- **C84 fails** at a point with a coordinate equal to zero: the backward and central schemes leave the
region of coordinates that are not negative, whatever the function does there. -/
theorem C84_domain_wrong : ∃ f : Pt 1 → Res ℝ, (∀ y, 0 ≤ y 0 → ∃ v, f y = .ok v) ∧
    (∃ d, forward f (fun _ => 0) = .ok d) ∧ backward f (fun _ => 0) = .throw ∧
    central f (fun _ => 0) = .throw := by
  classical
  let f : Pt 1 → Res ℝ := fun y => if 0 ≤ y 0 then .ok (y 0) else .throw
  have hs1 : step eps1 (fun _ : Fin 1 => (0 : ℝ)) 0 = eps1 := by simp [step]
  have hs2 : step eps2 (fun _ : Fin 1 => (0 : ℝ)) 0 = eps2 := by simp [step]
  have p1 := eps1_pos
  have p2 := eps2_pos
  refine ⟨f, fun y hy => ⟨y 0, if_pos hy⟩, ⟨[(eps1 - 0) / eps1], ?_⟩, ?_, ?_⟩
  · simp [forward, f, List.finRange_succ, shift, hs1, p1.le]
  · simp [backward, f, List.finRange_succ, shift, hs1, not_le.2 p1]
  · simp [central, f, List.finRange_succ, shift, hs2, p2.le, not_le.2 p2]

/-- The hypotheses hold for a product of two coordinates: its derivative along the first is the second. -/
example : ∃ d, forward (total fun y : Pt 2 => y 0 * y 1) (fun _ => 3) = .ok d ∧ d.length = 2 ∧
    ∃ di, d[0]? = some di ∧ |di - 3| ≤ 0 := by
  have := C84_forward (fun y : Pt 2 => y 0 * y 1) (fun _ => 3) 0 (fun _ => 3) 0 (1 / 10 ^ 8 * |3|)
    ⟨fun _ => rfl, fun h => absurd h (by norm_num)⟩
    (fun t _ _ => by
      have h1 : alongAxis (fun y : Pt 2 => y 0 * y 1) (fun _ => 3) 0 = fun t => (3 + t) * 3 := by
        funext t; simp [alongAxis]
      rw [h1]
      have := ((hasDerivAt_id t).const_add 3).mul_const 3
      simpa using this)
    (fun t _ _ => by simp)
  simpa using this

/-- The hypotheses hold for a square, whose derivative changes at rate 2. -/
example : ∃ d, central (total fun y : Pt 1 => y 0 ^ 2) (fun _ => 5) = .ok d ∧ d.length = 1 ∧
    ∃ di, d[0]? = some di ∧ |di - 10| ≤ 0 := by
  have := C84_central (fun y : Pt 1 => y 0 ^ 2) (fun _ => 5) 0 (fun t => 2 * (5 + t)) (fun _ => 2) 0
    (1 / 10 ^ 6 * |5|)
    ⟨fun _ => rfl, fun h => absurd h (by norm_num)⟩
    (fun t _ => by
      have h1 : alongAxis (fun y : Pt 1 => y 0 ^ 2) (fun _ => 5) 0 = fun t => (5 + t) ^ 2 := by
        funext t; simp [alongAxis]
      rw [h1]
      have := ((hasDerivAt_id t).const_add 5).pow 2
      refine this.congr_deriv ?_
      simp)
    (fun t _ => by
      have := ((hasDerivAt_id t).const_add 5).const_mul 2
      simpa using this)
    (fun s t _ _ => by simp)
  simpa [show (2 : ℝ) * 5 = 10 by norm_num] using this

end Verif.Derivatives
