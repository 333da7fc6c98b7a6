import Verif.Spec.Water
import Mathlib.Analysis.Calculus.FDeriv.Mul
import Mathlib.Analysis.Calculus.FDeriv.Add
import Mathlib.Analysis.Calculus.Deriv.Add
import Mathlib.Analysis.Calculus.Deriv.Mul
import Mathlib.Analysis.Calculus.Deriv.Pow
import Mathlib.Analysis.Calculus.Deriv.ZPow
import Mathlib.Analysis.Calculus.Deriv.Inv
import Mathlib.Analysis.Calculus.Deriv.Comp
import Mathlib.Analysis.SpecialFunctions.ExpDeriv
import Mathlib.Analysis.SpecialFunctions.Log.Deriv
import Mathlib.Analysis.SpecialFunctions.Pow.Deriv

/-!
# Calculus of third order jets in two variables
-/

namespace Verif.Water

open Real Filter Topology

namespace HState

/-- A constant. -/
def const (c : ℝ) : HState := ⟨c, 0, 0, 0, 0, 0, 0, 0, 0, 0⟩
/-- The first variable. -/
def varT (t : ℝ) : HState := ⟨t, 1, 0, 0, 0, 0, 0, 0, 0, 0⟩
/-- The second variable. -/
def varD (d : ℝ) : HState := ⟨d, 0, 1, 0, 0, 0, 0, 0, 0, 0⟩

/-- The product rule. -/
noncomputable def mul (a b : HState) : HState where
  h := a.h * b.h
  hT := a.hT * b.h + a.h * b.hT
  hD := a.hD * b.h + a.h * b.hD
  hTT := a.hTT * b.h + 2 * a.hT * b.hT + a.h * b.hTT
  hTD := a.hTD * b.h + a.hT * b.hD + a.hD * b.hT + a.h * b.hTD
  hDD := a.hDD * b.h + 2 * a.hD * b.hD + a.h * b.hDD
  hTTT := a.hTTT * b.h + 3 * a.hTT * b.hT + 3 * a.hT * b.hTT + a.h * b.hTTT
  hTTD := a.hTTD * b.h + a.hTT * b.hD + 2 * a.hTD * b.hT + 2 * a.hT * b.hTD + a.hD * b.hTT + a.h * b.hTTD
  hTDD := a.hTDD * b.h + a.hDD * b.hT + 2 * a.hTD * b.hD + 2 * a.hD * b.hTD + a.hT * b.hDD + a.h * b.hTDD
  hDDD := a.hDDD * b.h + 3 * a.hDD * b.hD + 3 * a.hD * b.hDD + a.h * b.hDDD

/-- The chain rule for a function of one variable with derivatives `p0 … p3` at `a.h`. -/
noncomputable def comp (p0 p1 p2 p3 : ℝ) (a : HState) : HState where
  h := p0
  hT := p1 * a.hT
  hD := p1 * a.hD
  hTT := p2 * a.hT * a.hT + p1 * a.hTT
  hTD := p2 * a.hT * a.hD + p1 * a.hTD
  hDD := p2 * a.hD * a.hD + p1 * a.hDD
  hTTT := p3 * a.hT * a.hT * a.hT + 3 * p2 * a.hT * a.hTT + p1 * a.hTTT
  hTTD := p3 * a.hT * a.hT * a.hD + p2 * (2 * a.hT * a.hTD + a.hTT * a.hD) + p1 * a.hTTD
  hTDD := p3 * a.hT * a.hD * a.hD + p2 * (2 * a.hD * a.hTD + a.hDD * a.hT) + p1 * a.hTDD
  hDDD := p3 * a.hD * a.hD * a.hD + 3 * p2 * a.hD * a.hDD + p1 * a.hDDD

/-- The chain rule for a change of both variables, `p1 … p3` the derivatives of the first and `k` the
constant derivative of the second. -/
noncomputable def chain (p1 p2 p3 k : ℝ) (a : HState) : HState where
  h := a.h
  hT := a.hT * p1
  hD := a.hD * k
  hTT := a.hTT * p1 * p1 + a.hT * p2
  hTD := a.hTD * p1 * k
  hDD := a.hDD * k * k
  hTTT := a.hTTT * p1 * p1 * p1 + 3 * a.hTT * p1 * p2 + a.hT * p3
  hTTD := a.hTTD * p1 * p1 * k + a.hTD * p2 * k
  hTDD := a.hTDD * p1 * k * k
  hDDD := a.hDDD * k * k * k

noncomputable def exp (a : HState) : HState := comp (Real.exp a.h) (Real.exp a.h) (Real.exp a.h) (Real.exp a.h) a
noncomputable def log (a : HState) : HState := comp (Real.log a.h) (1 / a.h) (-1 / a.h ^ 2) (2 / a.h ^ 3) a
noncomputable def inv (a : HState) : HState := comp (1 / a.h) (-1 / a.h ^ 2) (2 / a.h ^ 3) (-6 / a.h ^ 4) a
noncomputable def rpow (b : ℝ) (a : HState) : HState :=
  comp (a.h ^ b) (b / a.h * a.h ^ b) (b * (b - 1) / a.h ^ 2 * a.h ^ b) (b * (b - 1) * (b - 2) / a.h ^ 3 * a.h ^ b) a

noncomputable def zpow (n : ℤ) (a : HState) : HState :=
  comp (a.h ^ n) (n / a.h * a.h ^ n) (n * (n - 1) / a.h ^ 2 * a.h ^ n) (n * (n - 1) * (n - 2) / a.h ^ 3 * a.h ^ n) a

end HState

section fields
variable (a b : HState)
@[simp] theorem add_h : (a + b).h = a.h + b.h := rfl
@[simp] theorem add_hT : (a + b).hT = a.hT + b.hT := rfl
@[simp] theorem add_hD : (a + b).hD = a.hD + b.hD := rfl
@[simp] theorem add_hTT : (a + b).hTT = a.hTT + b.hTT := rfl
@[simp] theorem add_hTD : (a + b).hTD = a.hTD + b.hTD := rfl
@[simp] theorem add_hDD : (a + b).hDD = a.hDD + b.hDD := rfl
@[simp] theorem add_hTTT : (a + b).hTTT = a.hTTT + b.hTTT := rfl
@[simp] theorem add_hTTD : (a + b).hTTD = a.hTTD + b.hTTD := rfl
@[simp] theorem add_hTDD : (a + b).hTDD = a.hTDD + b.hTDD := rfl
@[simp] theorem add_hDDD : (a + b).hDDD = a.hDDD + b.hDDD := rfl
end fields

namespace HasPartials

variable {f g : ℝ → ℝ → ℝ} {fx fy gx gy x y : ℝ}

theorem congr (hf : HasPartials f fx fy x y) (h : ∀ᶠ p in 𝓝 (x, y), g p.1 p.2 = f p.1 p.2) :
    HasPartials g fx fy x y :=
  HasFDerivAt.congr_of_eventuallyEq hf h

theorem congr_partials {fx' fy' : ℝ} (hf : HasPartials f fx fy x y) (hx : fx' = fx) (hy : fy' = fy) :
    HasPartials f fx' fy' x y := by rw [hx, hy]; exact hf

theorem const (c : ℝ) : HasPartials (fun _ _ => c) 0 0 x y := by
  have h := hasFDerivAt_const (𝕜 := ℝ) c (x, y)
  exact h.congr_fderiv (by ext <;> simp)

theorem fst : HasPartials (fun a _ => a) 1 0 x y := by
  have h := hasFDerivAt_fst (𝕜 := ℝ) (p := (x, y))
  exact h.congr_fderiv (by ext <;> simp)

theorem snd : HasPartials (fun _ b => b) 0 1 x y := by
  have h := hasFDerivAt_snd (𝕜 := ℝ) (p := (x, y))
  exact h.congr_fderiv (by ext <;> simp)

theorem add (hf : HasPartials f fx fy x y) (hg : HasPartials g gx gy x y) :
    HasPartials (fun a b => f a b + g a b) (fx + gx) (fy + gy) x y := by
  have h := HasFDerivAt.fun_add hf hg
  exact h.congr_fderiv (by ext <;> simp)

theorem mul (hf : HasPartials f fx fy x y) (hg : HasPartials g gx gy x y) :
    HasPartials (fun a b => f a b * g a b) (fx * g x y + f x y * gx) (fy * g x y + f x y * gy) x y := by
  have h := HasFDerivAt.fun_mul hf hg
  exact h.congr_fderiv (by ext <;> simp <;> ring)

theorem const_mul (c : ℝ) (hf : HasPartials f fx fy x y) : HasPartials (fun a b => c * f a b) (c * fx) (c * fy) x y :=
  ((const c).mul hf).congr_partials (by ring) (by ring)

theorem mul_const (c : ℝ) (hf : HasPartials f fx fy x y) : HasPartials (fun a b => f a b * c) (fx * c) (fy * c) x y :=
  (hf.mul (const c)).congr_partials (by ring) (by ring)

theorem neg (hf : HasPartials f fx fy x y) : HasPartials (fun a b => -f a b) (-fx) (-fy) x y :=
  (((const (-1)).mul hf).congr_partials (fx' := -fx) (fy' := -fy) (by ring) (by ring)).congr
    (Eventually.of_forall fun p => by simp)

theorem sub (hf : HasPartials f fx fy x y) (hg : HasPartials g gx gy x y) :
    HasPartials (fun a b => f a b - g a b) (fx - gx) (fy - gy) x y :=
  ((hf.add hg.neg).congr_partials (by ring) (by ring)).congr (Eventually.of_forall fun p => by ring)

/-- Composition with a function of one variable. -/
theorem comp {φ : ℝ → ℝ} {φ' : ℝ} (hf : HasPartials f fx fy x y) (hφ : HasDerivAt φ φ' (f x y)) :
    HasPartials (fun a b => φ (f a b)) (φ' * fx) (φ' * fy) x y := by
  have h := HasDerivAt.comp_hasFDerivAt (x, y) (f := fun p : ℝ × ℝ => f p.1 p.2) (h₂ := φ) hφ hf
  exact h.congr_fderiv (by ext <;> simp)

/-- A quotient. -/
theorem div (hf : HasPartials f fx fy x y) (hg : HasPartials g gx gy x y) (h0 : g x y ≠ 0) :
    HasPartials (fun a b => f a b / g a b) ((fx * g x y - f x y * gx) / g x y ^ 2)
      ((fy * g x y - f x y * gy) / g x y ^ 2) x y := by
  have h := hf.mul (hg.comp (hasDerivAt_inv h0))
  refine ((h.congr_partials ?_ ?_).congr (Eventually.of_forall fun p => ?_))
  · field_simp; ring
  · field_simp; ring
  · exact div_eq_mul_inv _ _

/-- Composition with two functions of two variables. -/
theorem comp₂ {F : ℝ → ℝ → ℝ} {Fx Fy : ℝ} (hf : HasPartials f fx fy x y) (hg : HasPartials g gx gy x y)
    (hF : HasPartials F Fx Fy (f x y) (g x y)) :
    HasPartials (fun a b => F (f a b) (g a b)) (Fx * fx + Fy * gx) (Fx * fy + Fy * gy) x y := by
  have h := HasFDerivAt.comp (x, y) (g := fun p : ℝ × ℝ => F p.1 p.2) (f := fun p : ℝ × ℝ => (f p.1 p.2, g p.1 p.2))
    hF (HasFDerivAt.prodMk hf hg)
  exact h.congr_fderiv (by ext <;> simp)

/-- The partial derivative with respect to the first variable. -/
theorem left (hf : HasPartials f fx fy x y) : HasDerivAt (fun a => f a y) fx x := by
  have h := HasFDerivAt.comp_hasDerivAt x (f := fun a => (a, y)) hf ((hasDerivAt_id' x).prodMk (hasDerivAt_const x y))
  exact h.congr_deriv (by simp)

/-- The partial derivative with respect to the second variable. -/
theorem right (hf : HasPartials f fx fy x y) : HasDerivAt (fun b => f x b) fy y := by
  have h := HasFDerivAt.comp_hasDerivAt y (f := fun b => (x, b)) hf ((hasDerivAt_const y x).prodMk (hasDerivAt_id' y))
  exact h.congr_deriv (by simp)

theorem continuousAt (hf : HasPartials f fx fy x y) : ContinuousAt (fun p : ℝ × ℝ => f p.1 p.2) (x, y) :=
  HasFDerivAt.continuousAt hf

end HasPartials

namespace IsJet

variable {F G : ℝ → ℝ → HState} {T D : ℝ}

theorem congr (hF : IsJet F T D) (h : ∀ᶠ p in 𝓝 (T, D), G p.1 p.2 = F p.1 p.2) : IsJet G T D := by
  have e : G T D = F T D := h.self_of_nhds
  constructor <;> rw [e]
  · exact hF.h.congr (h.mono fun _ h => by simp only [h])
  · exact hF.hT.congr (h.mono fun _ h => by simp only [h])
  · exact hF.hD.congr (h.mono fun _ h => by simp only [h])
  · exact hF.hTT.congr (h.mono fun _ h => by simp only [h])
  · exact hF.hTD.congr (h.mono fun _ h => by simp only [h])
  · exact hF.hDD.congr (h.mono fun _ h => by simp only [h])

theorem eventually_fst {P : ℝ → Prop} (h : ∀ᶠ t in 𝓝 T, P t) : ∀ᶠ p in 𝓝 (T, D), P p.1 :=
  (continuous_fst.tendsto (T, D)).eventually h

theorem eventually_snd {P : ℝ → Prop} (h : ∀ᶠ d in 𝓝 D, P d) : ∀ᶠ p in 𝓝 (T, D), P p.2 :=
  (continuous_snd.tendsto (T, D)).eventually h

/-- Congruence on the positive quadrant. -/
theorem congr_pos (hF : IsJet F T D) (hT : 0 < T) (hD : 0 < D)
    (h : ∀ t d, 0 < t → 0 < d → G t d = F t d) : IsJet G T D :=
  hF.congr (((eventually_fst (eventually_gt_nhds hT)).and (eventually_snd (eventually_gt_nhds hD))).mono
    fun p hp => h p.1 p.2 hp.1 hp.2)

theorem congr_all (hF : IsJet F T D) (h : ∀ t d, G t d = F t d) : IsJet G T D :=
  hF.congr (Eventually.of_forall fun p => h p.1 p.2)

/-- Congruence away from one value of the second variable. -/
theorem congr_ne (hF : IsJet F T D) {c : ℝ} (hc : D ≠ c) (h : ∀ t d, d ≠ c → G t d = F t d) : IsJet G T D :=
  hF.congr ((eventually_snd (eventually_ne_nhds hc)).mono fun p hp => h p.1 p.2 hp)

theorem const (c : ℝ) : IsJet (fun _ _ => HState.const c) T D := by
  constructor <;> exact HasPartials.const _

theorem varT : IsJet (fun t _ => HState.varT t) T D := by
  constructor <;> first | exact HasPartials.const _ | exact HasPartials.fst

theorem varD : IsJet (fun _ d => HState.varD d) T D := by
  constructor <;> first | exact HasPartials.const _ | exact HasPartials.snd

theorem add (hF : IsJet F T D) (hG : IsJet G T D) : IsJet (fun t d => F t d + G t d) T D where
  h := hF.h.add hG.h
  hT := hF.hT.add hG.hT
  hD := hF.hD.add hG.hD
  hTT := hF.hTT.add hG.hTT
  hTD := hF.hTD.add hG.hTD
  hDD := hF.hDD.add hG.hDD

theorem zero : IsJet (fun _ _ => HState.zero) T D := const 0

theorem sum (l : List ℕ) (f : ℕ → ℝ → ℝ → HState) (h : ∀ i ∈ l, IsJet (f i) T D) :
    IsJet (fun t d => sumStates l (fun i => f i t d)) T D := by
  unfold sumStates
  have key : ∀ (l : List ℕ) (A : ℝ → ℝ → HState), IsJet A T D → (∀ i ∈ l, IsJet (f i) T D) →
      IsJet (fun t d => l.foldl (fun s i => s + f i t d) (A t d)) T D := by
    intro l
    induction l with
    | nil => intro A hA _; exact hA
    | cons i l ih =>
      intro A hA hl
      exact ih (fun t d => A t d + f i t d) (hA.add (hl i (by simp))) (fun j hj => hl j (by simp [hj]))
  exact key l _ zero h

theorem mul (hF : IsJet F T D) (hG : IsJet G T D) : IsJet (fun t d => (F t d).mul (G t d)) T D where
  h := hF.h.mul hG.h
  hT := ((hF.hT.mul hG.h).add (hF.h.mul hG.hT)).congr_partials (by simp only [HState.mul]; ring) (by simp only [HState.mul]; ring)
  hD := ((hF.hD.mul hG.h).add (hF.h.mul hG.hD)).congr_partials (by simp only [HState.mul]; ring) (by simp only [HState.mul]; ring)
  hTT := (((hF.hTT.mul hG.h).add ((hF.hT.const_mul 2).mul hG.hT)).add (hF.h.mul hG.hTT)).congr_partials
    (by simp only [HState.mul]; ring) (by simp only [HState.mul]; ring)
  hTD := ((((hF.hTD.mul hG.h).add (hF.hT.mul hG.hD)).add (hF.hD.mul hG.hT)).add (hF.h.mul hG.hTD)).congr_partials
    (by simp only [HState.mul]; ring) (by simp only [HState.mul]; ring)
  hDD := (((hF.hDD.mul hG.h).add ((hF.hD.const_mul 2).mul hG.hD)).add (hF.h.mul hG.hDD)).congr_partials
    (by simp only [HState.mul]; ring) (by simp only [HState.mul]; ring)

theorem comp {p0 p1 p2 p3 : ℝ → ℝ} (hF : IsJet F T D) (h0 : HasDerivAt p0 (p1 (F T D).h) (F T D).h)
    (h1 : HasDerivAt p1 (p2 (F T D).h) (F T D).h) (h2 : HasDerivAt p2 (p3 (F T D).h) (F T D).h) :
    IsJet (fun t d => (F t d).comp (p0 (F t d).h) (p1 (F t d).h) (p2 (F t d).h) (p3 (F t d).h)) T D := by
  have a0 := hF.h.comp h0
  have a1 := hF.h.comp h1
  have a2 := hF.h.comp h2
  constructor
  · exact a0
  · exact (a1.mul hF.hT).congr_partials (by simp only [HState.comp]; try ring) (by simp only [HState.comp]; ring)
  · exact (a1.mul hF.hD).congr_partials (by simp only [HState.comp]; try ring) (by simp only [HState.comp]; try ring)
  · exact (((a2.mul hF.hT).mul hF.hT).add (a1.mul hF.hTT)).congr_partials
      (by simp only [HState.comp]; ring) (by simp only [HState.comp]; ring)
  · exact (((a2.mul hF.hT).mul hF.hD).add (a1.mul hF.hTD)).congr_partials
      (by simp only [HState.comp]; ring) (by simp only [HState.comp]; ring)
  · exact (((a2.mul hF.hD).mul hF.hD).add (a1.mul hF.hDD)).congr_partials
      (by simp only [HState.comp]; ring) (by simp only [HState.comp]; ring)

theorem exp (hF : IsJet F T D) : IsJet (fun t d => (F t d).exp) T D :=
  hF.comp (p0 := Real.exp) (p1 := Real.exp) (p2 := Real.exp) (p3 := Real.exp)
    (Real.hasDerivAt_exp _) (Real.hasDerivAt_exp _) (Real.hasDerivAt_exp _)

theorem hasDerivAt_inv_pow (c : ℝ) (n : ℕ) (x : ℝ) (hx : x ≠ 0) :
    HasDerivAt (fun y => c / y ^ n) (-(n * c) / x ^ (n + 1)) x := by
  have h := ((hasDerivAt_const x c).fun_div (hasDerivAt_pow n x) (pow_ne_zero n hx))
  refine h.congr_deriv ?_
  rcases n with _ | n
  · simp
  · simp only [Nat.add_sub_cancel]
    field_simp
    push_cast
    ring

theorem log (hF : IsJet F T D) (h : (F T D).h ≠ 0) : IsJet (fun t d => (F t d).log) T D := by
  refine hF.comp (p0 := Real.log) (p1 := fun x => 1 / x) (p2 := fun x => -1 / x ^ 2) (p3 := fun x => 2 / x ^ 3) ?_ ?_ ?_
  · exact (Real.hasDerivAt_log h).congr_deriv (by simp)
  · simpa using hasDerivAt_inv_pow 1 1 _ h
  · exact (hasDerivAt_inv_pow (-1) 2 _ h).congr_deriv (by norm_num)

theorem inv (hF : IsJet F T D) (h : (F T D).h ≠ 0) : IsJet (fun t d => (F t d).inv) T D := by
  refine hF.comp (p0 := fun x => 1 / x) (p1 := fun x => -1 / x ^ 2) (p2 := fun x => 2 / x ^ 3)
    (p3 := fun x => -6 / x ^ 4) ?_ ?_ ?_
  · simpa using hasDerivAt_inv_pow 1 1 _ h
  · exact (hasDerivAt_inv_pow (-1) 2 _ h).congr_deriv (by norm_num)
  · exact (hasDerivAt_inv_pow 2 3 _ h).congr_deriv (by norm_num)

theorem hasDerivAt_div_rpow (c b : ℝ) (n : ℕ) (x : ℝ) (hx : 0 < x) :
    HasDerivAt (fun y => c / y ^ n * y ^ b) (c * (b - n) / x ^ (n + 1) * x ^ b) x := by
  have h := (hasDerivAt_inv_pow c n x hx.ne').fun_mul (Real.hasDerivAt_rpow_const (p := b) (Or.inl hx.ne'))
  refine h.congr_deriv ?_
  rw [Real.rpow_sub_one hx.ne']
  field_simp
  ring

theorem rpow (b : ℝ) (hF : IsJet F T D) (h : 0 < (F T D).h) : IsJet (fun t d => (F t d).rpow b) T D := by
  refine hF.comp (p0 := fun x => x ^ b) (p1 := fun x => b / x * x ^ b) (p2 := fun x => b * (b - 1) / x ^ 2 * x ^ b)
    (p3 := fun x => b * (b - 1) * (b - 2) / x ^ 3 * x ^ b) ?_ ?_ ?_
  · simpa using hasDerivAt_div_rpow 1 b 0 _ h
  · simpa using hasDerivAt_div_rpow b b 1 _ h
  · exact (hasDerivAt_div_rpow (b * (b - 1)) b 2 _ h).congr_deriv (by norm_num)

theorem hasDerivAt_div_zpow (c : ℝ) (b : ℤ) (n : ℕ) (x : ℝ) (hx : x ≠ 0) :
    HasDerivAt (fun y => c / y ^ n * y ^ b) (c * (b - n) / x ^ (n + 1) * x ^ b) x := by
  have h := (hasDerivAt_inv_pow c n x hx).fun_mul (hasDerivAt_zpow b x (Or.inl hx))
  refine h.congr_deriv ?_
  rw [zpow_sub_one₀ hx]
  field_simp
  ring

theorem zpow (b : ℤ) (hF : IsJet F T D) (h : (F T D).h ≠ 0) : IsJet (fun t d => (F t d).zpow b) T D := by
  refine hF.comp (p0 := fun x => x ^ b) (p1 := fun x => b / x * x ^ b) (p2 := fun x => b * (b - 1) / x ^ 2 * x ^ b)
    (p3 := fun x => b * (b - 1) * (b - 2) / x ^ 3 * x ^ b) ?_ ?_ ?_
  · simpa using hasDerivAt_div_zpow 1 b 0 _ h
  · simpa using hasDerivAt_div_zpow b b 1 _ h
  · exact (hasDerivAt_div_zpow (b * (b - 1)) b 2 _ h).congr_deriv (by norm_num)

/-- Change of variables. -/
theorem chain {f f1 f2 f3 : ℝ → ℝ} {k : ℝ} (hF : IsJet F (f T) (k * D)) (h0 : HasDerivAt f (f1 T) T)
    (h1 : HasDerivAt f1 (f2 T) T) (h2 : HasDerivAt f2 (f3 T) T) :
    IsJet (fun t d => (F (f t) (k * d)).chain (f1 t) (f2 t) (f3 t) k) T D := by
  have hk : HasPartials (fun _ d => k * d) 0 k T D := (HasPartials.snd.const_mul k).congr_partials (by ring) (by ring)
  have l0 : HasPartials (fun t _ => f t) (f1 T) 0 T D := (HasPartials.fst.comp h0).congr_partials (by ring) (by ring)
  have l1 : HasPartials (fun t _ => f1 t) (f2 T) 0 T D := (HasPartials.fst.comp h1).congr_partials (by ring) (by ring)
  have l2 : HasPartials (fun t _ => f2 t) (f3 T) 0 T D := (HasPartials.fst.comp h2).congr_partials (by ring) (by ring)
  have c : ∀ {g : ℝ → ℝ → ℝ} {gx gy : ℝ}, HasPartials g gx gy (f T) (k * D) →
      HasPartials (fun t d => g (f t) (k * d)) (gx * f1 T) (gy * k) T D :=
    fun hg => (l0.comp₂ hk hg).congr_partials (by ring) (by ring)
  constructor
  · exact c hF.h
  · exact ((c hF.hT).mul l1).congr_partials (by simp only [HState.chain]; try ring) (by simp only [HState.chain]; ring)
  · exact ((c hF.hD).mul_const k).congr_partials (by simp only [HState.chain]; try ring) (by simp only [HState.chain]; try ring)
  · exact ((((c hF.hTT).mul l1).mul l1).add ((c hF.hT).mul l2)).congr_partials
      (by simp only [HState.chain]; ring) (by simp only [HState.chain]; ring)
  · exact (((c hF.hTD).mul l1).mul_const k).congr_partials
      (by simp only [HState.chain]; ring) (by simp only [HState.chain]; ring)
  · exact (((c hF.hDD).mul_const k).mul_const k).congr_partials
      (by simp only [HState.chain]; try ring) (by simp only [HState.chain]; try ring)

end IsJet
end Verif.Water
