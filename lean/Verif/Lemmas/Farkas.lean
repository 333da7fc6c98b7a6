import Mathlib.Algebra.Order.Field.Basic
import Mathlib.Algebra.BigOperators.Fin
import Mathlib.Algebra.BigOperators.Field
import Mathlib.Data.Real.Basic
import Mathlib.Algebra.Order.BigOperators.Ring.Finset
import Mathlib.Tactic.Ring
import Mathlib.Tactic.Linarith

/-!
# Farkas' lemma

For vectors given by their entries. The proof is by induction on the number of inequalities (D. Bartl).
-/

namespace Verif.Farkas

open Finset

/-- `Σ aⱼ xⱼ`. -/
def dotN {N : Nat} (a x : Fin N → ℝ) : ℝ := ∑ j, a j * x j

theorem dotN_sub_smul {N : Nat} (a b x : Fin N → ℝ) (t : ℝ) : dotN (fun j => a j - t * b j) x = dotN a x - t * dotN b x := by
  unfold dotN
  rw [mul_sum, ← sum_sub_distrib]
  exact sum_congr rfl fun j _ => by ring

theorem dotN_add_smul {N : Nat} (a x y : Fin N → ℝ) (t : ℝ) : dotN a (fun j => x j - t * y j) = dotN a x - t * dotN a y := by
  unfold dotN
  rw [mul_sum, ← sum_sub_distrib]
  exact sum_congr rfl fun j _ => by ring

theorem dotN_smul {N : Nat} (a y : Fin N → ℝ) (t : ℝ) : dotN a (fun j => t * y j) = t * dotN a y := by
  unfold dotN
  rw [mul_sum]
  exact sum_congr rfl fun j _ => by ring

/-- If every `x` with `aᵢ·x ≤ 0` for all `i` has `c·x ≤ 0`, then `c` is a combination of the `aᵢ` with coefficients that are not negative. -/
theorem farkas {N : Nat} : ∀ (m : Nat) (a : Fin m → Fin N → ℝ) (c : Fin N → ℝ),
    (∀ x, (∀ i, dotN (a i) x ≤ 0) → dotN c x ≤ 0) → ∃ l : Fin m → ℝ, (∀ i, 0 ≤ l i) ∧ ∀ j, c j = ∑ i, l i * a i j := by
  intro m
  induction m with
  | zero =>
    intro a c h
    refine ⟨fun i => 0, fun i => i.elim0, fun j => ?_⟩
    have h1 := h c (fun i => i.elim0)
    have h2 : ∀ k, 0 ≤ c k * c k := fun k => mul_self_nonneg _
    have h3 : c j * c j ≤ dotN c c := single_le_sum (fun k _ => h2 k) (mem_univ j)
    have : c j * c j = 0 := le_antisymm (h3.trans h1) (h2 j)
    simpa using mul_self_eq_zero.1 this
  | succ m ih =>
    intro a c h
    by_cases hc : ∀ x, (∀ i : Fin m, dotN (a i.castSucc) x ≤ 0) → dotN c x ≤ 0
    · obtain ⟨l, h1, h2⟩ := ih (fun i => a i.castSucc) c hc
      refine ⟨Fin.snoc l 0, ?_, ?_⟩
      · intro i
        refine Fin.lastCases ?_ (fun i => ?_) i
        · simp
        · simpa using h1 i
      · intro j
        rw [Fin.sum_univ_castSucc]
        simpa using h2 j
    · push Not at hc
      obtain ⟨z, hz, hcz⟩ := hc
      have hlast : 0 < dotN (a (Fin.last m)) z := by
        by_contra hn
        push Not at hn
        have := h z fun i => by
          refine Fin.lastCases hn (fun i => hz i) i
        linarith
      set s := dotN (a (Fin.last m)) z with hs
      obtain ⟨l, h1, h2⟩ := ih (fun i j => a i.castSucc j - dotN (a i.castSucc) z / s * a (Fin.last m) j) (fun j => c j - dotN c z / s * a (Fin.last m) j) (by
        intro x hx
        have key := h (fun j => x j - dotN (a (Fin.last m)) x / s * z j) (fun i => by
          refine Fin.lastCases ?_ (fun i => ?_) i
          · rw [dotN_add_smul, ← hs, div_mul_cancel₀ _ hlast.ne', sub_self]
          · have := hx i
            rw [dotN_sub_smul] at this
            rw [dotN_add_smul]
            calc _ = dotN (a i.castSucc) x - dotN (a i.castSucc) z / s * dotN (a (Fin.last m)) x := by ring
              _ ≤ 0 := this)
        rw [dotN_add_smul] at key
        rw [dotN_sub_smul]
        calc _ = dotN c x - dotN (a (Fin.last m)) x / s * dotN c z := by ring
          _ ≤ 0 := key)
      refine ⟨Fin.snoc l (dotN c z / s - ∑ i : Fin m, l i * (dotN (a i.castSucc) z / s)), ?_, ?_⟩
      · intro i
        refine Fin.lastCases ?_ (fun i => ?_) i
        · simp only [Fin.snoc_last]
          have : ∑ i : Fin m, l i * (dotN (a i.castSucc) z / s) ≤ 0 := sum_nonpos fun i _ =>
            mul_nonpos_of_nonneg_of_nonpos (h1 i) (div_nonpos_of_nonpos_of_nonneg (hz i) hlast.le)
          have := div_pos hcz hlast
          linarith
        · simpa using h1 i
      · intro j
        rw [Fin.sum_univ_castSucc]
        simp only [Fin.snoc_castSucc, Fin.snoc_last]
        have := h2 j
        have e : ∑ i : Fin m, l i * (a i.castSucc j - dotN (a i.castSucc) z / s * a (Fin.last m) j) =
            ∑ i : Fin m, l i * a i.castSucc j - (∑ i : Fin m, l i * (dotN (a i.castSucc) z / s)) * a (Fin.last m) j := by
          rw [sum_mul, ← sum_sub_distrib]
          exact sum_congr rfl fun i _ => by ring
        rw [e] at this
        linarith

/-- The same for inequalities with any finite set of indices. -/
theorem farkas_fintype {N : Nat} {ι : Type} [Fintype ι] (a : ι → Fin N → ℝ) (c : Fin N → ℝ) (h : ∀ x, (∀ i, dotN (a i) x ≤ 0) → dotN c x ≤ 0) :
    ∃ l : ι → ℝ, (∀ i, 0 ≤ l i) ∧ ∀ j, c j = ∑ i, l i * a i j := by
  obtain ⟨l, h1, h2⟩ := farkas (Fintype.card ι) (fun i => a ((Fintype.equivFin ι).symm i)) c (fun x hx => h x fun i => by
    have := hx (Fintype.equivFin ι i)
    rwa [Equiv.symm_apply_apply] at this)
  refine ⟨fun i => l (Fintype.equivFin ι i), fun i => h1 _, fun j => ?_⟩
  rw [h2 j, ← Equiv.sum_comp (Fintype.equivFin ι)]
  exact sum_congr rfl fun i _ => by rw [Equiv.symm_apply_apply]

/-- Multipliers: if `c·d ≥ 0` for each direction that keeps the sums `aᵢ·x` and stays within the bounds that are reached, then `c` is a combination of the `aᵢ` except at the
bounds that are reached. -/
theorem multipliers {N m : Nat} (a : Fin m → Fin N → ℝ) (L U : Fin N → Prop) (c : Fin N → ℝ)
    (h : ∀ d : Fin N → ℝ, (∀ i, dotN (a i) d = 0) → (∀ j, L j → 0 ≤ d j) → (∀ j, U j → d j ≤ 0) → 0 ≤ dotN c d) :
    ∃ y : Fin m → ℝ, ∀ j, (0 < c j - ∑ i, y i * a i j → L j) ∧ (c j - ∑ i, y i * a i j < 0 → U j) := by
  classical
  have unit : ∀ (s : ℝ) (k : Fin N) (d : Fin N → ℝ), dotN (fun j => if j = k then s else 0) d = s * d k := by
    intro s k d
    unfold dotN
    rw [sum_eq_single k]
    · simp
    · intro j _ hj; simp [hj]
    · simp
  obtain ⟨l, h1, h2⟩ := farkas_fintype (ι := (Fin m ⊕ Fin m) ⊕ (Fin N ⊕ Fin N))
    (Sum.elim (Sum.elim a fun i j => -a i j) (Sum.elim (fun k j => if j = k then (if L k then -1 else 0) else 0) fun k j => if j = k then (if U k then 1 else 0) else 0))
    (fun j => -c j) (by
      intro x hx
      have hx1 : ∀ i, dotN (a i) x ≤ 0 := fun i => hx (Sum.inl (Sum.inl i))
      have hx2 : ∀ i, dotN (fun j => -a i j) x ≤ 0 := fun i => hx (Sum.inl (Sum.inr i))
      have hx3 : ∀ k, dotN (fun j => if j = k then (if L k then (-1 : ℝ) else 0) else 0) x ≤ 0 := fun i => hx (Sum.inr (Sum.inl i))
      have hx4 : ∀ k, dotN (fun j => if j = k then (if U k then (1 : ℝ) else 0) else 0) x ≤ 0 := fun i => hx (Sum.inr (Sum.inr i))
      have neg : ∀ b : Fin N → ℝ, dotN (fun j => -b j) x = -dotN b x := fun b => by unfold dotN; rw [← sum_neg_distrib]; exact sum_congr rfl fun j _ => by ring
      have := h x (fun i => le_antisymm (hx1 i) (by have := hx2 i; rw [neg] at this; linarith))
        (fun k hk => by have := hx3 k; rw [unit, if_pos hk] at this; linarith)
        (fun k hk => by have := hx4 k; rw [unit, if_pos hk] at this; linarith)
      rw [neg]
      linarith)
  refine ⟨fun i => l (Sum.inl (Sum.inr i)) - l (Sum.inl (Sum.inl i)), fun j => ?_⟩
  have key : c j - ∑ i, (l (Sum.inl (Sum.inr i)) - l (Sum.inl (Sum.inl i))) * a i j =
      l (Sum.inr (Sum.inl j)) * (if L j then 1 else 0) - l (Sum.inr (Sum.inr j)) * (if U j then 1 else 0) := by
    have := h2 j
    simp only [Fintype.sum_sum_type, Sum.elim_inl, Sum.elim_inr] at this
    have e1 : ∑ k, l (Sum.inr (Sum.inl k)) * (if j = k then (if L k then (-1 : ℝ) else 0) else 0) = -(l (Sum.inr (Sum.inl j)) * (if L j then 1 else 0)) := by
      rw [sum_eq_single j]
      · rw [if_pos rfl]; split_ifs <;> simp
      · intro k _ hk; simp [hk.symm]
      · simp
    have e2 : ∑ k, l (Sum.inr (Sum.inr k)) * (if j = k then (if U k then (1 : ℝ) else 0) else 0) = l (Sum.inr (Sum.inr j)) * (if U j then 1 else 0) := by
      rw [sum_eq_single j]
      · rw [if_pos rfl]
      · intro k _ hk; simp [hk.symm]
      · simp
    rw [e1, e2] at this
    have e3 : ∑ i, (l (Sum.inl (Sum.inr i)) - l (Sum.inl (Sum.inl i))) * a i j = ∑ i, l (Sum.inl (Sum.inr i)) * a i j - ∑ i, l (Sum.inl (Sum.inl i)) * a i j := by
      rw [← sum_sub_distrib]
      exact sum_congr rfl fun i _ => by ring
    have e4 : ∑ i, l (Sum.inl (Sum.inr i)) * -a i j = -∑ i, l (Sum.inl (Sum.inr i)) * a i j := by
      rw [← sum_neg_distrib]
      exact sum_congr rfl fun i _ => by ring
    rw [e4] at this
    rw [e3]
    linarith
  rw [key]
  have p1 := h1 (Sum.inr (Sum.inl j))
  have p2 := h1 (Sum.inr (Sum.inr j))
  constructor
  · intro hp
    by_contra hL
    rw [if_neg hL] at hp
    split_ifs at hp <;> linarith
  · intro hp
    by_contra hU
    rw [if_neg hU] at hp
    split_ifs at hp <;> linarith

end Verif.Farkas
