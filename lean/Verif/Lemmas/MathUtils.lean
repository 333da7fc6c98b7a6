import Verif.Model.MathUtils
import Mathlib.LinearAlgebra.LinearIndependent.Defs
import Mathlib.LinearAlgebra.LinearIndependent.Lemmas
import Mathlib.LinearAlgebra.Dimension.Constructions
import Mathlib.LinearAlgebra.FiniteDimensional.Lemmas
import Mathlib.Algebra.Order.BigOperators.Ring.Finset
import Mathlib.LinearAlgebra.Matrix.DotProduct
import Mathlib.Tactic.Linarith
import Mathlib.Tactic.LinearCombination
import Mathlib.Tactic.Positivity
import Mathlib.Tactic.FieldSimp

/-!
# The columns chosen by a pivoted elimination
-/

namespace Verif.MathUtils

variable {K : Type} [Field K] [LinearOrder K] [IsStrictOrderedRing K]

theorem sq_nonneg' {m : Nat} (v : Fin m → K) : 0 ≤ sq v := by
  unfold sq dotProduct
  exact Finset.sum_nonneg fun i _ => mul_self_nonneg (v i)

theorem sq_eq_zero {m : Nat} (v : Fin m → K) (h : sq v = 0) : v = 0 := by
  unfold sq dotProduct at h
  funext i
  have := (Finset.sum_eq_zero_iff_of_nonneg fun i _ => mul_self_nonneg (v i)).1 h i (Finset.mem_univ _)
  exact mul_self_eq_zero.1 this

theorem biggest_spec {m n : Nat} (L : List (Fin n × (Fin m → K))) (hL : L ≠ []) :
    ∃ p, L[biggest L]? = some p ∧ ∀ q ∈ L, sq q.2 ≤ sq p.2 := by
  induction L with
  | nil => exact absurd rfl hL
  | cons q L ih =>
    cases L with
    | nil => exact ⟨q, by simp [biggest], by simp⟩
    | cons r L =>
      obtain ⟨s, h1, h2⟩ := ih (by simp)
      unfold biggest
      simp only [h1]
      split
      · rename_i hlt
        refine ⟨s, by rw [List.getElem?_cons_succ]; exact h1, ?_⟩
        intro p hp
        rcases List.mem_cons.1 hp with rfl | hp
        · exact hlt.le
        · exact h2 p hp
      · rename_i hge
        refine ⟨q, by simp, ?_⟩
        intro p hp
        rcases List.mem_cons.1 hp with rfl | hp
        · exact le_refl _
        · exact (h2 p hp).trans (not_lt.1 hge)

/-- What a turn does: the column chosen is as long as any, and with the remaining columns it makes up all columns. -/
theorem turn_spec {m n : Nat} (L : List (Fin n × (Fin m → K))) (hL : L ≠ []) :
    ∃ p rest, (p :: rest).Perm L ∧ (∀ q ∈ L, sq q.2 ≤ sq p.2) ∧
      turn L = some ((p.1, sq p.2), rest.map fun r => (r.1, r.2 - (r.2 ⬝ᵥ p.2 / sq p.2) • p.2)) := by
  obtain ⟨p, h1, h2⟩ := biggest_spec L hL
  cases L with
  | nil => exact absurd rfl hL
  | cons q L =>
    refine ⟨p, if biggest (q :: L) = 0 then L else L.set (biggest (q :: L) - 1) q, ?_, h2, ?_⟩
    · split
      · rename_i h0
        rw [h0] at h1
        simp only [List.getElem?_cons_zero, Option.some.injEq] at h1
        rw [h1]
      · rename_i h0
        obtain ⟨j, hj⟩ := Nat.exists_eq_succ_of_ne_zero h0
        rw [hj] at h1 ⊢
        rw [Nat.succ_eq_add_one, List.getElem?_cons_succ] at h1
        simp only [Nat.succ_eq_add_one, Nat.add_sub_cancel]
        obtain ⟨hlt, he⟩ := List.getElem?_eq_some_iff.1 h1
        have e1 : L = L.take j ++ p :: L.drop (j + 1) := by
          rw [← he, List.getElem_cons_drop hlt, List.take_append_drop]
        have e2 : L.set j q = L.take j ++ q :: L.drop (j + 1) := by
          rw [List.set_eq_take_append_cons_drop, if_pos hlt]
        rw [e2]
        conv_rhs => rw [e1]
        calc (p :: (L.take j ++ q :: L.drop (j + 1))).Perm (p :: q :: (L.take j ++ L.drop (j + 1))) :=
              List.Perm.cons _ List.perm_middle
          _ |>.Perm (q :: p :: (L.take j ++ L.drop (j + 1))) := List.Perm.swap _ _ _
          _ |>.Perm (q :: (L.take j ++ p :: L.drop (j + 1))) := List.Perm.cons _ List.perm_middle.symm
    · unfold turn
      simp only [h1]

/-- What is known of the remainders: each is its column without a component in `W`, and is orthogonal to `W`. -/
def Inv {m n : Nat} (A : Matrix (Fin m) (Fin n) K) (W : Submodule K (Fin m → K)) (L : List (Fin n × (Fin m → K))) : Prop :=
  ∀ q ∈ L, (fun i => A i q.1) - q.2 ∈ W ∧ ∀ w ∈ W, w ⬝ᵥ q.2 = 0

theorem inv_mem {m n : Nat} (A : Matrix (Fin m) (Fin n) K) (W : Submodule K (Fin m → K)) (L : List (Fin n × (Fin m → K)))
    (h : Inv A W L) (q : Fin n × (Fin m → K)) (hq : q ∈ L) (hW : (fun i => A i q.1) ∈ W) : sq q.2 = 0 := by
  obtain ⟨h1, h2⟩ := h q hq
  have : q.2 ∈ W := by
    have := W.sub_mem hW h1
    simpa using this
  exact h2 _ this

theorem sq_sub {m : Nat} (r p : Fin m → K) : sq (r - (r ⬝ᵥ p / sq p) • p) ≤ sq r := by
  by_cases hp : sq p = 0
  · simp [hp]
  · have h0 : 0 < sq p := lt_of_le_of_ne (sq_nonneg' p) (Ne.symm hp)
    have : sq (r - (r ⬝ᵥ p / sq p) • p) = sq r - (r ⬝ᵥ p) ^ 2 / sq p := by
      unfold sq at *
      simp only [sub_dotProduct, dotProduct_sub, smul_dotProduct, dotProduct_smul, smul_eq_mul]
      rw [dotProduct_comm p r]
      field_simp
      ring
    rw [this]
    have : 0 ≤ (r ⬝ᵥ p) ^ 2 / sq p := by positivity
    linarith

theorem inv_turn {m n : Nat} (A : Matrix (Fin m) (Fin n) K) (W : Submodule K (Fin m → K)) (L rest : List (Fin n × (Fin m → K)))
    (p : Fin n × (Fin m → K)) (hperm : (p :: rest).Perm L) (h : Inv A W L) :
    Inv A (W ⊔ Submodule.span K {fun i => A i p.1}) (rest.map fun r => (r.1, r.2 - (r.2 ⬝ᵥ p.2 / sq p.2) • p.2)) := by
  have hp := h p (hperm.subset List.mem_cons_self)
  have hp2 : p.2 ∈ W ⊔ Submodule.span K {fun i => A i p.1} := by
    have h1 : (fun i => A i p.1) ∈ W ⊔ Submodule.span K {fun i => A i p.1} :=
      Submodule.mem_sup_right (Submodule.subset_span rfl)
    have h2 := Submodule.sub_mem _ h1 (Submodule.mem_sup_left hp.1)
    simpa using h2
  intro q' hq'
  obtain ⟨q, hq, rfl⟩ := List.mem_map.1 hq'
  have hqL := h q (hperm.subset (List.mem_cons_of_mem _ hq))
  have horth : p.2 ⬝ᵥ (q.2 - (q.2 ⬝ᵥ p.2 / sq p.2) • p.2) = 0 := by
    by_cases h0 : sq p.2 = 0
    · rw [sq_eq_zero _ h0]; simp
    · rw [dotProduct_sub, dotProduct_smul, smul_eq_mul, dotProduct_comm p.2 q.2]
      show _ - _ * sq p.2 = 0
      field_simp
      ring
  constructor
  · have : (fun i => A i q.1) - (q.2 - (q.2 ⬝ᵥ p.2 / sq p.2) • p.2) = ((fun i => A i q.1) - q.2) + (q.2 ⬝ᵥ p.2 / sq p.2) • p.2 := by
      abel
    simp only
    rw [this]
    exact Submodule.add_mem _ (Submodule.mem_sup_left hqL.1) (Submodule.smul_mem _ _ hp2)
  · intro w hw
    obtain ⟨u, hu, v, hv, rfl⟩ := Submodule.mem_sup.1 hw
    obtain ⟨c, rfl⟩ := Submodule.mem_span_singleton.1 hv
    have hu1 : ∀ u ∈ W, u ⬝ᵥ (q.2 - (q.2 ⬝ᵥ p.2 / sq p.2) • p.2) = 0 := by
      intro u hu
      rw [dotProduct_sub, dotProduct_smul, hqL.2 u hu, hp.2 u hu]
      simp
    have e : (fun i => A i p.1) = ((fun i => A i p.1) - p.2) + p.2 := by abel
    simp only
    rw [add_dotProduct, hu1 u hu, smul_dotProduct, e, add_dotProduct, hu1 _ hp.1, horth]
    simp

/-- All that is needed of the columns chosen. -/
theorem pivots_spec {m n : Nat} (A : Matrix (Fin m) (Fin n) K) (k : Nat) :
    ∀ (W : Submodule K (Fin m → K)) (L : List (Fin n × (Fin m → K))) (M : K), Inv A W L → (∀ q ∈ L, sq q.2 ≤ M) →
      (L.map Prod.fst).Nodup →
      let ps := pivots k L
      ps.length = min k L.length ∧ (ps.map Prod.fst).Nodup ∧ (∀ p ∈ ps, p.1 ∈ L.map Prod.fst) ∧
      (∀ p ∈ ps, p.2 ≤ M) ∧ ps.Pairwise (fun p q => q.2 ≤ p.2) ∧
      (∀ r, (∀ p ∈ ps.take r, 0 < p.2) → ∀ f : Fin n → K, ((ps.take r).map fun p => f p.1 • fun i => A i p.1).sum ∈ W →
        ∀ p ∈ ps.take r, f p.1 = 0) ∧
      (∀ r, r ≤ ps.length → ∀ q ∈ L.map Prod.fst, ∃ v w : Fin m → K, (fun i => A i q) = w + v ∧
        w ∈ W ⊔ Submodule.span K {u | ∃ p ∈ ps.take r, u = fun i => A i p.1} ∧
        (∀ u ∈ W ⊔ Submodule.span K {u | ∃ p ∈ ps.take r, u = fun i => A i p.1}, u ⬝ᵥ v = 0) ∧
        (∀ p, ps[r]? = some p → sq v ≤ p.2) ∧ (r = L.length → v = 0)) := by
  induction k with
  | zero =>
    intro W L M hinv hM hnd
    refine ⟨by simp [pivots], by simp [pivots], by simp [pivots], by simp [pivots], by simp [pivots], by simp [pivots], ?_⟩
    intro r hr q hq
    obtain ⟨q', hq', rfl⟩ := List.mem_map.1 hq
    have hr0 : r = 0 := by simpa [pivots] using hr
    subst hr0
    have h := hinv q' hq'
    refine ⟨q'.2, (fun i => A i q'.1) - q'.2, by abel, Submodule.mem_sup_left h.1, ?_, by simp [pivots], ?_⟩
    · intro u hu
      have : W ⊔ Submodule.span K {u | ∃ p ∈ (pivots 0 L).take 0, u = fun i => A i p.1} = W := by simp [pivots]
      rw [this] at hu
      exact h.2 u hu
    · intro h0
      have : L = [] := List.length_eq_zero_iff.1 h0.symm
      rw [this] at hq'
      exact absurd hq' (by simp)
  | succ k ih =>
    intro W L M hinv hM hnd
    by_cases hL : L = []
    · subst hL
      simp [pivots, turn]
    · obtain ⟨p, rest, hperm, hmax, ht⟩ := turn_spec L hL
      have hps : pivots (k + 1) L = (p.1, sq p.2) :: pivots k (rest.map fun r => (r.1, r.2 - (r.2 ⬝ᵥ p.2 / sq p.2) • p.2)) := by
        show (match turn L with | none => [] | some (p, L') => p :: pivots k L') = _
        rw [ht]
      set L' := rest.map fun r => (r.1, r.2 - (r.2 ⬝ᵥ p.2 / sq p.2) • p.2) with hL'
      have hfst : L'.map Prod.fst = rest.map Prod.fst := by rw [hL', List.map_map]; rfl
      have hnd' : (p.1 :: rest.map Prod.fst).Nodup := by
        have := (hperm.map Prod.fst).nodup_iff.2 hnd
        simpa using this
      have hM' : ∀ q ∈ L', sq q.2 ≤ sq p.2 := by
        intro q hq
        obtain ⟨q0, hq0, rfl⟩ := List.mem_map.1 hq
        exact (sq_sub _ _).trans (hmax q0 (hperm.subset (List.mem_cons_of_mem _ hq0)))
      obtain ⟨i1, i2, i3, i4, i5, i6, i7⟩ := ih (W ⊔ Submodule.span K {fun i => A i p.1}) L' (sq p.2)
        (inv_turn A W L rest p hperm hinv) hM' (by rw [hfst]; exact (List.nodup_cons.1 hnd').2)
      have hlen : L.length = rest.length + 1 := by rw [← hperm.length_eq]; simp
      have hlen' : L'.length = rest.length := by rw [hL']; simp
      have hspan : ∀ r, (W ⊔ Submodule.span K {fun i => A i p.1}) ⊔
          Submodule.span K {u | ∃ p ∈ (pivots k L').take r, u = fun i => A i p.1} =
          W ⊔ Submodule.span K {u | ∃ q ∈ ((p.1, sq p.2) :: pivots k L').take (r + 1), u = fun i => A i q.1} := by
        intro r
        rw [sup_assoc, ← Submodule.span_union]
        congr 2
        ext u
        simp
      dsimp only
      rw [hps]
      refine ⟨?_, ?_, ?_, ?_, ?_, ?_, ?_⟩
      · rw [List.length_cons, i1, hlen, hlen']
        omega
      · rw [List.map_cons, List.nodup_cons]
        refine ⟨?_, i2⟩
        intro hmem
        obtain ⟨q, hq, he⟩ := List.mem_map.1 hmem
        have h1 := i3 q hq
        rw [hfst, he] at h1
        exact (List.nodup_cons.1 hnd').1 h1
      · intro q hq
        rcases List.mem_cons.1 hq with rfl | hq
        · exact List.mem_map.2 ⟨p, hperm.subset List.mem_cons_self, rfl⟩
        · have h1 := i3 q hq
          rw [hfst] at h1
          have : (p.1 :: rest.map Prod.fst).Perm (L.map Prod.fst) := by simpa using hperm.map Prod.fst
          exact this.subset (List.mem_cons_of_mem _ h1)
      · intro q hq
        have hp := hM p (hperm.subset List.mem_cons_self)
        rcases List.mem_cons.1 hq with rfl | hq
        · exact hp
        · exact (i4 q hq).trans hp
      · exact List.pairwise_cons.2 ⟨fun q hq => i4 q hq, i5⟩
      · intro r hpos f hf
        cases r with
        | zero => simp
        | succ r =>
          rw [List.take_succ_cons] at hpos hf ⊢
          rw [List.map_cons, List.sum_cons] at hf
          have hrest : ∀ q ∈ (pivots k L').take r, f q.1 = 0 := by
            refine i6 r (fun q hq => hpos q (List.mem_cons_of_mem _ hq)) f ?_
            have h1 : f p.1 • (fun i => A i p.1) ∈ W ⊔ Submodule.span K {fun i => A i p.1} :=
              Submodule.mem_sup_right (Submodule.smul_mem _ _ (Submodule.subset_span rfl))
            have h2 := Submodule.sub_mem _ (Submodule.mem_sup_left (T := Submodule.span K {fun i => A i p.1}) hf) h1
            simpa using h2
          have hzero : (((pivots k L').take r).map fun q => f q.1 • fun i => A i q.1).sum = 0 := by
            apply List.sum_eq_zero
            intro u hu
            obtain ⟨q, hq, rfl⟩ := List.mem_map.1 hu
            rw [hrest q hq, zero_smul]
          rw [hzero, add_zero] at hf
          intro q hq
          rcases List.mem_cons.1 hq with rfl | hq
          · by_contra hne
            have hin : (fun i => A i p.1) ∈ W := (Submodule.smul_mem_iff W hne).1 hf
            have h0 := inv_mem A W L hinv p (hperm.subset List.mem_cons_self) hin
            have := hpos _ List.mem_cons_self
            simp only at this
            linarith
          · exact hrest q hq
      · intro r hr q hq
        cases r with
        | zero =>
          obtain ⟨q', hq', rfl⟩ := List.mem_map.1 hq
          have h := hinv q' hq'
          refine ⟨q'.2, (fun i => A i q'.1) - q'.2, by abel, Submodule.mem_sup_left h.1, ?_, ?_, ?_⟩
          · intro u hu
            have : W ⊔ Submodule.span K {u | ∃ q ∈ ((p.1, sq p.2) :: pivots k L').take 0, u = fun i => A i q.1} = W := by simp
            rw [this] at hu
            exact h.2 u hu
          · intro s hs
            simp only [List.getElem?_cons_zero, Option.some.injEq] at hs
            subst hs
            exact hmax q' hq'
          · intro h0
            omega
        | succ r =>
          rw [← hspan r]
          have hq' : q ∈ p.1 :: rest.map Prod.fst := by
            have : (p.1 :: rest.map Prod.fst).Perm (L.map Prod.fst) := by simpa using hperm.map Prod.fst
            exact this.symm.subset hq
          rcases List.mem_cons.1 hq' with rfl | hq'
          · refine ⟨0, fun i => A i p.1, by simp, ?_, by simp, ?_, by simp⟩
            · exact Submodule.mem_sup_left (Submodule.mem_sup_right (Submodule.subset_span rfl))
            · intro s hs
              rw [List.getElem?_cons_succ] at hs
              have hs' := List.mem_of_getElem? hs
              have h00 : sq (0 : Fin m → K) = 0 := by simp [sq]
              rw [h00]
              -- the squares of the pivots are not negative
              have key : ∀ (k : Nat) (L : List (Fin n × (Fin m → K))), ∀ s ∈ pivots k L, 0 ≤ s.2 := by
                intro k
                induction k with
                | zero => intro L s hs; simp [pivots] at hs
                | succ k ihk =>
                  intro L s hs
                  by_cases hLe : L = []
                  · subst hLe; simp [pivots, turn] at hs
                  · obtain ⟨p, rest, -, -, ht⟩ := turn_spec L hLe
                    have : pivots (k + 1) L = (p.1, sq p.2) :: pivots k (rest.map fun r => (r.1, r.2 - (r.2 ⬝ᵥ p.2 / sq p.2) • p.2)) := by
                      show (match turn L with | none => [] | some (p, L') => p :: pivots k L') = _
                      rw [ht]
                    rw [this] at hs
                    rcases List.mem_cons.1 hs with rfl | hs
                    · exact sq_nonneg' _
                    · exact ihk _ s hs
              exact key _ _ s hs'
          · rw [← hfst] at hq'
            obtain ⟨v, w, e, h1, h2, h3, h4⟩ := i7 r (by simpa using hr) q hq'
            refine ⟨v, w, e, h1, h2, ?_, ?_⟩
            · intro s hs
              rw [List.getElem?_cons_succ] at hs
              exact h3 s hs
            · intro hr'
              exact h4 (by omega)

/-- In a list that does not increase the entries above a threshold come first. -/
theorem count_prefix {α : Type} (g : α → K) (t : K) (L : List α) (h : L.Pairwise fun p q => g q ≤ g p) :
    let r := L.countP fun p => decide (t < g p)
    (∀ p ∈ L.take r, t < g p) ∧ ∀ p, L[r]? = some p → g p ≤ t := by
  induction L with
  | nil => simp
  | cons a L ih =>
    obtain ⟨ha, hL⟩ := List.pairwise_cons.1 h
    obtain ⟨i1, i2⟩ := ih hL
    by_cases hta : t < g a
    · dsimp only
      rw [List.countP_cons_of_pos (by simpa using hta)]
      refine ⟨?_, ?_⟩
      · intro p hp
        rw [List.take_succ_cons] at hp
        rcases List.mem_cons.1 hp with rfl | hp
        · exact hta
        · exact i1 p hp
      · intro p hp
        rw [List.getElem?_cons_succ] at hp
        exact i2 p hp
    · dsimp only
      rw [List.countP_cons_of_neg (by simpa using hta)]
      have hz : L.countP (fun p => decide (t < g p)) = 0 := by
        rw [List.countP_eq_zero]
        intro p hp
        have := ha p hp
        simp only [decide_eq_true_eq, not_lt]
        exact this.trans (not_lt.1 hta)
      rw [hz]
      refine ⟨by simp, ?_⟩
      intro p hp
      simp only [List.getElem?_cons_zero, Option.some.injEq] at hp
      subst hp
      exact not_lt.1 hta

theorem foldl_max {n : Nat} (L : List (Fin n × K)) (a M : K) (ha : a ≤ M) (h : ∀ p ∈ L, p.2 ≤ M) :
    a ≤ L.foldl (fun a p => max a p.2) a ∧ (∀ p ∈ L, p.2 ≤ L.foldl (fun a p => max a p.2) a) ∧
      L.foldl (fun a p => max a p.2) a ≤ M := by
  induction L generalizing a with
  | nil => exact ⟨le_refl _, by simp, ha⟩
  | cons q L ih =>
    obtain ⟨h1, h2, h3⟩ := ih (max a q.2) (max_le ha (h q List.mem_cons_self)) fun p hp => h p (List.mem_cons_of_mem _ hp)
    rw [List.foldl_cons]
    refine ⟨(le_max_left _ _).trans h1, ?_, h3⟩
    intro p hp
    rcases List.mem_cons.1 hp with rfl | hp
    · exact (le_max_right _ _).trans h1
    · exact h2 p hp

end Verif.MathUtils
