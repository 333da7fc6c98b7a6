import Verif.Spec.SpeciesOrder
import Verif.Lemmas.Activity

/-!
# Lemmas on lists read in another order
-/

namespace Verif.SpeciesOrder

open Activity Aqueous ChemicalProps

/-- The place in the given list of what stands at place `k` of the other. -/
def place (order : List Nat) (k : Nat) : Nat := order.getD k 0

section Reorder

variable {α β γ : Type} {order : List Nat} {N : Nat}

theorem IsOrder.length (h : IsOrder order N) : order.length = N := by simpa using h.length_eq

theorem IsOrder.nodup (h : IsOrder order N) : order.Nodup := h.nodup_iff.mpr List.nodup_range

theorem IsOrder.mem (h : IsOrder order N) (i : Nat) : i ∈ order ↔ i < N := by rw [List.Perm.mem_iff h]; simp

theorem place_eq (h : IsOrder order N) {k : Nat} (hk : k < N) : ∃ hk' : k < order.length, place order k = order[k] := by
  have : k < order.length := by rw [h.length]; exact hk
  exact ⟨this, by simp [place, this]⟩

theorem place_lt (h : IsOrder order N) {k : Nat} (hk : k < N) : place order k < N := by
  obtain ⟨h1, h2⟩ := place_eq h hk
  rw [h2]
  exact (h.mem _).mp (List.getElem_mem _)

theorem place_inj (h : IsOrder order N) {j k : Nat} (hj : j < N) (hk : k < N) (e : place order j = place order k) : j = k := by
  obtain ⟨h1, h2⟩ := place_eq h hj
  obtain ⟨h3, h4⟩ := place_eq h hk
  rw [h2, h4] at e
  exact (List.Nodup.getElem_inj_iff h.nodup).mp e

theorem place_surj (h : IsOrder order N) {i : Nat} (hi : i < N) : ∃ k, k < N ∧ place order k = i := by
  obtain ⟨k, hk, e⟩ := List.mem_iff_getElem.mp ((h.mem i).mpr hi)
  have hk' : k < N := by rw [← h.length]; exact hk
  obtain ⟨h1, h2⟩ := place_eq h hk'
  exact ⟨k, hk', by rw [h2, e]⟩

theorem filterMap_all (g : Nat → Option α) (d : Nat → α) (l : List Nat) (h : ∀ i ∈ l, g i = some (d i)) : l.filterMap g = l.map d := by
  induction l with
  | nil => rfl
  | cons a l ih => rw [List.filterMap_cons, h a List.mem_cons_self, List.map_cons, ih fun i hi => h i (List.mem_cons_of_mem _ hi)]

theorem reorder_eq (l : List α) (h : IsOrder order l.length) (d : α) : reorder order l = order.map (l.getD · d) := by
  unfold reorder
  apply filterMap_all
  intro i hi
  have : i < l.length := (h.mem i).mp hi
  simp [this]

theorem reorder_length (l : List α) (h : IsOrder order l.length) : (reorder order l).length = l.length := by
  cases l with
  | nil => unfold reorder; simp
  | cons a l => rw [reorder_eq _ h a, List.length_map, h.length]

theorem reorder_get? (l : List α) (h : IsOrder order l.length) (k : Nat) (hk : k < l.length) : (reorder order l)[k]? = l[place order k]? := by
  obtain ⟨a, l, rfl⟩ : ∃ a l', l = a :: l' := by
    cases l with
    | nil => simp at hk
    | cons a l => exact ⟨a, l, rfl⟩
  obtain ⟨h1, h2⟩ := place_eq h hk
  have h3 := place_lt h hk
  rw [reorder_eq _ h a, List.getElem?_map, List.getElem?_eq_getElem h1, Option.map_some, ← h2, List.getElem?_eq_getElem h3,
    List.getD_eq_getElem?_getD, List.getElem?_eq_getElem h3, Option.getD_some]

theorem reorder_getD (l : List α) (h : IsOrder order l.length) (k : Nat) (hk : k < l.length) (d : α) :
    (reorder order l).getD k d = l.getD (place order k) d := by
  rw [List.getD_eq_getElem?_getD, List.getD_eq_getElem?_getD, reorder_get? l h k hk]

theorem reorder_map (f : α → β) (l : List α) : reorder order (l.map f) = (reorder order l).map f := by
  unfold reorder
  rw [List.map_filterMap]
  congr 1
  funext i
  simp

theorem reorder_perm (l : List α) (h : IsOrder order l.length) : (reorder order l).Perm l := by
  cases l with
  | nil => unfold reorder; simp
  | cons a l =>
    rw [reorder_eq _ h a]
    refine (h.map _).trans ?_
    apply List.Perm.of_eq
    apply List.ext_getElem
    · simp
    · intro i h1 h2
      simp at h1
      simp [List.getElem?_eq_getElem h2]

/-- A list is the other one read in the order, if its entries are. -/
theorem eq_reorder (l l' : List α) (h : IsOrder order l.length) (hl : l'.length = l.length) (he : ∀ k, k < l.length → l'[k]? = l[place order k]?) :
    l' = reorder order l := by
  apply List.ext_getElem?
  intro k
  by_cases hk : k < l.length
  · rw [he k hk, reorder_get? l h k hk]
  · rw [List.getElem?_eq_none (by omega), List.getElem?_eq_none (by rw [reorder_length l h]; omega)]

theorem reorder_zipWith (f : α → β → γ) (l : List α) (r : List β) (h : IsOrder order l.length) (hr : r.length = l.length) :
    reorder order (List.zipWith f l r) = List.zipWith f (reorder order l) (reorder order r) := by
  have h' : IsOrder order r.length := by rw [hr]; exact h
  have h'' : IsOrder order (List.zipWith f l r).length := by simpa [hr] using h
  symm
  apply eq_reorder _ _ h''
  · simp [reorder_length l h, reorder_length r h']
  · intro k hk
    have hk : k < l.length := by simpa [hr] using hk
    rw [List.getElem?_zipWith, List.getElem?_zipWith, reorder_get? l h k hk, reorder_get? r h' k (by omega)]

theorem reorder_set (l : List α) (h : IsOrder order l.length) (k : Nat) (hk : k < l.length) (v : α) :
    (reorder order l).set k v = reorder order (l.set (place order k) v) := by
  apply eq_reorder _ _ (by simpa using h)
  · simp [reorder_length l h]
  · intro j hj
    rw [List.length_set] at hj
    have hp := place_lt h hk
    rw [List.getElem?_set, List.getElem?_set, reorder_length l h]
    by_cases e : k = j
    · subst e
      simp [hk, hp]
    · rw [if_neg e, if_neg (fun e' => e (place_inj h hk hj e')), reorder_get? l h j hj]

/-- Selected places. -/
theorem places_perm (h : IsOrder order N) (idx idx' : List Nat) (hn : idx.Nodup) (hn' : idx'.Nodup) (hlt : ∀ i ∈ idx, i < N) (hlt' : ∀ k ∈ idx', k < N)
    (hm : ∀ k, k < N → (k ∈ idx' ↔ place order k ∈ idx)) : (idx'.map (place order)).Perm idx := by
  apply (List.perm_ext_iff_of_nodup ?_ hn).mpr
  · intro i
    rw [List.mem_map]
    constructor
    · rintro ⟨k, hk, rfl⟩
      exact (hm k (hlt' k hk)).mp hk
    · intro hi
      obtain ⟨k, hk, rfl⟩ := place_surj h (hlt i hi)
      exact ⟨k, (hm k hk).mpr hi, rfl⟩
  · exact List.Nodup.map_on (fun j hj k hk e => place_inj h (hlt' j hj) (hlt' k hk) e) hn'

end Reorder

/-! ## The species with a formula -/

section Formula

variable {order : List Nat}

theorem atMostOne_index (species : List (Species ℝ)) (f : Formula) (h : AtMostOne species f) {i j : Nat} {s t : Species ℝ} (hi : species[i]? = some s)
    (hj : species[j]? = some t) (hs : f.equivalent s.formula = true) (ht : f.equivalent t.formula = true) : i = j := by
  induction species generalizing i j with
  | nil => simp at hi
  | cons a l ih =>
    unfold AtMostOne at h
    rw [List.countP_cons] at h
    have none_later : f.equivalent a.formula = true → ∀ t ∈ l, ¬ f.equivalent t.formula = true := by
      intro ha t ht hft
      have : 0 < l.countP (fun s => f.equivalent s.formula) := List.countP_pos_iff.mpr ⟨t, ht, hft⟩
      rw [if_pos ha] at h
      omega
    match i, j with
    | 0, 0 => rfl
    | 0, j + 1 =>
      simp only [List.getElem?_cons_zero, Option.some.injEq] at hi
      subst hi
      rw [List.getElem?_cons_succ] at hj
      exact absurd ht (none_later hs t (List.mem_of_getElem? hj))
    | i + 1, 0 =>
      simp only [List.getElem?_cons_zero, Option.some.injEq] at hj
      subst hj
      rw [List.getElem?_cons_succ] at hi
      exact absurd hs (none_later ht s (List.mem_of_getElem? hi))
    | i + 1, j + 1 =>
      rw [List.getElem?_cons_succ] at hi hj
      have : AtMostOne l f := by unfold AtMostOne; omega
      exact congrArg (· + 1) (ih this hi hj)

theorem find_lt (species : List (Species ℝ)) (f : Formula) : findWithFormula species f < species.length ↔ ∃ s ∈ species, f.equivalent s.formula = true :=
  findIdx_lt species _

theorem find_spec (species : List (Species ℝ)) (f : Formula) (h : findWithFormula species f < species.length) :
    ∃ s, species[findWithFormula species f]? = some s ∧ f.equivalent s.formula = true :=
  ⟨_, List.getElem?_eq_getElem h, List.findIdx_getElem (p := fun s : Species ℝ => f.equivalent s.formula) (w := h)⟩

/-- The index of the only species with a formula. -/
theorem find_reorder (species : List (Species ℝ)) (f : Formula) (ho : IsOrder order species.length) (h : AtMostOne species f)
    (hl : findWithFormula species f < species.length) :
    findWithFormula (reorder order species) f < species.length ∧
      place order (findWithFormula (reorder order species) f) = findWithFormula species f := by
  obtain ⟨s, hs, hfs⟩ := find_spec species f hl
  have h1 : findWithFormula (reorder order species) f < (reorder order species).length :=
    (find_lt _ _).mpr ⟨s, (reorder_perm species ho).mem_iff.mpr (List.mem_of_getElem? hs), hfs⟩
  obtain ⟨t, ht, hft⟩ := find_spec _ f h1
  rw [reorder_length species ho] at h1
  rw [reorder_get? species ho _ h1] at ht
  exact ⟨h1, atMostOne_index species f h ht hs hft hfs⟩

theorem index_reorder (species : List (Species ℝ)) (f : Formula) (ho : IsOrder order species.length) (h : AtMostOne species f) (i : Nat)
    (hi : indexWithFormula species f = .ok i) : i < species.length ∧ ∃ k, k < species.length ∧ place order k = i ∧
      indexWithFormula (reorder order species) f = .ok k := by
  unfold indexWithFormula at hi ⊢
  simp only at hi ⊢
  split at hi
  · cases hi
  rename_i hl
  rw [ge_iff_le, not_le] at hl
  cases hi
  obtain ⟨h1, h2⟩ := find_reorder species f ho h hl
  refine ⟨hl, _, h1, h2, ?_⟩
  rw [if_neg (by rw [reorder_length species ho]; omega)]

end Formula

end Verif.SpeciesOrder
