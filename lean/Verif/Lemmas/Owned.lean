import Verif.Model.Owned
import Mathlib.Tactic.SplitIfs
import Mathlib.Tactic.ByContra

/-!
# Objects that own their data are values
-/

namespace Verif.Owned

variable {α : Type}

/-- The heap represents the values: each object has its own cell. -/
structure Rep (w : World α) (objects : List α) : Prop where
  len : w.ptr.length = objects.length
  val : ∀ i : Nat, w.get? i = objects[i]?
  lt : ∀ i a : Nat, w.ptr[i]? = some a → a < w.cells.length
  inj : ∀ i j a : Nat, w.ptr[i]? = some a → w.ptr[j]? = some a → i = j

theorem Rep.append {w : World α} {o : List α} (h : Rep w o) (d : α) :
    Rep { cells := w.cells ++ [d], ptr := w.ptr ++ [w.cells.length] } (o ++ [d]) := by
  have hlen := h.len
  constructor
  · simp [hlen]
  · intro i
    rw [World.get?]
    by_cases hi : i < w.ptr.length
    · simp only
      rw [List.getElem?_append_left hi, List.getElem?_append_left (hlen ▸ hi), ← h.val i, World.get?]
      have hp : w.ptr[i]? = some w.ptr[i] := List.getElem?_eq_getElem hi
      rw [hp]
      simp only
      rw [List.getElem?_append_left (h.lt i _ hp)]
    · simp only
      rw [List.getElem?_append_right (by omega), List.getElem?_append_right (by omega), hlen]
      by_cases h0 : i - o.length = 0
      · simp [h0]
      · have : 0 < i - o.length := by omega
        rw [List.getElem?_eq_none (by simp; omega), List.getElem?_eq_none (by simp; omega)]
  · intro i a ha
    simp only [List.length_append, List.length_singleton]
    by_cases hi : i < w.ptr.length
    · simp only at ha
      rw [List.getElem?_append_left hi] at ha
      have := h.lt i a ha
      omega
    · simp only at ha
      rw [List.getElem?_append_right (by omega)] at ha
      by_cases h0 : i - w.ptr.length = 0
      · simp [h0] at ha; omega
      · rw [List.getElem?_eq_none (by simp; omega)] at ha; cases ha
  · intro i j a hi hj
    simp only [List.getElem?_append] at hi hj
    split_ifs at hi hj with h1 h2 h2
    · exact h.inj i j a hi hj
    · have := h.lt i a hi
      rcases Nat.lt_or_ge (j - w.ptr.length) 1 with h3 | h3
      · have h3' : j - w.ptr.length = 0 := by omega
        simp [h3'] at hj; omega
      · rw [List.getElem?_eq_none (by simp; omega)] at hj; cases hj
    · have := h.lt j a hj
      rcases Nat.lt_or_ge (i - w.ptr.length) 1 with h3 | h3
      · have h3' : i - w.ptr.length = 0 := by omega
        simp [h3'] at hi; omega
      · rw [List.getElem?_eq_none (by simp; omega)] at hi; cases hi
    · have a1 : i - w.ptr.length < 1 := by
        rcases Nat.lt_or_ge (i - w.ptr.length) 1 with h3 | h3
        · exact h3
        · rw [List.getElem?_eq_none (by simp; omega)] at hi; cases hi
      have a2 : j - w.ptr.length < 1 := by
        rcases Nat.lt_or_ge (j - w.ptr.length) 1 with h3 | h3
        · exact h3
        · rw [List.getElem?_eq_none (by simp; omega)] at hj; cases hj
      omega

theorem Rep.assign {w : World α} {o : List α} (h : Rep w o) (i : Nat) (d : α) :
    Rep { cells := w.cells ++ [d], ptr := w.ptr.set i w.cells.length } (o.set i d) := by
  have hlen := h.len
  constructor
  · simp [hlen]
  · intro k
    rw [World.get?]
    simp only [List.getElem?_set]
    split_ifs with h1 h2 h3 h3
    · simp
    · omega
    · omega
    · rfl
    · rw [← h.val k, World.get?]
      cases hp : w.ptr[k]? with
      | none => rfl
      | some a =>
        simp only
        rw [List.getElem?_append_left (h.lt k a hp)]
  · intro k a ha
    simp only [List.length_append, List.length_singleton]
    simp only [List.getElem?_set] at ha
    split_ifs at ha with h1 h2
    · injection ha with ha; omega
    · have := h.lt k a ha; omega
  · intro k l a hk hl
    simp only [List.getElem?_set] at hk hl
    split_ifs at hk hl with h1 h2 h3 h3 h4
    · omega
    · have := h.lt l a hl; injection hk with hk; omega
    · have := h.lt k a hk; injection hl with hl; omega
    · exact h.inj k l a hk hl

theorem Rep.update {w : World α} {o : List α} (h : Rep w o) (i a : Nat) (d : α) (hi : w.ptr[i]? = some a) :
    Rep { w with cells := w.cells.set a d } (o.set i d) := by
  have hlen := h.len
  have hib : i < w.ptr.length := by
    by_contra hc
    rw [List.getElem?_eq_none (by omega)] at hi
    cases hi
  constructor
  · simp [hlen]
  · intro k
    rw [World.get?]
    simp only
    cases hp : w.ptr[k]? with
    | none =>
      have hk : ¬ k < w.ptr.length := by
        intro hc
        rw [List.getElem?_eq_getElem hc] at hp
        cases hp
      simp only
      rw [List.getElem?_eq_none (by simp; omega)]
    | some c =>
      simp only [List.getElem?_set]
      by_cases hik : i = k
      · subst hik
        rw [hi] at hp
        injection hp with hp
        subst hp
        rw [if_pos rfl, if_pos (h.lt i a hi), if_pos rfl, if_pos (by omega)]
      · have hne : a ≠ c := by
          rintro rfl
          exact hik (h.inj i k a hi hp)
        rw [if_neg hne, if_neg hik, ← h.val k, World.get?, hp]
  · intro k c hk
    simp only [List.length_set]
    exact h.lt k c hk
  · exact h.inj


/-- The empty heap represents no objects. -/
theorem Rep.empty : Rep (⟨[], []⟩ : World α) [] :=
  ⟨rfl, by intro i; simp [World.get?], by intro i a h; simp at h, by intro i j a h; simp at h⟩

end Verif.Owned
