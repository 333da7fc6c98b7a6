import Verif.Spec.Params
import Mathlib.Tactic.SplitIfs
import Mathlib.Tactic.ByContra
import Mathlib.Tactic.Set

/-!
# C91: lists of parameters
-/

namespace Verif.Params

open Param

variable {V : Type}

/-! ## Search -/

theorem find_le (cells : List (Impl V)) (id : String) (l : List Nat) : find cells id l ≤ l.length := by
  induction l with
  | nil => simp [find]
  | cons a l ih => simp only [find, List.length_cons]; split_ifs <;> omega

theorem find_spec (cells : List (Impl V)) (id : String) (l : List Nat) (i : Nat) :
    (∃ a, l[i]? = some a ∧ (cells[a]?).map (·.id) = some id ∧
      ∀ j b, j < i → l[j]? = some b → (cells[b]?).map (·.id) ≠ some id) ↔ find cells id l = i ∧ i < l.length := by
  induction l generalizing i with
  | nil => simp
  | cons c l ih =>
    rw [find]
    cases i with
    | zero =>
      simp only [List.getElem?_cons_zero, Option.some.injEq]
      constructor
      · rintro ⟨a, rfl, h, _⟩
        rw [if_pos h]; simp
      · rintro ⟨h, _⟩
        split_ifs at h with hc
        exact ⟨c, rfl, hc, fun j b hj => by omega⟩
    | succ i =>
      simp only [List.getElem?_cons_succ, List.length_cons, Nat.add_lt_add_iff_right]
      constructor
      · rintro ⟨a, h1, h2, h3⟩
        have hc : ¬ (cells[c]?).map (·.id) = some id := h3 0 c (by omega) (by simp)
        rw [if_neg hc]
        have := (ih i).1 ⟨a, h1, h2, fun j b hj hb => h3 (j + 1) b (by omega) (by simpa using hb)⟩
        omega
      · rintro ⟨h, hl⟩
        split_ifs at h with hc
        obtain ⟨a, h1, h2, h3⟩ := (ih i).2 ⟨by omega, hl⟩
        refine ⟨a, h1, h2, fun j b hj hb => ?_⟩
        cases j with
        | zero => simp at hb; subst hb; exact hc
        | succ j => exact h3 j b (by omega) (by simpa using hb)

/-- **C91.** A parameter is found by its current id: the first position that has it; an exception tells
that there is none; `exists` tells which of the two. -/
theorem C91_lookup (cells : List (Impl V)) (id : String) (l : List Nat) :
    (∀ i, index cells id l = .ok i ↔ ∃ a, l[i]? = some a ∧ (cells[a]?).map (·.id) = some id ∧
      ∀ j b, j < i → l[j]? = some b → (cells[b]?).map (·.id) ≠ some id) ∧
    (index cells id l = .throw ↔ ∀ a ∈ l, (cells[a]?).map (·.id) ≠ some id) ∧
    (hasId cells id l = true ↔ ∃ i, index cells id l = .ok i) := by
  have h1 : ∀ i, index cells id l = .ok i ↔ ∃ a, l[i]? = some a ∧ (cells[a]?).map (·.id) = some id ∧
      ∀ j b, j < i → l[j]? = some b → (cells[b]?).map (·.id) ≠ some id := by
    intro i
    rw [find_spec, index]
    constructor
    · intro h
      split_ifs at h with hl
      injection h with h
      exact ⟨h, h ▸ hl⟩
    · rintro ⟨rfl, hl⟩
      rw [if_pos hl]
  have hmem : (∃ i, index cells id l = .ok i) ↔ ∃ a ∈ l, (cells[a]?).map (·.id) = some id := by
    constructor
    · rintro ⟨i, hi⟩
      obtain ⟨a, h2, h3, _⟩ := (h1 i).1 hi
      exact ⟨a, List.mem_of_getElem? h2, h3⟩
    · intro h
      by_contra hc
      have hf : ¬ find cells id l < l.length := by
        intro hlt
        exact hc ⟨_, by rw [index, if_pos hlt]⟩
      clear hc h1
      obtain ⟨a, ha, hid⟩ := h
      apply hf
      clear hf
      induction l with
      | nil => cases ha
      | cons c l ih =>
        rw [find, List.length_cons]
        split_ifs with hcid
        · omega
        · have ha' : a ∈ l := by
            rcases List.mem_cons.1 ha with rfl | h
            · exact absurd hid hcid
            · exact h
          have := ih ha'
          omega
  refine ⟨h1, ?_, ?_⟩
  · constructor
    · intro ht a ha hid
      obtain ⟨i, hi⟩ := hmem.2 ⟨a, ha, hid⟩
      rw [ht] at hi
      cases hi
    · intro hall
      rw [index]
      split_ifs with hl
      · exfalso
        obtain ⟨a, ha, hid⟩ := hmem.1 ⟨_, by rw [index, if_pos hl]⟩
        exact hall a ha hid
      · rfl
  · rw [hmem, hasId, List.any_eq_true]
    simp

/-! ## Reachable worlds -/

/-- Addresses point to records. -/
def WF (w : World V) : Prop :=
  (∀ a ∈ w.handles, a < w.cells.length) ∧ ∀ l ∈ w.lists, ∀ a ∈ l, a < w.cells.length

theorem write_length (cells : List (Impl V)) (a : Nat) (v : V) : (write cells a v).length = cells.length := by
  simp [write]

theorem cloneAll_spec (cells : List (Impl V)) (l : List Nat) (h : ∀ a ∈ l, a < cells.length) :
    ∃ ds, (cloneAll cells l).1 = cells ++ ds ∧ ds.length = l.length ∧
      (cloneAll cells l).2 = List.range' cells.length l.length ∧
      ∀ i : Nat, ds[i]? = (l[i]?).bind fun a => cells[a]? := by
  induction l generalizing cells with
  | nil => exact ⟨[], by simp [cloneAll]⟩
  | cons a l ih =>
    have ha : a < cells.length := h a (by simp)
    have hd : cells[a]? = some cells[a] := List.getElem?_eq_getElem ha
    obtain ⟨ds, h1, h2, h3, h4⟩ := ih (cells ++ [cells[a]]) (fun b hb => by
      have := h b (by simp [hb]); simp; omega)
    refine ⟨cells[a] :: ds, ?_, by simp [h2], ?_, ?_⟩
    · rw [cloneAll, hd]
      simp only [h1]
      simp
    · rw [cloneAll, hd]
      simp only [h3]
      simp [List.range'_succ]
    · intro i
      cases i with
      | zero => simp [hd]
      | succ i =>
        simp only [List.getElem?_cons_succ, h4 i]
        cases hl : l[i]? with
        | none => rfl
        | some b =>
          simp only [Option.bind_some]
          have := h b (by simp [List.mem_of_getElem? hl])
          rw [List.getElem?_append_left this]

theorem mem_modify {α : Type} {l : List α} {i : Nat} {f : α → α} {x : α} (h : x ∈ l.modify i f) :
    x ∈ l ∨ ∃ y ∈ l, l[i]? = some y ∧ x = f y := by
  obtain ⟨j, hj⟩ := List.mem_iff_getElem?.1 h
  rw [List.getElem?_modify] at hj
  cases hl : l[j]? with
  | none => rw [hl] at hj; simp at hj
  | some y =>
    rw [hl] at hj
    by_cases hij : i = j
    all_goals simp [hij] at hj
    · subst hij
      exact Or.inr ⟨y, List.mem_of_getElem? hl, hl, hj.symm⟩
    · exact Or.inl (hj ▸ List.mem_of_getElem? hl)

theorem step_WF {w w' : World V} {op : Op V} (h : WF w) (hs : step w op = .ok w') : WF w' := by
  obtain ⟨hh, hl⟩ := h
  cases op with
  | newParam d =>
    simp only [step] at hs
    injection hs with hs
    subst hs
    refine ⟨fun a ha => ?_, fun l hl' a ha => ?_⟩
    · simp only [List.mem_append, List.mem_singleton, List.length_append, List.length_singleton] at ha ⊢
      rcases ha with ha | rfl
      · have := hh a ha; omega
      · omega
    · have := hl l hl' a ha
      simp; omega
  | newParams =>
    simp only [step] at hs
    injection hs with hs
    subst hs
    refine ⟨hh, fun l hl' a ha => ?_⟩
    simp only [List.mem_append, List.mem_singleton] at hl'
    rcases hl' with hl' | rfl
    · exact hl l hl' a ha
    · cases ha
  | append L h =>
    simp only [step] at hs
    cases hp : w.handles[h]? with
    | none => rw [hp] at hs; injection hs with hs; subst hs; exact ⟨hh, hl⟩
    | some b =>
      rw [hp] at hs
      injection hs with hs
      subst hs
      refine ⟨hh, fun l hl' a ha => ?_⟩
      rcases mem_modify hl' with h1 | ⟨y, hy, _, rfl⟩
      · exact hl l h1 a ha
      · simp only [List.mem_append, List.mem_singleton] at ha
        rcases ha with ha | rfl
        · exact hl y hy a ha
        · exact hh a (List.mem_of_getElem? hp)
  | appendNew L id v =>
    simp only [step] at hs
    split_ifs at hs
    · injection hs with hs
      subst hs
      refine ⟨fun a ha => ?_, fun l hl' a ha => ?_⟩
      · have := hh a ha
        simp; omega
      · simp only [List.length_append, List.length_singleton]
        rcases mem_modify hl' with h1 | ⟨y, hy, _, rfl⟩
        · have := hl l h1 a ha; omega
        · simp only [List.mem_append, List.mem_singleton] at ha
          rcases ha with ha | rfl
          · have := hl y hy a ha; omega
          · omega
    · injection hs with hs; subst hs; exact ⟨hh, hl⟩
  | clone L =>
    simp only [step] at hs
    cases hp : w.lists[L]? with
    | none => rw [hp] at hs; injection hs with hs; subst hs; exact ⟨hh, hl⟩
    | some l =>
      rw [hp] at hs
      injection hs with hs
      subst hs
      obtain ⟨ds, h1, h2, h3, _⟩ := cloneAll_spec w.cells l (hl l (List.mem_of_getElem? hp))
      refine ⟨fun a ha => ?_, fun l' hl' a ha => ?_⟩
      · have := hh a ha
        simp only [h1, List.length_append]; omega
      · simp only [h1, List.length_append]
        simp only [List.mem_append, List.mem_singleton] at hl'
        rcases hl' with hl' | rfl
        · have := hl l' hl' a ha; omega
        · rw [h3, List.mem_range'_1] at ha
          omega
  | copy L =>
    simp only [step] at hs
    cases hp : w.lists[L]? with
    | none => rw [hp] at hs; injection hs with hs; subst hs; exact ⟨hh, hl⟩
    | some l =>
      rw [hp] at hs
      injection hs with hs
      subst hs
      refine ⟨hh, fun l' hl' a ha => ?_⟩
      simp only [List.mem_append, List.mem_singleton] at hl'
      rcases hl' with hl' | rfl
      · exact hl l' hl' a ha
      · exact hl l' (List.mem_of_getElem? hp) a ha
  | setHandle h v =>
    simp only [step] at hs
    cases hp : w.handles[h]? with
    | none => rw [hp] at hs; injection hs with hs; subst hs; exact ⟨hh, hl⟩
    | some b =>
      rw [hp] at hs
      injection hs with hs
      subst hs
      exact ⟨fun a ha => by rw [write_length]; exact hh a ha, fun l hl' a ha => by rw [write_length]; exact hl l hl' a ha⟩
  | setAt L i v =>
    simp only [step] at hs
    cases hp : w.lists[L]? with
    | none => rw [hp] at hs; injection hs with hs; subst hs; exact ⟨hh, hl⟩
    | some l =>
      rw [hp] at hs
      simp only at hs
      cases hq : l[i]? with
      | none => rw [hq] at hs; cases hs
      | some b =>
        rw [hq] at hs
        injection hs with hs
        subst hs
        exact ⟨fun a ha => by rw [write_length]; exact hh a ha,
          fun l hl' a ha => by rw [write_length]; exact hl l hl' a ha⟩
  | setId L id v =>
    simp only [step] at hs
    cases hp : w.lists[L]? with
    | none => rw [hp] at hs; injection hs with hs; subst hs; exact ⟨hh, hl⟩
    | some l =>
      rw [hp] at hs
      simp only at hs
      cases hi : index w.cells id l with
      | throw => rw [hi] at hs; injection hs with hs; subst hs; exact ⟨hh, hl⟩
      | ub => rw [hi] at hs; injection hs with hs; subst hs; exact ⟨hh, hl⟩
      | ok i =>
        rw [hi] at hs
        simp only at hs
        cases hq : l[i]? with
        | none => rw [hq] at hs; cases hs
        | some b =>
          rw [hq] at hs
          injection hs with hs
          subst hs
          exact ⟨fun a ha => by rw [write_length]; exact hh a ha,
            fun l hl' a ha => by rw [write_length]; exact hl l hl' a ha⟩

theorem run_ok {w w' : World V} {ops : List (Op V)} (P : World V → Prop)
    (hstep : ∀ w w' op, op ∈ ops → P w → step w op = .ok w' → P w') (h : P w) (hr : run w ops = .ok w') : P w' := by
  induction ops generalizing w with
  | nil => simp only [run] at hr; injection hr with hr; exact hr ▸ h
  | cons op ops ih =>
    simp only [run] at hr
    cases hs : step w op with
    | throw => rw [hs] at hr; cases hr
    | ub => rw [hs] at hr; cases hr
    | ok w1 =>
      rw [hs, Res.bind_ok'] at hr
      exact ih (fun a b c hc => hstep a b c (by simp [hc])) (hstep w w1 op (by simp) h hs) hr

theorem WF_start : WF (start : World V) := ⟨by simp [start], by simp [start]⟩

/-- What a write does to other addresses. -/
theorem write_ne {cells : List (Impl V)} {a b : Nat} {v : V} (h : a ≠ b) : (write cells a v)[b]? = cells[b]? := by
  rw [write, List.getElem?_modify]
  simp [h]

/-- List `N` shares no record with any other object. -/
def Sep (w : World V) (N : Nat) (l : List Nat) : Prop :=
  WF w ∧ w.lists[N]? = some l ∧ (∀ a ∈ l, a ∉ w.handles) ∧
    ∀ (K : Nat) (k : List Nat), K ≠ N → w.lists[K]? = some k → ∀ a ∈ l, a ∉ k

theorem getElem?_modify_ne {α : Type} {l : List α} {i j : Nat} {f : α → α} (h : i ≠ j) : (l.modify i f)[j]? = l[j]? := by
  rw [List.getElem?_modify]; simp [h]

theorem sep_step {w w' : World V} {N : Nat} {l : List Nat} {op : Op V} (h : Sep w N l) (hop : op.list ≠ some N)
    (hs : step w op = .ok w') : Sep w' N l ∧ l.map (fun a => w'.cells[a]?) = l.map (fun a => w.cells[a]?) := by
  have hwf' := step_WF h.1 hs
  obtain ⟨⟨hh, hl⟩, hN, hsh, hsl⟩ := h
  have hlm : l ∈ w.lists := List.mem_of_getElem? hN
  have hNlt : N < w.lists.length := by
    by_contra hc
    rw [List.getElem?_eq_none (by omega)] at hN
    cases hN
  have keep : ∀ a ∈ l, ∀ ds : List (Impl V), (w.cells ++ ds)[a]? = w.cells[a]? := fun a ha ds =>
    List.getElem?_append_left (hl l hlm a ha)
  cases op with
  | newParam d =>
    simp only [Params.step] at hs
    injection hs with hs
    subst hs
    refine ⟨⟨hwf', hN, ?_, hsl⟩, List.map_congr_left fun a ha => keep a ha _⟩
    intro a ha
    simp only [List.mem_append, List.mem_singleton, not_or]
    exact ⟨hsh a ha, fun he => by have := hl l hlm a ha; omega⟩
  | newParams =>
    simp only [Params.step] at hs
    injection hs with hs
    subst hs
    refine ⟨⟨hwf', ?_, hsh, ?_⟩, rfl⟩
    · simp only
      rw [List.getElem?_append_left hNlt, hN]
    · intro K k hK hk a ha
      simp only at hk
      rcases Nat.lt_or_ge K w.lists.length with hKl | hKl
      · rw [List.getElem?_append_left hKl] at hk
        exact hsl K k hK hk a ha
      · rw [List.getElem?_append_right hKl] at hk
        have := List.mem_of_getElem? hk
        simp at this
        subst this
        simp
  | append L h =>
    simp only [Params.step] at hs
    have hLN : L ≠ N := fun he => hop (by simp [Op.list, he])
    cases hp : w.handles[h]? with
    | none => rw [hp] at hs; injection hs with hs; subst hs; exact ⟨⟨⟨hh, hl⟩, hN, hsh, hsl⟩, rfl⟩
    | some b =>
      rw [hp] at hs
      injection hs with hs
      subst hs
      refine ⟨⟨hwf', ?_, hsh, ?_⟩, rfl⟩
      · simp only
        rw [getElem?_modify_ne hLN, hN]
      · intro K k hK hk a ha
        simp only at hk
        by_cases hKL : L = K
        · subst hKL
          rw [List.getElem?_modify] at hk
          cases hk0 : w.lists[L]? with
          | none => rw [hk0] at hk; simp at hk
          | some k0 =>
            rw [hk0] at hk
            simp at hk
            subst hk
            simp only [List.mem_append, List.mem_singleton, not_or]
            exact ⟨hsl L k0 hK hk0 a ha, fun he => hsh a ha (he ▸ List.mem_of_getElem? hp)⟩
        · rw [getElem?_modify_ne hKL] at hk
          exact hsl K k hK hk a ha
  | appendNew L id v =>
    simp only [Params.step] at hs
    have hLN : L ≠ N := fun he => hop (by simp [Op.list, he])
    split_ifs at hs
    · injection hs with hs
      subst hs
      refine ⟨⟨hwf', ?_, hsh, ?_⟩, List.map_congr_left fun a ha => keep a ha _⟩
      · simp only
        rw [getElem?_modify_ne hLN, hN]
      · intro K k hK hk a ha
        simp only at hk
        by_cases hKL : L = K
        · subst hKL
          rw [List.getElem?_modify] at hk
          cases hk0 : w.lists[L]? with
          | none => rw [hk0] at hk; simp at hk
          | some k0 =>
            rw [hk0] at hk
            simp at hk
            subst hk
            simp only [List.mem_append, List.mem_singleton, not_or]
            exact ⟨hsl L k0 hK hk0 a ha, fun he => by have := hl l hlm a ha; omega⟩
        · rw [getElem?_modify_ne hKL] at hk
          exact hsl K k hK hk a ha
    · injection hs with hs; subst hs; exact ⟨⟨⟨hh, hl⟩, hN, hsh, hsl⟩, rfl⟩
  | clone L =>
    simp only [Params.step] at hs
    cases hp : w.lists[L]? with
    | none => rw [hp] at hs; injection hs with hs; subst hs; exact ⟨⟨⟨hh, hl⟩, hN, hsh, hsl⟩, rfl⟩
    | some m =>
      rw [hp] at hs
      injection hs with hs
      subst hs
      obtain ⟨ds, h1, h2, h3, _⟩ := cloneAll_spec w.cells m (hl m (List.mem_of_getElem? hp))
      refine ⟨⟨hwf', ?_, hsh, ?_⟩, ?_⟩
      · simp only
        rw [List.getElem?_append_left hNlt, hN]
      · intro K k hK hk a ha
        simp only at hk
        rcases Nat.lt_or_ge K w.lists.length with hKl | hKl
        · rw [List.getElem?_append_left hKl] at hk
          exact hsl K k hK hk a ha
        · rw [List.getElem?_append_right hKl] at hk
          have := List.mem_of_getElem? hk
          simp only [List.mem_singleton] at this
          subst this
          rw [h3, List.mem_range'_1]
          have := hl l hlm a ha
          omega
      · apply List.map_congr_left
        intro a ha
        simp only [h1]
        exact keep a ha ds
  | copy L =>
    simp only [Params.step] at hs
    have hLN : L ≠ N := fun he => hop (by simp [Op.list, he])
    cases hp : w.lists[L]? with
    | none => rw [hp] at hs; injection hs with hs; subst hs; exact ⟨⟨⟨hh, hl⟩, hN, hsh, hsl⟩, rfl⟩
    | some m =>
      rw [hp] at hs
      injection hs with hs
      subst hs
      refine ⟨⟨hwf', ?_, hsh, ?_⟩, rfl⟩
      · simp only
        rw [List.getElem?_append_left hNlt, hN]
      · intro K k hK hk a ha
        simp only at hk
        rcases Nat.lt_or_ge K w.lists.length with hKl | hKl
        · rw [List.getElem?_append_left hKl] at hk
          exact hsl K k hK hk a ha
        · rw [List.getElem?_append_right hKl] at hk
          have := List.mem_of_getElem? hk
          simp only [List.mem_singleton] at this
          subst this
          exact hsl L k hLN hp a ha
  | setHandle h v =>
    simp only [Params.step] at hs
    cases hp : w.handles[h]? with
    | none => rw [hp] at hs; injection hs with hs; subst hs; exact ⟨⟨⟨hh, hl⟩, hN, hsh, hsl⟩, rfl⟩
    | some b =>
      rw [hp] at hs
      injection hs with hs
      subst hs
      refine ⟨⟨hwf', hN, hsh, hsl⟩, List.map_congr_left fun a ha => write_ne fun he => ?_⟩
      exact hsh a ha (he ▸ List.mem_of_getElem? hp)
  | setAt L i v =>
    simp only [Params.step] at hs
    have hLN : L ≠ N := fun he => hop (by simp [Op.list, he])
    cases hp : w.lists[L]? with
    | none => rw [hp] at hs; injection hs with hs; subst hs; exact ⟨⟨⟨hh, hl⟩, hN, hsh, hsl⟩, rfl⟩
    | some m =>
      rw [hp] at hs
      simp only at hs
      cases hq : m[i]? with
      | none => rw [hq] at hs; cases hs
      | some b =>
        rw [hq] at hs
        injection hs with hs
        subst hs
        refine ⟨⟨hwf', hN, hsh, hsl⟩, List.map_congr_left fun a ha => write_ne fun he => ?_⟩
        exact hsl L m hLN hp a ha (he ▸ List.mem_of_getElem? hq)
  | setId L id v =>
    simp only [Params.step] at hs
    have hLN : L ≠ N := fun he => hop (by simp [Op.list, he])
    cases hp : w.lists[L]? with
    | none => rw [hp] at hs; injection hs with hs; subst hs; exact ⟨⟨⟨hh, hl⟩, hN, hsh, hsl⟩, rfl⟩
    | some m =>
      rw [hp] at hs
      simp only at hs
      cases hi : index w.cells id m with
      | throw => rw [hi] at hs; injection hs with hs; subst hs; exact ⟨⟨⟨hh, hl⟩, hN, hsh, hsl⟩, rfl⟩
      | ub => rw [hi] at hs; injection hs with hs; subst hs; exact ⟨⟨⟨hh, hl⟩, hN, hsh, hsl⟩, rfl⟩
      | ok i =>
        rw [hi] at hs
        simp only at hs
        cases hq : m[i]? with
        | none => rw [hq] at hs; cases hs
        | some b =>
          rw [hq] at hs
          injection hs with hs
          subst hs
          refine ⟨⟨hwf', hN, hsh, hsl⟩, List.map_congr_left fun a ha => write_ne fun he => ?_⟩
          exact hsl L m hLN hp a ha (he ▸ List.mem_of_getElem? hq)

theorem sep_sets {w w' : World V} {N : Nat} {l : List Nat} {op : Op V} (h : Sep w N l) (hop : op.sets N)
    (hs : step w op = .ok w') : Sep w' N l ∧ w'.handles = w.handles ∧ w'.lists = w.lists ∧
      ∀ a, a ∉ l → w'.cells[a]? = w.cells[a]? := by
  have hwf' := step_WF h.1 hs
  obtain ⟨hwf, hN, hsh, hsl⟩ := h
  cases op with
  | setAt L i v =>
    simp only [Op.sets] at hop
    subst hop
    simp only [Params.step, hN] at hs
    cases hq : l[i]? with
    | none => rw [hq] at hs; cases hs
    | some b =>
      rw [hq] at hs
      injection hs with hs
      subst hs
      exact ⟨⟨hwf', hN, hsh, hsl⟩, rfl, rfl, fun a ha => write_ne fun he => ha (he ▸ List.mem_of_getElem? hq)⟩
  | setId L id v =>
    simp only [Op.sets] at hop
    subst hop
    simp only [Params.step, hN] at hs
    cases hi : index w.cells id l with
    | throw => rw [hi] at hs; injection hs with hs; subst hs; exact ⟨⟨hwf, hN, hsh, hsl⟩, rfl, rfl, fun _ _ => rfl⟩
    | ub => rw [hi] at hs; injection hs with hs; subst hs; exact ⟨⟨hwf, hN, hsh, hsl⟩, rfl, rfl, fun _ _ => rfl⟩
    | ok i =>
      rw [hi] at hs
      simp only at hs
      cases hq : l[i]? with
      | none => rw [hq] at hs; cases hs
      | some b =>
        rw [hq] at hs
        injection hs with hs
        subst hs
        exact ⟨⟨hwf', hN, hsh, hsl⟩, rfl, rfl, fun a ha => write_ne fun he => ha (he ▸ List.mem_of_getElem? hq)⟩
  | _ => exact absurd hop (by simp [Op.sets])

/-- **C91.** After any program, a clone shows the records of the original. Whatever is done afterwards
without naming the clone leaves it as it is, and values set through the clone show in no other list and no
`Param` object. -/
theorem C91_clone (ops : List (Op V)) (w : World V) (hr : run start ops = .ok w) (L : Nat) (hL : L < w.lists.length) :
    ∃ w1, step w (.clone L) = .ok w1 ∧ shown w1 w.lists.length = shown w L ∧
      (∀ K < w.lists.length, shown w1 K = shown w K) ∧
      (∀ later w2, (∀ op ∈ later, op.list ≠ some w.lists.length) → run w1 later = .ok w2 →
        shown w2 w.lists.length = shown w1 w.lists.length) ∧
      (∀ later w2, (∀ op ∈ later, Op.sets w.lists.length op) → run w1 later = .ok w2 →
        (∀ K ≠ w.lists.length, shown w2 K = shown w1 K) ∧ ∀ h, shownParam w2 h = shownParam w1 h) := by
  have hwf : WF w := run_ok WF (fun _ _ _ _ h hs => step_WF h hs) WF_start hr
  have hl : w.lists[L]? = some w.lists[L] := List.getElem?_eq_getElem hL
  set l := w.lists[L] with hldef
  obtain ⟨ds, h1, h2, h3, h4⟩ := cloneAll_spec w.cells l (hwf.2 l (List.mem_of_getElem? hl))
  set N := w.lists.length with hN
  set w1 : World V := { w with cells := (cloneAll w.cells l).1, lists := w.lists ++ [(cloneAll w.cells l).2] } with hw1
  have hs : step w (.clone L) = .ok w1 := by simp only [step, hl, hw1]
  have hwf1 : WF w1 := step_WF hwf hs
  have hNl : w1.lists[N]? = some (List.range' w.cells.length l.length) := by
    simp [hw1, h3, hN]
  have hsep : Sep w1 N (List.range' w.cells.length l.length) := by
    refine ⟨hwf1, hNl, ?_, ?_⟩
    · intro a ha hm
      rw [List.mem_range'_1] at ha
      have := hwf.1 a hm
      omega
    · intro K k hK hk a ha hm
      rw [List.mem_range'_1] at ha
      have hKl : K < w.lists.length := by
        by_contra hc
        simp only [hw1] at hk
        rw [List.getElem?_eq_none (by simp; omega)] at hk
        cases hk
      simp only [hw1] at hk
      rw [List.getElem?_append_left hKl] at hk
      have := hwf.2 k (List.mem_of_getElem? hk) a hm
      omega
  refine ⟨w1, hs, ?_, ?_, ?_, ?_⟩
  · rw [shown, shown, hNl, hl]
    simp only [Option.map_some, Option.some.injEq]
    apply List.ext_getElem?
    intro i
    rw [List.getElem?_map, List.getElem?_map]
    by_cases hi : i < l.length
    · rw [List.getElem?_range' hi, List.getElem?_eq_getElem hi]
      simp only [Option.map_some, hw1, h1, Option.some.injEq]
      have h5 := h4 i
      rw [List.getElem?_eq_getElem hi] at h5
      simp only [Option.bind_some] at h5
      rw [← h5, List.getElem?_append_right (by omega)]
      congr 1
      omega
    · rw [List.getElem?_eq_none (by simp; omega), List.getElem?_eq_none (by omega)]
      rfl
  · intro K hK
    rw [shown, shown]
    simp only [hw1]
    rw [List.getElem?_append_left hK]
    have hk : w.lists[K]? = some w.lists[K] := List.getElem?_eq_getElem hK
    rw [hk]
    simp only [Option.map_some, Option.some.injEq]
    apply List.map_congr_left
    intro a ha
    rw [h1, List.getElem?_append_left (hwf.2 _ (List.mem_of_getElem? hk) a ha)]
  · intro later w2 hlater hr2
    have := run_ok (fun u => Sep u N (List.range' w.cells.length l.length) ∧
        (List.range' w.cells.length l.length).map (fun a => u.cells[a]?)
          = (List.range' w.cells.length l.length).map (fun a => w1.cells[a]?))
      (fun u u' op hop hu hsu => by
        obtain ⟨hA, hB⟩ := sep_step hu.1 (hlater op hop) hsu
        exact ⟨hA, hB.trans hu.2⟩) ⟨hsep, rfl⟩ hr2
    obtain ⟨hA, hB⟩ := this
    rw [shown, shown, hA.2.1, hNl]
    simp only [Option.map_some, hB]
  · intro later w2 hlater hr2
    have := run_ok (fun u => Sep u N (List.range' w.cells.length l.length) ∧ u.handles = w1.handles ∧
        u.lists = w1.lists ∧ ∀ a, a ∉ List.range' w.cells.length l.length → u.cells[a]? = w1.cells[a]?)
      (fun u u' op hop hu hsu => by
        obtain ⟨hA, hB, hC, hD⟩ := sep_sets hu.1 (hlater op hop) hsu
        exact ⟨hA, hB.trans hu.2.1, hC.trans hu.2.2.1, fun a ha => (hD a ha).trans (hu.2.2.2 a ha)⟩)
      ⟨hsep, rfl, rfl, fun _ _ => rfl⟩ hr2
    obtain ⟨_, hB, hC, hD⟩ := this
    refine ⟨fun K hK => ?_, fun h => ?_⟩
    · rw [shown, shown, hC]
      cases hk : w1.lists[K]? with
      | none => rfl
      | some k =>
        simp only [Option.map_some, Option.some.injEq]
        apply List.map_congr_left
        intro a ha
        exact hD a fun hm => hsep.2.2.2 K k hK hk a hm ha
    · rw [shownParam, shownParam, hB]
      cases hk : w1.handles[h]? with
      | none => rfl
      | some a =>
        simp only [Option.map_some, Option.some.injEq]
        exact hD a fun hm => hsep.2.2.1 a hm (List.mem_of_getElem? hk)

/-- An entry of a list and a `Param` object that share their record. -/
def Tied (L i h : Nat) (w : World V) : Prop :=
  ∃ a l, w.handles[h]? = some a ∧ w.lists[L]? = some l ∧ l[i]? = some a

theorem tied_step {L i h : Nat} {w w' : World V} {op : Op V} (ht : Tied L i h w) (hs : step w op = .ok w') :
    Tied L i h w' := by
  obtain ⟨a, l, h1, h2, h3⟩ := ht
  have hhl : h < w.handles.length := by
    by_contra hc
    rw [List.getElem?_eq_none (by omega)] at h1
    cases h1
  have hLl : L < w.lists.length := by
    by_contra hc
    rw [List.getElem?_eq_none (by omega)] at h2
    cases h2
  have hil : i < l.length := by
    by_contra hc
    rw [List.getElem?_eq_none (by omega)] at h3
    cases h3
  have grow : ∀ (K b : Nat), ∃ m, (w.lists.modify K (· ++ [b]))[L]? = some m ∧ m[i]? = some a := by
    intro K b
    rw [List.getElem?_modify, h2]
    by_cases hK : K = L
    · exact ⟨l ++ [b], by simp [hK], by rw [List.getElem?_append_left hil, h3]⟩
    · exact ⟨l, by simp [hK], h3⟩
  cases op with
  | newParam d =>
    simp only [Params.step] at hs
    injection hs with hs
    subst hs
    exact ⟨a, l, by simp only; rw [List.getElem?_append_left hhl, h1], h2, h3⟩
  | newParams =>
    simp only [Params.step] at hs
    injection hs with hs
    subst hs
    exact ⟨a, l, h1, by simp only; rw [List.getElem?_append_left hLl, h2], h3⟩
  | append K k =>
    simp only [Params.step] at hs
    cases hp : w.handles[k]? with
    | none => rw [hp] at hs; injection hs with hs; subst hs; exact ⟨a, l, h1, h2, h3⟩
    | some b =>
      rw [hp] at hs
      injection hs with hs
      subst hs
      obtain ⟨m, hm1, hm2⟩ := grow K b
      exact ⟨a, m, h1, hm1, hm2⟩
  | appendNew K id v =>
    simp only [Params.step] at hs
    split_ifs at hs
    · injection hs with hs
      subst hs
      obtain ⟨m, hm1, hm2⟩ := grow K w.cells.length
      exact ⟨a, m, h1, hm1, hm2⟩
    · injection hs with hs; subst hs; exact ⟨a, l, h1, h2, h3⟩
  | clone K =>
    simp only [Params.step] at hs
    cases hp : w.lists[K]? with
    | none => rw [hp] at hs; injection hs with hs; subst hs; exact ⟨a, l, h1, h2, h3⟩
    | some m =>
      rw [hp] at hs
      injection hs with hs
      subst hs
      exact ⟨a, l, h1, by simp only; rw [List.getElem?_append_left hLl, h2], h3⟩
  | copy K =>
    simp only [Params.step] at hs
    cases hp : w.lists[K]? with
    | none => rw [hp] at hs; injection hs with hs; subst hs; exact ⟨a, l, h1, h2, h3⟩
    | some m =>
      rw [hp] at hs
      injection hs with hs
      subst hs
      exact ⟨a, l, h1, by simp only; rw [List.getElem?_append_left hLl, h2], h3⟩
  | setHandle k v =>
    simp only [Params.step] at hs
    cases hp : w.handles[k]? with
    | none => rw [hp] at hs; injection hs with hs; subst hs; exact ⟨a, l, h1, h2, h3⟩
    | some b =>
      rw [hp] at hs
      injection hs with hs
      subst hs
      exact ⟨a, l, h1, h2, h3⟩
  | setAt K j v =>
    simp only [Params.step] at hs
    cases hp : w.lists[K]? with
    | none => rw [hp] at hs; injection hs with hs; subst hs; exact ⟨a, l, h1, h2, h3⟩
    | some m =>
      rw [hp] at hs
      simp only at hs
      cases hq : m[j]? with
      | none => rw [hq] at hs; cases hs
      | some b =>
        rw [hq] at hs
        injection hs with hs
        subst hs
        exact ⟨a, l, h1, h2, h3⟩
  | setId K id v =>
    simp only [Params.step] at hs
    cases hp : w.lists[K]? with
    | none => rw [hp] at hs; injection hs with hs; subst hs; exact ⟨a, l, h1, h2, h3⟩
    | some m =>
      rw [hp] at hs
      simp only at hs
      cases hi : index w.cells id m with
      | throw => rw [hi] at hs; injection hs with hs; subst hs; exact ⟨a, l, h1, h2, h3⟩
      | ub => rw [hi] at hs; injection hs with hs; subst hs; exact ⟨a, l, h1, h2, h3⟩
      | ok j =>
        rw [hi] at hs
        simp only at hs
        cases hq : m[j]? with
        | none => rw [hq] at hs; cases hs
        | some b =>
          rw [hq] at hs
          injection hs with hs
          subst hs
          exact ⟨a, l, h1, h2, h3⟩

/-- **C91.** A parameter that was appended stays shared: after any later program, the entry of the list and
the `Param` object have the same value. -/
theorem C91_shared (w w1 w2 : World V) (L h : Nat) (l : List Nat) (later : List (Op V)) (hL : w.lists[L]? = some l)
    (hh : h < w.handles.length) (hs : step w (.append L h) = .ok w1) (hr : run w1 later = .ok w2) :
    valueAt w2 L l.length = valueOf w2 h := by
  have hp : w.handles[h]? = some w.handles[h] := List.getElem?_eq_getElem hh
  have ht : Tied L l.length h w1 := by
    simp only [step, hp] at hs
    injection hs with hs
    subst hs
    refine ⟨w.handles[h], l ++ [w.handles[h]], hp, ?_, by simp⟩
    simp only
    rw [List.getElem?_modify, hL]
    simp
  obtain ⟨a, m, h1, h2, h3⟩ := run_ok (Tied L l.length h) (fun _ _ _ _ ht hs => tied_step ht hs) ht hr
  rw [valueAt, valueOf, h1, h2]
  simp only [h3]

/-- **C91 fails** for a parameter that is twice in a list: in the original a change of one entry changes the
other; in a clone it does not. -/
theorem C91_twice_wrong (d : Impl Nat) : ∃ w, run start [.newParam d, .newParams, .append 0 0, .append 0 0, .clone 0] = .ok w ∧
    (∃ u, step w (.setAt 0 0 (d.value + 1)) = .ok u ∧ valueAt u 0 1 = some (d.value + 1)) ∧
    (∃ u, step w (.setAt 1 0 (d.value + 1)) = .ok u ∧ valueAt u 1 1 = some d.value) :=
  ⟨_, rfl, ⟨_, rfl, rfl⟩, ⟨_, rfl, rfl⟩⟩

theorem write_value (cells : List (Impl V)) (a b : Nat) (v : V) :
    ((write cells a v)[b]?).map (·.value) = if a = b ∧ b < cells.length then some v else (cells[b]?).map (·.value) := by
  unfold write
  rw [List.getElem?_modify]
  by_cases h : a = b
  · by_cases hb : b < cells.length
    · simp [h, hb]
    · simp [h, hb]
  · simp [h]

/-- **C91.** After any program, the vector of a list has the value of each of its parameters, in order. -/
theorem C91_values (ops : List (Op V)) (w : World V) (hr : run start ops = .ok w) (L : Nat) (l : List Nat) (hL : w.lists[L]? = some l) :
    (values w.cells l).length = l.length ∧
      ∀ i < l.length, ∃ v, valueAt w L i = some v ∧ (values w.cells l)[i]? = some (some v) := by
  have hwf : WF w := run_ok WF (fun _ _ _ _ h hs => step_WF h hs) WF_start hr
  refine ⟨by simp [values], fun i hi => ?_⟩
  have ha := hwf.2 l (List.mem_of_getElem? hL) l[i] (List.getElem_mem hi)
  refine ⟨w.cells[l[i]].value, ?_, ?_⟩
  · simp [valueAt, hL, List.getElem?_eq_getElem hi, List.getElem?_eq_getElem ha]
  · simp [values, List.getElem?_eq_getElem hi, List.getElem?_eq_getElem ha]

/-- **C91.** After any program, `param = v`, `params[i] = v` and `params[id] = v` give the value to the parameter that is named, the first with the id in the third
case; a parameter has a new value only if it is `v`; an unknown id changes nothing, and a position outside of the list is undefined. -/
theorem C91_set (ops : List (Op V)) (w : World V) (hr : run start ops = .ok w) (v : V) :
    (∀ h < w.handles.length, ∃ w', step w (.setHandle h v) = .ok w' ∧ valueOf w' h = some v ∧
      ∀ K i, valueAt w' K i = some v ∧ (valueAt w K i).isSome ∨ valueAt w' K i = valueAt w K i) ∧
    (∀ (L : Nat) (l : List Nat), w.lists[L]? = some l → ∀ i < l.length, ∃ w', step w (.setAt L i v) = .ok w' ∧ valueAt w' L i = some v ∧
      ∀ K i, valueAt w' K i = some v ∧ (valueAt w K i).isSome ∨ valueAt w' K i = valueAt w K i) ∧
    (∀ (L : Nat) (l : List Nat), w.lists[L]? = some l → ∀ i, l.length ≤ i → step w (.setAt L i v) = .ub) ∧
    (∀ (L : Nat) (l : List Nat), w.lists[L]? = some l → ∀ id i, index w.cells id l = .ok i → step w (.setId L id v) = step w (.setAt L i v)) ∧
    (∀ (L : Nat) (l : List Nat), w.lists[L]? = some l → ∀ id, index w.cells id l = .throw → step w (.setId L id v) = .ok w) := by
  have hwf : WF w := run_ok WF (fun _ _ _ _ h hs => step_WF h hs) WF_start hr
  have others : ∀ a K i, valueAt { w with cells := write w.cells a v } K i = some v ∧ (valueAt w K i).isSome ∨
      valueAt { w with cells := write w.cells a v } K i = valueAt w K i := by
    intro a K i
    unfold valueAt
    cases hK : w.lists[K]? with
    | none => right; simp [hK]
    | some l =>
      cases hi : l[i]? with
      | none => right; simp [hK, hi]
      | some b =>
        simp only [hK, hi, write_value]
        split
        · rename_i hb
          left
          exact ⟨rfl, by simp [hb.2]⟩
        · right; rfl
  refine ⟨fun h hh => ?_, fun L l hL i hi => ?_, fun L l hL i hi => ?_, fun L l hL id i hi => ?_, fun L l hL id hi => ?_⟩
  · have ha := hwf.1 _ (List.getElem_mem hh)
    refine ⟨{ w with cells := write w.cells w.handles[h] v }, ?_, ?_, others _⟩
    · simp only [step, List.getElem?_eq_getElem hh]
    · simp only [valueOf, List.getElem?_eq_getElem hh, write_value]
      rw [if_pos ⟨trivial, ha⟩]
  · have ha := hwf.2 l (List.mem_of_getElem? hL) l[i] (List.getElem_mem hi)
    refine ⟨{ w with cells := write w.cells l[i] v }, ?_, ?_, others _⟩
    · simp only [step, hL, List.getElem?_eq_getElem hi]
    · simp only [valueAt, hL, List.getElem?_eq_getElem hi, write_value]
      rw [if_pos ⟨trivial, ha⟩]
  · simp only [step, hL, List.getElem?_eq_none hi]
  · simp only [step, hL, hi]
  · simp only [step, hL, hi]

/-- The vector of a list, and a value set by the id. -/
example : ∃ w, run (start : World Nat) [.newParams, .appendNew 0 "a" 1, .appendNew 0 "b" 2, .setId 0 "b" 7] = .ok w ∧
    ∃ l, w.lists[0]? = some l ∧ values w.cells l = [some 1, some 7] ∧ index w.cells "b" l = .ok 1 ∧ index w.cells "c" l = .throw :=
  ⟨_, rfl, _, rfl, by decide⟩

/-- A program with a shared parameter and a clone. -/
example : ∃ w, run (start : World Nat) [.newParam { value := 1, id := "a" }, .newParams, .append 0 0,
      .appendNew 0 "b" 2, .clone 0, .setHandle 0 5, .setId 1 "b" 7] = .ok w ∧
    valueAt w 0 0 = some 5 ∧ valueAt w 1 0 = some 1 ∧ valueAt w 0 1 = some 2 ∧ valueAt w 1 1 = some 7 :=
  ⟨_, rfl, by decide⟩

end Verif.Params
