import Verif.Spec.Restrictions
import Verif.Theorems.Conditions
import Mathlib.Data.List.Induction
import Mathlib.Algebra.Order.Ring.Rat

/-!
# Theorems C39 and C40: restrictions and bounds
-/

namespace Verif.Restrictions

open Chem Conditions

/-! ## C39 -/

theorem says_fix (f : List Nat) (b : List (Nat × Rat)) (i j : Nat) (L : Lim) (h : Says f b i L) :
    Says (insert f j) (eraseKey b j) i (if i = j then .fixed else L) := by
  by_cases hij : i = j
  · subst hij
    rw [if_pos rfl]
    refine ⟨?_, by simp [eraseKey]⟩
    unfold insert
    split
    · assumption
    · simp
  · rw [if_neg hij]
    have hf : i ∈ insert f j ↔ i ∈ f := by
      unfold insert; split <;> simp [hij]
    have hb : ∀ v, (i, v) ∈ eraseKey b j ↔ (i, v) ∈ b := by simp [eraseKey, hij]
    cases L <;> simpa only [Says, hf, hb] using h

theorem says_bound (f : List Nat) (b : List (Nat × Rat)) (i j : Nat) (a : Rat) (L : Lim) (h : Says f b i L) :
    Says (erase f j) (insertOrAssign b j a) i (if i = j then .bound a else L) := by
  by_cases hij : i = j
  · subst hij
    rw [if_pos rfl]
    simp [Says, erase, insertOrAssign, eraseKey]
  · rw [if_neg hij]
    have hf : i ∈ erase f j ↔ i ∈ f := by simp [erase, hij]
    have hb : ∀ v, (i, v) ∈ insertOrAssign b j a ↔ (i, v) ∈ b := by simp [insertOrAssign, eraseKey, hij]
    cases L <;> simpa only [Says, hf, hb] using h

theorem says_free (f : List Nat) (b : List (Nat × Rat)) (i j : Nat) (L : Lim) (h : Says f b i L) :
    Says (erase f j) (eraseKey b j) i (if i = j then .free else L) := by
  by_cases hij : i = j
  · subst hij
    rw [if_pos rfl]
    simp [Says, erase, eraseKey]
  · rw [if_neg hij]
    have hf : i ∈ erase f j ↔ i ∈ f := by simp [erase, hij]
    have hb : ∀ v, (i, v) ∈ eraseKey b j ↔ (i, v) ∈ b := by simp [eraseKey, hij]
    cases L <;> simpa only [Says, hf, hb] using h

theorem idxOf_names (species : List Species) (s : Str) : (species.map (·.name)).idxOf s = findWithName species s := by
  unfold findWithName indexfn List.idxOf
  rw [List.findIdx_map]
  congr 1
  funext x
  rw [Bool.eq_iff_iff, decide_eq_true_iff]
  exact beq_iff_eq

/-- A reference is either resolved or rejected. -/
theorem withIndex_spec (sys : Sys) (r : Restr) (ref : Ref) (f : Nat → Out) :
    (withIndex sys r ref f = (r, .threw) ∧ ∀ i, ref.is sys i = false) ∨
    (∃ j, withIndex sys r ref f = f j ∧ ∀ i, ref.is sys i = (i == j && decide (i < sys.species.length))) := by
  cases ref with
  | index j => exact .inr ⟨j, rfl, fun i => rfl⟩
  | name s =>
    unfold withIndex
    dsimp only
    unfold ChemicalState.index
    dsimp only
    by_cases h : findWithName sys.species s ≥ sys.species.length
    · rw [if_pos h]
      refine .inl ⟨rfl, fun i => ?_⟩
      simp only [Ref.is, idxOf_names, Bool.and_eq_false_iff, beq_eq_false_iff_ne, decide_eq_false_iff_not]
      by_cases hi : findWithName sys.species s = i
      · exact .inr (by omega)
      · exact .inl hi
    · rw [if_neg h]
      refine .inr ⟨_, rfl, fun i => ?_⟩
      simp only [Ref.is, idxOf_names]
      congr 1
      rw [Bool.eq_iff_iff, beq_iff_eq, beq_iff_eq]; exact eq_comm

/-- What a call does to the restrictions on one species, in both directions. -/
theorem step_says (sys : Sys) (r : Restr) (c : Call) (i : Nat) (U D : Lim) (hU : Says r.cannotIncrease r.cannotIncreaseAbove i U)
    (hD : Says r.cannotDecrease r.cannotDecreaseBelow i D) (hne : (step sys r c).2 ≠ .undefined) :
    Says (step sys r c).1.cannotIncrease (step sys r c).1.cannotIncreaseAbove i ((effectUp sys i c).getD U) ∧
    Says (step sys r c).1.cannotDecrease (step sys r c).1.cannotDecreaseBelow i ((effectDown sys i c).getD D) ∧
    ((step sys r c).2 = .threw → (step sys r c).1 = r) := by
  have oob : ∀ {ref : Ref} {j : Nat}, (∀ i, ref.is sys i = (i == j && decide (i < sys.species.length))) → j ≥ sys.species.length →
      ref.is sys i = false := by
    intro ref j h hj
    rw [h i]
    by_cases hij : i = j
    · subst hij; simp; omega
    · simp [hij]
  have inb : ∀ {ref : Ref} {j : Nat}, (∀ i, ref.is sys i = (i == j && decide (i < sys.species.length))) → ¬ j ≥ sys.species.length →
      ref.is sys i = decide (i = j) := by
    intro ref j h hj
    rw [h i]
    by_cases hij : i = j
    · subst hij; simp; omega
    · simp [hij]
  have pick : ∀ (i j : Nat) (A B : Lim), (if decide (i = j) = true then some A else none).getD B = if i = j then A else B := by
    intro i j A B; by_cases h : i = j <;> simp [h]
  cases c with
  | cannotReact s =>
    simp only [step, effectUp, effectDown] at hne ⊢
    rcases withIndex_spec sys r s (cannotReact sys r) with ⟨e, h⟩ | ⟨j, e, h⟩
    · rw [e, h]; exact ⟨hU, hD, fun _ => rfl⟩
    · rw [e]
      unfold cannotReact cannotIncrease cannotDecrease andThen
      by_cases hj : j ≥ sys.species.length
      · rw [if_pos hj, oob h hj]; exact ⟨hU, hD, fun _ => rfl⟩
      · rw [if_neg hj, inb h hj]
        dsimp only
        rw [if_neg hj, pick, pick]
        exact ⟨says_fix _ _ _ _ _ hU, says_fix _ _ _ _ _ hD, fun h => End.noConfusion h⟩
  | cannotIncrease s =>
    simp only [step, effectUp, effectDown] at hne ⊢
    rcases withIndex_spec sys r s (cannotIncrease sys r) with ⟨e, h⟩ | ⟨j, e, h⟩
    · rw [e, h]; exact ⟨hU, hD, fun _ => rfl⟩
    · rw [e]
      unfold cannotIncrease
      by_cases hj : j ≥ sys.species.length
      · rw [if_pos hj, oob h hj]; exact ⟨hU, hD, fun _ => rfl⟩
      · rw [if_neg hj, inb h hj]
        dsimp only
        rw [pick]
        exact ⟨says_fix _ _ _ _ _ hU, hD, fun h => End.noConfusion h⟩
  | cannotDecrease s =>
    simp only [step, effectUp, effectDown] at hne ⊢
    rcases withIndex_spec sys r s (cannotDecrease sys r) with ⟨e, h⟩ | ⟨j, e, h⟩
    · rw [e, h]; exact ⟨hU, hD, fun _ => rfl⟩
    · rw [e]
      unfold cannotDecrease
      by_cases hj : j ≥ sys.species.length
      · rw [if_pos hj, oob h hj]; exact ⟨hU, hD, fun _ => rfl⟩
      · rw [if_neg hj, inb h hj]
        dsimp only
        rw [pick]
        exact ⟨hU, says_fix _ _ _ _ _ hD, fun h => End.noConfusion h⟩
  | canIncreaseFreely s =>
    simp only [step, effectUp, effectDown] at hne ⊢
    rcases withIndex_spec sys r s (canIncreaseFreely sys r) with ⟨e, h⟩ | ⟨j, e, h⟩
    · rw [e, h]; exact ⟨hU, hD, fun _ => rfl⟩
    · rw [e]
      unfold canIncreaseFreely
      by_cases hj : j ≥ sys.species.length
      · rw [if_pos hj, oob h hj]; exact ⟨hU, hD, fun _ => rfl⟩
      · rw [if_neg hj, inb h hj]
        dsimp only
        rw [pick]
        exact ⟨says_free _ _ _ _ _ hU, hD, fun h => End.noConfusion h⟩
  | canDecreaseFreely s =>
    simp only [step, effectUp, effectDown] at hne ⊢
    rcases withIndex_spec sys r s (canDecreaseFreely sys r) with ⟨e, h⟩ | ⟨j, e, h⟩
    · rw [e, h]; exact ⟨hU, hD, fun _ => rfl⟩
    · rw [e]
      unfold canDecreaseFreely
      by_cases hj : j ≥ sys.species.length
      · rw [if_pos hj, oob h hj]; exact ⟨hU, hD, fun _ => rfl⟩
      · rw [if_neg hj, inb h hj]
        dsimp only
        rw [pick]
        exact ⟨hU, says_free _ _ _ _ _ hD, fun h => End.noConfusion h⟩
  | canReactFreely s =>
    simp only [step, effectUp, effectDown] at hne ⊢
    rcases withIndex_spec sys r s (canReactFreely sys r) with ⟨e, h⟩ | ⟨j, e, h⟩
    · rw [e, h]; exact ⟨hU, hD, fun _ => rfl⟩
    · rw [e]
      unfold canReactFreely canIncreaseFreely canDecreaseFreely andThen
      by_cases hj : j ≥ sys.species.length
      · rw [if_pos hj, oob h hj]; exact ⟨hU, hD, fun _ => rfl⟩
      · rw [if_neg hj, inb h hj]
        dsimp only
        rw [if_neg hj, pick, pick]
        exact ⟨says_free _ _ _ _ _ hU, says_free _ _ _ _ _ hD, fun h => End.noConfusion h⟩
  | cannotIncreaseAbove s v u =>
    simp only [step, effectUp, effectDown] at hne ⊢
    rcases withIndex_spec sys r s (fun i => cannotIncreaseAbove sys r i v u) with ⟨e, h⟩ | ⟨j, e, h⟩
    · rw [e, h]; exact ⟨hU, hD, fun _ => rfl⟩
    · rw [e] at hne ⊢
      unfold cannotIncreaseAbove at hne ⊢
      by_cases hj : j ≥ sys.species.length
      · rw [if_pos hj, oob h hj]; exact ⟨hU, hD, fun _ => rfl⟩
      · rw [if_neg hj] at hne ⊢
        rw [inb h hj]
        cases ha : computeSpeciesAmount sys j v u with
        | ub => rw [ha] at hne; exact absurd rfl hne
        | throw =>
          dsimp only
          by_cases hij : i = j
          · subst hij; rw [ha, if_pos (decide_eq_true rfl)]; exact ⟨hU, hD, fun _ => rfl⟩
          · rw [if_neg (by simpa using hij)]; exact ⟨hU, hD, fun _ => rfl⟩
        | ok a =>
          dsimp only
          refine ⟨?_, hD, fun h => End.noConfusion h⟩
          have := says_bound _ _ i j a _ hU
          by_cases hij : i = j
          · subst hij; rw [ha]; simpa only [decide_true, if_true, Option.getD_some] using this
          · rw [if_neg hij] at this
            rw [if_neg (by simpa using hij)]; exact this
  | cannotDecreaseBelow s v u =>
    simp only [step, effectUp, effectDown] at hne ⊢
    rcases withIndex_spec sys r s (fun i => cannotDecreaseBelow sys r i v u) with ⟨e, h⟩ | ⟨j, e, h⟩
    · rw [e, h]; exact ⟨hU, hD, fun _ => rfl⟩
    · rw [e] at hne ⊢
      unfold cannotDecreaseBelow at hne ⊢
      by_cases hj : j ≥ sys.species.length
      · rw [if_pos hj, oob h hj]; exact ⟨hU, hD, fun _ => rfl⟩
      · rw [if_neg hj] at hne ⊢
        rw [inb h hj]
        cases ha : computeSpeciesAmount sys j v u with
        | ub => rw [ha] at hne; exact absurd rfl hne
        | throw =>
          dsimp only
          by_cases hij : i = j
          · subst hij; rw [ha, if_pos (decide_eq_true rfl)]; exact ⟨hU, hD, fun _ => rfl⟩
          · rw [if_neg (by simpa using hij)]; exact ⟨hU, hD, fun _ => rfl⟩
        | ok a =>
          dsimp only
          refine ⟨hU, ?_, fun h => End.noConfusion h⟩
          have := says_bound _ _ i j a _ hD
          by_cases hij : i = j
          · subst hij; rw [ha]; simpa only [decide_true, if_true, Option.getD_some] using this
          · rw [if_neg hij] at this
            rw [if_neg (by simpa using hij)]; exact this

/-- A history that does not end in undefined behaviour, read from its last call. -/
theorem run_append (sys : Sys) (c : Call) : ∀ (calls : List Call) (r r' : Restr), run sys r (calls ++ [c]) = (r', .returned) →
    ∃ r1, run sys r calls = (r1, .returned) ∧ r' = (step sys r1 c).1 ∧ (step sys r1 c).2 ≠ .undefined := by
  intro calls
  induction calls with
  | nil =>
    intro r r' h
    simp only [List.nil_append, run] at h
    refine ⟨r, rfl, ?_⟩
    cases hs : step sys r c with
    | mk r2 e =>
      rw [hs] at h
      cases e with
      | undefined => cases h
      | returned => cases h; exact ⟨rfl, fun h => End.noConfusion h⟩
      | threw => cases h; exact ⟨rfl, fun h => End.noConfusion h⟩
  | cons d calls ih =>
    intro r r' h
    simp only [List.cons_append, run] at h ⊢
    cases hs : step sys r d with
    | mk r2 e =>
      rw [hs] at h
      cases e with
      | undefined => cases h
      | returned => exact ih r2 r' h
      | threw => exact ih r2 r' h

/-- **C39.** After every sequence of calls, also when some throw, the restriction on the increase of a species is what the last call about
its increase said, and nothing else is recorded; the same for its decrease. -/
theorem C39_last_wins (sys : Sys) (calls : List Call) (i : Nat) : ∀ r', run sys {} calls = (r', .returned) →
    Says r'.cannotIncrease r'.cannotIncreaseAbove i (last (effectUp sys i) calls) ∧
    Says r'.cannotDecrease r'.cannotDecreaseBelow i (last (effectDown sys i) calls) := by
  induction calls using List.reverseRecOn with
  | nil =>
    intro r' h
    cases h
    exact ⟨⟨List.not_mem_nil, fun _ => List.not_mem_nil⟩, ⟨List.not_mem_nil, fun _ => List.not_mem_nil⟩⟩
  | append_singleton calls c ih =>
    intro r' h
    obtain ⟨r1, h1, rfl, hne⟩ := run_append sys c calls {} r' h
    obtain ⟨hU, hD⟩ := ih r1 h1
    obtain ⟨h2, h3, -⟩ := step_says sys r1 c i _ _ hU hD hne
    have key : ∀ e : Call → Option Lim, last e (calls ++ [c]) = (e c).getD (last e calls) := by
      intro e
      unfold last
      rw [List.filterMap_append]
      cases hc : e c with
      | none => simp [hc]
      | some L => simp [hc]
    rw [key, key]
    exact ⟨h2, h3⟩

/-- **C39 (exceptions).** A call that throws changes nothing. -/
theorem C39_throw_unchanged (sys : Sys) (calls : List Call) (r r' : Restr) (c : Call) (h : run sys {} calls = (r, .returned))
    (ht : step sys r c = (r', .threw)) : r' = r := by
  obtain ⟨hU, hD⟩ := C39_last_wins sys calls 0 r h
  have := (step_says sys r c 0 _ _ hU hD (by rw [ht]; exact fun h => End.noConfusion h)).2.2
  rw [ht] at this
  exact this rfl

/-- **C39 (exclusion).** No species is both forbidden to increase and given an upper bound, or both forbidden to decrease and given a lower
bound. -/
theorem C39_exclusive (sys : Sys) (calls : List Call) (r : Restr) (h : run sys {} calls = (r, .returned)) (i : Nat) :
    (i ∈ r.cannotIncrease → ∀ v, (i, v) ∉ r.cannotIncreaseAbove) ∧ (i ∈ r.cannotDecrease → ∀ v, (i, v) ∉ r.cannotDecreaseBelow) := by
  obtain ⟨hU, hD⟩ := C39_last_wins sys calls i r h
  constructor
  · intro hi v hv
    cases hL : last (effectUp sys i) calls <;> rw [hL] at hU
    · exact hU.1 hi
    · exact hU.2 v hv
    · exact hU.1 hi
  · intro hi v hv
    cases hL : last (effectDown sys i) calls <;> rw [hL] at hD
    · exact hD.1 hi
    · exact hD.2 v hv
    · exact hD.1 hi

/-! ## C40 -/

theorem is_lt (sys : Sys) (i : Nat) (ref : Ref) (h : ref.is sys i = true) : i < sys.species.length := by
  cases ref <;> simp only [Ref.is, Bool.and_eq_true, decide_eq_true_eq] at h <;> exact h.2

theorem effect_lt (sys : Sys) (i : Nat) (c : Call) (L : Lim) (h : effectUp sys i c = some L ∨ effectDown sys i c = some L) :
    i < sys.species.length := by
  have key : ∀ (s : Ref) (o : Option Lim) , (if s.is sys i = true then o else none) = some L → i < sys.species.length := by
    intro s o h
    by_cases hs : s.is sys i = true
    · exact is_lt sys i s hs
    · rw [if_neg hs] at h; cases h
  cases c <;> simp only [effectUp, effectDown] at h <;> rcases h with h | h <;> first | exact key _ _ h | cases h

theorem last_lt (sys : Sys) (i : Nat) (calls : List Call) (e : Call → Option Lim)
    (he : ∀ c L, e c = some L → i < sys.species.length) (h : last e calls ≠ .free) : i < sys.species.length := by
  unfold last at h
  cases hl : (calls.filterMap e).getLast? with
  | none => rw [hl] at h; exact absurd rfl h
  | some L =>
    have := List.mem_of_getLast? hl
    obtain ⟨c, -, hc⟩ := List.mem_filterMap.1 this
    exact he c L hc

theorem writeAll_spec {α : Type} (l : List (Nat × α)) : ∀ (v : List α), (∀ p ∈ l, p.1 < v.length) →
    ∃ v', writeAll v l = .ok v' ∧ v'.length = v.length ∧
      (∀ i, (∀ x, (i, x) ∉ l) → v'[i]? = v[i]?) ∧
      (∀ i a, (∃ x, (i, x) ∈ l) → (∀ x, (i, x) ∈ l → x = a) → v'[i]? = some a) := by
  induction l with
  | nil => intro v _; exact ⟨v, rfl, rfl, fun _ _ => rfl, fun _ _ ⟨_, hx⟩ => absurd hx List.not_mem_nil⟩
  | cons p l ih =>
    obtain ⟨j, x⟩ := p
    intro v hv
    have hj : j < v.length := hv (j, x) List.mem_cons_self
    obtain ⟨v', h1, h2, h3, h4⟩ := ih (v.set j x) (fun q hq => by rw [List.length_set]; exact hv q (List.mem_cons_of_mem _ hq))
    refine ⟨v', by simp only [writeAll]; rw [if_pos hj]; exact h1, by rw [h2, List.length_set], ?_, ?_⟩
    · intro i hi
      have hji : j ≠ i := by
        intro e
        subst e
        exact hi x List.mem_cons_self
      rw [h3 i (fun y hy => hi y (List.mem_cons_of_mem _ hy)), List.getElem?_set_ne hji]
    · rintro i a ⟨y, hy⟩ hall
      by_cases hex : ∃ z, (i, z) ∈ l
      · exact h4 i a hex (fun z hz => hall z (List.mem_cons_of_mem _ hz))
      · rcases List.mem_cons.1 hy with e | hy
        · injection e with e1 e2
          subst e1 e2
          rw [h3 i (fun z hz => hex ⟨z, hz⟩), List.getElem?_set_self hj, hall y List.mem_cons_self]
        · exact absurd ⟨y, hy⟩ hex

theorem amountsAt_spec (n0 : List Rat) : ∀ (l : List Nat), (∀ i ∈ l, i < n0.length) →
    ∃ l', amountsAt n0 l = .ok l' ∧ ∀ i x, (i, x) ∈ l' ↔ i ∈ l ∧ n0[i]? = some x := by
  intro l
  induction l with
  | nil => intro _; exact ⟨[], rfl, by simp⟩
  | cons j l ih =>
    intro h
    have hj := h j List.mem_cons_self
    obtain ⟨l', h1, h2⟩ := ih (fun i hi => h i (List.mem_cons_of_mem _ hi))
    refine ⟨(j, n0[j]) :: l', by simp only [amountsAt]; rw [at!_of_lt _ _ hj, h1]; rfl, ?_⟩
    intro i x
    rw [List.mem_cons, h2]
    constructor
    · rintro (e | ⟨hi, hx⟩)
      · cases e; exact ⟨List.mem_cons_self, List.getElem?_eq_getElem hj⟩
      · exact ⟨List.mem_cons_of_mem _ hi, hx⟩
    · rintro ⟨hi, hx⟩
      rcases List.mem_cons.1 hi with rfl | hi
      · left; rw [List.getElem?_eq_getElem hj] at hx; cases hx; rfl
      · exact .inr ⟨hi, hx⟩

/-- The vector before the floor is applied. -/
theorem raw_bounds (fixed : List Nat) (bounds : List (Nat × Rat)) (n0 : List Rat) (lim : Nat → Lim)
    (hs : ∀ i, Says fixed bounds i (lim i)) (hl : ∀ i, lim i ≠ .free → i < n0.length) :
    ∃ v1 l v2, writeAll (List.replicate n0.length none) (bounds.map fun p => (p.1, some p.2)) = .ok v1 ∧ amountsAt n0 fixed = .ok l ∧
      writeAll v1 (l.map fun p => (p.1, some p.2)) = .ok v2 ∧ v2.length = n0.length ∧
      ∀ i (hi : i < n0.length), v2[i]? = some (match lim i with | .free => none | .fixed => some n0[i] | .bound a => some a) := by
  have hb : ∀ i v, (i, v) ∈ bounds → lim i = .bound v := by
    intro i v hv
    have := hs i
    cases hL : lim i <;> rw [hL] at this
    · exact absurd hv (this.2 v)
    · exact absurd hv (this.2 v)
    · rw [(this.2 v).1 hv]
  have hf : ∀ i, i ∈ fixed ↔ lim i = .fixed := by
    intro i
    have := hs i
    cases hL : lim i <;> rw [hL] at this
    · exact ⟨fun h => absurd h this.1, fun h => Lim.noConfusion h⟩
    · exact ⟨fun _ => rfl, fun _ => this.1⟩
    · exact ⟨fun h => absurd h this.1, fun h => Lim.noConfusion h⟩
  obtain ⟨v1, h1, h2, h3, h4⟩ := writeAll_spec (bounds.map fun p => (p.1, some p.2)) (List.replicate n0.length none) (by
    intro p hp
    obtain ⟨⟨i, v⟩, hq, rfl⟩ := List.mem_map.1 hp
    rw [List.length_replicate]
    exact hl i (by rw [hb i v hq]; exact fun h => Lim.noConfusion h))
  obtain ⟨l, h5, h6⟩ := amountsAt_spec n0 fixed (fun i hi => hl i (by rw [(hf i).1 hi]; exact fun h => Lim.noConfusion h))
  have hv1 : v1.length = n0.length := by rw [h2, List.length_replicate]
  obtain ⟨v2, h7, h8, h9, h10⟩ := writeAll_spec (l.map fun p => (p.1, some p.2)) v1 (by
    intro p hp
    obtain ⟨⟨i, v⟩, hq, rfl⟩ := List.mem_map.1 hp
    rw [hv1]
    exact hl i (by rw [(hf i).1 ((h6 i v).1 hq).1]; exact fun h => Lim.noConfusion h))
  refine ⟨v1, l, v2, h1, h5, h7, by rw [h8, hv1], ?_⟩
  intro i hi
  have memb : ∀ x, (i, x) ∈ (bounds.map fun p => (p.1, some p.2)) ↔ ∃ v, (i, v) ∈ bounds ∧ x = some v := by
    intro x
    constructor
    · intro h
      obtain ⟨⟨j, v⟩, hq, e⟩ := List.mem_map.1 h
      cases e
      exact ⟨v, hq, rfl⟩
    · rintro ⟨v, hv, rfl⟩
      exact List.mem_map.2 ⟨(i, v), hv, rfl⟩
  have meml : ∀ x, (i, x) ∈ (l.map fun p => (p.1, some p.2)) ↔ i ∈ fixed ∧ x = some n0[i] := by
    intro x
    constructor
    · intro h
      obtain ⟨⟨j, v⟩, hq, e⟩ := List.mem_map.1 h
      injection e with e1 e2
      obtain ⟨h11, h12⟩ := (h6 j v).1 hq
      dsimp only at e1 e2
      rw [e1] at h11 h12
      rw [List.getElem?_eq_getElem hi] at h12
      exact ⟨h11, by rw [← e2, h12]⟩
    · rintro ⟨hfi, rfl⟩
      exact List.mem_map.2 ⟨(i, n0[i]), (h6 i _).2 ⟨hfi, List.getElem?_eq_getElem hi⟩, rfl⟩
  have hsi := hs i
  cases hL : lim i with
  | free =>
    rw [hL] at hsi
    rw [h9 i (fun x hx => hsi.1 ((meml x).1 hx).1), h3 i (fun x hx => by
      obtain ⟨v, hv, -⟩ := (memb x).1 hx
      exact hsi.2 v hv), List.getElem?_replicate, if_pos hi]
  | fixed =>
    rw [hL] at hsi
    exact h10 i _ ⟨some n0[i], (meml _).2 ⟨hsi.1, rfl⟩⟩ (fun x hx => ((meml x).1 hx).2)
  | bound a =>
    rw [hL] at hsi
    rw [h9 i (fun x hx => hsi.1 ((meml x).1 hx).1)]
    refine h4 i _ ⟨some a, (memb _).2 ⟨a, (hsi.2 a).2 rfl, rfl⟩⟩ ?_
    intro x hx
    obtain ⟨v, hv, rfl⟩ := (memb x).1 hx
    rw [(hsi.2 v).1 hv]

theorem says_perm {f f' : List Nat} {b b' : List (Nat × Rat)} (hf : f'.Perm f) (hb : b'.Perm b) {i : Nat} {L : Lim} (h : Says f b i L) :
    Says f' b' i L := by
  cases L <;> simp only [Says, hf.mem_iff, hb.mem_iff] at h ⊢ <;> exact h

theorem max_eq (v eps : Rat) : (if v < eps then eps else v) = max v eps := by
  rw [max_def]
  by_cases h : v < eps
  · rw [if_pos h, if_pos h.le]
  · rw [if_neg h]
    by_cases h' : v ≤ eps
    · rw [if_pos h']; exact le_antisymm h' (not_lt.1 h) |>.symm ▸ rfl
    · rw [if_neg h']

/-- **C40 (lower bounds).** For every history of restrictions, every order of iteration and all initial amounts, the lower bound of
species `i` is the one that implements its last restriction on decrease, raised to the floor; implicit titrants have none. -/
theorem C40_lower_bounds (sys : Sys) (calls : List Call) (r : Restr) (h : run sys {} calls = (r, .returned)) (below : List (Nat × Rat))
    (fixed : List Nat) (hb : below.Perm r.cannotDecreaseBelow) (hf : fixed.Perm r.cannotDecrease) (n0 : List Rat)
    (hn : n0.length = sys.species.length) (nq : Nat) (eps : Rat) :
    ∃ xlower, lowerBounds below fixed n0 sys.species.length nq eps = .ok xlower ∧ xlower.length = sys.species.length + nq ∧
      (∀ i (hi : i < n0.length), xlower[i]? = some (some ((last (effectDown sys i) calls).lower n0[i] eps))) ∧
      (∀ i, sys.species.length ≤ i → i < sys.species.length + nq → xlower[i]? = some none) := by
  obtain ⟨v1, l, v2, h1, h2, h3, h4, h5⟩ := raw_bounds fixed below n0 (fun i => last (effectDown sys i) calls)
    (fun i => says_perm hf hb (C39_last_wins sys calls i r h).2)
    (fun i hi => by rw [hn]; exact last_lt sys i calls _ (fun c L hc => effect_lt sys i c L (.inr hc)) hi)
  unfold lowerBounds
  rw [← hn, h1, Res.bind_ok', h2, Res.bind_ok', h3, Res.bind_ok']
  refine ⟨_, rfl, by simp [h4], ?_, ?_⟩
  · intro i hi
    rw [List.getElem?_append_left (by simpa [h4] using hi), List.getElem?_map, h5 i hi]
    cases hL : last (effectDown sys i) calls <;> simp [maxLower, Lim.lower, max_eq]
  · intro i h6 h7
    rw [List.getElem?_append_right (by simpa [h4] using h6), List.getElem?_replicate, if_pos]
    simp only [List.length_map, h4]
    omega

/-- **C40 (upper bounds).** The upper bound of species `i` is the one that implements its last restriction on increase, raised to the
floor, and none if it can increase freely; implicit titrants have none. -/
theorem C40_upper_bounds (sys : Sys) (calls : List Call) (r : Restr) (h : run sys {} calls = (r, .returned)) (above : List (Nat × Rat))
    (fixed : List Nat) (hb : above.Perm r.cannotIncreaseAbove) (hf : fixed.Perm r.cannotIncrease) (n0 : List Rat)
    (hn : n0.length = sys.species.length) (nq : Nat) (eps : Rat) :
    ∃ xupper, upperBounds above fixed n0 sys.species.length nq eps = .ok xupper ∧ xupper.length = sys.species.length + nq ∧
      (∀ i (hi : i < n0.length), xupper[i]? = some ((last (effectUp sys i) calls).upper n0[i] eps)) ∧
      (∀ i, sys.species.length ≤ i → i < sys.species.length + nq → xupper[i]? = some none) := by
  obtain ⟨v1, l, v2, h1, h2, h3, h4, h5⟩ := raw_bounds fixed above n0 (fun i => last (effectUp sys i) calls)
    (fun i => says_perm hf hb (C39_last_wins sys calls i r h).1)
    (fun i hi => by rw [hn]; exact last_lt sys i calls _ (fun c L hc => effect_lt sys i c L (.inl hc)) hi)
  unfold upperBounds
  rw [← hn, h1, Res.bind_ok', h2, Res.bind_ok', h3, Res.bind_ok']
  refine ⟨_, rfl, by simp [h4], ?_, ?_⟩
  · intro i hi
    rw [List.getElem?_append_left (by simpa [h4] using hi), List.getElem?_map, h5 i hi]
    cases hL : last (effectUp sys i) calls <;> simp [maxUpper, Lim.upper, max_eq]
  · intro i h6 h7
    rw [List.getElem?_append_right (by simpa [h4] using h6), List.getElem?_replicate, if_pos]
    simp only [List.length_map, h4]
    omega

/-- **C40 (initial amounts), partial.** If the initial amount is not below the floor and respects the bounds given by the user, it lies
within the bounds passed to the optimizer, a species that cannot increase (decrease) has it as its upper (lower) bound, and the
lower bound is not above the upper bound. Missing: other initial amounts and bounds, for which this is false
(`C40_fixed_zero_must_increase`, `C40_bounds_cross`). -/
theorem C40_within_partial (up down : Lim) (n0 eps : Rat) (h0 : eps ≤ n0) (hu : ∀ a, up = .bound a → n0 ≤ a)
    (hd : ∀ a, down = .bound a → a ≤ n0) :
    down.lower n0 eps ≤ n0 ∧ (∀ b, up.upper n0 eps = some b → n0 ≤ b ∧ down.lower n0 eps ≤ b) ∧
    (down = .fixed → down.lower n0 eps = n0) ∧ (up = .fixed → up.upper n0 eps = some n0) := by
  have h1 : down.lower n0 eps ≤ n0 := by
    cases down with
    | free => exact h0
    | fixed => exact max_le le_rfl h0
    | bound a => exact max_le (hd a rfl) h0
  have h2 : ∀ b, up.upper n0 eps = some b → n0 ≤ b := by
    intro b hb
    cases up with
    | free => cases hb
    | fixed => cases hb; exact le_max_left _ _
    | bound a => cases hb; exact (hu a rfl).trans (le_max_left _ _)
  refine ⟨h1, fun b hb => ⟨h2 b hb, h1.trans (h2 b hb)⟩, ?_, ?_⟩
  · rintro rfl; exact max_eq_left h0
  · rintro rfl; exact congrArg some (max_eq_left h0)

/-- **C40, counterexample.** A species with amount zero that cannot react is given the bounds epsilon and epsilon: it must increase. -/
theorem C40_fixed_zero_must_increase (eps : Rat) (h : 0 < eps) :
    run exampleSys {} [.cannotReact (.name c!"H2O")] = (⟨[0], [0], [], []⟩, .returned) ∧
    lowerBounds [] [0] [0] 1 0 eps = .ok [some eps] ∧ upperBounds [] [0] [0] 1 0 eps = .ok [some eps] ∧ (0 : Rat) < eps := by
  refine ⟨by decide +kernel, ?_, ?_, h⟩
  · simp [lowerBounds, writeAll, amountsAt, at!, maxLower, Res.bind, h]
  · simp [upperBounds, writeAll, amountsAt, at!, maxUpper, Res.bind, h]

/-- **C40, counterexample.** Bounds given by the user can cross: the lower bound is above the upper one. -/
theorem C40_bounds_cross :
    ∃ r, run exampleSys {} [.cannotIncreaseAbove (.index 0) 1 c!"mol", .cannotDecreaseBelow (.index 0) 2 c!"mol"] = (r, .returned) ∧
    lowerBounds r.cannotDecreaseBelow r.cannotDecrease [1] 1 0 (1 / 1000000) = .ok [some 2] ∧
    upperBounds r.cannotIncreaseAbove r.cannotIncrease [1] 1 0 (1 / 1000000) = .ok [some 1] :=
  ⟨⟨[], [], [(0, 1)], [(0, 2)]⟩, by decide +kernel, by decide +kernel, by decide +kernel⟩

/-! ### Examples -/

example : run exampleSys {} [.cannotIncreaseAbove (.name c!"H2O") 18 c!"g", .cannotIncrease (.name c!"CO2"), .cannotReact (.index 0),
    .cannotDecreaseBelow (.index 0) 5 c!"mol"] = (⟨[0], [], [], [(0, 5)]⟩, .returned) := by decide +kernel

example : last (effectDown exampleSys 0) [.cannotReact (.index 0), .cannotDecreaseBelow (.index 0) 5 c!"mol"] = .bound 5 := by decide +kernel

end Verif.Restrictions
