import Verif.Spec.ValueObjects

/-!
# C96: elements, species, phases and reactions are values
-/

namespace Verif.ValueObjects

open Chem

variable {R U M D : Type}

/-! ### Pointers do not show -/

theorem at_eq {α : Type} (l : List α) (i : Nat) (x : α) (h : l[i]? = some x) : at! l i = .ok x := by
  unfold at!; rw [h]

theorem at_none {α : Type} (l : List α) (i : Nat) (h : l[i]? = none) : at! l i = .ub := by
  unfold at!; rw [h]

/-- Every object points to a cell, and shows a value. -/
def Valid (m : Memory R) (vals : List R) : Prop := m.shown = vals.map some

theorem Valid.get {m : Memory R} {vals : List R} (h : Valid m vals) (x : Nat) :
    (m.vars[x]? = none ∧ vals[x]? = none) ∨ ∃ a v, m.vars[x]? = some a ∧ vals[x]? = some v ∧ m.heap[a]? = some v := by
  have := congrArg (fun l => l[x]?) h
  simp only [Memory.shown, List.getElem?_map] at this
  cases h1 : m.vars[x]? <;> cases h2 : vals[x]? <;> simp only [h1, h2, Option.map_none, Option.map_some, reduceCtorEq, Option.some.injEq] at this
  · exact .inl ⟨rfl, rfl⟩
  · exact .inr ⟨_, _, rfl, rfl, this⟩

theorem Valid.lt {m : Memory R} {vals : List R} (h : Valid m vals) (a : Nat) (ha : a ∈ m.vars) : a < m.heap.length := by
  by_contra hc
  have h1 : m.heap[a]? = none := List.getElem?_eq_none (by omega)
  have : none ∈ m.shown := List.mem_map.2 ⟨a, ha, h1⟩
  rw [h] at this
  simp at this

/-- A longer heap with the old cells shows the same. -/
theorem Valid.grow {m : Memory R} {vals : List R} (h : Valid m vals) (hs : List R) :
    m.vars.map (fun a => (m.heap ++ hs)[a]?) = vals.map some := by
  rw [← h]
  refine List.map_congr_left fun a ha => ?_
  rw [List.getElem?_append_left (h.lt a ha)]

theorem clone_eq (dflt : R) (h : List R) (a : Nat) (v : R) (ha : h[a]? = some v) : clone dflt h a = .ok (h ++ [v], h.length) := by
  have h1 : (h ++ [dflt])[a]? = some v := by
    rw [List.getElem?_append_left (List.getElem?_eq_some_iff.1 ha).1]; exact ha
  unfold clone
  simp only [at_eq _ _ _ h1, Res.bind_ok', List.length_append, List.length_singleton, Nat.add_sub_cancel]
  simp

theorem step_meaning (c : Class R U) (m : Memory R) (vals : List R) (h : Valid m vals) (s : Stmt R U) :
    (∃ b m' vals', step c m s = .ok (b, m') ∧ meaning c vals s = .ok (b, vals') ∧ Valid m' vals') ∨
    (step c m s = .ub ∧ meaning c vals s = .ub) := by
  cases s with
  | create r =>
    cases r with
    | ok r =>
      refine .inl ⟨true, _, _, rfl, rfl, ?_⟩
      show (m.vars ++ [m.heap.length]).map _ = _
      rw [List.map_append, h.grow]
      simp
    | throw => exact .inl ⟨false, _, _, rfl, rfl, h⟩
    | ub => exact .inr ⟨rfl, rfl⟩
  | copy x =>
    rcases h.get x with ⟨h1, h2⟩ | ⟨a, v, h1, h2, h3⟩
    · right; simp only [step, meaning, at_none _ _ h1, at_none _ _ h2, Res.bind_ub', and_self]
    · refine .inl ⟨true, ⟨m.heap, m.vars ++ [a]⟩, vals ++ [v], ?_, ?_, ?_⟩
      · simp only [step, at_eq _ _ _ h1, Res.bind_ok']
      · simp only [meaning, at_eq _ _ _ h2, Res.bind_ok']
      · show (m.vars ++ [a]).map (fun a => m.heap[a]?) = _
        rw [List.map_append, List.map_append]
        have : m.vars.map (fun a => m.heap[a]?) = vals.map some := h
        rw [this, List.map_cons, List.map_nil, h3]
        rfl
  | assign x y =>
    rcases h.get y with ⟨h1, h2⟩ | ⟨a, v, h1, h2, h3⟩
    · right; simp only [step, meaning, at_none _ _ h1, at_none _ _ h2, Res.bind_ub', and_self]
    · rcases h.get x with ⟨k1, k2⟩ | ⟨b, w, k1, k2, k3⟩
      · right; simp only [step, meaning, at_eq _ _ _ h1, at_eq _ _ _ h2, at_none _ _ k1, at_none _ _ k2, Res.bind_ub', Res.bind_ok', and_self]
      · refine .inl ⟨true, ⟨m.heap, m.vars.set x a⟩, vals.set x v, ?_, ?_, ?_⟩
        · simp only [step, at_eq _ _ _ h1, at_eq _ _ _ k1, Res.bind_ok']
        · simp only [meaning, at_eq _ _ _ h2, at_eq _ _ _ k2, Res.bind_ok']
        · show (m.vars.set x a).map (fun a => m.heap[a]?) = _
          rw [List.map_set, List.map_set, h3]
          have : m.vars.map (fun a => m.heap[a]?) = vals.map some := h
          rw [this]
  | update x u =>
    rcases h.get x with ⟨h1, h2⟩ | ⟨a, v, h1, h2, h3⟩
    · right; simp only [step, meaning, at_none _ _ h1, at_none _ _ h2, Res.bind_ub', and_self]
    · cases hc : c.check u with
      | throw => exact .inl ⟨false, m, vals, by simp only [step, at_eq _ _ _ h1, Res.bind_ok', hc],
          by simp only [meaning, at_eq _ _ _ h2, Res.bind_ok', changed, hc, Res.bind_throw'], h⟩
      | ub => exact .inr ⟨by simp only [step, at_eq _ _ _ h1, Res.bind_ok', hc],
          by simp only [meaning, at_eq _ _ _ h2, Res.bind_ok', changed, hc, Res.bind_ub']⟩
      | ok _ =>
        have hb : (m.heap ++ [v])[m.heap.length]? = some v := by simp
        cases hw : c.write u v with
        | throw =>
          refine .inl ⟨false, ⟨m.heap ++ [v], m.vars⟩, vals, ?_, ?_, h.grow [v]⟩
          · simp only [step, at_eq _ _ _ h1, Res.bind_ok', hc, clone_eq _ _ _ _ h3, at_eq _ _ _ hb, hw]
          · simp only [meaning, at_eq _ _ _ h2, Res.bind_ok', changed, hc, hw]
        | ub =>
          refine .inr ⟨?_, ?_⟩
          · simp only [step, at_eq _ _ _ h1, Res.bind_ok', hc, clone_eq _ _ _ _ h3, at_eq _ _ _ hb, hw]
          · simp only [meaning, at_eq _ _ _ h2, Res.bind_ok', changed, hc, hw]
        | ok w =>
          refine .inl ⟨true, ⟨m.heap ++ [w], m.vars ++ [m.heap.length]⟩, vals ++ [w], ?_, ?_, ?_⟩
          · simp only [step, at_eq _ _ _ h1, Res.bind_ok', hc, clone_eq _ _ _ _ h3, at_eq _ _ _ hb, hw]
            simp
          · simp only [meaning, at_eq _ _ _ h2, Res.bind_ok', changed, hc, hw]
          · show (m.vars ++ [m.heap.length]).map _ = _
            rw [List.map_append, h.grow]
            simp

theorem run_meanings (c : Class R U) (ss : List (Stmt R U)) (m : Memory R) (vals : List R) (h : Valid m vals) :
    (∃ flags m' vals', run c m ss = .ok (flags, m') ∧ meanings c vals ss = .ok (flags, vals') ∧ Valid m' vals') ∨
    (run c m ss = .ub ∧ meanings c vals ss = .ub) := by
  induction ss generalizing m vals with
  | nil => exact .inl ⟨[], m, vals, rfl, rfl, h⟩
  | cons s ss ih =>
    rcases step_meaning c m vals h s with ⟨b, m1, v1, h1, h2, h3⟩ | ⟨h1, h2⟩
    · rcases ih m1 v1 h3 with ⟨fl, m2, v2, k1, k2, k3⟩ | ⟨k1, k2⟩
      · exact .inl ⟨b :: fl, m2, v2, by simp only [run, h1, Res.bind_ok', k1], by simp only [meanings, h2, Res.bind_ok', k2], k3⟩
      · exact .inr ⟨by simp only [run, h1, Res.bind_ok', k1, Res.bind_ub'], by simp only [meanings, h2, Res.bind_ok', k2, Res.bind_ub']⟩
    · exact .inr ⟨by simp only [run, h1, Res.bind_ub'], by simp only [meanings, h2, Res.bind_ub']⟩

/-- C96: for every class of this kind (elements, species, phases, reactions) and every program, sharing of cells cannot be observed: the
objects show what variables holding plain values would show, the same statements throw, and a statement that throws changes nothing. -/
theorem C96_values (c : Class R U) (ss : List (Stmt R U)) :
    (run c {} ss).bind (fun r => .ok (r.1, r.2.shown)) = (meanings c [] ss).bind (fun r => .ok (r.1, r.2.map some)) := by
  rcases run_meanings c ss {} [] rfl with ⟨fl, m, v, h1, h2, h3⟩ | ⟨h1, h2⟩
  · rw [h1, h2]
    simp only [Res.bind_ok']
    rw [h3]
  · rw [h1, h2]
    rfl

/-- C96: a `with...` method leaves all existing objects as they are, copies of its object included. -/
theorem C96_with_keeps (c : Class R U) (ss : List (Stmt R U)) (fl : List Bool) (m m' : Memory R) (x : Nat) (u : U) (b : Bool)
    (hr : run c {} ss = .ok (fl, m)) (h : step c m (.update x u) = .ok (b, m')) (y : Nat) (hy : y < m.vars.length) : m'.value y = m.value y := by
  rcases run_meanings c ss {} [] rfl with ⟨fl', m1, v, h1, -, h3⟩ | ⟨h1, -⟩ <;> rw [hr] at h1
  · simp only [Res.ok.injEq, Prod.mk.injEq] at h1
    obtain ⟨-, rfl⟩ := h1
    have key : ∀ (m' : Memory R) (v' : List R), Valid m' v' → ∀ (z : Nat) (w : R), v'[z]? = some w → m'.value z = .ok w := by
      intro m' v' hv z w hz
      rcases hv.get z with ⟨-, k⟩ | ⟨a, w', k1, k2, k3⟩
      · rw [hz] at k; cases k
      · rw [hz] at k2
        cases k2
        simp only [Memory.value, at_eq _ _ _ k1, Res.bind_ok', at_eq _ _ _ k3]
    have hvy : ∃ w, v[y]? = some w := by
      rcases h3.get y with ⟨k, -⟩ | ⟨a, w, -, k, -⟩
      · have := List.getElem?_eq_none_iff.1 k; omega
      · exact ⟨w, k⟩
    obtain ⟨w, hw⟩ := hvy
    rw [key m v h3 y w hw]
    rcases step_meaning c m v h3 (.update x u) with ⟨b', m2, v2, k1, k2, k3⟩ | ⟨k1, -⟩ <;> rw [h] at k1
    · simp only [Res.ok.injEq, Prod.mk.injEq] at k1
      obtain ⟨-, rfl⟩ := k1
      refine key m' v2 k3 y w ?_
      simp only [meaning] at k2
      cases hx : at! v x <;> rw [hx] at k2 <;> simp only [Res.bind_ok', Res.bind_throw', Res.bind_ub', reduceCtorEq] at k2
      split at k2
      · simp only [Res.ok.injEq, Prod.mk.injEq] at k2
        rw [← k2.2, List.getElem?_append_left (List.getElem?_eq_some_iff.1 hw).1]
        exact hw
      · simp only [Res.ok.injEq, Prod.mk.injEq] at k2
        rw [← k2.2]
        exact hw
      · cases k2
    · cases k1
  · cases h1

/-- A property of values that constructors establish and `with...` methods keep holds for all objects of all programs. -/
theorem meanings_inv (c : Class R U) (P : R → Prop) (ss : List (Stmt R U)) (vals vals' : List R) (fl : List Bool)
    (hc : ∀ r, Stmt.create (.ok r) ∈ ss → P r) (hu : ∀ u r r', P r → changed c u r = .ok r' → P r')
    (hv : ∀ r ∈ vals, P r) (h : meanings c vals ss = .ok (fl, vals')) : ∀ r ∈ vals', P r := by
  induction ss generalizing vals fl with
  | nil =>
    simp only [meanings, Res.ok.injEq, Prod.mk.injEq] at h
    obtain ⟨-, rfl⟩ := h
    exact hv
  | cons s ss ih =>
    simp only [meanings] at h
    cases hs : meaning c vals s <;> rw [hs] at h <;> simp only [Res.bind_ok', Res.bind_throw', Res.bind_ub', reduceCtorEq] at h
    rename_i r
    cases hr : meanings c r.2 ss <;> rw [hr] at h <;> simp only [Res.bind_ok', Res.bind_throw', Res.bind_ub', reduceCtorEq, Res.ok.injEq, Prod.mk.injEq] at h
    rename_i q
    obtain ⟨-, rfl⟩ := h
    refine ih r.2 q.1 (fun r hr => hc r (List.mem_cons_of_mem _ hr)) ?_ (by rw [hr])
    have hat : ∀ (i : Nat) (v : R), at! vals i = .ok v → v ∈ vals := by
      intro i v hi
      unfold at! at hi
      split at hi
      · rename_i w hw
        cases hi
        exact List.mem_of_getElem? hw
      · cases hi
    cases s with
    | create x =>
      cases x with
      | ok x =>
        simp only [meaning, Res.ok.injEq] at hs
        subst hs
        intro z hz
        rcases List.mem_append.1 hz with hz | hz
        · exact hv z hz
        · rw [List.mem_singleton.1 hz]; exact hc x (by simp)
      | throw => simp only [meaning, Res.ok.injEq] at hs; subst hs; exact hv
      | ub => simp only [meaning, reduceCtorEq] at hs
    | copy x =>
      simp only [meaning] at hs
      cases hx : at! vals x <;> rw [hx] at hs <;> simp only [Res.bind_ok', Res.bind_throw', Res.bind_ub', reduceCtorEq, Res.ok.injEq] at hs
      subst hs
      intro z hz
      rcases List.mem_append.1 hz with hz | hz
      · exact hv z hz
      · rw [List.mem_singleton.1 hz]; exact hv _ (hat _ _ hx)
    | assign x y =>
      simp only [meaning] at hs
      cases hy : at! vals y <;> rw [hy] at hs <;> simp only [Res.bind_ok', Res.bind_throw', Res.bind_ub', reduceCtorEq] at hs
      cases hx : at! vals x <;> rw [hx] at hs <;> simp only [Res.bind_ok', Res.bind_throw', Res.bind_ub', reduceCtorEq, Res.ok.injEq] at hs
      subst hs
      intro z hz
      rcases List.mem_or_eq_of_mem_set hz with hz | rfl
      · exact hv z hz
      · exact hv _ (hat _ _ hy)
    | update x u =>
      simp only [meaning] at hs
      cases hx : at! vals x <;> rw [hx] at hs <;> simp only [Res.bind_ok', Res.bind_throw', Res.bind_ub', reduceCtorEq] at hs
      rename_i v
      cases hw : changed c u v <;> rw [hw] at hs <;> simp only [reduceCtorEq, Res.ok.injEq] at hs
      · subst hs
        intro z hz
        rcases List.mem_append.1 hz with hz | hz
        · exact hv z hz
        · rw [List.mem_singleton.1 hz]; exact hu u v _ (hv _ (hat _ _ hx)) hw
      · subst hs; exact hv

/-! ### Elements -/

/-- C96, elements: the constructor fails exactly for an empty symbol or a negative molar mass, and otherwise shows what it was given, the symbol
being the name if there is none. -/
theorem C96_element_attribs (a : ElementAttribs) :
    (newElement a = .throw ↔ a.symbol = [] ∨ a.molarMass < 0) ∧
    (∀ e, newElement a = .ok e → e.symbol = a.symbol ∧ e.molarMass = a.molarMass ∧ e.tags = a.tags ∧
      (a.name ≠ [] → e.name = a.name) ∧ (a.name = [] → e.name = a.symbol)) ∧ newElement a ≠ .ub := by
  unfold newElement
  by_cases h1 : a.symbol = []
  · simp [h1]
  · by_cases h2 : a.molarMass < 0
    · simp [h1, h2]
    · rw [if_neg h1, if_neg h2]
      refine ⟨by simp [h1, h2], ?_, by simp⟩
      intro e he
      cases he
      refine ⟨rfl, rfl, rfl, fun h => ?_, fun h => ?_⟩ <;> simp [h]

/-- C96, elements: in every program that makes elements with its constructors, no element has a negative molar mass. -/
theorem C96_element_masses (ss : List (Stmt Element ElementWith)) (fl : List Bool) (m : Memory Element)
    (hc : ∀ r, Stmt.create r ∈ ss → r = .ok elementClass.dflt ∨ ∃ a, r = newElement a) (h : run elementClass {} ss = .ok (fl, m)) (x : Nat) (e : Element)
    (hx : m.value x = .ok e) : 0 ≤ e.molarMass := by
  rcases run_meanings elementClass ss {} [] rfl with ⟨fl', m1, v, h1, h2, h3⟩ | ⟨h1, -⟩ <;> rw [h] at h1
  swap
  · cases h1
  simp only [Res.ok.injEq, Prod.mk.injEq] at h1
  obtain ⟨-, rfl⟩ := h1
  have hinv := meanings_inv elementClass (fun e => 0 ≤ e.molarMass) ss [] v fl' ?_ ?_ (by simp) h2
  · rcases h3.get x with ⟨k, -⟩ | ⟨a, w, k1, k2, k3⟩
    · simp only [Memory.value, at_none _ _ k, Res.bind_ub', reduceCtorEq] at hx
    · simp only [Memory.value, at_eq _ _ _ k1, Res.bind_ok', at_eq _ _ _ k3, Res.ok.injEq] at hx
      subst hx
      exact hinv w (List.mem_of_getElem? k2)
  · intro r hr
    rcases hc _ hr with h | ⟨a, h⟩
    · cases h; exact Rat.le_refl
    · have h0 := (C96_element_attribs a).2.1 r h.symm
      rw [h0.2.1]
      by_contra hneg
      have := (C96_element_attribs a).1.2 (.inr (Rat.not_le.1 hneg))
      rw [← h] at this
      cases this
  · intro u r r' hr hu
    cases u with
    | molarMass mm =>
      by_cases hm : mm < 0
      · simp only [changed, elementClass, if_pos hm, Res.bind_throw', reduceCtorEq] at hu
      · simp only [changed, elementClass, if_neg hm, Res.bind_ok', Res.ok.injEq] at hu
        subst hu
        exact Rat.not_lt.1 hm
    | symbol s => simp only [changed, elementClass, Res.bind_ok', Res.ok.injEq] at hu; subst hu; exact hr
    | name s => simp only [changed, elementClass, Res.bind_ok', Res.ok.injEq] at hu; subst hu; exact hr
    | tags l => simp only [changed, elementClass, Res.bind_ok', Res.ok.injEq] at hu; subst hu; exact hr

/-- A program with copies, changes and a rejected change. -/
def elementProgram : List (Stmt Element ElementWith) :=
  [.create (newElement ⟨c!"Na", 23 / 1000, c!"Sodium", []⟩), .copy 0, .update 1 (.name c!"Natrium"), .update 0 (.molarMass (-1)), .assign 1 2]

example : (run elementClass {} elementProgram).bind (fun r => .ok (r.1, r.2.shown.map (·.map (·.name)))) =
    .ok ([true, true, true, false, true], [some c!"Sodium", some c!"Natrium", some c!"Natrium"]) := by decide +kernel

/-! ### Species -/

theorem removeSuffix_ok (f : Str) (h : f ≠ []) : ∃ p, ChargeParser.splitSpeciesNameSuffix f = .ok p ∧ removeSuffix f = .ok p.1 := by
  have : ∃ p, ChargeParser.splitSpeciesNameSuffix f = .ok p := by
    unfold ChargeParser.splitSpeciesNameSuffix
    cases hl : f.getLast? with
    | none => exact absurd (List.getLast?_eq_none_iff.1 hl) h
    | some last =>
      simp only
      split
      · exact ⟨_, rfl⟩
      · split
        · split
          · exact ⟨_, rfl⟩
          · exact ⟨_, rfl⟩
        · split
          · exact ⟨_, rfl⟩
          · exact ⟨_, rfl⟩
  obtain ⟨p, hp⟩ := this
  exact ⟨p, hp, by rw [removeSuffix, hp, Res.bind_ok']⟩

/-- C96, species: the constructor from attributes fails exactly when the documentation says so, and otherwise the species shows the attributes: the formula
without its suffix, which is also the substance if none is given, and the model that is given or that of the formation reaction. -/
theorem C96_species_attribs (a : Attribs M) :
    ((ofAttribs a : Res (Impl M D)) = .throw ↔ a.Bad) ∧
    (¬ a.Bad → ∃ (o : Impl M D) (f suffix : Str), ofAttribs a = .ok o ∧ ChargeParser.splitSpeciesNameSuffix a.formula = .ok (f, suffix) ∧
      o.view = { name := a.name, formula := f, formulaElements := a.elements.map (fun p => (p.1.symbol, p.2)), formulaCharge := a.charge,
                 substance := if a.substance ≠ [] then .ok a.substance else if f ≠ [] then .ok f else removeSuffix a.name,
                 elements := a.elements, charge := a.charge, state := .ok a.state, tags := a.tags,
                 reactants := if a.model.isSome then [] else a.reaction.reactants,
                 model := if a.model.isSome then a.model else a.reaction.derived, data := none }) := by
  have hini : a.reaction.initialized = true ↔ (a.reaction.reactants ≠ [] ∧ a.reaction.hasModel = true) := by
    simp only [Formation.initialized, Bool.and_eq_true, Bool.not_eq_true']
    cases a.reaction.reactants <;> simp
  by_cases hbad : a.Bad
  · refine ⟨⟨fun _ => hbad, fun _ => ?_⟩, fun h => absurd hbad h⟩
    unfold ofAttribs
    by_cases h1 : a.name = []
    · rw [if_pos h1]
    by_cases h2 : a.formula = []
    · rw [if_neg h1, if_pos h2]
    by_cases h3 : a.elements = []
    · rw [if_neg h1, if_neg h2, if_pos (by rw [h3]; rfl)]
    by_cases h4 : a.state = .Undefined
    · rw [if_neg h1, if_neg h2, if_neg (by simpa using h3), if_pos h4]
    · rw [if_neg h1, if_neg h2, if_neg (by simpa using h3), if_neg h4]
      simp only [Attribs.Bad, h1, h2, h3, h4, false_or] at hbad
      rw [← hini] at hbad
      cases hm : a.model <;> cases hi : a.reaction.initialized <;> simp [hm, hi] at hbad ⊢
  · simp only [Attribs.Bad, not_or] at hbad
    obtain ⟨h1, h2, h3, h4, h5⟩ := hbad
    rw [← hini] at h5
    obtain ⟨⟨f, suf⟩, hp, hf⟩ := removeSuffix_ok a.formula h2
    have hsub : ∀ (o : Impl M D), o.name = a.name → o.substance = (if a.substance = [] then f else a.substance) →
        o.getSubstance = (if a.substance ≠ [] then .ok a.substance else if f ≠ [] then .ok f else removeSuffix a.name) := by
      intro o ho1 ho2
      unfold Impl.getSubstance Impl.getName
      rw [ho1, ho2, if_neg h1]
      by_cases hs : a.substance = []
      · by_cases hf0 : f = [] <;> simp [hs, hf0]
      · simp [hs]
    have hst : ∀ (o : Impl M D), o.state = some a.state → o.getAggregateState = .ok a.state := by
      intro o ho
      unfold Impl.getAggregateState
      rw [ho]
      cases ha : a.state <;> simp_all
    have hnm : ∀ (o : Impl M D), o.name = a.name → o.getName = a.name := by
      intro o ho
      unfold Impl.getName
      rw [ho, if_neg h1]
    have main : ∃ (o : Impl M D), ofAttribs a = .ok o ∧
      o.view = { name := a.name, formula := f, formulaElements := a.elements.map (fun p => (p.1.symbol, p.2)), formulaCharge := a.charge,
                 substance := if a.substance ≠ [] then .ok a.substance else if f ≠ [] then .ok f else removeSuffix a.name,
                 elements := a.elements, charge := a.charge, state := .ok a.state, tags := a.tags,
                 reactants := if a.model.isSome then [] else a.reaction.reactants,
                 model := if a.model.isSome then a.model else a.reaction.derived, data := none } := by
      unfold ofAttribs
      rw [if_neg h1, if_neg h2, if_neg (by simpa using h3), if_neg h4, hf]
      cases hm : a.model with
      | none =>
        have hi : a.reaction.initialized = true := by
          by_contra hc
          exact h5 (by simp [hm, hc])
        have hcm : a.reaction.createModel = .ok a.reaction.derived := by
          obtain ⟨r1, r2⟩ := hini.1 hi
          unfold Formation.createModel
          rw [if_neg (by simpa using r1), r2]
          rfl
        simp only [hi, Option.isSome_none, Bool.not_false, Bool.not_true, Bool.and_false, Bool.false_and, Bool.false_eq_true, if_false, Res.bind_ok', if_true, hcm]
        refine ⟨_, rfl, ?_⟩
        simp only [Impl.view, View.mk.injEq]
        exact ⟨hnm _ rfl, rfl, rfl, rfl, hsub _ rfl rfl, rfl, rfl, hst _ rfl, rfl, rfl, rfl, rfl⟩
      | some mm =>
        have hi : a.reaction.initialized = false := by
          cases hi : a.reaction.initialized
          · rfl
          · exact absurd (by simp [hm, hi]) h5
        simp only [hi, Option.isSome_some, Bool.not_true, Bool.not_false, Bool.false_and, Bool.and_false, Bool.false_eq_true, if_false, if_true, Res.bind_ok']
        refine ⟨_, rfl, ?_⟩
        simp only [Impl.view, View.mk.injEq]
        exact ⟨hnm _ rfl, rfl, rfl, rfl, hsub _ rfl rfl, rfl, rfl, hst _ rfl, rfl, rfl, rfl, rfl⟩
    obtain ⟨o, ho, hv⟩ := main
    refine ⟨⟨fun h => ?_, fun h => ?_⟩, fun _ => ⟨o, f, suf, ho, hp, hv⟩⟩
    · rw [ho] at h; cases h
    · simp only [Attribs.Bad, h1, h2, h3, h4, false_or] at h
      rw [← hini] at h
      exact absurd h h5

theorem composition_ok (registry : Str → Option Element) (els : List (Str × Rat)) (elements : List (Element × Rat))
    (h : composition registry els = .ok elements) : List.Forall₂ (fun p q => registry p.1 = some q.1 ∧ p.2 = q.2) els elements := by
  induction els generalizing elements with
  | nil => simp only [composition, Res.ok.injEq] at h; subst h; exact .nil
  | cons p els ih =>
    obtain ⟨s, c⟩ := p
    simp only [composition] at h
    cases hr : registry s with
    | none => rw [hr] at h; cases h
    | some e =>
      rw [hr] at h
      obtain ⟨l, hl, h⟩ := Res.bind_eq_ok.1 h
      cases h
      exact .cons ⟨hr, rfl⟩ (ih l hl)

/-- C96, species: a species that is made from a formula shows the formula with its suffix as name, without it as formula and substance, and the
elements, the charge and the aggregate state that are written in it; it fails when an element is not known. -/
theorem C96_species_formula (registry : Str → Option Element) (formula : Str) (o : Impl M D) (h : ofFormula registry formula = .ok o) :
    ∃ (f suffix : Str) (els : List (Str × Rat)) (z : Rat), ChargeParser.splitSpeciesNameSuffix formula = .ok (f, suffix) ∧
      FormulaParser.parseChemicalFormula formula = .ok els ∧ ChargeParser.parseElectricCharge formula = .ok z ∧
      List.Forall₂ (fun p q => registry p.1 = some q.1 ∧ p.2 = q.2) els o.getElements ∧
      o.getName = formula ∧ o.getFormula.1 = f ∧ (f ≠ [] → o.getSubstance = .ok f) ∧ o.getCharge = z ∧
      o.getAggregateState = AggregateState.identify formula ∧ o.getModel = none := by
  unfold ofFormula at h
  obtain ⟨els, h1, h⟩ := Res.bind_eq_ok.1 h
  obtain ⟨z, h2, h⟩ := Res.bind_eq_ok.1 h
  obtain ⟨f, h3, h⟩ := Res.bind_eq_ok.1 h
  obtain ⟨elements, h4, h⟩ := Res.bind_eq_ok.1 h
  obtain ⟨st, h5, h⟩ := Res.bind_eq_ok.1 h
  cases h
  unfold removeSuffix at h3
  obtain ⟨⟨f', suffix⟩, h6, h3⟩ := Res.bind_eq_ok.1 h3
  cases h3
  have hne : formula ≠ [] := by
    rintro rfl
    simp [ChargeParser.splitSpeciesNameSuffix] at h6
  refine ⟨f', suffix, els, z, h6, h1, h2, ?_, ?_, rfl, ?_, rfl, ?_, rfl⟩
  · exact composition_ok registry els elements h4
  · simp [Impl.getName, hne]
  · intro hf
    simp [Impl.getSubstance, hf]
  · rw [h5]
    unfold Impl.getAggregateState
    cases st <;> first | rfl | (simp only [Impl.getName, if_neg hne]; exact h5)

/-- C96, species: a `with...` method of a species with name, substance and aggregate state returns a species that shows the given value for
the attribute that it is named after, and what the object shows for all other attributes. -/
theorem C96_species_with (o o' : Impl M D) (ho : o.Complete) (u : SpeciesWith M D) (hu : u.Proper) (h : changed speciesClass u o = .ok o') :
    o'.view = o.view.after u ∧ o'.Complete := by
  obtain ⟨h1, h2, st, h3, h4⟩ := ho
  have hs : ∀ (x : Impl M D), x.state = some st → x.getAggregateState = .ok st := by
    intro x hx
    unfold Impl.getAggregateState
    rw [hx]
    cases st <;> first | rfl | exact absurd rfl h4
  have hs' : ∀ (x : Impl M D) (t : State), t ≠ .Undefined → x.state = some t → x.getAggregateState = .ok t := by
    intro x t ht hx
    unfold Impl.getAggregateState
    rw [hx]
    cases t <;> first | rfl | exact absurd rfl ht
  cases u with
  | formationReaction f =>
    simp only [changed, speciesClass, Res.bind_ok'] at h
    obtain ⟨m, hm, h⟩ := Res.bind_eq_ok.1 h
    cases h
    have : m = f.derived := by
      unfold Formation.createModel at hm
      split at hm
      · cases hm
      · split at hm
        · cases hm
        · cases hm; rfl
    subst this
    refine ⟨?_, h1, h2, st, h3, h4⟩
    simp only [Impl.view, View.after, View.mk.injEq]
    refine ⟨rfl, rfl, rfl, rfl, rfl, rfl, rfl, ?_, rfl, rfl, rfl, rfl⟩
    rw [hs o h3]; exact hs _ h3
  | name s =>
    simp only [changed, speciesClass, Res.bind_ok', Res.ok.injEq] at h
    subst h
    refine ⟨?_, hu, h2, st, h3, h4⟩
    simp only [Impl.view, View.after, View.mk.injEq]
    refine ⟨?_, rfl, rfl, rfl, ?_, rfl, rfl, ?_, rfl, rfl, rfl, rfl⟩
    · exact if_neg hu
    · simp only [Impl.getSubstance, if_neg h2]
    · rw [hs o h3]; exact hs _ h3
  | aggregateState t =>
    simp only [changed, speciesClass, Res.bind_ok', Res.ok.injEq] at h
    subst h
    refine ⟨?_, h1, h2, t, rfl, hu⟩
    simp only [Impl.view, View.after, View.mk.injEq]
    refine ⟨rfl, rfl, rfl, rfl, rfl, rfl, rfl, ?_, rfl, rfl, rfl, rfl⟩
    exact hs' _ t hu rfl
  | substance s =>
    simp only [changed, speciesClass, Res.bind_ok', Res.ok.injEq] at h
    subst h
    refine ⟨?_, h1, hu, st, h3, h4⟩
    simp only [Impl.view, View.after, View.mk.injEq]
    refine ⟨rfl, rfl, rfl, rfl, ?_, rfl, rfl, ?_, rfl, rfl, rfl, rfl⟩
    · simp only [Impl.getSubstance, if_neg (show s ≠ [] from hu)]
    · rw [hs o h3]; exact hs _ h3
  | formula s =>
    simp only [changed, speciesClass, Res.bind_ok', Res.ok.injEq] at h
    subst h
    refine ⟨?_, h1, h2, st, h3, h4⟩
    simp only [Impl.view, View.after, View.mk.injEq]
    refine ⟨?_, rfl, rfl, rfl, ?_, rfl, rfl, ?_, rfl, rfl, rfl, rfl⟩
    · simp only [Impl.getName, if_neg h1]
    · simp only [Impl.getSubstance, if_neg h2]
    · rw [hs o h3]; exact hs _ h3
  | elements l =>
    simp only [changed, speciesClass, Res.bind_ok', Res.ok.injEq] at h
    subst h
    refine ⟨?_, h1, h2, st, h3, h4⟩
    simp only [Impl.view, View.after, View.mk.injEq]
    refine ⟨rfl, rfl, rfl, rfl, rfl, rfl, rfl, ?_, rfl, rfl, rfl, rfl⟩
    rw [hs o h3]; exact hs _ h3
  | charge z =>
    simp only [changed, speciesClass, Res.bind_ok', Res.ok.injEq] at h
    subst h
    refine ⟨?_, h1, h2, st, h3, h4⟩
    simp only [Impl.view, View.after, View.mk.injEq]
    refine ⟨rfl, rfl, rfl, rfl, rfl, rfl, rfl, ?_, rfl, rfl, rfl, rfl⟩
    rw [hs o h3]; exact hs _ h3
  | standardThermoModel m =>
    simp only [changed, speciesClass, Res.bind_ok', Res.ok.injEq] at h
    subst h
    refine ⟨?_, h1, h2, st, h3, h4⟩
    simp only [Impl.view, View.after, View.mk.injEq]
    refine ⟨rfl, rfl, rfl, rfl, rfl, rfl, rfl, ?_, rfl, rfl, rfl, rfl⟩
    rw [hs o h3]; exact hs _ h3
  | tags l =>
    simp only [changed, speciesClass, Res.bind_ok', Res.ok.injEq] at h
    subst h
    refine ⟨?_, h1, h2, st, h3, h4⟩
    simp only [Impl.view, View.after, View.mk.injEq]
    refine ⟨rfl, rfl, rfl, rfl, rfl, rfl, rfl, ?_, rfl, rfl, rfl, rfl⟩
    rw [hs o h3]; exact hs _ h3
  | attachedData d =>
    simp only [changed, speciesClass, Res.bind_ok', Res.ok.injEq] at h
    subst h
    refine ⟨?_, h1, h2, st, h3, h4⟩
    simp only [Impl.view, View.after, View.mk.injEq]
    refine ⟨rfl, rfl, rfl, rfl, rfl, rfl, rfl, ?_, rfl, rfl, rfl, rfl⟩
    rw [hs o h3]; exact hs _ h3

/-- C96, species: the only `with...` method that can fail is the one for formation reactions, without reactants or without a model. -/
theorem C96_species_with_fails (o : Impl M D) (u : SpeciesWith M D) :
    (∃ o', changed speciesClass u o = .ok o') ∨
    (changed speciesClass u o = .throw ∧ ∃ f, u = .formationReaction f ∧ (f.reactants = [] ∨ f.hasModel = false)) := by
  cases u with
  | formationReaction f =>
    simp only [changed, speciesClass, Res.bind_ok', Formation.createModel]
    by_cases h1 : f.reactants = []
    · right
      refine ⟨?_, f, rfl, .inl h1⟩
      simp [h1]
    · cases h2 : f.hasModel
      · right
        refine ⟨?_, f, rfl, .inr h2⟩
        simp [h1]
      · left
        refine ⟨{ o with reaction := f, model := f.derived }, ?_⟩
        simp [h1]
  | _ => exact .inl ⟨_, rfl⟩

/-- A sequence of `with...` methods, one after the other. -/
def withAll (o : Impl M D) : List (SpeciesWith M D) → Res (Impl M D)
  | [] => .ok o
  | u :: us => (changed speciesClass u o).bind fun o' => withAll o' us

/-- C96 is false for species from the default constructor: whatever else is set, unless an aggregate state is set, asking for the aggregate state
reads an uninitialised member. -/
theorem C96_default_wrong (us : List (SpeciesWith M D)) (hu : ∀ st, SpeciesWith.aggregateState st ∉ us) (o : Impl M D)
    (h : withAll speciesClass.dflt us = .ok o) : o.getAggregateState = .ub := by
  have key : ∀ (us : List (SpeciesWith M D)) (x : Impl M D), x.state = none → (∀ st, SpeciesWith.aggregateState st ∉ us) →
      ∀ o, withAll x us = .ok o → o.state = none := by
    intro us
    induction us with
    | nil => intro x hx _ o ho; simp only [withAll, Res.ok.injEq] at ho; rw [← ho]; exact hx
    | cons u us ih =>
      intro x hx hu o ho
      simp only [withAll] at ho
      obtain ⟨y, hy, ho⟩ := Res.bind_eq_ok.1 ho
      refine ih y ?_ (fun st hst => hu st (List.mem_cons_of_mem _ hst)) o ho
      cases u with
      | aggregateState st => exact absurd (List.mem_cons_self ..) (hu st)
      | formationReaction f =>
        simp only [changed, speciesClass, Res.bind_ok'] at hy
        obtain ⟨m, -, hy⟩ := Res.bind_eq_ok.1 hy
        cases hy
        exact hx
      | _ =>
        simp only [changed, speciesClass, Res.bind_ok', Res.ok.injEq] at hy
        subst hy
        exact hx
  have := key us _ rfl hu o h
  unfold Impl.getAggregateState
  rw [this]

def sodium : Element := ⟨c!"Na", 23 / 1000, c!"Sodium", []⟩

def sodiumIon : Attribs Nat := { name := c!"Na+(aq)", formula := c!"Na+(aq)", elements := [(sodium, 1)], charge := 1, state := .Aqueous, model := some 7 }

/-- The hypotheses are met: a species from attributes, one from a formula, a change and a default species. -/
example : ¬ sodiumIon.Bad ∧
    ((ofAttribs sodiumIon : Res (Impl Nat Nat)).bind fun o => (changed speciesClass (.name c!"Na+") o).bind fun o' =>
      .ok (o.view.name, o.view.formula, o'.view.name, o'.view.formula, o'.view.substance)) =
    .ok (c!"Na+(aq)", c!"Na+", c!"Na+", c!"Na+", .ok c!"Na+") ∧
    ((ofFormula (fun s => if s = c!"Na" then some sodium else none) c!"Na+(aq)" : Res (Impl Nat Nat)).bind fun o =>
      .ok (o.getName, o.getFormula.1, o.getCharge, o.getAggregateState)) = .ok (c!"Na+(aq)", c!"Na+", 1, .ok .Aqueous) ∧
    ((withAll (speciesClass : Class (Impl Nat Nat) _).dflt [.name c!"Na+", .charge 1]).bind fun o => o.getAggregateState) = .ub := by
  refine ⟨?_, by decide +kernel, by decide +kernel, by decide +kernel⟩
  unfold Attribs.Bad
  simp [sodiumIon]

/-! ### Phases and reactions -/

theorem sameState_ok (st : State) (l : List Species) (h : sameState st l = .ok ()) : ∀ s ∈ l, s.aggregateState = .ok st := by
  induction l with
  | nil => simp
  | cons s l ih =>
    simp only [sameState] at h
    obtain ⟨st', h1, h2⟩ := Res.bind_eq_ok.1 h
    by_cases he : st' = st
    · rw [if_neg (by simpa using he)] at h2
      intro t ht
      rcases List.mem_cons.1 ht with rfl | ht
      · rw [h1, he]
      · exact ih h2 t ht
    · rw [if_pos he] at h2
      cases h2

/-- C96, phases: in every program that makes phases with the default constructor, each phase has species with one common aggregate state, which it shows as its
own, and molar masses that belong to its present species. -/
theorem C96_phases (S F : Type) (solid : S) (me : Rat) (ss : List (Stmt (PhaseImpl S F solid) (PhaseWith S F))) (fl : List Bool)
    (m : Memory (PhaseImpl S F solid)) (hc : ∀ r, Stmt.create r ∈ ss → r = .ok (phaseClass S F solid me).dflt)
    (h : run (phaseClass S F solid me) {} ss = .ok (fl, m)) (x : Nat) (p : PhaseImpl S F solid) (hx : m.value x = .ok p) : p.Consistent me := by
  rcases run_meanings (phaseClass S F solid me) ss {} [] rfl with ⟨fl', m1, v, h1, h2, h3⟩ | ⟨h1, -⟩ <;> rw [h] at h1
  swap
  · cases h1
  simp only [Res.ok.injEq, Prod.mk.injEq] at h1
  obtain ⟨-, rfl⟩ := h1
  have hinv := meanings_inv (phaseClass S F solid me) (PhaseImpl.Consistent me) ss [] v fl' ?_ ?_ (by simp) h2
  · rcases h3.get x with ⟨k, -⟩ | ⟨a, w, k1, k2, k3⟩
    · simp only [Memory.value, at_none _ _ k, Res.bind_ub', reduceCtorEq] at hx
    · simp only [Memory.value, at_eq _ _ _ k1, Res.bind_ok', at_eq _ _ _ k3, Res.ok.injEq] at hx
      subst hx
      exact hinv w (List.mem_of_getElem? k2)
  · intro r hr
    have := hc _ hr
    simp only [Res.ok.injEq] at this
    subst this
    exact ⟨by simp [phaseClass], rfl⟩
  · intro u r r' hr hu
    cases u with
    | species l =>
      simp only [changed, phaseClass] at hu
      obtain ⟨_, h1, hu⟩ := Res.bind_eq_ok.1 hu
      cases hu
      refine ⟨?_, rfl⟩
      unfold ensureCommonState at h1
      obtain ⟨s0, h2, h1⟩ := Res.bind_eq_ok.1 h1
      obtain ⟨st, h3, h1⟩ := Res.bind_eq_ok.1 h1
      have hall := sameState_ok st l h1
      intro s hs
      have hl : l.length ≠ 0 := by
        intro h0
        rw [List.length_eq_zero_iff] at h0
        subst h0
        cases hs
      show _ = PhaseImpl.getAggregateState _
      unfold PhaseImpl.getAggregateState
      simp only [if_pos hl, h2, Res.bind_ok']
      rw [hall s hs, h3]
    | _ =>
      simp only [changed, phaseClass, Res.bind_ok', Res.ok.injEq] at hu
      subst hu
      exact hr

/-- C96, phases: setting species of different aggregate states fails, and setting species of one state succeeds. -/
theorem C96_phase_states (S F : Type) (solid : S) (me : Rat) (p : PhaseImpl S F solid) (l : List Species) (hl : l ≠ [])
    (hs : ∀ s ∈ l, ∃ st, s.aggregateState = .ok st) :
    ((∃ p', changed (phaseClass S F solid me) (.species l) p = .ok p') ↔ ∃ st, ∀ s ∈ l, s.aggregateState = .ok st) ∧
    ((∃ p', changed (phaseClass S F solid me) (.species l) p = .ok p') ∨ changed (phaseClass S F solid me) (.species l) p = .throw) := by
  obtain ⟨s0, l', rfl⟩ := List.exists_cons_of_ne_nil hl
  obtain ⟨st, hst⟩ := hs s0 (List.mem_cons_self ..)
  have hsame : ∀ l : List Species, (∀ s ∈ l, ∃ st, s.aggregateState = .ok st) → sameState st l = .ok () ∨ sameState st l = .throw := by
    intro l hl
    induction l with
    | nil => exact .inl rfl
    | cons s l ih =>
      obtain ⟨t, ht⟩ := hl s (List.mem_cons_self ..)
      simp only [sameState, ht, Res.bind_ok']
      by_cases he : t = st
      · rw [if_neg (by simpa using he)]; exact ih fun s hs => hl s (List.mem_cons_of_mem _ hs)
      · rw [if_pos he]; exact .inr rfl
  have hall : ∀ l : List Species, (∀ s ∈ l, s.aggregateState = .ok st) → sameState st l = .ok () := by
    intro l hl
    induction l with
    | nil => rfl
    | cons s l ih =>
      simp only [sameState, hl s (List.mem_cons_self ..), Res.bind_ok', ne_eq, not_true_eq_false, if_false]
      exact ih fun s hs => hl s (List.mem_cons_of_mem _ hs)
  have hcheck : ensureCommonState (s0 :: l') = sameState st (s0 :: l') := by
    simp only [ensureCommonState, at!, List.getElem?_cons_zero, Res.bind_ok', hst]
  simp only [changed, phaseClass, hcheck]
  refine ⟨⟨?_, ?_⟩, ?_⟩
  · rintro ⟨p', hp⟩
    obtain ⟨_, h1, -⟩ := Res.bind_eq_ok.1 hp
    exact ⟨st, sameState_ok st _ h1⟩
  · rintro ⟨st', h'⟩
    have : st' = st := by
      have := h' s0 (List.mem_cons_self ..)
      rw [hst] at this
      exact (Res.ok.inj this).symm
    subst this
    rw [hall _ h']
    exact ⟨_, rfl⟩
  · rcases hsame _ hs with h | h <;> rw [h]
    · exact .inl ⟨_, rfl⟩
    · exact .inr rfl

/-- C96 is false for phases without species: setting an empty list reads its first item. -/
theorem C96_phase_empty_wrong (S F : Type) (solid : S) (me : Rat) (p : PhaseImpl S F solid) :
    changed (phaseClass S F solid me) (.species []) p = .ub := rfl

/-- A program with phases of one and of different aggregate states. -/
def phaseProgram : List (Stmt (PhaseImpl Nat Nat 0) (PhaseWith Nat Nat)) :=
  let a : Species := ⟨c!"CO2(g)", c!"CO2", [], 0, .Gas, [], [], []⟩
  let b : Species := ⟨c!"NaCl(s)", c!"NaCl", [(sodium, 1)], 0, .Solid, [], [], []⟩
  [.create (.ok {}), .update 0 (.species [a, a]), .update 1 (.species [a, b]), .update 1 (.species [b])]

example : (run (phaseClass Nat Nat 0 0) {} phaseProgram).bind (fun r => .ok (r.1, r.2.shown.map (·.map (·.molarMasses)))) =
    .ok ([true, true, false, true], [some [], some [0, 0], some [23 / 1000]]) := by decide +kernel

/-- C96, reactions: every `with...` method of a reaction succeeds, and what the result shows is decided by the last method for each attribute. -/
theorem C96_reactions (E K R : Type) (us : List (ReactionWith E K R)) (r : ReactionImpl E K R) :
    ∃ r' : ReactionImpl E K R, us.foldl (fun (x : Res (ReactionImpl E K R)) u => x.bind fun y => changed (reactionClass E K R) u y) (.ok r) = .ok r' ∧
      r'.name = ((us.filterMap fun u => match u with | .name s => some s | _ => none).getLast?).getD r.name ∧
      (r'.equation = ((us.filterMap fun u => match u with | .equation e => some e | _ => none).getLast?).or r.equation) ∧
      (r'.lnK = ((us.filterMap fun u => match u with | .lnK e => some e | _ => none).getLast?).or r.lnK) ∧
      (r'.rate = ((us.filterMap fun u => match u with | .rate e => some e | _ => none).getLast?).or r.rate) := by
  induction us generalizing r with
  | nil => exact ⟨r, rfl, rfl, rfl, rfl, rfl⟩
  | cons u us ih =>
    have hu : ∃ r1, changed (reactionClass E K R) u r = .ok r1 := by cases u <;> exact ⟨_, rfl⟩
    obtain ⟨r1, hr1⟩ := hu
    obtain ⟨r', h0, h1, h2, h3, h4⟩ := ih r1
    refine ⟨r', ?_, ?_⟩
    · rw [List.foldl_cons, Res.bind_ok', hr1]; exact h0
    · cases u <;> simp only [changed, reactionClass, Res.bind_ok', Res.ok.injEq] at hr1 <;> subst hr1 <;>
        simp only [List.filterMap_cons, List.getLast?_cons] <;> refine ⟨?_, ?_, ?_, ?_⟩ <;> simp_all

end Verif.ValueObjects
