import Verif.Spec.DatabaseYAML
import Mathlib.Data.List.Nodup

/-!
# Lemmas for C26
-/

namespace Verif.DatabaseYAML

open Chem

/-- The names of the species loaded so far. -/
def names (st : St) : List Str := st.species.map Species.name

/-- `st'` extends `st`. -/
structure Ext (st st' : St) : Prop where
  sp : st.species <+: st'.species
  el : st.elements <+: st'.elements

theorem Ext.refl (st : St) : Ext st st := ⟨List.prefix_rfl, List.prefix_rfl⟩
theorem Ext.trans {a b c : St} (h1 : Ext a b) (h2 : Ext b c) : Ext a c := ⟨h1.sp.trans h2.sp, h1.el.trans h2.el⟩
theorem Ext.names {a b : St} (h : Ext a b) : ∀ x ∈ names a, x ∈ names b := by
  intro x hx
  obtain ⟨s, hs, rfl⟩ := List.mem_map.1 hx
  exact List.mem_map.2 ⟨s, h.sp.subset hs, rfl⟩

theorem find?_prefix {α : Type} (p : α → Bool) (l l' : List α) (h : l <+: l') (a : α) (hf : l.find? p = some a) :
    l'.find? p = some a := by
  obtain ⟨t, rfl⟩ := h
  rw [List.find?_append, hf]; rfl

/-- The invariant of the parser. -/
structure Inv (doc : Doc) (st : St) : Prop where
  data : ∀ s ∈ st.species, ∃ node, firstNode doc s.name = some node ∧ HasDataOf node s
  order : ∀ i s, st.species[i]? = some s → ∀ p ∈ s.reactants, p.1 ∈ (st.species.take i).map Species.name
  els : ∀ s ∈ st.species, ∀ p ∈ s.elements, st.elements.find? (fun e => e.symbol = p.1.symbol) = some p.1

theorem Inv.of_el {doc : Doc} {st st' : St} (h : Inv doc st) (hs : st'.species = st.species) (he : st.elements <+: st'.elements) :
    Inv doc st' := by
  refine ⟨hs ▸ h.data, hs ▸ h.order, ?_⟩
  intro s hm p hp
  rw [hs] at hm
  exact find?_prefix _ _ _ he _ (h.els s hm p hp)

theorem getElementNode_spec (nodes : List ElementNode) (symbol : Str) (node : ElementNode)
    (h : getElementNode nodes symbol = .ok (some node)) : node.symbol = some symbol := by
  induction nodes with
  | nil => simp [getElementNode] at h
  | cons a nodes ih =>
    simp only [getElementNode] at h
    cases hs : a.symbol with
    | none => rw [hs] at h; simp at h
    | some s =>
      rw [hs] at h
      dsimp only at h
      by_cases he : s = symbol
      · rw [if_pos he] at h
        cases h
        rw [hs, he]
      · rw [if_neg he] at h; exact ih h

theorem addElementNode_spec (st st' : St) (node : ElementNode) (e : Element) (h : addElementNode st node = .ok (st', e)) :
    node.symbol = some e.symbol ∧ st'.species = st.species ∧ st'.elements = st.elements ++ [e] := by
  unfold addElementNode at h
  split at h
  · rename_i symbol mass h1 h2
    split_ifs at h
    · cases h; exact ⟨h1, rfl, rfl⟩
    · cases h; exact ⟨h1, rfl, rfl⟩
  · cases h

theorem addElementSymbol_spec (defaults : Str → Option Element) (hdef : ∀ s e, defaults s = some e → e.symbol = s) (doc : Doc)
    (st st' : St) (symbol : Str) (e : Element) (h : addElementSymbol defaults doc st symbol = .ok (st', e)) :
    e.symbol = symbol ∧ st'.species = st.species ∧ st'.elements = st.elements ++ [e] := by
  unfold addElementSymbol at h
  cases hg : getElementNode doc.elements symbol <;> rw [hg] at h <;>
    simp only [Res.bind_ok', Res.bind_throw', Res.bind_ub', reduceCtorEq] at h
  rename_i o
  cases o with
  | none =>
    dsimp only at h
    cases hd : defaults symbol with
    | none => rw [hd] at h; cases h
    | some d => rw [hd] at h; cases h; exact ⟨hdef _ _ hd, rfl, rfl⟩
  | some node =>
    dsimp only at h
    have h1 := getElementNode_spec _ _ _ hg
    obtain ⟨h2, h3, h4⟩ := addElementNode_spec _ _ _ _ h
    rw [h1] at h2
    exact ⟨(Option.some.inj h2).symm, h3, h4⟩

theorem find?_snoc_none {α : Type} (p : α → Bool) (l : List α) (a : α) (h : l.find? p = none) (ha : p a = true) :
    (l ++ [a]).find? p = some a := by
  rw [List.find?_append, h]; simp [ha]

theorem composition_spec (defaults : Str → Option Element) (hdef : ∀ s e, defaults s = some e → e.symbol = s) (doc : Doc)
    (pairs : List (Str × Rat)) (st st' : St) (c : List (Element × Rat))
    (h : createElementalComposition defaults doc st pairs = .ok (st', c)) :
    st'.species = st.species ∧ st.elements <+: st'.elements ∧ (c.map fun p => (p.1.symbol, p.2)) = pairs ∧
    ∀ p ∈ c, st'.elements.find? (fun e => e.symbol = p.1.symbol) = some p.1 := by
  induction pairs generalizing st st' c with
  | nil =>
    simp only [createElementalComposition, Res.ok.injEq, Prod.mk.injEq] at h
    obtain ⟨rfl, rfl⟩ := h
    exact ⟨rfl, List.prefix_rfl, rfl, by simp⟩
  | cons pc rest ih =>
    obtain ⟨symbol, coeff⟩ := pc
    simp only [createElementalComposition] at h
    cases hf : st.elements.find? (fun e => e.symbol = symbol) with
    | some e =>
      rw [hf] at h
      dsimp only at h
      cases hc : createElementalComposition defaults doc st rest <;> rw [hc] at h <;>
        simp only [Res.bind_ok', Res.bind_throw', Res.bind_ub', reduceCtorEq, Res.ok.injEq, Prod.mk.injEq] at h
      rename_i r
      obtain ⟨st1, c1⟩ := r
      obtain ⟨rfl, rfl⟩ := h
      obtain ⟨a1, a2, a3, a4⟩ := ih _ _ _ hc
      have hes : e.symbol = symbol := by simpa using List.find?_some hf
      refine ⟨a1, a2, by simp [a3, hes], ?_⟩
      intro p hp
      rcases List.mem_cons.1 hp with rfl | hp
      · simp only [hes]; exact find?_prefix _ _ _ a2 _ hf
      · exact a4 p hp
    | none =>
      rw [hf] at h
      dsimp only at h
      cases ha : addElementSymbol defaults doc st symbol <;> rw [ha] at h <;>
        simp only [Res.bind_ok', Res.bind_throw', Res.bind_ub', reduceCtorEq] at h
      rename_i r0
      obtain ⟨st0, e⟩ := r0
      obtain ⟨b1, b2, b3⟩ := addElementSymbol_spec defaults hdef doc _ _ _ _ ha
      cases hc : createElementalComposition defaults doc st0 rest <;> rw [hc] at h <;>
        simp only [Res.bind_ok', Res.bind_throw', Res.bind_ub', reduceCtorEq, Res.ok.injEq, Prod.mk.injEq] at h
      rename_i r
      obtain ⟨st1, c1⟩ := r
      obtain ⟨rfl, rfl⟩ := h
      obtain ⟨a1, a2, a3, a4⟩ := ih _ _ _ hc
      have hpre : st.elements <+: st0.elements := by rw [b3]; exact List.prefix_append _ _
      refine ⟨a1.trans b2, hpre.trans a2, by simp [a3, b1], ?_⟩
      intro p hp
      rcases List.mem_cons.1 hp with rfl | hp
      · simp only [b1]
        apply find?_prefix _ _ _ a2
        rw [b3]
        exact find?_snoc_none _ _ _ hf (by simp [b1])
      · exact a4 p hp

theorem findWithName_lt (st : St) (name : Str) : findWithName st.species name < st.species.length ↔ name ∈ names st := by
  unfold findWithName indexfn names
  rw [List.findIdx_lt_length]
  simp

theorem getSpeciesNode_spec (nodes : List SpeciesNode) (name : Str) (o : Option SpeciesNode)
    (h : getSpeciesNode nodes name = .ok o) : nodes.find? (fun node => node.name = some name) = o := by
  induction nodes with
  | nil => simp only [getSpeciesNode, Res.ok.injEq] at h; subst h; rfl
  | cons a nodes ih =>
    simp only [getSpeciesNode] at h
    cases hs : a.name with
    | none => rw [hs] at h; simp at h
    | some s =>
      rw [hs] at h
      dsimp only at h
      by_cases he : s = name
      · rw [if_pos he] at h
        cases h
        rw [List.find?_cons_of_pos (by simp [hs, he])]
      · rw [if_neg he] at h
        rw [List.find?_cons_of_neg (by simp [hs, he])]
        exact ih h

/-- What a successful `createReactants` does, given what each `addSpecies` does. -/
theorem createReactants_spec (doc : Doc) (add : St → Str → Res (St × Species))
    (hadd : ∀ st name st' s, Inv doc st → add st name = .ok (st', s) → Inv doc st' ∧ Ext st st' ∧ name ∈ names st')
    (pairs : List (Str × Rat)) (st st' : St) (r : List (Str × Rat)) (hi : Inv doc st)
    (h : createReactants add st pairs = .ok (st', r)) :
    Inv doc st' ∧ Ext st st' ∧ r = pairs ∧ ∀ p ∈ pairs, p.1 ∈ names st' := by
  induction pairs generalizing st st' r with
  | nil =>
    simp only [createReactants, Res.ok.injEq, Prod.mk.injEq] at h
    obtain ⟨rfl, rfl⟩ := h
    exact ⟨hi, .refl _, rfl, by simp⟩
  | cons pc rest ih =>
    obtain ⟨name, coeff⟩ := pc
    simp only [createReactants, findWithName_lt] at h
    by_cases hm : name ∈ names st
    · rw [if_pos hm] at h
      cases hc : createReactants add st rest <;> rw [hc] at h <;>
        simp only [Res.bind_ok', Res.bind_throw', Res.bind_ub', reduceCtorEq, Res.ok.injEq, Prod.mk.injEq] at h
      rename_i q
      obtain ⟨st1, r1⟩ := q
      obtain ⟨rfl, rfl⟩ := h
      obtain ⟨a1, a2, a3, a4⟩ := ih _ _ _ hi hc
      refine ⟨a1, a2, by rw [a3], ?_⟩
      intro p hp
      rcases List.mem_cons.1 hp with rfl | hp
      · exact a2.names _ hm
      · exact a4 p hp
    · rw [if_neg hm] at h
      cases ha : add st name <;> rw [ha] at h <;> simp only [Res.bind_ok', Res.bind_throw', Res.bind_ub', reduceCtorEq] at h
      rename_i q0
      obtain ⟨st0, s0⟩ := q0
      obtain ⟨b1, b2, b3⟩ := hadd _ _ _ _ hi ha
      cases hc : createReactants add st0 rest <;> rw [hc] at h <;>
        simp only [Res.bind_ok', Res.bind_throw', Res.bind_ub', reduceCtorEq, Res.ok.injEq, Prod.mk.injEq] at h
      rename_i q
      obtain ⟨st1, r1⟩ := q
      obtain ⟨rfl, rfl⟩ := h
      obtain ⟨a1, a2, a3, a4⟩ := ih _ _ _ b1 hc
      refine ⟨a1, b2.trans a2, by rw [a3], ?_⟩
      intro p hp
      rcases List.mem_cons.1 hp with rfl | hp
      · exact a2.names _ b3
      · exact a4 p hp

theorem strip_ok (f : Str) (h : f ≠ []) : ∃ p, ChargeParser.splitSpeciesNameSuffix f = .ok p ∧ ValueObjects.removeSuffix f = .ok p.1 := by
  have : ∃ p, ChargeParser.splitSpeciesNameSuffix f = .ok p := by
    unfold ChargeParser.splitSpeciesNameSuffix
    cases hl : f.getLast? with
    | none => exact absurd (List.getLast?_eq_none_iff.1 hl) h
    | some last =>
      simp only
      split
      · exact ⟨_, rfl⟩
      · split <;> split <;> exact ⟨_, rfl⟩
  obtain ⟨p, hp⟩ := this
  exact ⟨p, hp, by rw [ValueObjects.removeSuffix, hp, Res.bind_ok']⟩

/-- The function passed to `createReactants`. -/
def addByName (defaults : Str → Option Element) (doc : Doc) (n : Nat) (st : St) (name : Str) : Res (St × Species) :=
  (getSpeciesNode doc.species name).bind fun found =>
    match found with
    | none => .throw
    | some node => addSpeciesNode defaults doc n st node

/-- The part of `addSpecies` that creates a new species. -/
def createSpecies (defaults : Str → Option Element) (doc : Doc) (n : Nat) (st : St) (node : SpeciesNode) (name formula state : Str)
    (pairs : List (Str × Rat)) : Res (St × Species) :=
  if AggregateState.parse state = .Undefined then .throw
  else
    (createElementalComposition defaults doc st pairs).bind fun c =>
    (createFormationReaction (addByName defaults doc n) c.1 node.reaction).bind fun r =>
    if node.model = .invalid then .throw
    else if name = [] ∨ formula = [] ∨ c.2.length = 0 then .throw
    else if node.model = .absent ∧ r.2.2 = false then .throw
    else if node.model = .valid ∧ r.2.2 = true then .throw
    else (ValueObjects.removeSuffix formula).bind fun f =>
      let s : Species := ⟨name, f, c.2, node.charge, AggregateState.parse state, node.tags, r.2.1,
        if node.substance = [] then f else node.substance⟩
      .ok ({ r.1 with species := r.1.species ++ [s] }, s)

/-- `addSpecies` of a node either has missing data, or finds the species, or creates it. -/
theorem addSpeciesNode_cases (defaults : Str → Option Element) (doc : Doc) (n : Nat) (st : St) (node : SpeciesNode) :
    addSpeciesNode defaults doc (n + 1) st node = .throw ∨
    ∃ name formula state pairs, node.name = some name ∧ node.formula = some formula ∧ node.aggregateState = some state ∧
      node.elements = some pairs ∧
      ((∃ s ∈ st.species, s.name = name ∧ addSpeciesNode defaults doc (n + 1) st node = .ok (st, s)) ∨
       (name ∉ names st ∧ addSpeciesNode defaults doc (n + 1) st node = createSpecies defaults doc n st node name formula state pairs)) := by
  rw [addSpeciesNode]
  split
  · rename_i name formula state pairs h1 h2 h3 h4
    by_cases h0 : node.reaction = none ∧ node.model = .absent
    · rw [if_pos h0]; exact .inl rfl
    · rw [if_neg h0]
      right
      refine ⟨name, formula, state, pairs, h1, h2, h3, h4, ?_⟩
      cases hf : st.species.find? (fun s => s.name = name) with
      | some s => exact .inl ⟨s, List.mem_of_find?_eq_some hf, by simpa using List.find?_some hf, rfl⟩
      | none =>
        right
        refine ⟨?_, rfl⟩
        intro hc
        obtain ⟨s, hs, hn⟩ := List.mem_map.1 hc
        have := List.find?_eq_none.1 hf s hs
        simp [hn] at this
  · exact .inl rfl

theorem createSpecies_spec (defaults : Str → Option Element) (hdef : ∀ s e, defaults s = some e → e.symbol = s) (doc : Doc) (n : Nat)
    (hadd : ∀ st name st' s, Inv doc st → addByName defaults doc n st name = .ok (st', s) → Inv doc st' ∧ Ext st st' ∧ name ∈ names st')
    (st st' : St) (node : SpeciesNode) (name formula state : Str) (pairs : List (Str × Rat)) (s : Species)
    (h1 : node.name = some name) (h2 : node.formula = some formula) (h3 : node.aggregateState = some state)
    (h4 : node.elements = some pairs) (hfirst : firstNode doc name = some node) (hi : Inv doc st)
    (h : createSpecies defaults doc n st node name formula state pairs = .ok (st', s)) :
    Inv doc st' ∧ Ext st st' ∧ name ∈ names st' ∧
    ∃ c r, createElementalComposition defaults doc st pairs = .ok c ∧
      createFormationReaction (addByName defaults doc n) c.1 node.reaction = .ok r ∧ names st' = names r.1 ++ [name] ∧
      names c.1 = names st := by
  unfold createSpecies at h
  by_cases hst : AggregateState.parse state = .Undefined
  · rw [if_pos hst] at h; cases h
  rw [if_neg hst] at h
  cases hc : createElementalComposition defaults doc st pairs <;> rw [hc] at h <;>
    simp only [Res.bind_ok', Res.bind_throw', Res.bind_ub', reduceCtorEq] at h
  rename_i c
  obtain ⟨st1, c⟩ := c
  obtain ⟨c1, c2, c3, c4⟩ := composition_spec defaults hdef doc pairs _ _ _ hc
  dsimp only at h
  cases hr : createFormationReaction (addByName defaults doc n) st1 node.reaction <;> rw [hr] at h <;>
    simp only [Res.bind_ok', Res.bind_throw', Res.bind_ub', reduceCtorEq] at h
  rename_i r
  obtain ⟨st2, rs, b⟩ := r
  dsimp only at h
  by_cases g1 : node.model = .invalid
  · rw [if_pos g1] at h; cases h
  rw [if_neg g1] at h
  by_cases g2 : name = [] ∨ formula = [] ∨ c.length = 0
  · rw [if_pos g2] at h; cases h
  rw [if_neg g2] at h
  by_cases g3 : node.model = .absent ∧ b = false
  · rw [if_pos g3] at h; cases h
  rw [if_neg g3] at h
  by_cases g4 : node.model = .valid ∧ b = true
  · rw [if_pos g4] at h; cases h
  rw [if_neg g4] at h
  obtain ⟨⟨f, suffix⟩, hf1, hf2⟩ := strip_ok formula fun hh => g2 (.inr (.inl hh))
  rw [hf2, Res.bind_ok'] at h
  simp only [Res.ok.injEq, Prod.mk.injEq] at h
  obtain ⟨rfl, rfl⟩ := h
  have hi1 : Inv doc st1 := hi.of_el c1 c2
  have key : Inv doc st2 ∧ Ext st1 st2 ∧ (∀ p ∈ rs, p.1 ∈ names st2) ∧
      ((node.reaction = none ∧ rs = []) ∨ ∃ model, node.reaction = some (some rs, model)) := by
    unfold createFormationReaction at hr
    split at hr
    · rename_i hn
      simp only [Res.ok.injEq, Prod.mk.injEq] at hr
      obtain ⟨rfl, rfl, rfl⟩ := hr
      exact ⟨hi1, .refl _, by simp, .inl ⟨hn, rfl⟩⟩
    · cases hr
    · rename_i ps model hn
      cases hq : createReactants (addByName defaults doc n) st1 ps <;> rw [hq] at hr <;>
        simp only [Res.bind_ok', Res.bind_throw', Res.bind_ub', reduceCtorEq] at hr
      rename_i q
      obtain ⟨st3, r3⟩ := q
      dsimp only at hr
      split_ifs at hr
      simp only [Res.ok.injEq, Prod.mk.injEq] at hr
      obtain ⟨rfl, rfl, -⟩ := hr
      obtain ⟨a1, a2, rfl, a4⟩ := createReactants_spec doc _ hadd _ _ _ _ hi1 hq
      exact ⟨a1, a2, a4, .inr ⟨model, hn⟩⟩
  obtain ⟨k1, k2, k3, k4⟩ := key
  have hname : (⟨name, f, c, node.charge, AggregateState.parse state, node.tags, rs,
      if node.substance = [] then f else node.substance⟩ : Species).name = name := by
    unfold Species.name
    rw [if_neg (fun hh => g2 (.inl hh))]
  have hext : Ext st st2 := ⟨c1 ▸ k2.sp, c2.trans k2.el⟩
  refine ⟨⟨?_, ?_, ?_⟩, ⟨hext.sp.trans (List.prefix_append _ _), hext.el⟩, ?_, ?_⟩
  · intro t ht
    rcases List.mem_append.1 ht with ht | ht
    · exact k1.data t ht
    · rw [List.mem_singleton] at ht
      subst ht
      rw [hname]
      refine ⟨node, hfirst, ?_, ⟨formula, suffix, h2, hf1⟩, rfl, ⟨state, h3, rfl, hst⟩, ?_, rfl, rfl, k4⟩
      · rw [hname]; exact h1
      · rw [h4, c3]
  · intro i t ht p hp
    by_cases hlt : i < st2.species.length
    · rw [List.getElem?_append_left hlt] at ht
      have := k1.order i t ht p hp
      rwa [List.take_append_of_le_length (by omega)]
    · rw [List.getElem?_append_right (by omega)] at ht
      have h0 : i - st2.species.length = 0 := by
        by_contra hne
        rw [List.getElem?_eq_none (by simp; omega)] at ht
        cases ht
      rw [h0] at ht
      simp only [List.getElem?_cons_zero, Option.some.injEq] at ht
      subst ht
      have hie : i = st2.species.length := by omega
      subst hie
      simpa [names] using k3 p hp
  · intro t ht p hp
    rcases List.mem_append.1 ht with ht | ht
    · exact k1.els t ht p hp
    · rw [List.mem_singleton] at ht
      subst ht
      exact find?_prefix _ _ _ k2.el _ (c4 p hp)
  · unfold names; simp [hname]
  · refine ⟨(st1, c), (st2, rs, b), rfl, hr, ?_, ?_⟩
    · unfold names; simp [hname]
    · unfold names; rw [c1]

/-- What a successful `addSpecies(node)` does. -/
theorem addSpeciesNode_spec (defaults : Str → Option Element) (hdef : ∀ s e, defaults s = some e → e.symbol = s) (doc : Doc) (n : Nat) :
    ∀ (st st' : St) (node : SpeciesNode) (s : Species), Inv doc st →
      (∀ x, node.name = some x → firstNode doc x = some node ∨ x ∈ names st) →
      addSpeciesNode defaults doc n st node = .ok (st', s) →
      Inv doc st' ∧ Ext st st' ∧ ∃ x, node.name = some x ∧ x ∈ names st' := by
  induction n with
  | zero => intro st st' node s _ _ h; simp [addSpeciesNode] at h
  | succ n ih =>
    intro st st' node s hi hf h
    have hadd : ∀ st name st' s, Inv doc st → addByName defaults doc n st name = .ok (st', s) →
        Inv doc st' ∧ Ext st st' ∧ name ∈ names st' := by
      intro st name st' s hi h
      unfold addByName at h
      cases hg : getSpeciesNode doc.species name <;> rw [hg] at h <;>
        simp only [Res.bind_ok', Res.bind_throw', Res.bind_ub', reduceCtorEq] at h
      rename_i o
      cases o with
      | none => cases h
      | some nd =>
        have hfirst : firstNode doc name = some nd := getSpeciesNode_spec _ _ _ hg
        have hname : nd.name = some name := by simpa using List.find?_some hfirst
        obtain ⟨a1, a2, x, a3, a4⟩ := ih st st' nd s hi
          (fun x hx => .inl (by rw [hname] at hx; cases hx; exact hfirst)) h
        rw [hname] at a3; cases a3
        exact ⟨a1, a2, a4⟩
    rcases addSpeciesNode_cases defaults doc n st node with h0 | ⟨name, formula, state, pairs, h1, h2, h3, h4, h5⟩
    · rw [h0] at h; cases h
    · rcases h5 with ⟨t, ht, hn, he⟩ | ⟨hn, he⟩
      · rw [he] at h
        cases h
        exact ⟨hi, .refl _, name, h1, List.mem_map.2 ⟨_, ht, hn⟩⟩
      · rw [he] at h
        have hfirst := (hf name h1).resolve_right hn
        obtain ⟨a1, a2, a3, -⟩ := createSpecies_spec defaults hdef doc n hadd _ _ _ _ _ _ _ _ h1 h2 h3 h4 hfirst hi h
        exact ⟨a1, a2, name, h1, a3⟩

/-- The next node of the document is the first with its name or its name is already loaded. -/
theorem first_or_loaded (doc : Doc) (pre post : List SpeciesNode) (node : SpeciesNode) (hd : doc.species = pre ++ node :: post)
    (st : St) (hpre : ∀ m ∈ pre, ∃ x, m.name = some x ∧ x ∈ names st) (x : Str) (hx : node.name = some x) :
    firstNode doc x = some node ∨ x ∈ names st := by
  by_cases hm : x ∈ names st
  · exact .inr hm
  · left
    unfold firstNode
    rw [hd, List.find?_append]
    have : pre.find? (fun node => node.name = some x) = none := by
      rw [List.find?_eq_none]
      intro m hmem hc
      obtain ⟨y, hy1, hy2⟩ := hpre m hmem
      simp only [decide_eq_true_eq] at hc
      rw [hc] at hy1; cases hy1
      exact hm hy2
    rw [this, List.find?_cons_of_pos (by simp [hx])]
    rfl

theorem addSpeciesNodes_spec (defaults : Str → Option Element) (hdef : ∀ s e, defaults s = some e → e.symbol = s) (doc : Doc)
    (depth : Nat) (pre post : List SpeciesNode) (hd : doc.species = pre ++ post) (st st' : St) (hi : Inv doc st)
    (hpre : ∀ m ∈ pre, ∃ x, m.name = some x ∧ x ∈ names st)
    (h : addSpeciesNodes defaults doc depth st post = .ok st') :
    Inv doc st' ∧ Ext st st' ∧ ∀ m ∈ doc.species, ∃ x, m.name = some x ∧ x ∈ names st' := by
  induction post generalizing pre st with
  | nil =>
    simp only [addSpeciesNodes, Res.ok.injEq] at h
    subst h
    exact ⟨hi, .refl _, by rw [hd]; simpa using hpre⟩
  | cons node post ih =>
    simp only [addSpeciesNodes] at h
    cases ha : addSpeciesNode defaults doc depth st node <;> rw [ha] at h <;>
      simp only [Res.bind_ok', Res.bind_throw', Res.bind_ub', reduceCtorEq] at h
    rename_i q
    obtain ⟨st1, s⟩ := q
    obtain ⟨a1, a2, x, a3, a4⟩ := addSpeciesNode_spec defaults hdef doc depth st st1 node s hi
      (fun x hx => first_or_loaded doc pre post node hd st hpre x hx) ha
    obtain ⟨b1, b2, b3⟩ := ih (pre ++ [node]) (by rw [hd]; simp) st1 a1 (by
      intro m hm
      rcases List.mem_append.1 hm with hm | hm
      · obtain ⟨y, hy1, hy2⟩ := hpre m hm
        exact ⟨y, hy1, a2.names _ hy2⟩
      · rw [List.mem_singleton] at hm; subst hm
        exact ⟨x, a3, a4⟩) h
    exact ⟨b1, a2.trans b2, b3⟩

theorem addElementNodes_spec (nodes : List ElementNode) (st st' : St) (h : addElementNodes st nodes = .ok st') :
    st'.species = st.species ∧ st.elements <+: st'.elements ∧
    ∀ m ∈ nodes, ∃ x, m.symbol = some x ∧ x ∈ st'.elements.map (·.symbol) := by
  induction nodes generalizing st with
  | nil => simp only [addElementNodes, Res.ok.injEq] at h; subst h; exact ⟨rfl, List.prefix_rfl, by simp⟩
  | cons node nodes ih =>
    simp only [addElementNodes] at h
    cases ha : addElementNode st node <;> rw [ha] at h <;>
      simp only [Res.bind_ok', Res.bind_throw', Res.bind_ub', reduceCtorEq] at h
    rename_i q
    obtain ⟨st1, e⟩ := q
    obtain ⟨a1, a2, a3⟩ := addElementNode_spec _ _ _ _ ha
    obtain ⟨b1, b2, b3⟩ := ih _ h
    have hp : st.elements <+: st1.elements := by rw [a3]; exact List.prefix_append _ _
    refine ⟨b1.trans a2, hp.trans b2, ?_⟩
    intro m hm
    rcases List.mem_cons.1 hm with rfl | hm
    · refine ⟨e.symbol, a1, List.mem_map.2 ⟨e, b2.subset ?_, rfl⟩⟩
      dsimp only; rw [a3]; simp
    · exact b3 m hm

theorem load_spec (defaults : Str → Option Element) (hdef : ∀ s e, defaults s = some e → e.symbol = s) (doc : Doc) (depth : Nat)
    (st : St) (h : load defaults depth doc = .ok st) :
    Inv doc st ∧ (∀ m ∈ doc.species, ∃ x, m.name = some x ∧ x ∈ names st) ∧
    (∀ m ∈ doc.elements, ∃ x, m.symbol = some x ∧ x ∈ st.elements.map (·.symbol)) := by
  unfold load at h
  cases ha : addElementNodes {} doc.elements <;> rw [ha] at h <;>
    simp only [Res.bind_ok', Res.bind_throw', Res.bind_ub', reduceCtorEq] at h
  rename_i st0
  obtain ⟨e1, e2, e3⟩ := addElementNodes_spec _ _ _ ha
  have hs : st0.species = [] := e1
  have hi : Inv doc st0 := ⟨by rw [hs]; simp, by rw [hs]; simp, by rw [hs]; simp⟩
  obtain ⟨a1, a2, a3⟩ := addSpeciesNodes_spec defaults hdef doc depth [] doc.species rfl st0 st hi (by simp) h
  refine ⟨a1, a3, ?_⟩
  intro m hm
  obtain ⟨x, hx1, hx2⟩ := e3 m hm
  obtain ⟨e, he, rfl⟩ := List.mem_map.1 hx2
  exact ⟨_, hx1, List.mem_map.2 ⟨e, a2.el.subset he, rfl⟩⟩

/-- If a document is loaded, the position of the species is a rank. -/
theorem acyclic_of_inv (doc : Doc) (st : St) (hi : Inv doc st) (hall : ∀ m ∈ doc.species, ∃ x, m.name = some x ∧ x ∈ names st) :
    ∀ x y, Reactant doc x y → (names st).idxOf y < (names st).idxOf x := by
  rintro x y ⟨node, pairs, model, hf, hr, hy⟩
  have hmem := List.mem_of_find?_eq_some hf
  have hname : node.name = some x := by simpa using List.find?_some hf
  obtain ⟨x', hx1, hx2⟩ := hall node hmem
  rw [hname] at hx1; cases hx1
  have hlt := List.idxOf_lt_length_iff.2 hx2
  generalize hi' : (names st).idxOf x = i at hlt ⊢
  have hlt' : i < st.species.length := by simpa [names] using hlt
  have hget : (st.species[i]).name = x := by
    have h1 := List.getElem_idxOf (xs := names st) (x := x) (by rw [hi']; exact hlt)
    simp only [hi'] at h1
    simpa [names] using h1
  obtain ⟨nd, hnd1, hnd2⟩ := hi.data _ (List.getElem_mem hlt')
  rw [hget, hf] at hnd1; cases hnd1
  obtain ⟨-, -, -, -, -, -, -, hd⟩ := hnd2
  have hrs : (st.species[i]).reactants = pairs := by
    rcases hd with ⟨h1, -⟩ | ⟨m, h1⟩
    · rw [hr] at h1; cases h1
    · rw [hr] at h1; simp only [Option.some.injEq, Prod.mk.injEq] at h1; exact h1.1.symm
  obtain ⟨p, hp, rfl⟩ := List.mem_map.1 hy
  have ho := hi.order i _ (List.getElem?_eq_getElem hlt') p (by rw [hrs]; exact hp)
  rw [List.map_take] at ho
  change p.1 ∈ List.take i (names st) at ho
  have h2 : (names st).idxOf p.1 = ((names st).take i).idxOf p.1 := by
    conv_lhs => rw [← List.take_append_drop i (names st)]
    rw [List.idxOf_append_of_mem ho]
  rw [h2]
  have := List.idxOf_lt_length_iff.2 ho
  have h3 : (List.take i (names st)).length ≤ i := List.length_take_le _ _
  omega

/-- With a rank, no species is loaded twice, and only species of lower rank are loaded along with a species. -/
theorem addSpeciesNode_nodup (defaults : Str → Option Element) (hdef : ∀ s e, defaults s = some e → e.symbol = s) (doc : Doc)
    (rank : Str → Nat) (hrank : ∀ x y, Reactant doc x y → rank y < rank x) (n : Nat) :
    ∀ (st st' : St) (node : SpeciesNode) (s : Species) (x : Str), Inv doc st → (names st).Nodup → node.name = some x →
      (firstNode doc x = some node ∨ x ∈ names st) →
      addSpeciesNode defaults doc n st node = .ok (st', s) →
      (names st').Nodup ∧ ∀ y ∈ names st', y ∈ names st ∨ rank y ≤ rank x := by
  induction n with
  | zero => intro st st' node s x _ _ _ _ h; simp [addSpeciesNode] at h
  | succ n ih =>
    intro st st' node s x hi hnd hx hf h
    have hadd : ∀ st name st' s, Inv doc st → (names st).Nodup → addByName defaults doc n st name = .ok (st', s) →
        (Inv doc st' ∧ Ext st st' ∧ name ∈ names st') ∧ (names st').Nodup ∧
          ∀ y ∈ names st', y ∈ names st ∨ rank y ≤ rank name := by
      intro st name st' s hi hnd h
      unfold addByName at h
      cases hg : getSpeciesNode doc.species name <;> rw [hg] at h <;>
        simp only [Res.bind_ok', Res.bind_throw', Res.bind_ub', reduceCtorEq] at h
      rename_i o
      cases o with
      | none => cases h
      | some nd =>
        have hfirst : firstNode doc name = some nd := getSpeciesNode_spec _ _ _ hg
        have hname : nd.name = some name := by simpa using List.find?_some hfirst
        obtain ⟨a1, a2, x, a3, a4⟩ := addSpeciesNode_spec defaults hdef doc n st st' nd s hi
          (fun x hx => .inl (by rw [hname] at hx; cases hx; exact hfirst)) h
        rw [hname] at a3; cases a3
        exact ⟨⟨a1, a2, a4⟩, ih st st' nd s name hi hnd hname (.inl hfirst) h⟩
    have hreact : ∀ (pairs : List (Str × Rat)) (b : Nat), (∀ p ∈ pairs, rank p.1 < b) → ∀ st st' r, Inv doc st → (names st).Nodup →
        createReactants (addByName defaults doc n) st pairs = .ok (st', r) →
        (names st').Nodup ∧ ∀ y ∈ names st', y ∈ names st ∨ rank y < b := by
      intro pairs b
      induction pairs with
      | nil =>
        intro _ st st' r _ hnd h
        simp only [createReactants, Res.ok.injEq, Prod.mk.injEq] at h
        obtain ⟨rfl, rfl⟩ := h
        exact ⟨hnd, fun y hy => .inl hy⟩
      | cons pc rest ihr =>
        intro hb st st' r hi hnd h
        obtain ⟨name, coeff⟩ := pc
        have hbr : ∀ p ∈ rest, rank p.1 < b := fun p hp => hb p (List.mem_cons_of_mem _ hp)
        simp only [createReactants, findWithName_lt] at h
        by_cases hm : name ∈ names st
        · rw [if_pos hm] at h
          cases hc : createReactants (addByName defaults doc n) st rest <;> rw [hc] at h <;>
            simp only [Res.bind_ok', Res.bind_throw', Res.bind_ub', reduceCtorEq, Res.ok.injEq, Prod.mk.injEq] at h
          rename_i q
          obtain ⟨st1, r1⟩ := q
          obtain ⟨rfl, rfl⟩ := h
          exact ihr hbr _ _ _ hi hnd hc
        · rw [if_neg hm] at h
          cases ha : addByName defaults doc n st name <;> rw [ha] at h <;>
            simp only [Res.bind_ok', Res.bind_throw', Res.bind_ub', reduceCtorEq] at h
          rename_i q0
          obtain ⟨st0, s0⟩ := q0
          obtain ⟨⟨b1, b2, b3⟩, b4, b5⟩ := hadd _ _ _ _ hi hnd ha
          cases hc : createReactants (addByName defaults doc n) st0 rest <;> rw [hc] at h <;>
            simp only [Res.bind_ok', Res.bind_throw', Res.bind_ub', reduceCtorEq, Res.ok.injEq, Prod.mk.injEq] at h
          rename_i q
          obtain ⟨st1, r1⟩ := q
          obtain ⟨rfl, rfl⟩ := h
          obtain ⟨a1, a2⟩ := ihr hbr _ _ _ b1 b4 hc
          refine ⟨a1, fun y hy => ?_⟩
          rcases a2 y hy with hy | hy
          · rcases b5 y hy with hy | hy
            · exact .inl hy
            · exact .inr (lt_of_le_of_lt hy (hb _ List.mem_cons_self))
          · exact .inr hy
    rcases addSpeciesNode_cases defaults doc n st node with h0 | ⟨name, formula, state, pairs, h1, h2, h3, h4, h5⟩
    · rw [h0] at h; cases h
    · rw [hx] at h1; cases h1
      rcases h5 with ⟨t, ht, hn, he⟩ | ⟨hn, he⟩
      · rw [he] at h
        cases h
        exact ⟨hnd, fun y hy => .inl hy⟩
      · rw [he] at h
        have hfirst := hf.resolve_right hn
        obtain ⟨-, -, -, c, r, k1, k2, k3, k4⟩ := createSpecies_spec defaults hdef doc n
          (fun st name st' s hi h => by
            unfold addByName at h
            cases hg : getSpeciesNode doc.species name <;> rw [hg] at h <;>
              simp only [Res.bind_ok', Res.bind_throw', Res.bind_ub', reduceCtorEq] at h
            rename_i o
            cases o with
            | none => cases h
            | some nd =>
              have hfirst : firstNode doc name = some nd := getSpeciesNode_spec _ _ _ hg
              have hname : nd.name = some name := by simpa using List.find?_some hfirst
              obtain ⟨a1, a2, x, a3, a4⟩ := addSpeciesNode_spec defaults hdef doc n st st' nd s hi
                (fun x hx => .inl (by rw [hname] at hx; cases hx; exact hfirst)) h
              rw [hname] at a3; cases a3
              exact ⟨a1, a2, a4⟩) _ _ _ _ _ _ _ _ hx h2 h3 h4 hfirst hi h
        obtain ⟨st1, c⟩ := c
        obtain ⟨st2, rs, b⟩ := r
        obtain ⟨c1, c2, -, -⟩ := composition_spec defaults hdef doc pairs _ _ _ k1
        have hi1 : Inv doc st1 := hi.of_el c1 c2
        dsimp only at k2 k3 k4
        have key : (names st2).Nodup ∧ ∀ y ∈ names st2, y ∈ names st1 ∨ rank y < rank x := by
          unfold createFormationReaction at k2
          split at k2
          · simp only [Res.ok.injEq, Prod.mk.injEq] at k2
            obtain ⟨rfl, -, -⟩ := k2
            exact ⟨k4 ▸ hnd, fun y hy => .inl hy⟩
          · cases k2
          · rename_i ps model hnr
            cases hq : createReactants (addByName defaults doc n) st1 ps <;> rw [hq] at k2 <;>
              simp only [Res.bind_ok', Res.bind_throw', Res.bind_ub', reduceCtorEq] at k2
            rename_i q
            obtain ⟨st3, r3⟩ := q
            dsimp only at k2
            split_ifs at k2
            simp only [Res.ok.injEq, Prod.mk.injEq] at k2
            obtain ⟨rfl, -, -⟩ := k2
            exact hreact ps (rank x) (fun p hp => hrank x p.1 ⟨node, ps, model, hfirst, hnr, List.mem_map.2 ⟨p, hp, rfl⟩⟩) _ _ _ hi1
              (k4 ▸ hnd) hq
        have hnot : x ∉ names st2 := by
          intro hc
          rcases key.2 x hc with hc | hc
          · rw [k4] at hc; exact hn hc
          · omega
        rw [k3]
        refine ⟨?_, ?_⟩
        · rw [List.nodup_append]
          refine ⟨key.1, by simp, ?_⟩
          intro a ha b hb hab
          rw [List.mem_singleton] at hb
          subst hb; subst hab
          exact hnot ha
        · intro y hy
          rcases List.mem_append.1 hy with hy | hy
          · rcases key.2 y hy with hy | hy
            · rw [k4] at hy; exact .inl hy
            · exact .inr hy.le
          · rw [List.mem_singleton] at hy; subst hy; exact .inr le_rfl

theorem addSpeciesNodes_nodup (defaults : Str → Option Element) (hdef : ∀ s e, defaults s = some e → e.symbol = s) (doc : Doc)
    (rank : Str → Nat) (hrank : ∀ x y, Reactant doc x y → rank y < rank x)
    (depth : Nat) (pre post : List SpeciesNode) (hd : doc.species = pre ++ post) (st st' : St) (hi : Inv doc st)
    (hnd : (names st).Nodup) (hpre : ∀ m ∈ pre, ∃ x, m.name = some x ∧ x ∈ names st)
    (h : addSpeciesNodes defaults doc depth st post = .ok st') : (names st').Nodup := by
  induction post generalizing pre st with
  | nil => simp only [addSpeciesNodes, Res.ok.injEq] at h; subst h; exact hnd
  | cons node post ih =>
    simp only [addSpeciesNodes] at h
    cases ha : addSpeciesNode defaults doc depth st node <;> rw [ha] at h <;>
      simp only [Res.bind_ok', Res.bind_throw', Res.bind_ub', reduceCtorEq] at h
    rename_i q
    obtain ⟨st1, s⟩ := q
    obtain ⟨a1, a2, x, a3, a4⟩ := addSpeciesNode_spec defaults hdef doc depth st st1 node s hi
      (fun x hx => first_or_loaded doc pre post node hd st hpre x hx) ha
    obtain ⟨b1, -⟩ := addSpeciesNode_nodup defaults hdef doc rank hrank depth st st1 node s x hi hnd a3
      (first_or_loaded doc pre post node hd st hpre x a3) ha
    exact ih (pre ++ [node]) (by rw [hd]; simp) st1 a1 b1 (by
      intro m hm
      rcases List.mem_append.1 hm with hm | hm
      · obtain ⟨y, hy1, hy2⟩ := hpre m hm
        exact ⟨y, hy1, a2.names _ hy2⟩
      · rw [List.mem_singleton] at hm; subst hm
        exact ⟨x, a3, a4⟩) h

theorem load_nodup (defaults : Str → Option Element) (hdef : ∀ s e, defaults s = some e → e.symbol = s) (doc : Doc) (depth : Nat)
    (st : St) (h : load defaults depth doc = .ok st) : (names st).Nodup := by
  obtain ⟨hi, hall, -⟩ := load_spec defaults hdef doc depth st h
  have hrank := acyclic_of_inv doc st hi hall
  unfold load at h
  cases ha : addElementNodes {} doc.elements <;> rw [ha] at h <;>
    simp only [Res.bind_ok', Res.bind_throw', Res.bind_ub', reduceCtorEq] at h
  rename_i st0
  obtain ⟨e1, e2, e3⟩ := addElementNodes_spec _ _ _ ha
  have hs : st0.species = [] := e1
  have hi0 : Inv doc st0 := ⟨by rw [hs]; simp, by rw [hs]; simp, by rw [hs]; simp⟩
  exact addSpeciesNodes_nodup defaults hdef doc _ hrank depth [] doc.species rfl st0 st hi0 (by simp [names, hs]) (by simp) h

/-! ### Termination -/

theorem getElementNode_ne_ub (nodes : List ElementNode) (symbol : Str) : getElementNode nodes symbol ≠ .ub := by
  induction nodes with
  | nil => simp [getElementNode]
  | cons a nodes ih =>
    simp only [getElementNode]
    cases a.symbol with
    | none => simp
    | some s => dsimp only; split_ifs <;> simp [ih]

theorem getSpeciesNode_ne_ub (nodes : List SpeciesNode) (name : Str) : getSpeciesNode nodes name ≠ .ub := by
  induction nodes with
  | nil => simp [getSpeciesNode]
  | cons a nodes ih =>
    simp only [getSpeciesNode]
    cases a.name with
    | none => simp
    | some s => dsimp only; split_ifs <;> simp [ih]

theorem addElementNode_ne_ub (st : St) (node : ElementNode) : addElementNode st node ≠ .ub := by
  unfold addElementNode
  split
  · split_ifs <;> simp
  · simp

theorem addElementSymbol_ne_ub (defaults : Str → Option Element) (doc : Doc) (st : St) (symbol : Str) :
    addElementSymbol defaults doc st symbol ≠ .ub := by
  unfold addElementSymbol
  cases hg : getElementNode doc.elements symbol with
  | ub => exact absurd hg (getElementNode_ne_ub _ _)
  | throw => simp
  | ok o =>
    cases o with
    | some node => exact addElementNode_ne_ub _ _
    | none =>
      simp only [Res.bind_ok']
      cases defaults symbol <;> simp

theorem composition_ne_ub (defaults : Str → Option Element) (doc : Doc) (pairs : List (Str × Rat)) (st : St) :
    createElementalComposition defaults doc st pairs ≠ .ub := by
  induction pairs generalizing st with
  | nil => simp [createElementalComposition]
  | cons pc rest ih =>
    obtain ⟨symbol, coeff⟩ := pc
    simp only [createElementalComposition]
    cases st.elements.find? (fun e => e.symbol = symbol) with
    | some e =>
      dsimp only
      cases hc : createElementalComposition defaults doc st rest with
      | ub => exact absurd hc (ih _)
      | throw => simp
      | ok r => simp
    | none =>
      dsimp only
      cases ha : addElementSymbol defaults doc st symbol with
      | ub => exact absurd ha (addElementSymbol_ne_ub _ _ _ _)
      | throw => simp
      | ok a =>
        simp only [Res.bind_ok']
        cases hc : createElementalComposition defaults doc a.1 rest with
        | ub => exact absurd hc (ih _)
        | throw => simp
        | ok r => simp

/-- A successful `addSpecies(name)` keeps the invariant. -/
theorem addByName_spec (defaults : Str → Option Element) (hdef : ∀ s e, defaults s = some e → e.symbol = s) (doc : Doc) (n : Nat)
    (st : St) (name : Str) (st' : St) (s : Species) (hi : Inv doc st) (h : addByName defaults doc n st name = .ok (st', s)) :
    Inv doc st' ∧ Ext st st' ∧ name ∈ names st' := by
  unfold addByName at h
  cases hg : getSpeciesNode doc.species name <;> rw [hg] at h <;>
    simp only [Res.bind_ok', Res.bind_throw', Res.bind_ub', reduceCtorEq] at h
  rename_i o
  cases o with
  | none => cases h
  | some nd =>
    have hfirst : firstNode doc name = some nd := getSpeciesNode_spec _ _ _ hg
    have hname : nd.name = some name := by simpa using List.find?_some hfirst
    obtain ⟨a1, a2, x, a3, a4⟩ := addSpeciesNode_spec defaults hdef doc n st st' nd s hi
      (fun x hx => .inl (by rw [hname] at hx; cases hx; exact hfirst)) h
    rw [hname] at a3; cases a3
    exact ⟨a1, a2, a4⟩

/-- A property of outcomes that holds for all calls of `addSpecies(name)` holds for `createReactants`. -/
theorem createReactants_ne (doc : Doc) (add : St → Str → Res (St × Species)) (bad : ∀ {α : Type}, Res α)
    (hbad : ∀ {α : Type}, (bad : Res α) = .throw ∨ (bad : Res α) = .ub)
    (hsame : ∀ {α β : Type}, (bad : Res α) = .throw ↔ (bad : Res β) = .throw)
    (good : St → Prop)
    (hadd : ∀ st name st' s, Inv doc st → add st name = .ok (st', s) → Inv doc st' ∧ Ext st st' ∧ name ∈ names st')
    (hgood : ∀ st st', good st → Ext st st' → good st')
    (pairs : List (Str × Rat)) (hne : ∀ p ∈ pairs, ∀ st, Inv doc st → good st → add st p.1 ≠ bad) (st : St) (hi : Inv doc st)
    (hg : good st) : createReactants add st pairs ≠ bad := by
  have hbind : ∀ {α β : Type} (x : Res α) (f : α → Res β), x ≠ bad → (∀ a, x = .ok a → f a ≠ bad) → x.bind f ≠ bad := by
    intro α β x f hx hf
    cases x with
    | ok a => exact hf a rfl
    | throw =>
      rcases hbad (α := β) with h | h
      · exact absurd ((hsame (α := α) (β := β)).2 h).symm hx
      · rw [h]; simp
    | ub =>
      rcases hbad (α := β) with h | h
      · rw [h]; simp
      · rcases hbad (α := α) with h' | h'
        · rw [(hsame (α := α) (β := β)).1 h'] at h; cases h
        · exact absurd h'.symm hx
  have hok : ∀ {α : Type} (a : α), (.ok a : Res α) ≠ bad := by
    intro α a h
    rcases hbad (α := α) with h' | h' <;> rw [h'] at h <;> cases h
  induction pairs generalizing st with
  | nil => simpa [createReactants] using hok (α := St × List (Str × Rat)) (st, [])
  | cons pc rest ih =>
    obtain ⟨name, coeff⟩ := pc
    have ih' := ih (fun p hp => hne p (List.mem_cons_of_mem _ hp))
    simp only [createReactants]
    by_cases hm : findWithName st.species name < st.species.length
    · rw [if_pos hm]
      exact hbind _ _ (ih' st hi hg) (fun a _ => hok _)
    · rw [if_neg hm]
      refine hbind _ _ (hne (name, coeff) List.mem_cons_self st hi hg) (fun a ha => ?_)
      obtain ⟨b1, b2, -⟩ := hadd _ _ _ _ hi ha
      exact hbind _ _ (ih' _ b1 (hgood _ _ hg b2)) (fun a _ => hok _)

/-- With enough depth the recursion ends. -/
theorem addSpeciesNode_ne_ub (defaults : Str → Option Element) (hdef : ∀ s e, defaults s = some e → e.symbol = s) (doc : Doc)
    (rank : Str → Nat) (hrank : ∀ x y, Reactant doc x y → rank y < rank x) (n : Nat) :
    ∀ (st : St) (node : SpeciesNode) (x : Str), Inv doc st → node.name = some x → (firstNode doc x = some node ∨ x ∈ names st) →
      rank x < n → addSpeciesNode defaults doc n st node ≠ .ub := by
  induction n with
  | zero => intro st node x _ _ _ h; omega
  | succ n ih =>
    intro st node x hi hx hf hlt
    rcases addSpeciesNode_cases defaults doc n st node with h0 | ⟨name, formula, state, pairs, h1, h2, h3, h4, h5⟩
    · rw [h0]; simp
    · rw [hx] at h1; cases h1
      rcases h5 with ⟨t, ht, hn, he⟩ | ⟨hn, he⟩
      · rw [he]; simp
      · rw [he]
        have hfirst := hf.resolve_right hn
        unfold createSpecies
        by_cases hu : AggregateState.parse state = .Undefined
        · rw [if_pos hu]; simp
        rw [if_neg hu]
        cases hc : createElementalComposition defaults doc st pairs with
        | ub => exact absurd hc (composition_ne_ub _ _ _ _)
        | throw => simp
        | ok c =>
          obtain ⟨st1, c⟩ := c
          obtain ⟨c1, c2, -, -⟩ := composition_spec defaults hdef doc pairs _ _ _ hc
          have hi1 : Inv doc st1 := hi.of_el c1 c2
          simp only [Res.bind_ok']
          have hne : createFormationReaction (addByName defaults doc n) st1 node.reaction ≠ .ub := by
            unfold createFormationReaction
            split
            · simp
            · simp
            · rename_i ps model hnr
              have := createReactants_ne doc (addByName defaults doc n) (fun {α} => .ub) (.inr rfl) (by simp) (fun _ => True)
                (addByName_spec defaults hdef doc n) (fun _ _ _ _ => trivial) ps (by
                  intro p hp st hi _
                  have hr := hrank x p.1 ⟨node, ps, model, hfirst, hnr, List.mem_map.2 ⟨p, hp, rfl⟩⟩
                  unfold addByName
                  cases hg : getSpeciesNode doc.species p.1 with
                  | ub => exact absurd hg (getSpeciesNode_ne_ub _ _)
                  | throw => simp
                  | ok o =>
                    cases o with
                    | none => simp
                    | some nd =>
                      have hfirst' : firstNode doc p.1 = some nd := getSpeciesNode_spec _ _ _ hg
                      have hname : nd.name = some p.1 := by simpa using List.find?_some hfirst'
                      exact ih st nd p.1 hi hname (.inl hfirst') (by omega)) st1 hi1 trivial
              cases hq : createReactants (addByName defaults doc n) st1 ps with
              | ub => exact absurd hq this
              | throw => simp
              | ok r => simp only [Res.bind_ok']; split_ifs <;> simp
          cases hr : createFormationReaction (addByName defaults doc n) st1 node.reaction with
          | ub => exact absurd hr hne
          | throw => simp
          | ok r =>
            simp only [Res.bind_ok']
            by_cases g1 : node.model = .invalid
            · rw [if_pos g1]; simp
            rw [if_neg g1]
            by_cases g2 : x = [] ∨ formula = [] ∨ c.length = 0
            · rw [if_pos g2]; simp
            rw [if_neg g2]
            obtain ⟨p, -, hp⟩ := strip_ok formula fun hh => g2 (.inr (.inl hh))
            rw [hp, Res.bind_ok']
            split_ifs <;> simp

theorem addSpeciesNodes_ne_ub (defaults : Str → Option Element) (hdef : ∀ s e, defaults s = some e → e.symbol = s) (doc : Doc)
    (rank : Str → Nat) (hrank : ∀ x y, Reactant doc x y → rank y < rank x)
    (depth : Nat) (hdepth : ∀ m ∈ doc.species, ∀ x, m.name = some x → rank x < depth) (h0 : 0 < depth)
    (pre post : List SpeciesNode) (hd : doc.species = pre ++ post) (st : St) (hi : Inv doc st)
    (hpre : ∀ m ∈ pre, ∃ x, m.name = some x ∧ x ∈ names st) : addSpeciesNodes defaults doc depth st post ≠ .ub := by
  induction post generalizing pre st with
  | nil => simp [addSpeciesNodes]
  | cons node post ih =>
    simp only [addSpeciesNodes]
    cases hx : node.name with
    | none =>
      have : addSpeciesNode defaults doc depth st node = .throw := by
        obtain ⟨k, rfl⟩ : ∃ k, depth = k + 1 := ⟨depth - 1, by omega⟩
        rw [addSpeciesNode]
        split
        · rename_i h1 _ _ _; rw [hx] at h1; cases h1
        · rfl
      rw [this]; simp
    | some x =>
      have hne := addSpeciesNode_ne_ub defaults hdef doc rank hrank depth st node x hi hx
        (first_or_loaded doc pre post node hd st hpre x hx) (hdepth node (by rw [hd]; simp) x hx)
      cases ha : addSpeciesNode defaults doc depth st node with
      | ub => exact absurd ha hne
      | throw => simp
      | ok q =>
        obtain ⟨st1, s⟩ := q
        obtain ⟨a1, a2, y, a3, a4⟩ := addSpeciesNode_spec defaults hdef doc depth st st1 node s hi
          (fun x hx => first_or_loaded doc pre post node hd st hpre x hx) ha
        exact ih (pre ++ [node]) (by rw [hd]; simp) st1 a1 (by
          intro m hm
          rcases List.mem_append.1 hm with hm | hm
          · obtain ⟨z, hz1, hz2⟩ := hpre m hm
            exact ⟨z, hz1, a2.names _ hz2⟩
          · rw [List.mem_singleton] at hm; subst hm
            exact ⟨y, a3, a4⟩)

theorem addElementNodes_ne_ub (nodes : List ElementNode) (st : St) : addElementNodes st nodes ≠ .ub := by
  induction nodes generalizing st with
  | nil => simp [addElementNodes]
  | cons node nodes ih =>
    simp only [addElementNodes]
    cases ha : addElementNode st node with
    | ub => exact absurd ha (addElementNode_ne_ub _ _)
    | throw => simp
    | ok q => exact ih _

theorem load_ne_ub (defaults : Str → Option Element) (hdef : ∀ s e, defaults s = some e → e.symbol = s) (doc : Doc)
    (rank : Str → Nat) (hrank : ∀ x y, Reactant doc x y → rank y < rank x)
    (depth : Nat) (hdepth : ∀ m ∈ doc.species, ∀ x, m.name = some x → rank x < depth) (h0 : 0 < depth) :
    load defaults depth doc ≠ .ub := by
  unfold load
  cases ha : addElementNodes {} doc.elements with
  | ub => exact absurd ha (addElementNodes_ne_ub _ _)
  | throw => simp
  | ok st0 =>
    obtain ⟨e1, e2, e3⟩ := addElementNodes_spec _ _ _ ha
    have hs : st0.species = [] := e1
    have hi0 : Inv doc st0 := ⟨by rw [hs]; simp, by rw [hs]; simp, by rw [hs]; simp⟩
    exact addSpeciesNodes_ne_ub defaults hdef doc rank hrank depth hdepth h0 [] doc.species rfl st0 hi0 (by simp)

/-! ### More depth does not change the result -/

theorem bind_mono {α β : Type} (x : Res α) (f g : α → Res β) (h : x.bind f ≠ .ub) (hfg : ∀ a, x = .ok a → f a ≠ .ub → g a = f a) :
    x.bind g = x.bind f := by
  cases x with
  | ok a => exact hfg a rfl h
  | throw => rfl
  | ub => rfl

theorem createReactants_mono (add add' : St → Str → Res (St × Species)) (hadd : ∀ st name, add st name ≠ .ub → add' st name = add st name)
    (pairs : List (Str × Rat)) (st : St) (h : createReactants add st pairs ≠ .ub) :
    createReactants add' st pairs = createReactants add st pairs := by
  induction pairs generalizing st with
  | nil => rfl
  | cons pc rest ih =>
    obtain ⟨name, coeff⟩ := pc
    simp only [createReactants] at h ⊢
    by_cases hm : findWithName st.species name < st.species.length
    · rw [if_pos hm] at h ⊢
      rw [if_pos hm]
      have : createReactants add st rest ≠ .ub := by intro hc; rw [hc] at h; exact h rfl
      rw [ih st this]
    · rw [if_neg hm] at h ⊢
      rw [if_neg hm]
      have h1 : add st name ≠ .ub := by intro hc; rw [hc] at h; exact h rfl
      rw [hadd st name h1]
      refine bind_mono _ _ _ h (fun a _ h2 => ?_)
      have : createReactants add a.1 rest ≠ .ub := by intro hc; rw [hc] at h2; exact h2 rfl
      rw [ih a.1 this]

theorem addSpeciesNode_eq (defaults : Str → Option Element) (doc : Doc) (n : Nat) (st : St) (node : SpeciesNode) :
    addSpeciesNode defaults doc (n + 1) st node =
      match node.name, node.formula, node.aggregateState, node.elements with
      | some name, some formula, some state, some pairs =>
        if node.reaction = none ∧ node.model = .absent then .throw
        else
          match st.species.find? (fun s => s.name = name) with
          | some s => .ok (st, s)
          | none => createSpecies defaults doc n st node name formula state pairs
      | _, _, _, _ => .throw := rfl

theorem addSpeciesNode_mono (defaults : Str → Option Element) (doc : Doc) (n : Nat) :
    ∀ (st : St) (node : SpeciesNode), addSpeciesNode defaults doc n st node ≠ .ub →
      addSpeciesNode defaults doc (n + 1) st node = addSpeciesNode defaults doc n st node := by
  induction n with
  | zero => intro st node h; exact absurd rfl h
  | succ n ih =>
    intro st node h
    rw [addSpeciesNode_eq] at h
    rw [addSpeciesNode_eq, addSpeciesNode_eq]
    cases h1 : node.name with
    | none => rfl
    | some name =>
    cases h2 : node.formula with
    | none => rfl
    | some formula =>
    cases h3 : node.aggregateState with
    | none => rfl
    | some state =>
    cases h4 : node.elements with
    | none => rfl
    | some pairs =>
    rw [h1, h2, h3, h4] at h
    dsimp only at h ⊢
    by_cases h0 : node.reaction = none ∧ node.model = .absent
    · rw [if_pos h0, if_pos h0]
    · rw [if_neg h0] at h
      rw [if_neg h0, if_neg h0]
      cases hf : st.species.find? (fun s => s.name = name) with
      | some s => rfl
      | none =>
        rw [hf] at h
        dsimp only at h ⊢
        unfold createSpecies at h ⊢
        by_cases hst : AggregateState.parse state = .Undefined
        · rw [if_pos hst, if_pos hst]
        rw [if_neg hst] at h
        rw [if_neg hst, if_neg hst]
        refine bind_mono _ _ _ h (fun c _ hc => ?_)
        have hadd : ∀ st name, addByName defaults doc n st name ≠ .ub →
            addByName defaults doc (n + 1) st name = addByName defaults doc n st name := by
          intro st name hne
          unfold addByName at hne ⊢
          refine bind_mono _ _ _ hne (fun o _ ho => ?_)
          cases o with
          | none => rfl
          | some nd => exact ih st nd ho
        have : createFormationReaction (addByName defaults doc (n + 1)) c.1 node.reaction =
            createFormationReaction (addByName defaults doc n) c.1 node.reaction := by
          have hne : createFormationReaction (addByName defaults doc n) c.1 node.reaction ≠ .ub := by
            intro hx; rw [hx] at hc; exact hc rfl
          unfold createFormationReaction at hne ⊢
          split
          · rfl
          · rfl
          · rename_i ps model heq
            rw [heq] at hne
            dsimp only at hne
            have h5 : createReactants (addByName defaults doc n) c.1 ps ≠ .ub := by
              intro hx; rw [hx] at hne; exact hne rfl
            rw [createReactants_mono _ _ hadd ps c.1 h5]
        rw [this]

theorem addSpeciesNodes_mono (defaults : Str → Option Element) (doc : Doc) (n : Nat) (nodes : List SpeciesNode) (st : St)
    (h : addSpeciesNodes defaults doc n st nodes ≠ .ub) :
    addSpeciesNodes defaults doc (n + 1) st nodes = addSpeciesNodes defaults doc n st nodes := by
  induction nodes generalizing st with
  | nil => rfl
  | cons node nodes ih =>
    simp only [addSpeciesNodes] at h ⊢
    have h1 : addSpeciesNode defaults doc n st node ≠ .ub := by intro hc; rw [hc] at h; exact h rfl
    rw [addSpeciesNode_mono defaults doc n st node h1]
    exact bind_mono _ _ _ h (fun a _ h2 => ih a.1 h2)

theorem load_mono (defaults : Str → Option Element) (doc : Doc) (n k : Nat) (h : load defaults n doc ≠ .ub) :
    load defaults (n + k) doc = load defaults n doc := by
  induction k with
  | zero => rfl
  | succ k ih =>
    rw [← ih]
    rw [← ih] at h
    unfold load at h ⊢
    exact bind_mono _ _ _ h (fun st _ h2 => addSpeciesNodes_mono defaults doc (n + k) doc.species st h2)

/-! ### Documents without mistakes are not rejected -/

/-- All element symbols of the document are loaded. -/
def ElOk (doc : Doc) (st : St) : Prop := ∀ m ∈ doc.elements, ∃ x, m.symbol = some x ∧ x ∈ st.elements.map (·.symbol)

theorem ElOk.ext {doc : Doc} {st st' : St} (h : ElOk doc st) (he : st.elements <+: st'.elements) : ElOk doc st' := by
  intro m hm
  obtain ⟨x, h1, h2⟩ := h m hm
  obtain ⟨e, h3, rfl⟩ := List.mem_map.1 h2
  exact ⟨_, h1, List.mem_map.2 ⟨e, he.subset h3, rfl⟩⟩

theorem getElementNode_absent (nodes : List ElementNode) (hn : ∀ m ∈ nodes, ∃ x, m.symbol = some x) (symbol : Str)
    (h : ∀ m ∈ nodes, m.symbol ≠ some symbol) : getElementNode nodes symbol = .ok none := by
  induction nodes with
  | nil => rfl
  | cons a nodes ih =>
    obtain ⟨x, hx⟩ := hn a List.mem_cons_self
    simp only [getElementNode, hx]
    rw [if_neg (by intro hc; exact h a List.mem_cons_self (by rw [hx, hc]))]
    exact ih (fun m hm => hn m (List.mem_cons_of_mem _ hm)) (fun m hm => h m (List.mem_cons_of_mem _ hm))

theorem composition_ok (defaults : Str → Option Element) (_hdef : ∀ s e, defaults s = some e → e.symbol = s) (doc : Doc)
    (hw : WellFormed defaults doc) (pairs : List (Str × Rat))
    (hp : ∀ p ∈ pairs, (∃ e ∈ doc.elements, e.symbol = some p.1) ∨ (defaults p.1).isSome) (st : St) (hel : ElOk doc st) :
    ∃ r, createElementalComposition defaults doc st pairs = .ok r := by
  induction pairs generalizing st with
  | nil => exact ⟨_, rfl⟩
  | cons pc rest ih =>
    obtain ⟨symbol, coeff⟩ := pc
    have ih' := ih (fun p hp' => hp p (List.mem_cons_of_mem _ hp'))
    simp only [createElementalComposition]
    cases hf : st.elements.find? (fun e => e.symbol = symbol) with
    | some e =>
      dsimp only
      obtain ⟨r, hr⟩ := ih' st hel
      rw [hr]; exact ⟨_, rfl⟩
    | none =>
      dsimp only
      have hnot : ∀ m ∈ doc.elements, m.symbol ≠ some symbol := by
        intro m hm hc
        obtain ⟨x, h1, h2⟩ := hel m hm
        rw [hc] at h1; cases h1
        obtain ⟨e, he, hes⟩ := List.mem_map.1 h2
        have := List.find?_eq_none.1 hf e he
        simp [hes] at this
      have hd : (defaults symbol).isSome := by
        rcases hp (symbol, coeff) List.mem_cons_self with ⟨e, he, hes⟩ | h
        · exact absurd hes (hnot e he)
        · exact h
      obtain ⟨e, he⟩ := Option.isSome_iff_exists.1 hd
      have : addElementSymbol defaults doc st symbol = .ok ({ st with elements := st.elements ++ [e] }, e) := by
        unfold addElementSymbol
        rw [getElementNode_absent doc.elements (fun m hm => by obtain ⟨s, _, h, _⟩ := hw.elements m hm; exact ⟨s, h⟩) symbol hnot]
        simp only [Res.bind_ok', he]
      rw [this]
      simp only [Res.bind_ok']
      obtain ⟨r, hr⟩ := ih' { st with elements := st.elements ++ [e] } (hel.ext (List.prefix_append _ _))
      rw [hr]; exact ⟨_, rfl⟩

theorem getSpeciesNode_present (nodes : List SpeciesNode) (hn : ∀ m ∈ nodes, ∃ x, m.name = some x) (name : Str)
    (h : ∃ m ∈ nodes, m.name = some name) : ∃ node ∈ nodes, getSpeciesNode nodes name = .ok (some node) := by
  induction nodes with
  | nil => obtain ⟨m, hm, -⟩ := h; cases hm
  | cons a nodes ih =>
    obtain ⟨x, hx⟩ := hn a List.mem_cons_self
    simp only [getSpeciesNode, hx]
    by_cases he : x = name
    · rw [if_pos he]; exact ⟨a, List.mem_cons_self, rfl⟩
    · rw [if_neg he]
      obtain ⟨m, hm, hmn⟩ := h
      rcases List.mem_cons.1 hm with rfl | hm
      · rw [hx] at hmn; cases hmn; exact absurd rfl he
      · obtain ⟨nd, h1, h2⟩ := ih (fun m hm => hn m (List.mem_cons_of_mem _ hm)) ⟨m, hm, hmn⟩
        exact ⟨nd, List.mem_cons_of_mem _ h1, h2⟩

theorem addSpeciesNode_ne_throw (defaults : Str → Option Element) (hdef : ∀ s e, defaults s = some e → e.symbol = s) (doc : Doc)
    (hw : WellFormed defaults doc) (n : Nat) :
    ∀ (st : St) (node : SpeciesNode), node ∈ doc.species → Inv doc st → ElOk doc st →
      addSpeciesNode defaults doc n st node ≠ .throw := by
  induction n with
  | zero => intro st node _ _ _; simp [addSpeciesNode]
  | succ n ih =>
    intro st node hmem hi hel
    obtain ⟨x, hx, hx0⟩ := hw.names node hmem
    obtain ⟨f, hf, hf0⟩ := hw.formulas node hmem
    obtain ⟨t, ht, ht0⟩ := hw.states node hmem
    obtain ⟨l, hl, hl0, hl1⟩ := hw.compositions node hmem
    have hm := hw.models node hmem
    rw [addSpeciesNode_eq, hx, hf, ht, hl]
    dsimp only
    rw [if_neg (by rintro ⟨h1, h2⟩; rcases hm with ⟨-, h⟩ | ⟨-, l, h, -⟩; · rw [h] at h2; cases h2
                   · rw [h] at h1; cases h1)]
    cases st.species.find? (fun s => s.name = x) with
    | some s => simp
    | none =>
      dsimp only
      unfold createSpecies
      rw [if_neg ht0]
      obtain ⟨c, hc⟩ := composition_ok defaults hdef doc hw l hl1 st hel
      rw [hc]
      obtain ⟨st1, c⟩ := c
      obtain ⟨c1, c2, c3, -⟩ := composition_spec defaults hdef doc l _ _ _ hc
      have hi1 : Inv doc st1 := hi.of_el c1 c2
      have hel1 := hel.ext c2
      simp only [Res.bind_ok']
      have hclen : c.length ≠ 0 := by
        intro h0
        have : (c.map fun p => (p.1.symbol, p.2)).length = 0 := by simpa using h0
        rw [c3] at this
        exact hl0 (List.length_eq_zero_iff.1 this)
      obtain ⟨fp, -, hfp⟩ := strip_ok f hf0
      rw [hfp]
      rcases hm with ⟨h1, h2⟩ | ⟨h1, ps, h2, h3, h4⟩
      · rw [h1, h2]
        simp only [createFormationReaction, Res.bind_ok']
        rw [if_neg (by simp), if_neg (by simp only [not_or]; exact ⟨hx0, hf0, hclen⟩), if_neg (by simp), if_neg (by simp)]
        simp
      · rw [h1, h2]
        simp only [createFormationReaction]
        have hne := createReactants_ne doc (addByName defaults doc n) (fun {α} => .throw) (.inl rfl) (by simp) (ElOk doc)
          (addByName_spec defaults hdef doc n) (fun st st' h he => h.ext he.el) ps (by
            intro p hp st hi hel
            unfold addByName
            obtain ⟨nd, hnd, hg⟩ := getSpeciesNode_present doc.species
              (fun m hm => by obtain ⟨x, hx, -⟩ := hw.names m hm; exact ⟨x, hx⟩) p.1 (h4 p hp)
            rw [hg]
            simp only [Res.bind_ok']
            exact ih st nd hnd hi hel) st1 hi1 hel1
        cases hq : createReactants (addByName defaults doc n) st1 ps with
        | throw => exact absurd hq hne
        | ub => simp
        | ok q =>
          obtain ⟨st2, r⟩ := q
          obtain ⟨-, -, rfl, -⟩ := createReactants_spec doc _ (addByName_spec defaults hdef doc n) _ _ _ _ hi1 hq
          simp only [Res.bind_ok', ne_eq, not_true_eq_false, if_false]
          have : r.length ≠ 0 := fun h => h3 (List.length_eq_zero_iff.1 h)
          rw [if_neg (by simp), if_neg (by simp only [not_or]; exact ⟨hx0, hf0, hclen⟩), if_neg (by simp [this]), if_neg (by simp)]
          simp

theorem addSpeciesNodes_ne_throw (defaults : Str → Option Element) (hdef : ∀ s e, defaults s = some e → e.symbol = s) (doc : Doc)
    (hw : WellFormed defaults doc) (depth : Nat) (pre post : List SpeciesNode) (hd : doc.species = pre ++ post) (st : St)
    (hi : Inv doc st) (hel : ElOk doc st)
    (hpre : ∀ m ∈ pre, ∃ x, m.name = some x ∧ x ∈ names st) : addSpeciesNodes defaults doc depth st post ≠ .throw := by
  induction post generalizing pre st with
  | nil => simp [addSpeciesNodes]
  | cons node post ih =>
    simp only [addSpeciesNodes]
    have hne := addSpeciesNode_ne_throw defaults hdef doc hw depth st node (by rw [hd]; simp) hi hel
    cases ha : addSpeciesNode defaults doc depth st node with
    | throw => exact absurd ha hne
    | ub => simp
    | ok q =>
      obtain ⟨st1, s⟩ := q
      obtain ⟨a1, a2, y, a3, a4⟩ := addSpeciesNode_spec defaults hdef doc depth st st1 node s hi
        (fun x hx => first_or_loaded doc pre post node hd st hpre x hx) ha
      exact ih (pre ++ [node]) (by rw [hd]; simp) st1 a1 (hel.ext a2.el) (by
        intro m hm
        rcases List.mem_append.1 hm with hm | hm
        · obtain ⟨z, hz1, hz2⟩ := hpre m hm
          exact ⟨z, hz1, a2.names _ hz2⟩
        · rw [List.mem_singleton] at hm; subst hm
          exact ⟨y, a3, a4⟩)

theorem addElementNodes_ok (nodes : List ElementNode)
    (hw : ∀ e ∈ nodes, ∃ s m, e.symbol = some s ∧ s ≠ [] ∧ e.molarMass = some m ∧ 0 ≤ m) (st : St) :
    ∃ st', addElementNodes st nodes = .ok st' := by
  induction nodes generalizing st with
  | nil => exact ⟨_, rfl⟩
  | cons e nodes ih =>
    obtain ⟨s, m, h1, h2, h3, h4⟩ := hw e List.mem_cons_self
    simp only [addElementNodes, addElementNode, h1, h3]
    simp only [if_neg h2, if_neg (Rat.not_lt.2 h4), Res.bind_ok']
    exact ih (fun m hm => hw m (List.mem_cons_of_mem _ hm)) _

theorem load_ne_throw (defaults : Str → Option Element) (hdef : ∀ s e, defaults s = some e → e.symbol = s) (doc : Doc)
    (hw : WellFormed defaults doc) (depth : Nat) : load defaults depth doc ≠ .throw := by
  unfold load
  obtain ⟨st0, ha⟩ := addElementNodes_ok doc.elements hw.elements {}
  obtain ⟨e1, e2, e3⟩ := addElementNodes_spec _ _ _ ha
  rw [ha]
  have hs : st0.species = [] := e1
  have hi0 : Inv doc st0 := ⟨by rw [hs]; simp, by rw [hs]; simp, by rw [hs]; simp⟩
  exact addSpeciesNodes_ne_throw defaults hdef doc hw depth [] doc.species rfl st0 hi0 e3 (by simp)

/-! ### The database -/

/-- The symbols known to the database are those of its elements. -/
def SymOk (db : Database.Db) : Prop := ∀ x, x ∈ db.elementSymbols ↔ x ∈ db.elements.map (·.symbol)

theorem find?_none_of_not_mem (l : List Element) (x : Str) (h : x ∉ l.map (·.symbol)) :
    l.find? (fun e => e.symbol = x) = none := by
  rw [List.find?_eq_none]
  intro e he hc
  exact h (List.mem_map.2 ⟨e, he, by simpa using hc⟩)

theorem addElement_find (db : Database.Db) (hs : SymOk db) (e : Element) :
    SymOk (Database.addElement db e) ∧ (Database.addElement db e).species = db.species ∧
    (Database.addElement db e).speciesNames = db.speciesNames ∧
    ∀ x, (Database.addElement db e).elements.find? (fun e => e.symbol = x) =
      (db.elements.find? (fun e => e.symbol = x)).or (if e.symbol = x then some e else none) := by
  unfold Database.addElement
  by_cases h : e.symbol ∈ db.elementSymbols
  · rw [if_pos h]
    refine ⟨hs, rfl, rfl, fun x => ?_⟩
    by_cases hx : e.symbol = x
    · have hm := (hs _).1 h
      obtain ⟨e', he', hee⟩ := List.mem_map.1 hm
      cases hf : db.elements.find? (fun e => e.symbol = x) with
      | some y => rfl
      | none =>
        have := List.find?_eq_none.1 hf e' he'
        simp [hee, hx] at this
    · rw [if_neg hx, Option.or_none]
  · rw [if_neg h]
    refine ⟨?_, rfl, rfl, fun x => ?_⟩
    · intro x
      have := hs x
      simp only [List.mem_cons, List.map_append, List.mem_append, List.map_cons, List.map_nil, List.not_mem_nil, or_false]
      rw [this]
      exact or_comm
    · dsimp only
      rw [List.find?_append]
      congr 1
      by_cases hx : e.symbol = x <;> simp [hx]

theorem addElements_find {α : Type} (l : List α) (f : α → Element) (db : Database.Db) (hs : SymOk db) :
    SymOk (l.foldl (fun db p => Database.addElement db (f p)) db) ∧
    (l.foldl (fun db p => Database.addElement db (f p)) db).species = db.species ∧
    (l.foldl (fun db p => Database.addElement db (f p)) db).speciesNames = db.speciesNames ∧
    ∀ x, (l.foldl (fun db p => Database.addElement db (f p)) db).elements.find? (fun e => e.symbol = x) =
      (db.elements.find? (fun e => e.symbol = x)).or ((l.map f).find? (fun e => e.symbol = x)) := by
  induction l generalizing db with
  | nil => exact ⟨hs, rfl, rfl, fun x => by simp⟩
  | cons a l ih =>
    obtain ⟨h1, h2, h3, h4⟩ := addElement_find db hs (f a)
    obtain ⟨i1, i2, i3, i4⟩ := ih _ h1
    refine ⟨i1, i2.trans h2, i3.trans h3, fun x => ?_⟩
    rw [List.foldl_cons, i4, h4, Option.or_assoc]
    congr 1
    by_cases hx : f a = f a ∧ (f a).symbol = x
    · rw [if_pos hx.2]; simp [hx.2]
    · have : ¬ (f a).symbol = x := fun h => hx ⟨rfl, h⟩
      rw [if_neg this]; simp [this]

theorem run_addElements (l : List Element) (ops : List Database.Op) (db : Database.Db) :
    Database.run db (l.map .addElement ++ ops) =
      (Database.run (l.foldl (fun db e => Database.addElement db e) db) ops).bind
        fun q => .ok (l.map (fun _ => true) ++ q.1, q.2) := by
  induction l generalizing db with
  | nil => simp only [List.map_nil, List.nil_append, List.foldl_nil]; cases Database.run db ops <;> rfl
  | cons e l ih =>
    simp only [List.map_cons, List.cons_append, Database.run, Database.step, Res.bind_ok', List.foldl_cons]
    rw [ih]
    cases Database.run (l.foldl (fun db e => Database.addElement db e) (Database.addElement db e)) ops <;> rfl

/-- Adding a species with a new name and a state to a database that has its elements. -/
theorem addSpecies_new (db : Database.Db) (s : Species) (hs : SymOk db) (hn : s.name ∉ db.speciesNames) (hst : s.rawState ≠ .Undefined)
    (hel : ∀ p ∈ s.elements, db.elements.find? (fun e => e.symbol = p.1.symbol) = some p.1) :
    ∃ db', Database.addSpecies db s = .ok db' ∧ SymOk db' ∧ db'.species = db.species ++ [s] ∧
      db'.speciesNames = s.name :: db.speciesNames ∧
      ∀ x, db'.elements.find? (fun e => e.symbol = x) = db.elements.find? (fun e => e.symbol = x) := by
  unfold Database.addSpecies
  have hu : Database.uniqueName (db.speciesNames.length + 1) db.speciesNames s.name = .ok s.name := by
    simp [Database.uniqueName, hn]
  have hag : s.aggregateState = .ok s.rawState := by simp [Species.aggregateState, hst]
  rw [hu]
  simp only [Res.bind_ok', ne_eq, not_true_eq_false, if_false, hag, hst]
  have hs' : SymOk { db with species := db.species ++ [s], speciesNames := s.name :: db.speciesNames } := hs
  obtain ⟨a1, a2, a3, a4⟩ := addElements_find s.elements Prod.fst _ hs'
  refine ⟨_, rfl, a1, a2, a3, fun x => ?_⟩
  dsimp only
  rw [a4]
  dsimp only
  cases hf : db.elements.find? (fun e => e.symbol = x) with
  | some y => rfl
  | none =>
    rw [Option.none_or, List.find?_eq_none]
    intro e he hc
    obtain ⟨p, hp, rfl⟩ := List.mem_map.1 he
    have hx : p.1.symbol = x := by simpa using hc
    have := hel p hp
    rw [hx, hf] at this
    cases this

theorem run_addSpecies (l : List Species) (db : Database.Db) (hs : SymOk db) (hnd : (l.map Species.name).Nodup)
    (hnew : ∀ s ∈ l, s.name ∉ db.speciesNames) (hst : ∀ s ∈ l, s.rawState ≠ .Undefined)
    (hel : ∀ s ∈ l, ∀ p ∈ s.elements, db.elements.find? (fun e => e.symbol = p.1.symbol) = some p.1) :
    ∃ db', Database.run db (l.map .addSpecies) = .ok (l.map (fun _ => true), db') ∧ db'.species = db.species ++ l ∧
      ∀ x, db'.elements.find? (fun e => e.symbol = x) = db.elements.find? (fun e => e.symbol = x) := by
  induction l generalizing db with
  | nil => exact ⟨db, rfl, by simp, fun _ => rfl⟩
  | cons s l ih =>
    obtain ⟨db1, h1, h2, h3, h4, h5⟩ := addSpecies_new db s hs (hnew s List.mem_cons_self) (hst s List.mem_cons_self)
      (hel s List.mem_cons_self)
    rw [List.map_cons, List.nodup_cons] at hnd
    obtain ⟨db2, i1, i2, i3⟩ := ih db1 h2 hnd.2 (by
        intro t ht
        rw [h4, List.mem_cons, not_or]
        exact ⟨fun hc => hnd.1 (List.mem_map.2 ⟨t, ht, hc⟩), hnew t (List.mem_cons_of_mem _ ht)⟩)
      (fun t ht => hst t (List.mem_cons_of_mem _ ht))
      (fun t ht p hp => by rw [h5]; exact hel t (List.mem_cons_of_mem _ ht) p hp)
    refine ⟨db2, ?_, by rw [i2, h3]; simp, fun x => (i3 x).trans (h5 x)⟩
    simp only [List.map_cons, Database.run, Database.step, h1, Res.bind_ok', i1]

end Verif.DatabaseYAML
