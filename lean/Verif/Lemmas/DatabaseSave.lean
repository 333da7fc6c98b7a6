import Verif.Spec.DatabaseSave
import Verif.Lemmas.DatabaseYAML
import Verif.Theorems.NumberText
import Verif.Theorems.AggregateState
import Verif.Theorems.Database

/-!
# Lemmas for C73
-/

namespace Verif.DatabaseSave

open Chem DatabaseYAML

theorem throughText_safe (l : List (Str × Rat)) (h : TextSafe l) : throughText l = l :=
  NumberText.C72_composition_partial l h.spaces h.distinct h.digits

/-- The species with its substance stored. -/
def fill (s : Species) : Species := { s with rawSubstance := match getSubstance s with | .ok t => t | _ => [] }

theorem fill_name (s : Species) : (fill s).name = s.name := rfl

theorem fill_same (s : Species) (h : Plain s) : SameSpecies s (fill s) := by
  obtain ⟨-, t, h0, ht⟩ := h
  refine ⟨rfl, rfl, rfl, rfl, rfl, rfl, rfl, ?_⟩
  rw [ht, getSubstance, fill, ht]
  simp [h0]

theorem fill_substance (s : Species) (h : Plain s) : getSubstance s = .ok (fill s).rawSubstance ∧ (fill s).rawSubstance ≠ [] := by
  obtain ⟨-, t, h0, ht⟩ := h
  simp [fill, ht, h0]

theorem plain_strip (s : Species) (h : Plain s) : ValueObjects.removeSuffix s.formula = .ok s.formula ∧ s.formula ≠ [] := by
  obtain ⟨⟨suffix, hs⟩, -⟩ := h
  refine ⟨by rw [ValueObjects.removeSuffix, hs, Res.bind_ok'], ?_⟩
  intro h0
  rw [h0] at hs
  simp [ChargeParser.splitSpeciesNameSuffix] at hs

/-- The node of a species that can be written as text. -/
def nodeOf (models : Str → ModelNode) (s : Species) : SpeciesNode where
  name := some s.name
  formula := some s.formula
  aggregateState := some (AggregateState.print s.rawState)
  elements := some (s.elements.map fun p => (p.1.symbol, p.2))
  reaction := if s.reactants.length ≠ 0 then some (some s.reactants, models s.name) else none
  model := if s.reactants.length ≠ 0 then .absent else models s.name
  charge := s.charge
  tags := s.tags
  substance := (fill s).rawSubstance

theorem encodeSpecies_ok (models : Str → ModelNode) (s : Species) (hst : s.rawState ≠ .Undefined)
    (h1 : TextSafe (s.elements.map fun p => (p.1.symbol, p.2))) (h2 : TextSafe s.reactants)
    (h3 : ∃ t, getSubstance s = .ok t) : encodeSpecies models s = .ok (nodeOf models s) := by
  have hag : s.aggregateState = .ok s.rawState := by simp [Species.aggregateState, hst]
  obtain ⟨t, ht⟩ := h3
  unfold encodeSpecies nodeOf fill
  rw [hag, ht, Res.bind_ok', Res.bind_ok', throughText_safe _ h1, throughText_safe _ h2]

theorem encodeAll_ok (models : Str → ModelNode) (l : List Species) (hst : ∀ s ∈ l, s.rawState ≠ .Undefined) (hw : Writable l) :
    encodeAll models l = .ok (l.map (nodeOf models)) := by
  induction l with
  | nil => rfl
  | cons s l ih =>
    rw [encodeAll, encodeSpecies_ok models s (hst s List.mem_cons_self) (hw s List.mem_cons_self).1 (hw s List.mem_cons_self).2.1
        ⟨_, (fill_substance s (hw s List.mem_cons_self).2.2).1⟩,
      Res.bind_ok', ih (fun t ht => hst t (List.mem_cons_of_mem _ ht)) (fun t ht => hw t (List.mem_cons_of_mem _ ht))]
    rfl

theorem addElementNodes_encode (l : List Element) (hl : ∀ e ∈ l, ElementOk e) (st : St) :
    addElementNodes st (l.map encodeElement) = .ok { st with elements := st.elements ++ l } := by
  induction l generalizing st with
  | nil => simp [addElementNodes]
  | cons e l ih =>
    obtain ⟨h1, h2, h3⟩ := hl e List.mem_cons_self
    have ha : addElementNode st (encodeElement e) = .ok ({ st with elements := st.elements ++ [e] }, e) := by
      unfold addElementNode encodeElement
      dsimp only
      rw [if_neg h1, if_neg (not_lt.2 h2), if_neg h3]
    rw [List.map_cons, addElementNodes, ha, Res.bind_ok', ih (fun t ht => hl t (List.mem_cons_of_mem _ ht))]
    simp

theorem find_of_nodup (l : List Element) (hnd : (l.map (·.symbol)).Nodup) (e : Element) (he : e ∈ l) :
    l.find? (fun a => a.symbol = e.symbol) = some e := by
  induction l with
  | nil => cases he
  | cons a l ih =>
    rw [List.map_cons, List.nodup_cons] at hnd
    rcases List.mem_cons.1 he with rfl | he
    · simp
    · have hne : a.symbol ≠ e.symbol := fun hc => hnd.1 (hc ▸ List.mem_map.2 ⟨e, he, rfl⟩)
      rw [List.find?_cons_of_neg (by simpa using hne)]
      exact ih hnd.2 he

theorem composition_known (defaults : Str → Option Element) (doc : Doc) (st : St) (c : List (Element × Rat))
    (hnd : (st.elements.map (·.symbol)).Nodup) (hc : ∀ p ∈ c, p.1 ∈ st.elements) :
    createElementalComposition defaults doc st (c.map fun p => (p.1.symbol, p.2)) = .ok (st, c) := by
  induction c with
  | nil => rfl
  | cons p c ih =>
    rw [List.map_cons, createElementalComposition, find_of_nodup _ hnd p.1 (hc p List.mem_cons_self)]
    dsimp only
    rw [ih (fun q hq => hc q (List.mem_cons_of_mem _ hq))]
    rfl

theorem createReactants_known (add : St → Str → Res (St × Species)) (st : St) (l : List (Str × Rat))
    (hl : ∀ p ∈ l, p.1 ∈ names st) : createReactants add st l = .ok (st, l) := by
  induction l with
  | nil => rfl
  | cons p l ih =>
    obtain ⟨name, coeff⟩ := p
    rw [createReactants, if_pos ((findWithName_lt st name).2 (hl (name, coeff) List.mem_cons_self)),
      ih (fun q hq => hl q (List.mem_cons_of_mem _ hq))]
    rfl

theorem name_eq (s : Species) (h : SpeciesOk s) : s.name = s.rawName := by
  unfold Species.name; rw [if_neg h.1]

/-- Loading the node of a species whose elements and reactants are known. -/
theorem addSpeciesNode_nodeOf (models : Str → ModelNode) (defaults : Str → Option Element) (doc : Doc) (n : Nat) (st : St) (s : Species)
    (hs : SpeciesOk s) (hpl : Plain s) (hm : models s.name = .valid) (hnew : s.name ∉ names st) (hnd : (st.elements.map (·.symbol)).Nodup)
    (hc : ∀ p ∈ s.elements, p.1 ∈ st.elements) (hr : ∀ p ∈ s.reactants, p.1 ∈ names st) :
    addSpeciesNode defaults doc (n + 1) st (nodeOf models s) = .ok ({ st with species := st.species ++ [fill s] }, fill s) := by
  obtain ⟨g1, g3, g4⟩ := hs
  obtain ⟨hstrip, g2⟩ := plain_strip s hpl
  have hsub := (fill_substance s hpl).2
  have hname : s.name = s.rawName := name_eq s ⟨g1, g3, g4⟩
  have hfind : st.species.find? (fun t => t.name = s.name) = none := by
    rw [List.find?_eq_none]
    intro t ht hc
    exact hnew (List.mem_map.2 ⟨t, ht, by simpa using hc⟩)
  have hpp : AggregateState.parse (AggregateState.print s.rawState) = s.rawState := (AggregateState.C13_parse_print s.rawState).1
  have hlen : s.elements.length ≠ 0 := by simpa using g3
  rw [hname] at hfind hm
  rw [addSpeciesNode]
  by_cases h0 : s.reactants.length = 0
  · have hr0 : s.reactants = [] := List.length_eq_zero_iff.1 h0
    have hS : (⟨s.rawName, s.formula, s.elements, s.charge, s.rawState, s.tags, [], (fill s).rawSubstance⟩ : Species) = fill s := by
      have : fill s = { s with rawSubstance := (fill s).rawSubstance } := rfl
      rw [this]
      cases s; simp only at hr0 ⊢; subst hr0; rfl
    simp only [nodeOf, h0, ne_eq, not_true_eq_false, if_false, hm, reduceCtorEq, and_false, hfind, hpp, g4,
      composition_known defaults doc st s.elements hnd hc, Res.bind_ok', createFormationReaction, hlen, g2, hname, g1, or_self,
      false_and, Bool.false_eq_true, hstrip, hsub, hS]
  · have hb : (s.reactants.length != 0) = true := by simpa using h0
    simp only [nodeOf, h0, ne_eq, not_false_eq_true, if_true, hm, reduceCtorEq, false_and, if_false, hfind, hpp, g4,
      composition_known defaults doc st s.elements hnd hc, Res.bind_ok', createFormationReaction,
      createReactants_known _ st s.reactants hr, not_true_eq_false, hlen, g2, hname, g1, or_self, hb, and_false, Bool.true_eq_false,
      hstrip, hsub]
    rfl

theorem names_fill (l : List Species) (els : List Element) : names ⟨l.map fill, els⟩ = l.map Species.name := by
  simp only [names, List.map_map]
  rfl

theorem addSpeciesNodes_nodeOf (models : Str → ModelNode) (defaults : Str → Option Element) (doc : Doc) (n : Nat)
    (els : List Element) (hnd : (els.map (·.symbol)).Nodup) (rest done : List Species)
    (hs : ∀ s ∈ rest, SpeciesOk s) (hpl : ∀ s ∈ rest, Plain s) (hm : ∀ s ∈ rest, models s.name = .valid)
    (hn : ((done ++ rest).map Species.name).Nodup)
    (hc : ∀ s ∈ rest, ∀ p ∈ s.elements, p.1 ∈ els)
    (hr : ∀ i s, (done ++ rest)[i]? = some s → ∀ r ∈ s.reactants, r.1 ∈ ((done ++ rest).take i).map Species.name) :
    addSpeciesNodes defaults doc (n + 1) ⟨done.map fill, els⟩ (rest.map (nodeOf models)) = .ok ⟨(done ++ rest).map fill, els⟩ := by
  induction rest generalizing done with
  | nil => simp [addSpeciesNodes]
  | cons s rest ih =>
    have hnew : s.name ∉ names ⟨done.map fill, els⟩ := by
      rw [names_fill]
      intro hc
      rw [List.map_append, List.map_cons, List.nodup_append] at hn
      exact hn.2.2 s.name hc s.name List.mem_cons_self rfl
    have hreact : ∀ p ∈ s.reactants, p.1 ∈ names ⟨done.map fill, els⟩ := by
      intro p hp
      have := hr done.length s (by simp) p hp
      rw [names_fill]
      simpa using this
    rw [List.map_cons, addSpeciesNodes, addSpeciesNode_nodeOf models defaults doc n ⟨done.map fill, els⟩ s (hs s List.mem_cons_self)
      (hpl s List.mem_cons_self) (hm s List.mem_cons_self) hnew hnd (hc s List.mem_cons_self) hreact, Res.bind_ok']
    dsimp only
    have := ih (done ++ [s]) (fun t ht => hs t (List.mem_cons_of_mem _ ht)) (fun t ht => hpl t (List.mem_cons_of_mem _ ht)) (fun t ht => hm t (List.mem_cons_of_mem _ ht))
      (by simpa using hn) (fun t ht => hc t (List.mem_cons_of_mem _ ht)) (by simpa using hr)
    rw [List.map_append, List.map_cons, List.map_nil] at this
    rw [this]; simp

/-! ### The database made of the lists -/

theorem addElement_known (db : Database.Db) (e : Element) (h : e.symbol ∈ db.elementSymbols) : Database.addElement db e = db := by
  unfold Database.addElement; rw [if_pos h]

theorem foldl_addElement (l : List Element) (db : Database.Db) (hs : SymOk db)
    (hnd : ((db.elements ++ l).map (·.symbol)).Nodup) :
    SymOk (l.foldl (fun db e => Database.addElement db e) db) ∧
    (l.foldl (fun db e => Database.addElement db e) db).elements = db.elements ++ l := by
  induction l generalizing db with
  | nil => exact ⟨hs, by simp⟩
  | cons e l ih =>
    have hnot : e.symbol ∉ db.elementSymbols := by
      rw [hs]
      intro hc
      rw [List.map_append, List.map_cons, List.nodup_append] at hnd
      exact hnd.2.2 e.symbol hc e.symbol List.mem_cons_self rfl
    have hel : (Database.addElement db e).elements = db.elements ++ [e] := by
      unfold Database.addElement; rw [if_neg hnot]
    obtain ⟨h1, -⟩ := addElement_find db hs e
    obtain ⟨i1, i2⟩ := ih _ h1 (by rw [hel]; simpa using hnd)
    exact ⟨i1, by rw [List.foldl_cons, i2, hel]; simp⟩

theorem foldl_addElement_known (l : List (Element × Rat)) (db : Database.Db) (h : ∀ p ∈ l, p.1.symbol ∈ db.elementSymbols) :
    l.foldl (fun db p => Database.addElement db p.1) db = db := by
  induction l with
  | nil => rfl
  | cons p l ih =>
    rw [List.foldl_cons, addElement_known db p.1 (h p List.mem_cons_self)]
    exact ih fun q hq => h q (List.mem_cons_of_mem _ hq)

theorem run_addSpecies_elements (l : List Species) (db : Database.Db) (hnd : (l.map Species.name).Nodup)
    (hnew : ∀ s ∈ l, s.name ∉ db.speciesNames) (hst : ∀ s ∈ l, s.rawState ≠ .Undefined)
    (hel : ∀ s ∈ l, ∀ p ∈ s.elements, p.1.symbol ∈ db.elementSymbols) :
    ∃ db', Database.run db (l.map .addSpecies) = .ok (l.map (fun _ => true), db') ∧ db'.species = db.species ++ l ∧
      db'.elements = db.elements := by
  induction l generalizing db with
  | nil => exact ⟨db, rfl, by simp, rfl⟩
  | cons s l ih =>
    rw [List.map_cons, List.nodup_cons] at hnd
    have hag : s.aggregateState = .ok s.rawState := by simp [Species.aggregateState, hst s List.mem_cons_self]
    have hu : Database.uniqueName (db.speciesNames.length + 1) db.speciesNames s.name = .ok s.name := by
      simp [Database.uniqueName, hnew s List.mem_cons_self]
    have hadd : Database.addSpecies db s = .ok { db with
        species := db.species ++ [s]
        speciesNames := s.name :: db.speciesNames
        groups := fun x => if x = s.rawState then db.groups x ++ [s] else db.groups x } := by
      unfold Database.addSpecies
      rw [hu]
      simp only [Res.bind_ok', ne_eq, not_true_eq_false, if_false, hag, hst s List.mem_cons_self]
      rw [foldl_addElement_known s.elements { db with species := db.species ++ [s], speciesNames := s.name :: db.speciesNames }
        (fun p hp => hel s List.mem_cons_self p hp)]
    obtain ⟨db2, i1, i2, i3⟩ := ih { db with
        species := db.species ++ [s]
        speciesNames := s.name :: db.speciesNames
        groups := fun x => if x = s.rawState then db.groups x ++ [s] else db.groups x } hnd.2
      (by
        intro t ht
        rw [List.mem_cons, not_or]
        exact ⟨fun hc => hnd.1 (List.mem_map.2 ⟨t, ht, hc⟩), hnew t (List.mem_cons_of_mem _ ht)⟩)
      (fun t ht => hst t (List.mem_cons_of_mem _ ht)) (fun t ht => hel t (List.mem_cons_of_mem _ ht))
    refine ⟨db2, ?_, by rw [i2]; simp, i3⟩
    simp only [List.map_cons, Database.run, Database.step, hadd, Res.bind_ok', i1]

/-- The database made of lists of elements and species. -/
theorem toDatabase_lists (sp : List Species) (els : List Element) (hnd : (els.map (·.symbol)).Nodup)
    (hn : (sp.map Species.name).Nodup) (hst : ∀ s ∈ sp, s.rawState ≠ .Undefined) (hc : ∀ s ∈ sp, ∀ p ∈ s.elements, p.1 ∈ els) :
    ∃ flags db, toDatabase ⟨sp, els⟩ = .ok (flags, db) ∧ db.species = sp ∧ db.elements = els := by
  unfold toDatabase
  rw [run_addElements]
  obtain ⟨h1, h2⟩ := foldl_addElement els {} (by intro x; simp) (by simpa using hnd)
  obtain ⟨-, a2, a3, -⟩ := addElements_find els id {} (by intro x; simp)
  obtain ⟨db, d1, d2, d3⟩ := run_addSpecies_elements sp (els.foldl (fun db e => Database.addElement db e) {}) hn
    (by
      intro s _
      have h0 : (els.foldl (fun db e => Database.addElement db e) {}).speciesNames = [] := a3
      rw [h0]; simp) hst
    (by
      intro s hs p hp
      rw [h1, h2]
      exact List.mem_map.2 ⟨p.1, by simpa using hc s hs p hp, rfl⟩)
  dsimp only
  rw [d1]
  have h0 : (els.foldl (fun db e => Database.addElement db e) {}).species = [] := a2
  exact ⟨_, db, rfl, by rw [d2, h0]; rfl, by rw [d3, h2]; rfl⟩

/-! ### Loaded documents are complete -/

/-- All species and elements have their data. -/
def Fine (st : St) : Prop := (∀ s ∈ st.species, SpeciesOk s) ∧ ∀ e ∈ st.elements, ElementOk e

theorem addElementNode_fine (st st' : St) (node : ElementNode) (e : Element) (hf : Fine st)
    (h : addElementNode st node = .ok (st', e)) : Fine st' := by
  unfold addElementNode at h
  split at h
  · rename_i symbol mass h1 h2
    by_cases g1 : symbol = []
    · rw [if_pos g1] at h; cases h
    rw [if_neg g1] at h
    by_cases g2 : mass < 0
    · rw [if_pos g2] at h; cases h
    rw [if_neg g2] at h
    dsimp only at h
    simp only [Res.ok.injEq, Prod.mk.injEq] at h
    obtain ⟨rfl, rfl⟩ := h
    refine ⟨hf.1, ?_⟩
    intro a ha
    rcases List.mem_append.1 ha with ha | ha
    · exact hf.2 a ha
    · rw [List.mem_singleton] at ha
      subst ha
      refine ⟨g1, not_lt.1 g2, ?_⟩
      dsimp only
      split_ifs with g3
      · exact g1
      · exact g3
  · cases h

theorem composition_fine (defaults : Str → Option Element) (hdef : ∀ s e, defaults s = some e → ElementOk e) (doc : Doc)
    (pairs : List (Str × Rat)) (st : St) (r : St × List (Element × Rat)) (hf : Fine st)
    (h : createElementalComposition defaults doc st pairs = .ok r) : Fine r.1 := by
  induction pairs generalizing st r with
  | nil => simp only [createElementalComposition, Res.ok.injEq] at h; subst h; exact hf
  | cons p pairs ih =>
    obtain ⟨symbol, coeff⟩ := p
    rw [createElementalComposition] at h
    cases hfind : st.elements.find? (fun e => e.symbol = symbol) with
    | some e =>
      rw [hfind] at h
      dsimp only at h
      cases hc : createElementalComposition defaults doc st pairs <;> rw [hc] at h <;>
        simp only [Res.bind_ok', Res.bind_throw', Res.bind_ub', reduceCtorEq, Res.ok.injEq] at h
      subst h
      have hx := ih _ _ hf hc
      exact hx
    | none =>
      rw [hfind] at h
      dsimp only at h
      cases ha : addElementSymbol defaults doc st symbol <;> rw [ha] at h <;>
        simp only [Res.bind_ok', Res.bind_throw', Res.bind_ub', reduceCtorEq] at h
      rename_i a
      obtain ⟨st1, e⟩ := a
      have hf1 : Fine st1 := by
        unfold addElementSymbol at ha
        cases hg : getElementNode doc.elements symbol <;> rw [hg] at ha <;>
          simp only [Res.bind_ok', Res.bind_throw', Res.bind_ub', reduceCtorEq] at ha
        rename_i o
        cases o with
        | some node => exact addElementNode_fine _ _ _ _ hf ha
        | none =>
          dsimp only at ha
          cases hd : defaults symbol with
          | none => rw [hd] at ha; cases ha
          | some d =>
            rw [hd] at ha
            simp only [Res.ok.injEq, Prod.mk.injEq] at ha
            obtain ⟨rfl, rfl⟩ := ha
            refine ⟨hf.1, ?_⟩
            intro a ha
            rcases List.mem_append.1 ha with ha | ha
            · exact hf.2 a ha
            · rw [List.mem_singleton] at ha; subst ha; exact hdef _ _ hd
      cases hc : createElementalComposition defaults doc st1 pairs <;> rw [hc] at h <;>
        simp only [Res.bind_ok', Res.bind_throw', Res.bind_ub', reduceCtorEq, Res.ok.injEq] at h
      subst h
      have hx := ih _ _ hf1 hc
      exact hx

theorem createReactants_fine (add : St → Str → Res (St × Species))
    (hadd : ∀ st name r, Fine st → add st name = .ok r → Fine r.1) (pairs : List (Str × Rat)) (st : St)
    (r : St × List (Str × Rat)) (hf : Fine st) (h : createReactants add st pairs = .ok r) : Fine r.1 := by
  induction pairs generalizing st r with
  | nil => simp only [createReactants, Res.ok.injEq] at h; subst h; exact hf
  | cons p pairs ih =>
    obtain ⟨name, coeff⟩ := p
    rw [createReactants] at h
    split_ifs at h
    · cases hc : createReactants add st pairs <;> rw [hc] at h <;>
        simp only [Res.bind_ok', Res.bind_throw', Res.bind_ub', reduceCtorEq, Res.ok.injEq] at h
      subst h
      have hx := ih _ _ hf hc
      exact hx
    · cases ha : add st name <;> rw [ha] at h <;> simp only [Res.bind_ok', Res.bind_throw', Res.bind_ub', reduceCtorEq] at h
      rename_i a
      cases hc : createReactants add a.1 pairs <;> rw [hc] at h <;>
        simp only [Res.bind_ok', Res.bind_throw', Res.bind_ub', reduceCtorEq, Res.ok.injEq] at h
      subst h
      have hx := ih _ _ (hadd _ _ _ hf ha) hc
      exact hx

theorem addSpeciesNode_fine (defaults : Str → Option Element) (hdef : ∀ s e, defaults s = some e → ElementOk e) (doc : Doc) (n : Nat) :
    ∀ st node r, Fine st → addSpeciesNode defaults doc n st node = .ok r → Fine r.1 := by
  induction n with
  | zero => intro st node r _ h; simp [addSpeciesNode] at h
  | succ n ih =>
    intro st node r hf h
    have hadd : ∀ st name r, Fine st → addByName defaults doc n st name = .ok r → Fine r.1 := by
      intro st name r hf h
      unfold addByName at h
      cases hg : getSpeciesNode doc.species name <;> rw [hg] at h <;>
        simp only [Res.bind_ok', Res.bind_throw', Res.bind_ub', reduceCtorEq] at h
      rename_i o
      cases o with
      | none => cases h
      | some nd => exact ih _ _ _ hf h
    rcases addSpeciesNode_cases defaults doc n st node with h0 | ⟨name, formula, state, pairs, h1, h2, h3, h4, h5⟩
    · rw [h0] at h; cases h
    · rcases h5 with ⟨t, ht, hn, he⟩ | ⟨hn, he⟩
      · rw [he] at h; cases h; exact hf
      · rw [he] at h
        unfold createSpecies at h
        by_cases hst : AggregateState.parse state = .Undefined
        · rw [if_pos hst] at h; cases h
        rw [if_neg hst] at h
        cases hc : createElementalComposition defaults doc st pairs <;> rw [hc] at h <;>
          simp only [Res.bind_ok', Res.bind_throw', Res.bind_ub', reduceCtorEq] at h
        rename_i c
        have hf1 := composition_fine defaults hdef doc pairs st c hf hc
        cases hr : createFormationReaction (addByName defaults doc n) c.1 node.reaction <;> rw [hr] at h <;>
          simp only [Res.bind_ok', Res.bind_throw', Res.bind_ub', reduceCtorEq] at h
        rename_i q
        have hf2 : Fine q.1 := by
          unfold createFormationReaction at hr
          split at hr
          · simp only [Res.ok.injEq] at hr; subst hr; exact hf1
          · cases hr
          · rename_i ps model hnr
            cases hq : createReactants (addByName defaults doc n) c.1 ps <;> rw [hq] at hr <;>
              simp only [Res.bind_ok', Res.bind_throw', Res.bind_ub', reduceCtorEq] at hr
            split_ifs at hr
            simp only [Res.ok.injEq] at hr
            subst hr
            exact createReactants_fine _ hadd _ _ _ hf1 hq
        by_cases g1 : node.model = .invalid
        · rw [if_pos g1] at h; cases h
        rw [if_neg g1] at h
        by_cases g2 : name = [] ∨ formula = [] ∨ c.2.length = 0
        · rw [if_pos g2] at h; cases h
        rw [if_neg g2] at h
        by_cases g3 : node.model = .absent ∧ q.2.2 = false
        · rw [if_pos g3] at h; cases h
        rw [if_neg g3] at h
        by_cases g4 : node.model = .valid ∧ q.2.2 = true
        · rw [if_pos g4] at h; cases h
        rw [if_neg g4] at h
        obtain ⟨fp, -, hfp⟩ := strip_ok formula fun hh => g2 (.inr (.inl hh))
        rw [hfp, Res.bind_ok'] at h
        simp only [Res.ok.injEq] at h
        subst h
        refine ⟨?_, hf2.2⟩
        intro t ht
        rcases List.mem_append.1 ht with ht | ht
        · exact hf2.1 t ht
        · rw [List.mem_singleton] at ht
          subst ht
          push Not at g2
          exact ⟨g2.1, by simpa using g2.2.2, hst⟩

theorem load_fine (defaults : Str → Option Element) (hdef : ∀ s e, defaults s = some e → ElementOk e) (doc : Doc) (depth : Nat)
    (st : St) (h : load defaults depth doc = .ok st) : Fine st := by
  unfold load at h
  cases ha : addElementNodes {} doc.elements <;> rw [ha] at h <;>
    simp only [Res.bind_ok', Res.bind_throw', Res.bind_ub', reduceCtorEq] at h
  rename_i st0
  have h0 : ∀ (nodes : List ElementNode) (st st' : St), Fine st → addElementNodes st nodes = .ok st' → Fine st' := by
    intro nodes
    induction nodes with
    | nil => intro st st' hf h; simp only [addElementNodes, Res.ok.injEq] at h; subst h; exact hf
    | cons node nodes ih =>
      intro st st' hf h
      rw [addElementNodes] at h
      cases ha : addElementNode st node <;> rw [ha] at h <;> simp only [Res.bind_ok', Res.bind_throw', Res.bind_ub', reduceCtorEq] at h
      exact ih _ _ (addElementNode_fine _ _ _ _ hf ha) h
  have h1 : ∀ (nodes : List SpeciesNode) (st st' : St), Fine st → addSpeciesNodes defaults doc depth st nodes = .ok st' → Fine st' := by
    intro nodes
    induction nodes with
    | nil => intro st st' hf h; simp only [addSpeciesNodes, Res.ok.injEq] at h; subst h; exact hf
    | cons node nodes ih =>
      intro st st' hf h
      rw [addSpeciesNodes] at h
      cases ha : addSpeciesNode defaults doc depth st node <;> rw [ha] at h <;>
        simp only [Res.bind_ok', Res.bind_throw', Res.bind_ub', reduceCtorEq] at h
      exact ih _ _ (addSpeciesNode_fine defaults hdef doc depth _ _ _ hf ha) h
  exact h1 _ _ _ (h0 _ _ _ ⟨by simp, by simp⟩ ha) h

end Verif.DatabaseSave
