import Verif.Lemmas.DatabaseSave
import Verif.Theorems.DatabaseYAML
import Verif.Theorems.ModelsYAML

/-!
# Theorems C73: saving databases and loading them again

`models` tells for each species whether its model can be read back (C71).
-/

namespace Verif.DatabaseSave

open Chem DatabaseYAML

theorem forall_fill (l : List Species) (h : ∀ s ∈ l, Plain s) : List.Forall₂ SameSpecies l (l.map fill) := by
  induction l with
  | nil => exact .nil
  | cons s l ih => exact .cons (fill_same s (h s List.mem_cons_self)) (ih fun t ht => h t (List.mem_cons_of_mem _ ht))

/-- **C73 (databases built by any calls).** A complete database whose models can be saved, with compositions and reactions that can be
written as text and formulas without suffixes, is saved and loaded again with the same species, elements and groups of species. -/
theorem C73_built_partial (models : Str → ModelNode) (ops : List Database.Op) (flags : List Bool) (db : Database.Db)
    (h : Database.run {} ops = .ok (flags, db)) (hc : Complete db) (hw : Writable db.species)
    (hm : ∀ s ∈ db.species, models s.name = .valid) : SavedAndLoaded models db := by
  obtain ⟨n1, n2, -, n4, -⟩ := Database.C25_database ops flags db h
  have hst : ∀ s ∈ db.species, s.rawState ≠ .Undefined := fun s hs => (hc.species s hs).2.2
  refine ⟨⟨db.elements.map encodeElement, db.species.map (nodeOf models)⟩, ?_, ?_⟩
  · unfold encode; rw [encodeAll_ok models _ hst hw]; rfl
  · intro defaults depth hd
    obtain ⟨n, rfl⟩ : ∃ n, depth = n + 1 := ⟨depth - 1, by omega⟩
    have hpl : ∀ s ∈ db.species, Plain s := fun s hs => (hw s hs).2.2
    have hmap : ∀ {P : Species → Prop}, (∀ s ∈ db.species, P (fill s)) → ∀ s ∈ db.species.map fill, P s := by
      intro P h s hs
      obtain ⟨t, ht, rfl⟩ := List.mem_map.1 hs
      exact h t ht
    obtain ⟨flags', db', d1, d2, d3⟩ := toDatabase_lists (db.species.map fill) db.elements n2
      (by rw [List.map_map]; exact n1) (hmap hst) (hmap (P := fun s => ∀ p ∈ s.elements, p.1 ∈ db.elements) hc.known)
    refine ⟨⟨db.species.map fill, db.elements⟩, flags', db', ?_, d1, ?_, d3, ?_⟩
    · unfold load
      rw [addElementNodes_encode _ hc.elements, Res.bind_ok']
      exact addSpeciesNodes_nodeOf models defaults _ n db.elements n2 db.species [] hc.species hpl hm (by simpa using n1) hc.known
        (by simpa using hc.order)
    · rw [d2]; exact forall_fill _ hpl
    · intro st
      unfold toDatabase at d1
      obtain ⟨-, -, -, m4, -⟩ := Database.C25_database _ _ _ d1
      rw [m4, n4, d2, List.filter_map]
      exact forall_fill _ fun s hs => hpl s (List.mem_of_mem_filter hs)

/-- A database made of a loaded document is complete. -/
theorem C73_loaded_complete (defaults : Str → Option Element) (hdef : ∀ s e, defaults s = some e → e.symbol = s ∧ ElementOk e) (doc : Doc)
    (depth : Nat) (st : St) (h : load defaults depth doc = .ok st) (flags : List Bool) (db : Database.Db)
    (hdb : toDatabase st = .ok (flags, db)) : Complete db := by
  have hdef1 : ∀ s e, defaults s = some e → e.symbol = s := fun s e he => (hdef s e he).1
  obtain ⟨f1, f2⟩ := load_fine defaults (fun s e he => (hdef s e he).2) doc depth st h
  obtain ⟨-, -, -, l4, l5, -⟩ := C26_load_partial defaults hdef1 doc depth st h
  obtain ⟨flags', db', d1, -, d3, d4⟩ := C26_to_database defaults hdef1 doc depth st h
  rw [hdb] at d1
  simp only [Res.ok.injEq, Prod.mk.injEq] at d1
  obtain ⟨rfl, rfl⟩ := d1
  unfold toDatabase at hdb
  obtain ⟨-, n2, -⟩ := Database.C25_database _ _ _ hdb
  refine ⟨?_, by rw [d3]; exact f1, ?_, by rw [d3]; exact l4⟩
  · intro e he
    have h1 := find_of_nodup db.elements n2 e he
    rw [d4] at h1
    exact f2 e (List.mem_of_find?_eq_some h1)
  · intro s hs p hp
    rw [d3] at hs
    have h1 := l5 s hs p hp
    rw [← d4] at h1
    exact List.mem_of_find?_eq_some h1

/-- **C73 (loaded databases).** The database made of a loaded document is saved and loaded again with the same contents, if its models
can be saved, its compositions and reactions written as text, and its formulas have no suffixes. -/
theorem C73_loaded_partial (models : Str → ModelNode) (defaults : Str → Option Element)
    (hdef : ∀ s e, defaults s = some e → e.symbol = s ∧ ElementOk e) (doc : Doc) (depth : Nat) (st : St)
    (h : load defaults depth doc = .ok st) (flags : List Bool) (db : Database.Db) (hdb : toDatabase st = .ok (flags, db))
    (hw : Writable db.species) (hm : ∀ s ∈ db.species, models s.name = .valid) : SavedAndLoaded models db :=
  C73_built_partial models _ flags db hdb (C73_loaded_complete defaults hdef doc depth st h flags db hdb) hw hm

/-! ### What does not hold -/

theorem addSpeciesNode_invalid (models : Str → ModelNode) (defaults : Str → Option Element) (doc : Doc) (n : Nat) (st : St) (s : Species)
    (hs : SpeciesOk s) (hm : models s.name = .invalid) (hnew : s.name ∉ names st) (hnd : (st.elements.map (·.symbol)).Nodup)
    (hc : ∀ p ∈ s.elements, p.1 ∈ st.elements) (hr : ∀ p ∈ s.reactants, p.1 ∈ names st) :
    addSpeciesNode defaults doc (n + 1) st (nodeOf models s) = .throw := by
  obtain ⟨g1, g3, g4⟩ := hs
  have hfind : st.species.find? (fun t => t.name = s.name) = none := by
    rw [List.find?_eq_none]
    intro t ht hc
    exact hnew (List.mem_map.2 ⟨t, ht, by simpa using hc⟩)
  have hpp : AggregateState.parse (AggregateState.print s.rawState) = s.rawState := (AggregateState.C13_parse_print s.rawState).1
  rw [addSpeciesNode]
  by_cases h0 : s.reactants.length = 0
  · simp only [nodeOf, h0, ne_eq, not_true_eq_false, if_false, hm, reduceCtorEq, and_false, hfind, hpp, g4,
      composition_known defaults doc st s.elements hnd hc, Res.bind_ok', createFormationReaction, if_true]
  · simp only [nodeOf, h0, ne_eq, not_false_eq_true, if_true, hm, reduceCtorEq, false_and, if_false, hfind, hpp, g4,
      composition_known defaults doc st s.elements hnd hc, Res.bind_ok', createFormationReaction,
      createReactants_known _ st s.reactants hr, Res.bind_throw']

theorem addSpeciesNodes_invalid (models : Str → ModelNode) (hmod : ∀ x, models x ≠ .absent) (defaults : Str → Option Element) (doc : Doc)
    (n : Nat) (els : List Element) (hnd : (els.map (·.symbol)).Nodup) (rest done : List Species)
    (hs : ∀ s ∈ rest, SpeciesOk s) (hpl : ∀ s ∈ rest, Plain s) (hm : ∃ s ∈ rest, models s.name = .invalid)
    (hn : ((done ++ rest).map Species.name).Nodup)
    (hc : ∀ s ∈ rest, ∀ p ∈ s.elements, p.1 ∈ els)
    (hr : ∀ i s, (done ++ rest)[i]? = some s → ∀ r ∈ s.reactants, r.1 ∈ ((done ++ rest).take i).map Species.name) :
    addSpeciesNodes defaults doc (n + 1) ⟨done.map fill, els⟩ (rest.map (nodeOf models)) = .throw := by
  induction rest generalizing done with
  | nil => obtain ⟨s, hs, -⟩ := hm; cases hs
  | cons s rest ih =>
    have hnew : s.name ∉ names ⟨done.map fill, els⟩ := by
      rw [names_fill]
      intro hc
      rw [List.map_append, List.map_cons, List.nodup_append] at hn
      exact hn.2.2 s.name hc s.name List.mem_cons_self rfl
    have hreact : ∀ p ∈ s.reactants, p.1 ∈ names ⟨done.map fill, els⟩ := by
      intro p hp
      have := hr done.length s (by simp) p hp
      rw [names_fill]
      simpa using this
    rw [List.map_cons, addSpeciesNodes]
    cases hms : models s.name with
    | absent => exact absurd hms (hmod _)
    | invalid =>
      rw [addSpeciesNode_invalid models defaults doc n ⟨done.map fill, els⟩ s (hs s List.mem_cons_self) hms hnew hnd
        (hc s List.mem_cons_self) hreact]
      rfl
    | valid =>
      rw [addSpeciesNode_nodeOf models defaults doc n ⟨done.map fill, els⟩ s (hs s List.mem_cons_self)
        (hpl s List.mem_cons_self) hms hnew hnd (hc s List.mem_cons_self) hreact, Res.bind_ok']
      dsimp only
      obtain ⟨t, ht, htm⟩ := hm
      rcases List.mem_cons.1 ht with rfl | ht
      · rw [hms] at htm; cases htm
      · have := ih (done ++ [s]) (fun t ht => hs t (List.mem_cons_of_mem _ ht)) (fun t ht => hpl t (List.mem_cons_of_mem _ ht))
          ⟨t, ht, htm⟩ (by simpa using hn) (fun t ht => hc t (List.mem_cons_of_mem _ ht)) (by simpa using hr)
        rw [List.map_append, List.map_cons, List.map_nil] at this
        exact this

/-- **C73 is false if a single model cannot be saved** (chains, pressure corrections, functions; see C71) : the database is saved without
complaint, but the document is rejected when it is loaded. -/
theorem C73_unsaved_model_wrong (models : Str → ModelNode) (hmod : ∀ x, models x ≠ .absent) (ops : List Database.Op) (flags : List Bool)
    (db : Database.Db) (h : Database.run {} ops = .ok (flags, db)) (hc : Complete db) (hw : Writable db.species)
    (hm : ∃ s ∈ db.species, models s.name = .invalid) :
    ∃ doc, encode models db = .ok doc ∧ ∀ defaults depth, 0 < depth → load defaults depth doc = .throw := by
  obtain ⟨n1, n2, -⟩ := Database.C25_database ops flags db h
  have hst : ∀ s ∈ db.species, s.rawState ≠ .Undefined := fun s hs => (hc.species s hs).2.2
  refine ⟨⟨db.elements.map encodeElement, db.species.map (nodeOf models)⟩, ?_, ?_⟩
  · unfold encode; rw [encodeAll_ok models _ hst hw]; rfl
  · intro defaults depth hd
    obtain ⟨n, rfl⟩ : ∃ n, depth = n + 1 := ⟨depth - 1, by omega⟩
    unfold load
    rw [addElementNodes_encode _ hc.elements, Res.bind_ok']
    exact addSpeciesNodes_invalid models hmod defaults _ n db.elements n2 db.species [] hc.species (fun s hs => (hw s hs).2.2) hm
      (by simpa using n1) hc.known (by simpa using hc.order)

theorem same_names {l l' : List Species} (h : List.Forall₂ SameSpecies l l') : l'.map Species.name = l.map Species.name := by
  induction h with
  | nil => rfl
  | cons h _ ih => rw [List.map_cons, List.map_cons, ih, Species.name, Species.name, h.name, h.formula]

theorem same_at {l l' : List Species} (h : List.Forall₂ SameSpecies l l') (i : Nat) (s : Species) (hi : l[i]? = some s) :
    ∃ s', l'[i]? = some s' ∧ SameSpecies s s' := by
  induction h generalizing i with
  | nil => cases hi
  | cons h _ ih =>
    cases i with
    | zero => cases hi; exact ⟨_, rfl, h⟩
    | succ i => exact ih i hi

/-- **C73 is false for species added before their reactants** : if the saved document is loaded at all, the species come in another
order. -/
theorem C73_order_wrong (models : Str → ModelNode) (db : Database.Db) (i : Nat) (s : Species) (hi : db.species[i]? = some s)
    (r : Str × Rat) (hr : r ∈ s.reactants) (hlate : r.1 ∉ (db.species.take i).map Species.name)
    (doc : Doc) (_ : encode models db = .ok doc) (defaults : Str → Option Element) (hdef : ∀ s e, defaults s = some e → e.symbol = s)
    (depth : Nat) (st : St) (hl : load defaults depth doc = .ok st) (flags : List Bool) (db' : Database.Db)
    (hdb : toDatabase st = .ok (flags, db')) : ¬ SameDb db db' := by
  obtain ⟨-, -, -, l4, -⟩ := C26_load_partial defaults hdef doc depth st hl
  obtain ⟨flags', db'', d1, -, d3, -⟩ := C26_to_database defaults hdef doc depth st hl
  rw [hdb] at d1
  simp only [Res.ok.injEq, Prod.mk.injEq] at d1
  obtain ⟨rfl, rfl⟩ := d1
  intro he
  have he := he.species
  rw [d3] at he
  obtain ⟨s', h1, h2⟩ := same_at he i s hi
  have := l4 i s' h1 r (by rw [h2.reactants]; exact hr)
  rw [List.map_take, same_names he, ← List.map_take] at this
  exact hlate this

theorem encodeAll_mem (models : Str → ModelNode) (l : List Species) (ns : List SpeciesNode) (h : encodeAll models l = .ok ns) :
    List.Forall₂ (fun s n => n.name = some s.name ∧ n.formula = some s.formula) l ns := by
  induction l generalizing ns with
  | nil => cases h; exact .nil
  | cons s l ih =>
    rw [encodeAll] at h
    cases h1 : encodeSpecies models s <;> rw [h1] at h <;> simp only [Res.bind_ok', Res.bind_throw', Res.bind_ub', reduceCtorEq] at h
    cases h2 : encodeAll models l <;> rw [h2] at h <;> simp only [Res.bind_ok', Res.bind_throw', Res.bind_ub', reduceCtorEq, Res.ok.injEq] at h
    subst h
    refine .cons ?_ (ih _ h2)
    unfold encodeSpecies at h1
    cases h3 : getSubstance s <;> rw [h3] at h1 <;> simp only [Res.bind_ok', Res.bind_throw', Res.bind_ub', reduceCtorEq] at h1
    cases h4 : s.aggregateState <;> rw [h4] at h1 <;>
      simp only [Res.bind_ok', Res.bind_throw', Res.bind_ub', reduceCtorEq, Res.ok.injEq] at h1
    subst h1
    exact ⟨rfl, rfl⟩

theorem firstNode_saved (l : List Species) (ns : List SpeciesNode) (els : List ElementNode)
    (h : List.Forall₂ (fun s n => n.name = some s.name ∧ n.formula = some s.formula) l ns)
    (hnd : (l.map Species.name).Nodup) (s : Species) (hs : s ∈ l) :
    ∃ node, firstNode ⟨els, ns⟩ s.name = some node ∧ node.formula = some s.formula := by
  unfold firstNode
  induction h with
  | nil => cases hs
  | @cons a n l ns h _ ih =>
    rw [List.map_cons, List.nodup_cons] at hnd
    rcases List.mem_cons.1 hs with rfl | hs
    · exact ⟨n, by rw [List.find?_cons_of_pos (by simp [h.1])], h.2⟩
    · have hne : a.name ≠ s.name := fun hc => hnd.1 (hc ▸ List.mem_map.2 ⟨s, hs, rfl⟩)
      obtain ⟨node, h1, h2⟩ := ih hnd.2 hs
      refine ⟨node, ?_, h2⟩
      dsimp only at h1 ⊢
      rw [List.find?_cons_of_neg (by simp [h.1, hne])]
      exact h1

/-- **C73 is false for formulas with a suffix** : such formulas are kept by `Species::withFormula`, but after saving and loading the suffix
is gone. -/
theorem C73_formula_wrong (models : Str → ModelNode) (ops : List Database.Op) (flags : List Bool) (db : Database.Db)
    (h : Database.run {} ops = .ok (flags, db)) (s : Species) (hs : s ∈ db.species) (f suffix : Str)
    (hf : ChargeParser.splitSpeciesNameSuffix s.formula = .ok (f, suffix)) (hne : f ≠ s.formula)
    (doc : Doc) (he : encode models db = .ok doc) (defaults : Str → Option Element) (hdef : ∀ s e, defaults s = some e → e.symbol = s)
    (depth : Nat) (st : St) (hl : load defaults depth doc = .ok st) (flags' : List Bool) (db' : Database.Db)
    (hdb : toDatabase st = .ok (flags', db')) : (∃ s' ∈ db'.species, s'.name = s.name ∧ s'.formula = f) ∧ ¬ SameDb db db' := by
  obtain ⟨n1, -⟩ := Database.C25_database ops flags db h
  obtain ⟨l1, l2, l3, -⟩ := C26_load_partial defaults hdef doc depth st hl
  obtain ⟨flags'', db'', d1, -, d3, -⟩ := C26_to_database defaults hdef doc depth st hl
  rw [hdb] at d1
  simp only [Res.ok.injEq, Prod.mk.injEq] at d1
  obtain ⟨rfl, rfl⟩ := d1
  unfold encode at he
  cases ha : encodeAll models db.species <;> rw [ha] at he <;>
    simp only [Res.bind_ok', Res.bind_throw', Res.bind_ub', reduceCtorEq, Res.ok.injEq] at he
  rename_i ns
  subst he
  obtain ⟨node, f1, f2⟩ := firstNode_saved db.species ns (db.elements.map encodeElement) (encodeAll_mem models _ _ ha) n1 s hs
  have f0 : node.name = some s.name := by simpa using List.find?_some f1
  obtain ⟨s', hs', hn⟩ := List.mem_map.1 ((l2 s.name).2 ⟨node, List.mem_of_find?_eq_some f1, f0⟩)
  obtain ⟨node', g1, -, ⟨f', suffix', g2, g3⟩, -⟩ := l3 s' hs'
  rw [hn, f1] at g1
  cases g1
  rw [f2] at g2
  cases g2
  rw [hf] at g3
  cases g3
  refine ⟨⟨s', by rw [d3]; exact hs', hn, rfl⟩, ?_⟩
  intro hsame
  obtain ⟨i, hi⟩ := List.getElem?_of_mem hs
  obtain ⟨t, t1, t2⟩ := same_at hsame.species i s hi
  rw [d3] at t1
  have htn : t.name = s.name := by rw [Species.name, Species.name, t2.name, t2.formula]
  have : t = s' := List.inj_on_of_nodup_map l1 (List.mem_of_getElem? t1) hs' (by rw [htn, hn])
  subst this
  exact hne t2.formula

open ModelsYAML (RxnModel)

/-- Saving and loading a formation reaction keeps the reactants and the reaction model, and drops the standard volume. -/
theorem C73_reaction_partial (r : Reaction) (hb : r.model.BuiltIn) (ht : TextSafe r.reactants) :
    decodeReaction (encodeReaction r) = .ok { r with volume := none } := by
  obtain ⟨m', h1, rfl, -⟩ := ModelsYAML.C71_reaction r.model hb
  have h2 : NumberText.parseNumberStringPairs (NumberText.repr 0 r.reactants) = r.reactants := throughText_safe _ ht
  obtain ⟨reactants, model, volume⟩ := r
  unfold encodeReaction decodeReaction
  cases volume <;>
    simp only [List.append_nil, List.cons_append, List.nil_append, ModelsYAML.child] <;>
    simp [List.find?, h1, h2]

/-- **C73 is false for products with a standard volume** : after saving and loading the standard volume of the product is zero. -/
theorem C73_volume_wrong (r : Reaction) (hb : r.model.BuiltIn) (ht : TextSafe r.reactants) (V0 : ℝ) (hV : r.volume = some V0)
    (h0 : V0 ≠ 0) (species : Str → ReactionThermo.Store → ℝ → ℝ → Option (ChemicalProps.Std ℝ)) (store : ReactionThermo.Store) (T P : ℝ)
    (hp : ∀ p ∈ r.reactants, (species p.1 store T P).isSome) :
    ∃ r' before after, decodeReaction (encodeReaction r) = .ok r' ∧ r.productProps species store T P = some before ∧
      r'.productProps species store T P = some after ∧ before.V0 = V0 ∧ after.V0 = 0 ∧ before ≠ after := by
  have hall : ∃ l, ReactionThermo.allProps store T P (r.reactants.map fun p => ⟨p.1, species p.1, (p.2 : ℝ)⟩) = some l := by
    revert hp
    generalize r.reactants = l
    intro hp
    induction l with
    | nil => exact ⟨_, rfl⟩
    | cons p l ih =>
      obtain ⟨ps, hps⟩ := ih fun q hq => hp q (List.mem_cons_of_mem _ hq)
      obtain ⟨x, hx⟩ := Option.isSome_iff_exists.1 (hp p List.mem_cons_self)
      exact ⟨(((p.2 : ℝ), x) :: ps), by simp [ReactionThermo.allProps, hx, hps]⟩
  obtain ⟨l, hl⟩ := hall
  have key : ∀ volume, ∃ x, ({ r with volume := volume } : Reaction).productProps species store T P = some x ∧ x.V0 = volume.getD 0 := by
    intro volume
    unfold Reaction.productProps ReactionThermo.productProps
    rw [hl]
    cases volume with
    | none => exact ⟨_, rfl, rfl⟩
    | some V => exact ⟨_, rfl, rfl⟩
  obtain ⟨before, b1, b2⟩ := key (some V0)
  obtain ⟨after, a1, a2⟩ := key none
  have hr : ({ r with volume := some V0 } : Reaction) = r := by rw [← hV]
  rw [hr] at b1
  refine ⟨_, before, after, C73_reaction_partial r hb ht, b1, a1, b2, a2, ?_⟩
  intro he
  rw [he] at b2
  exact h0 (b2.symm.trans a2)

/-! ### Examples -/

/-- The default elements of the examples. -/
def defaultElement (s : Str) : Option Element := if s = c!"H" then some ⟨c!"H", 1, c!"Hydrogen", []⟩ else none

theorem defaultElement_ok : ∀ s e, defaultElement s = some e → e.symbol = s ∧ ElementOk e := by
  intro s e h
  unfold defaultElement at h
  split_ifs at h with hs
  cases h; exact ⟨hs.symm, by simp [ElementOk]⟩

/-- The database of the document of C26, in which `H2(g)` comes before its reactant `H2(aq)`. -/
def dbGood : Res Database.Db := (load defaultElement 2 docGood).bind fun st => (toDatabase st).bind fun r => .ok r.2

/-- It is saved and loaded again. -/
example : (dbGood.bind fun db => .ok (db.species.map Species.name, db.elements.map (·.symbol))) =
      .ok ([c!"H2(aq)", c!"H2(g)"], [c!"O", c!"H"]) ∧
    ((dbGood.bind fun db => (encode (fun _ => .valid) db).bind fun doc => (load defaultElement 1 doc).bind fun st =>
      .ok (decide (st.species = db.species ∧ st.elements = db.elements))) = .ok true) := by decide +kernel

/-- The elements of two hydrogen atoms. -/
def h2 : List (Element × Rat) := [(⟨c!"H", 1, c!"Hydrogen", []⟩, 2)]

/-- The product is added before its reactant. -/
def dbLate : Res Database.Db := (Database.run {} [
    .addSpecies ⟨c!"H2(g)", c!"H2", h2, 0, .Gas, [], [(c!"H2(aq)", 1)], []⟩,
    .addSpecies ⟨c!"H2(aq)", c!"H2", h2, 0, .Aqueous, [], [], []⟩]).bind fun r => .ok r.2

/-- The order changes. -/
example : (dbLate.bind fun db => .ok (db.species.map Species.name)) = .ok [c!"H2(g)", c!"H2(aq)"] ∧
    (dbLate.bind fun db => (encode (fun _ => .valid) db).bind fun doc => (load defaultElement 2 doc).bind fun st =>
      .ok (st.species.map Species.name)) = .ok [c!"H2(aq)", c!"H2(g)"] := by decide +kernel

/-- A database with a model that cannot be saved is not loaded again. -/
example : (dbGood.bind fun db => (encode (fun s => if s = c!"H2(g)" then .invalid else .valid) db).bind fun doc =>
    (load defaultElement 5 doc).bind fun st => .ok (st.species.map Species.name)) = .throw := by decide +kernel

/-- A species and another formed from it. -/
def aq : Species := ⟨c!"H2(aq)", c!"H2", h2, 0, .Aqueous, [], [], []⟩
def gas : Species := ⟨c!"H2(g)", c!"H2", h2, 0, .Gas, [], [(c!"H2(aq)", 1)], c!"HYDROGEN"⟩

/-- The formula loses its suffix. -/
example : ((Database.run {} [.addSpecies { aq with formula := c!"H2(aq)" }]).bind fun r => (encode (fun _ => .valid) r.2).bind fun doc =>
    (load defaultElement 1 doc).bind fun st => .ok (r.2.species.map (·.formula), st.species.map (·.formula))) =
    .ok ([c!"H2(aq)"], [c!"H2"]) := by decide +kernel

/-- The hypotheses of `C73_built_partial` and `C73_unsaved_model_wrong` are met by a database with a reaction. -/
example : ∃ flags db, Database.run {} [.addSpecies aq, .addSpecies gas] = .ok (flags, db) ∧ db.species = [aq, gas] ∧
    Complete db ∧ Writable db.species := by
  have key : ∀ db : Database.Db, db.species = [aq, gas] → db.elements = [⟨c!"H", 1, c!"Hydrogen", []⟩] →
      Complete db ∧ Writable db.species := by
    intro db hs he
    refine ⟨⟨?_, ?_, ?_, ?_⟩, ?_⟩
    · rw [he]; simp [ElementOk]
    · rw [hs]; simp [SpeciesOk, aq, gas, h2]
    · rw [hs, he]; simp [aq, gas, h2]
    · rw [hs]
      intro i s hi r hr
      match i with
      | 0 => cases hi; cases hr
      | 1 =>
        cases hi
        have : r = (c!"H2(aq)", 1) := by simpa [gas] using hr
        subst this
        simp [Species.name, aq]
      | i + 2 => simp at hi
    · have h1 : NumberText.SixDigits 1 := ⟨1, 0, by norm_num, by norm_num⟩
      have h3 : NumberText.SixDigits 2 := ⟨2, 0, by norm_num, by norm_num⟩
      rw [hs]
      intro s hs
      have hs : s = aq ∨ s = gas := by simpa using hs
      rcases hs with rfl | rfl
      · exact ⟨⟨by simp [aq, h2], by simp [aq, h2], by simpa [aq, h2] using h3⟩, ⟨by simp [aq], by simp [aq], by simp [aq]⟩,
          ⟨[], by decide +kernel⟩, c!"H2", by decide, by decide +kernel⟩
      · exact ⟨⟨by simp [gas, h2], by simp [gas, h2], by simpa [gas, h2] using h3⟩,
          ⟨by simp [gas], by simp [gas], by simpa [gas] using h1⟩, ⟨[], by decide +kernel⟩, c!"HYDROGEN", by decide, by decide +kernel⟩
  exact ⟨_, _, rfl, rfl, key _ rfl rfl⟩

/-- The hypotheses of `C73_volume_wrong` are met. -/
example : ∃ r' before after, decodeReaction (encodeReaction ⟨[(c!"H2(aq)", 1)], .constLgK ⟨3, 100000⟩, some 2⟩) = .ok r' ∧
    Reaction.productProps (fun _ _ _ _ => some ⟨0, 0, 0, 0, 0⟩) ⟨[(c!"H2(aq)", 1)], .constLgK ⟨3, 100000⟩, some 2⟩ (fun _ => 0) 300 100000 =
      some before ∧
    r'.productProps (fun _ _ _ _ => some ⟨0, 0, 0, 0, 0⟩) (fun _ => 0) 300 100000 = some after ∧ before.V0 = 2 ∧ after.V0 = 0 ∧
    before ≠ after :=
  C73_volume_wrong ⟨[(c!"H2(aq)", 1)], .constLgK ⟨3, 100000⟩, some 2⟩ trivial
    ⟨by simp, by simp, by simpa using (show NumberText.SixDigits 1 from ⟨1, 0, by norm_num, by norm_num⟩)⟩ 2 rfl (by norm_num) _ _ 300 100000 (by simp)

end Verif.DatabaseSave
