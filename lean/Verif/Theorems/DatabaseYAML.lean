import Verif.Lemmas.DatabaseYAML

/-!
# Theorems C26: loading a YAML database

`defaults` is `Elements::withSymbol`, which gives elements with the symbol asked for; `depth` bounds the nested calls.
-/

namespace Verif.DatabaseYAML

open Chem

/-- **C26 (what is loaded).** If a document is loaded, the names of the loaded species are pairwise distinct and they are exactly
the names in the document; every species has the data of the first node with its name; the reactants of its formation reaction
come before it; its elements are the first loaded ones with their symbols, and all elements of the document are loaded. -/
theorem C26_load_partial (defaults : Str → Option Element) (hdef : ∀ s e, defaults s = some e → e.symbol = s) (doc : Doc)
    (depth : Nat) (st : St) (h : load defaults depth doc = .ok st) :
    (st.species.map Species.name).Nodup ∧
    (∀ x, x ∈ st.species.map Species.name ↔ ∃ node ∈ doc.species, node.name = some x) ∧
    (∀ s ∈ st.species, ∃ node, firstNode doc s.name = some node ∧ HasDataOf node s) ∧
    (∀ i s, st.species[i]? = some s → ∀ r ∈ s.reactants, r.1 ∈ (st.species.take i).map Species.name) ∧
    (∀ s ∈ st.species, ∀ p ∈ s.elements, st.elements.find? (fun e => e.symbol = p.1.symbol) = some p.1) ∧
    (∀ node ∈ doc.elements, ∃ x, node.symbol = some x ∧ x ∈ st.elements.map (·.symbol)) := by
  obtain ⟨hi, hall, hel⟩ := load_spec defaults hdef doc depth st h
  refine ⟨load_nodup defaults hdef doc depth st h, ?_, hi.data, hi.order, hi.els, hel⟩
  intro x
  constructor
  · intro hx
    obtain ⟨s, hs, rfl⟩ := List.mem_map.1 hx
    obtain ⟨node, h1, h2⟩ := hi.data s hs
    exact ⟨node, List.mem_of_find?_eq_some h1, h2.1⟩
  · rintro ⟨node, hn, hx⟩
    obtain ⟨y, h1, h2⟩ := hall node hn
    rw [hx] at h1; cases h1
    exact h2

/-- **C26 (the database).** The database made of a loaded document has exactly the loaded species, in the same order and without
renaming, and for every symbol the first element loaded with it. -/
theorem C26_to_database (defaults : Str → Option Element) (hdef : ∀ s e, defaults s = some e → e.symbol = s) (doc : Doc)
    (depth : Nat) (st : St) (h : load defaults depth doc = .ok st) :
    ∃ flags db, toDatabase st = .ok (flags, db) ∧ (∀ b ∈ flags, b = true) ∧ db.species = st.species ∧
      ∀ x, db.elements.find? (fun e => e.symbol = x) = st.elements.find? (fun e => e.symbol = x) := by
  obtain ⟨hi, hall, hel⟩ := load_spec defaults hdef doc depth st h
  have hnd := load_nodup defaults hdef doc depth st h
  unfold toDatabase
  rw [run_addElements]
  obtain ⟨a1, a2, a3, a4⟩ := addElements_find st.elements id {} (by intro x; simp)
  have hfind : ∀ x, (st.elements.foldl (fun db e => Database.addElement db e) {}).elements.find? (fun e => e.symbol = x) =
      st.elements.find? (fun e => e.symbol = x) := by
    intro x
    have := a4 x
    simpa using this
  obtain ⟨db, d1, d2, d3⟩ := run_addSpecies st.species (st.elements.foldl (fun db e => Database.addElement db e) {}) a1 hnd
    (by
      intro s _
      have h0 : (st.elements.foldl (fun db e => Database.addElement db e) {}).speciesNames = [] := a3
      rw [h0]; simp)
    (by
      intro s hs
      obtain ⟨node, -, -, -, -, ⟨t, -, -, h0⟩, -⟩ := hi.data s hs
      exact h0)
    (by
      intro s hs p hp
      rw [hfind]
      exact hi.els s hs p hp)
  rw [d1]
  have h0 : (st.elements.foldl (fun db e => Database.addElement db e) {}).species = [] := a2
  refine ⟨_, db, rfl, ?_, by rw [d2, h0]; rfl, fun x => (d3 x).trans (hfind x)⟩
  intro b hb
  simp only [List.mem_append, List.mem_map] at hb
  rcases hb with ⟨_, _, rfl⟩ | ⟨_, _, rfl⟩ <;> rfl

/-- **C26 (termination).** If the relation between species and reactants is acyclic, loading ends: there is a depth that is
enough, and any larger depth gives the same result. -/
theorem C26_terminates (defaults : Str → Option Element) (hdef : ∀ s e, defaults s = some e → e.symbol = s) (doc : Doc)
    (h : Acyclic doc) :
    ∃ depth result, result ≠ .ub ∧ ∀ k, load defaults (depth + k) doc = result := by
  obtain ⟨rank, hrank⟩ := h
  have hb : ∃ b, ∀ m ∈ doc.species, ∀ x, m.name = some x → rank x < b := by
    generalize doc.species = l
    induction l with
    | nil => exact ⟨0, by simp⟩
    | cons m l ih =>
      obtain ⟨b, hb⟩ := ih
      refine ⟨b + rank (m.name.getD []) + 1, ?_⟩
      intro n hn x hx
      rcases List.mem_cons.1 hn with rfl | hn
      · rw [hx]; simp only [Option.getD_some]; omega
      · have := hb n hn x hx; omega
  obtain ⟨b, hb⟩ := hb
  have hne := load_ne_ub defaults hdef doc rank hrank (b + 1) (fun m hm x hx => by have := hb m hm x hx; omega) (by omega)
  exact ⟨b + 1, load defaults (b + 1) doc, hne, fun k => load_mono defaults doc (b + 1) k hne⟩

/-- **C26 (documents without mistakes are loaded).** -/
theorem C26_well_formed_loads (defaults : Str → Option Element) (hdef : ∀ s e, defaults s = some e → e.symbol = s) (doc : Doc)
    (h : Acyclic doc) (hw : WellFormed defaults doc) : ∃ depth st, ∀ k, load defaults (depth + k) doc = .ok st := by
  obtain ⟨depth, result, h1, h2⟩ := C26_terminates defaults hdef doc h
  have h3 : result ≠ .throw := by rw [← h2 0]; exact load_ne_throw defaults hdef doc hw _
  cases result with
  | ok st => exact ⟨depth, st, h2⟩
  | throw => exact absurd rfl h3
  | ub => exact absurd rfl h1

/-- **C26 (cycles are never loaded).** -/
theorem C26_cycle_never_loads (defaults : Str → Option Element) (hdef : ∀ s e, defaults s = some e → e.symbol = s) (doc : Doc)
    (h : ¬ Acyclic doc) (depth : Nat) (st : St) : load defaults depth doc ≠ .ok st := by
  intro hl
  obtain ⟨hi, hall, -⟩ := load_spec defaults hdef doc depth st hl
  exact h ⟨_, acyclic_of_inv doc st hi hall⟩

/-- **C26 (cycles are not reported).** The last part of C26 is false: on a document whose only mistake is a cycle the recursion
never ends, whatever the depth of the stack, instead of failing with an error. -/
theorem C26_cycle_not_reported (defaults : Str → Option Element) (hdef : ∀ s e, defaults s = some e → e.symbol = s) (doc : Doc)
    (h : ¬ Acyclic doc) (hw : WellFormed defaults doc) (depth : Nat) : load defaults depth doc = .ub := by
  have h1 := C26_cycle_never_loads defaults hdef doc h depth
  have h2 := load_ne_throw defaults hdef doc hw depth
  cases hl : load defaults depth doc with
  | ok st => exact absurd hl (h1 st)
  | throw => exact absurd hl h2
  | ub => rfl

/-! ### Examples -/

/-- The default elements of the examples. -/
def defaultElement (s : Str) : Option Element := if s = c!"H" then some ⟨c!"H", 1, [], []⟩ else none

theorem defaultElement_symbol : ∀ s e, defaultElement s = some e → e.symbol = s := by
  intro s e h
  unfold defaultElement at h
  split_ifs at h with hs
  cases h; exact hs.symm

/-- The suffix of a formula is removed, and what remains is the substance if none is given. -/
example : (load defaultElement 1 ⟨[], [⟨some c!"H2(aq)", some c!"H2(aq)", some c!"Aqueous", some [(c!"H", 2)], none, .valid, 0, [], []⟩,
      ⟨some c!"H2(g)", some c!"H2(g)", some c!"Gas", some [(c!"H", 2)], none, .valid, 0, [], c!"HYDROGEN"⟩]⟩).bind (fun st =>
      .ok (st.species.map fun s => (s.formula, s.rawSubstance))) =
    .ok [(c!"H2", c!"H2"), (c!"H2", c!"HYDROGEN")] := by decide +kernel

/-- `H2(g)` is formed from `H2(aq)`, which comes later; `H2(aq)` is given twice. -/
def docGood : Doc where
  elements := [⟨some c!"O", some 16, [], []⟩]
  species := [
    ⟨some c!"H2(g)", some c!"H2", some c!"Gas", some [(c!"H", 2)], some (some [(c!"H2(aq)", 1)], .valid), .absent, 0, [], []⟩,
    ⟨some c!"H2(aq)", some c!"H2", some c!"Aqueous", some [(c!"H", 2)], none, .valid, 0, [], []⟩,
    ⟨some c!"H2(aq)", some c!"H2", some c!"Gas", some [(c!"H", 3)], none, .valid, 0, [], []⟩]

/-- `A` and `B` are formed from each other. -/
def docCycle : Doc where
  elements := []
  species := [
    ⟨some c!"A", some c!"H2", some c!"Gas", some [(c!"H", 2)], some (some [(c!"B", 1)], .valid), .absent, 0, [], []⟩,
    ⟨some c!"B", some c!"H2", some c!"Gas", some [(c!"H", 2)], some (some [(c!"A", 1)], .valid), .absent, 0, [], []⟩]

example : (load defaultElement 2 docGood).bind (fun st => .ok (st.species.map Species.name, st.elements.map (·.symbol),
      st.species.map (·.rawState))) =
    .ok ([c!"H2(aq)", c!"H2(g)"], [c!"O", c!"H"], [.Aqueous, .Gas]) := by decide +kernel

theorem docGood_acyclic : Acyclic docGood := by
  refine ⟨fun s => if s = c!"H2(g)" then 1 else 0, ?_⟩
  rintro x y ⟨node, pairs, model, hf, hr, hy⟩
  have hm := List.mem_of_find?_eq_some hf
  have hx : node.name = some x := by simpa using List.find?_some hf
  simp only [docGood, List.mem_cons, List.not_mem_nil, or_false] at hm
  rcases hm with rfl | rfl | rfl
  · simp only [Option.some.injEq, Prod.mk.injEq] at hr hx
    obtain ⟨rfl, -⟩ := hr
    subst hx
    simp only [List.map_cons, List.map_nil, List.mem_singleton] at hy
    subst hy
    decide
  · cases hr
  · cases hr

theorem docGood_wellFormed : WellFormed defaultElement docGood := by
  have hg : AggregateState.parse c!"Gas" ≠ .Undefined := by decide +kernel
  have ha : AggregateState.parse c!"Aqueous" ≠ .Undefined := by decide +kernel
  have hd : (defaultElement c!"H").isSome := by decide
  have hm : ∀ n ∈ docGood.species, n = docGood.species[0] ∨ n = docGood.species[1] ∨ n = docGood.species[2] := by
    intro n hn; simpa [docGood] using hn
  refine ⟨?_, ?_, ?_, ?_, ?_, ?_⟩
  · intro e he
    rw [List.mem_singleton.1 he]
    exact ⟨_, _, rfl, by simp, rfl, by decide⟩
  · intro n hn; rcases hm n hn with rfl | rfl | rfl <;> exact ⟨_, rfl, by simp⟩
  · intro n hn; rcases hm n hn with rfl | rfl | rfl <;> exact ⟨_, rfl, by simp⟩
  · intro n hn
    rcases hm n hn with rfl | rfl | rfl
    · exact ⟨_, rfl, hg⟩
    · exact ⟨_, rfl, ha⟩
    · exact ⟨_, rfl, hg⟩
  · intro n hn
    rcases hm n hn with rfl | rfl | rfl <;>
      exact ⟨_, rfl, by simp, fun p hp => .inr (by rw [List.mem_singleton.1 hp]; exact hd)⟩
  · intro n hn
    rcases hm n hn with rfl | rfl | rfl
    · exact .inr ⟨rfl, _, rfl, by simp, fun p hp => by
        rw [List.mem_singleton.1 hp]
        exact ⟨docGood.species[1], by simp [docGood], rfl⟩⟩
    · exact .inl ⟨rfl, rfl⟩
    · exact .inl ⟨rfl, rfl⟩

example : ∃ depth st, ∀ k, load defaultElement (depth + k) docGood = .ok st :=
  C26_well_formed_loads _ defaultElement_symbol _ docGood_acyclic docGood_wellFormed

theorem docCycle_cyclic : ¬ Acyclic docCycle := by
  rintro ⟨rank, h⟩
  have h1 := h c!"A" c!"B" ⟨docCycle.species[0], _, _, by decide +kernel, rfl, by simp⟩
  have h2 := h c!"B" c!"A" ⟨docCycle.species[1], _, _, by decide +kernel, rfl, by simp⟩
  omega

theorem docCycle_wellFormed : WellFormed defaultElement docCycle := by
  have hg : AggregateState.parse c!"Gas" ≠ .Undefined := by decide +kernel
  have hd : (defaultElement c!"H").isSome := by decide
  have hm : ∀ n ∈ docCycle.species, n = docCycle.species[0] ∨ n = docCycle.species[1] := by
    intro n hn; simpa [docCycle] using hn
  refine ⟨(by intro e he; cases he), ?_, ?_, ?_, ?_, ?_⟩
  · intro n hn; rcases hm n hn with rfl | rfl <;> exact ⟨_, rfl, by simp⟩
  · intro n hn; rcases hm n hn with rfl | rfl <;> exact ⟨_, rfl, by simp⟩
  · intro n hn
    rcases hm n hn with rfl | rfl <;> exact ⟨_, rfl, hg⟩
  · intro n hn
    rcases hm n hn with rfl | rfl <;>
      exact ⟨_, rfl, by simp, fun p hp => .inr (by rw [List.mem_singleton.1 hp]; exact hd)⟩
  · intro n hn
    rcases hm n hn with rfl | rfl
    · exact .inr ⟨rfl, _, rfl, by simp, fun p hp => by
        rw [List.mem_singleton.1 hp]
        exact ⟨docCycle.species[1], by simp [docCycle], rfl⟩⟩
    · exact .inr ⟨rfl, _, rfl, by simp, fun p hp => by
        rw [List.mem_singleton.1 hp]
        exact ⟨docCycle.species[0], by simp [docCycle], rfl⟩⟩

example (depth : Nat) : load defaultElement depth docCycle = .ub :=
  C26_cycle_not_reported _ defaultElement_symbol _ docCycle_cyclic docCycle_wellFormed depth

end Verif.DatabaseYAML
