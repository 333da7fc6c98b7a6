import Verif.Spec.Database
import Mathlib.Data.List.Perm.Subperm
import Mathlib.Data.List.Nodup
import Mathlib.Data.List.Range

/-!
# Lemmas for C25
-/

namespace Verif.Database

open Chem

theorem uniqueName_spec (n : Nat) (names : List Str) (name : Str) (unique : Str) (h : uniqueName n names name = .ok unique) :
    unique ∉ names ∧ (∃ k, unique = name ++ List.replicate k '!') ∧ (name ∉ names → unique = name) := by
  induction n generalizing name with
  | zero => simp [uniqueName] at h
  | succ n ih =>
    simp only [uniqueName] at h
    by_cases hm : name ∈ names
    · rw [if_pos hm] at h
      obtain ⟨h1, ⟨k, hk⟩, -⟩ := ih _ h
      refine ⟨h1, ⟨k + 1, ?_⟩, fun hn => absurd hm hn⟩
      rw [hk, List.append_assoc, List.replicate_succ]; rfl
    · rw [if_neg hm] at h
      cases h
      exact ⟨hm, ⟨0, by simp⟩, fun _ => rfl⟩

theorem uniqueName_cases (n : Nat) (names : List Str) (name : Str) :
    (∃ u, uniqueName n names name = .ok u) ∨
      (uniqueName n names name = .ub ∧ ∀ k < n, name ++ List.replicate k '!' ∈ names) := by
  induction n generalizing name with
  | zero => right; simp [uniqueName]
  | succ n ih =>
    simp only [uniqueName]
    by_cases hm : name ∈ names
    · rw [if_pos hm]
      rcases ih (name ++ ['!']) with h | ⟨h1, h2⟩
      · exact .inl h
      · refine .inr ⟨h1, fun k hk => ?_⟩
        cases k with
        | zero => simpa using hm
        | succ k =>
          have := h2 k (by omega)
          rw [List.append_assoc] at this
          exact this
    · rw [if_neg hm]; exact .inl ⟨_, rfl⟩

/-- The loop that looks for a unique name always ends. -/
theorem uniqueName_ok (names : List Str) (name : Str) : ∃ u, uniqueName (names.length + 1) names name = .ok u := by
  rcases uniqueName_cases (names.length + 1) names name with h | ⟨-, h2⟩
  · exact h
  · exfalso
    let l := (List.range (names.length + 1)).map (fun k => name ++ List.replicate k '!')
    have hnd : l.Nodup := by
      apply List.Nodup.map
      · intro a b hab
        have := congrArg List.length hab
        simpa using this
      · exact List.nodup_range
    have hsub : l ⊆ names := by
      intro x hx
      obtain ⟨k, hk, rfl⟩ := List.mem_map.1 hx
      exact h2 k (List.mem_range.1 hk)
    have := (List.subperm_of_subset hnd hsub).length_le
    simp [l] at this
    omega

theorem withName_name (s : Species) (k : Nat) (u : Str) (hu : u = s.name ++ List.replicate k '!') (hne : s.name ≠ u) :
    (s.withName u).name = u := by
  have : u ≠ [] := by
    rintro rfl
    rcases List.append_eq_nil_iff.1 hu.symm with ⟨h1, -⟩
    exact hne h1
  simp [Species.withName, Species.name, this]

theorem name_withState (s : Species) (st : State) : (s.withAggregateState st).name = s.name := rfl

/-- What `addElement` preserves and establishes for the elements. -/
structure ElInv (db : Db) : Prop where
  nodup : (db.elements.map (·.symbol)).Nodup
  sym : ∀ x, x ∈ db.elementSymbols ↔ x ∈ db.elements.map (·.symbol)

theorem addElement_inv (db : Db) (e : Element) (h : ElInv db) :
    ElInv (addElement db e) ∧ e.symbol ∈ (addElement db e).elements.map (·.symbol) ∧
    (∀ x ∈ db.elements, x ∈ (addElement db e).elements) ∧
    (addElement db e).species = db.species ∧ (addElement db e).speciesNames = db.speciesNames ∧
    (addElement db e).groups = db.groups := by
  unfold addElement
  by_cases hm : e.symbol ∈ db.elementSymbols
  · rw [if_pos hm]
    exact ⟨h, (h.sym _).1 hm, fun _ hx => hx, rfl, rfl, rfl⟩
  · rw [if_neg hm]
    refine ⟨⟨?_, ?_⟩, ?_, ?_, rfl, rfl, rfl⟩
    · simp only [List.map_append, List.map_cons, List.map_nil]
      rw [List.nodup_append]
      refine ⟨h.nodup, by simp, ?_⟩
      intro a ha b hb hab
      rw [List.mem_singleton] at hb
      subst hab
      subst hb
      exact hm ((h.sym _).2 ha)
    · intro x
      simp only [List.mem_cons, List.map_append, List.map_cons, List.map_nil, List.mem_append, List.not_mem_nil, or_false, h.sym]
      tauto
    · simp
    · intro x hx; exact List.mem_append_left _ hx

theorem addElements_inv (l : List (Element × Rat)) (db : Db) (h : ElInv db) :
    ElInv (l.foldl (fun db p => addElement db p.1) db) ∧
    (∀ p ∈ l, p.1.symbol ∈ (l.foldl (fun db p => addElement db p.1) db).elements.map (·.symbol)) ∧
    (∀ x ∈ db.elements, x ∈ (l.foldl (fun db p => addElement db p.1) db).elements) ∧
    (l.foldl (fun db p => addElement db p.1) db).species = db.species ∧
    (l.foldl (fun db p => addElement db p.1) db).speciesNames = db.speciesNames ∧
    (l.foldl (fun db p => addElement db p.1) db).groups = db.groups := by
  induction l generalizing db with
  | nil => exact ⟨h, by simp, fun _ hx => hx, rfl, rfl, rfl⟩
  | cons p l ih =>
    obtain ⟨a1, a2, a3, a4, a5, a6⟩ := addElement_inv db p.1 h
    obtain ⟨b1, b2, b3, b4, b5, b6⟩ := ih _ a1
    simp only [List.foldl_cons]
    refine ⟨b1, ?_, fun x hx => b3 x (a3 x hx), b4.trans a4, b5.trans a5, b6.trans a6⟩
    intro q hq
    rcases List.mem_cons.1 hq with rfl | hq
    · obtain ⟨x, hx, hxs⟩ := List.mem_map.1 a2
      exact List.mem_map.2 ⟨x, b3 x hx, hxs⟩
    · exact b2 q hq

/-- The invariant of a database whose accepted species are `acc`. -/
structure Inv (db : Db) (acc : List Species) : Prop where
  el : ElInv db
  names : (db.species.map Species.name).Nodup
  mem : ∀ x, x ∈ db.speciesNames ↔ x ∈ db.species.map Species.name
  cover : ∀ s ∈ db.species, ∀ p ∈ s.elements, p.1.symbol ∈ db.elements.map (·.symbol)
  group : ∀ st, db.groups st = db.species.filter (fun s => s.aggregateState = .ok st)
  state : ∀ s ∈ db.species, ∃ st, s.aggregateState = .ok st ∧ st ≠ .Undefined
  len : acc.length = db.species.length
  stored : ∀ i (h : i < acc.length) (h' : i < db.species.length),
    StoredAs ((db.species.take i).map Species.name) acc[i] db.species[i]

theorem inv_empty : Inv {} [] :=
  ⟨⟨by simp, by simp⟩, by simp, by simp, by simp, by simp, by simp, rfl, by simp⟩

/-- `addSpecies` keeps the invariant. -/
theorem addSpecies_inv (db db' : Db) (acc : List Species) (s : Species) (hi : Inv db acc) (h : addSpecies db s = .ok db') :
    Inv db' (acc ++ [s]) := by
  unfold addSpecies at h
  obtain ⟨u, hu⟩ := uniqueName_ok db.speciesNames s.name
  rw [hu] at h
  simp only [Res.bind_ok'] at h
  obtain ⟨hu1, ⟨k, hk⟩, hu3⟩ := uniqueName_spec _ _ _ _ hu
  -- the renamed species
  generalize hs1 : (if s.name ≠ u then s.withName u else s) = s1 at h
  have hn1 : s1.name = u := by
    by_cases hne : s.name ≠ u
    · rw [if_pos hne] at hs1; rw [← hs1]; exact withName_name s k u hk hne
    · rw [if_neg hne] at hs1; rw [← hs1]; exact not_not.1 hne
  have hf1 : s1.formula = s.formula ∧ s1.elements = s.elements ∧ s1.charge = s.charge ∧ s1.tags = s.tags ∧
      s1.reactants = s.reactants ∧ s1.rawState = s.rawState := by
    rw [← hs1]; split <;> simp [Species.withName]
  cases hst : s1.aggregateState <;> rw [hst] at h <;> simp only [Res.bind_ok', Res.bind_throw', Res.bind_ub', reduceCtorEq] at h
  rename_i st
  generalize hs2 : (if st = .Undefined then s1.withAggregateState .Aqueous else s1) = s2 at h
  have hn2 : s2.name = u := by
    rw [← hs2]; split
    · rw [name_withState]; exact hn1
    · exact hn1
  have hst2 : ∃ st2, s2.aggregateState = .ok st2 ∧ st2 ≠ .Undefined := by
    rw [← hs2]
    by_cases h0 : st = .Undefined
    · rw [if_pos h0]; exact ⟨.Aqueous, by simp [Species.aggregateState, Species.withAggregateState], by decide⟩
    · rw [if_neg h0]; exact ⟨st, hst, h0⟩
  have hstore : StoredAs (db.species.map Species.name) s s2 := by
    obtain ⟨f1, f2, f3, f4, f5, f6⟩ := hf1
    refine ⟨⟨k, hn2.trans hk⟩, fun hn => hn2.trans (hu3 (fun hc => hn ((hi.mem _).1 hc))), ?_⟩
    rw [← hs2]
    by_cases h0 : st = .Undefined
    · rw [if_pos h0]
      refine ⟨f1, f2, f3, f4, f5, .inr ?_⟩
      have : s1.rawState = .Undefined := by
        by_contra hc
        rw [Species.aggregateState, if_neg hc, h0] at hst
        exact hc (Res.ok.inj hst)
      refine ⟨f6 ▸ this, ?_, rfl⟩
      rw [Species.aggregateState, if_pos this] at hst
      rw [name_withState, hst, h0]
    · rw [if_neg h0]; exact ⟨f1, f2, f3, f4, f5, .inl f6⟩
  obtain ⟨st2, hst2, hst2n⟩ := hst2
  rw [hst2] at h
  simp only [Res.bind_ok'] at h
  have hel0 : ElInv { db with species := db.species ++ [s2], speciesNames := s2.name :: db.speciesNames } := ⟨hi.el.nodup, hi.el.sym⟩
  obtain ⟨e1, e2, e3, e4, e5, e6⟩ := addElements_inv s2.elements _ hel0
  generalize hd : s2.elements.foldl (fun db p => addElement db p.1)
    { db with species := db.species ++ [s2], speciesNames := s2.name :: db.speciesNames } = d at h e1 e2 e3 e4 e5 e6
  cases h
  dsimp only at e4 e5 e6
  have hnotin : s2.name ∉ db.species.map Species.name := by rw [hn2, ← hi.mem]; exact hu1
  refine ⟨⟨e1.nodup, e1.sym⟩, ?_, ?_, ?_, ?_, ?_, ?_, ?_⟩
  · rw [e4, List.map_append, List.map_cons, List.map_nil, List.nodup_append]
    refine ⟨hi.names, by simp, ?_⟩
    intro a ha b hb hab
    rw [List.mem_singleton] at hb
    exact hnotin (by rw [← hb, ← hab]; exact ha)
  · intro x
    show x ∈ d.speciesNames ↔ _
    rw [e5, e4]
    simp only [List.mem_cons, List.map_append, List.map_cons, List.map_nil, List.mem_append, List.not_mem_nil, or_false, hi.mem]
    tauto
  · intro t ht p hp
    rw [e4] at ht
    rcases List.mem_append.1 ht with ht | ht
    · obtain ⟨x, hx, hxs⟩ := List.mem_map.1 (hi.cover t ht p hp)
      exact List.mem_map.2 ⟨x, e3 x hx, hxs⟩
    · rw [List.mem_singleton] at ht
      subst ht
      exact e2 p hp
  · intro x
    show (if x = st2 then d.groups x ++ [s2] else d.groups x) = List.filter _ d.species
    rw [e4, e6, List.filter_append, hi.group]
    by_cases hx : x = st2
    · subst hx; simp [hst2]
    · rw [if_neg hx]
      have : ¬ (st2 = x) := fun hc => hx hc.symm
      simp [hst2, this]
  · intro t ht
    rw [e4] at ht
    rcases List.mem_append.1 ht with ht | ht
    · exact hi.state t ht
    · rw [List.mem_singleton] at ht
      subst ht
      exact ⟨st2, hst2, hst2n⟩
  · show _ = d.species.length
    rw [e4]; simp [hi.len]
  · intro i hl hl'
    have hl2 : i < acc.length + 1 := by simpa using hl
    have hlen := hi.len
    by_cases hi' : i < acc.length
    · have hs := hi.stored i hi' (by omega)
      have t1 : (d.species.take i) = db.species.take i := by
        rw [e4, List.take_append_of_le_length (by omega)]
      have t2 : d.species[i]'hl' = db.species[i]'(by omega) := by
        simp only [e4]; exact List.getElem_append_left (by omega)
      show StoredAs ((d.species.take i).map Species.name) _ (d.species[i]'hl')
      rw [t1, t2, List.getElem_append_left hi']
      exact hs
    · have hie : i = acc.length := by omega
      subst hie
      have t1 : d.species.take acc.length = db.species := by rw [e4, hlen]; simp
      have t2 : d.species[acc.length]'hl' = s2 := by simp [e4, hlen]
      show StoredAs ((d.species.take acc.length).map Species.name) _ (d.species[acc.length]'hl')
      rw [t1, t2]
      simpa using hstore

theorem addElement_full (db : Db) (acc : List Species) (e : Element) (hi : Inv db acc) : Inv (addElement db e) acc := by
  obtain ⟨a1, -, a3, a4, a5, a6⟩ := addElement_inv db e hi.el
  refine ⟨a1, a4 ▸ hi.names, by rw [a5, a4]; exact hi.mem, ?_, ?_, a4 ▸ hi.state, a4 ▸ hi.len, ?_⟩
  · intro s hs p hp
    rw [a4] at hs
    obtain ⟨x, hx, hxs⟩ := List.mem_map.1 (hi.cover s hs p hp)
    exact List.mem_map.2 ⟨x, a3 x hx, hxs⟩
  · intro st; rw [a6, a4]; exact hi.group st
  · intro i h h'
    have := hi.stored i h (by rw [← a4]; exact h')
    simpa only [a4] using this

theorem run_inv (ops : List Op) (db : Db) (acc : List Species) (hi : Inv db acc) (flags : List Bool) (db' : Db)
    (h : run db ops = .ok (flags, db')) : Inv db' (accepted ops flags acc) := by
  induction ops generalizing db acc flags with
  | nil =>
    simp only [run, Res.ok.injEq, Prod.mk.injEq] at h
    obtain ⟨rfl, rfl⟩ := h
    simpa [accepted] using hi
  | cons op ops ih =>
    simp only [run] at h
    cases hs : step db op <;> rw [hs] at h <;> simp only [Res.bind_ok', Res.bind_throw', Res.bind_ub', reduceCtorEq] at h
    rename_i r
    cases hr : run r.2 ops <;> rw [hr] at h <;> simp only [Res.bind_ok', Res.bind_throw', Res.bind_ub', reduceCtorEq] at h
    rename_i q
    simp only [Res.ok.injEq, Prod.mk.injEq] at h
    obtain ⟨rfl, rfl⟩ := h
    obtain ⟨flag, d⟩ := r
    obtain ⟨fl, d'⟩ := q
    cases op with
    | addElement e =>
      simp only [step, Res.ok.injEq, Prod.mk.injEq] at hs
      obtain ⟨rfl, rfl⟩ := hs
      simpa only [accepted] using ih _ _ (addElement_full db acc e hi) _ hr
    | clear =>
      simp only [step, Res.ok.injEq, Prod.mk.injEq] at hs
      obtain ⟨rfl, rfl⟩ := hs
      simpa only [accepted] using ih _ _ inv_empty _ hr
    | addSpecies s =>
      simp only [step] at hs
      cases ha : addSpecies db s <;> rw [ha] at hs <;> simp only [reduceCtorEq, Res.ok.injEq, Prod.mk.injEq] at hs
      · obtain ⟨rfl, rfl⟩ := hs
        simpa only [accepted] using ih _ _ (addSpecies_inv db _ acc s hi ha) _ hr
      · obtain ⟨rfl, rfl⟩ := hs
        simpa only [accepted] using ih _ _ hi _ hr

/-- With a given aggregate state, or a name from which it can be identified, adding a species returns normally. -/
theorem addSpecies_ok (db : Db) (s : Species) (h : s.rawState ≠ .Undefined) : ∃ db', addSpecies db s = .ok db' := by
  unfold addSpecies
  obtain ⟨u, hu⟩ := uniqueName_ok db.speciesNames s.name
  rw [hu]
  simp only [Res.bind_ok']
  generalize hs1 : (if s.name ≠ u then s.withName u else s) = s1
  have hr : s1.rawState = s.rawState := by rw [← hs1]; split <;> rfl
  have : s1.aggregateState = .ok s.rawState := by rw [Species.aggregateState, if_neg (hr ▸ h), hr]
  rw [this]
  simp only [Res.bind_ok', if_neg h]
  rw [this]
  exact ⟨_, rfl⟩

theorem run_ok_of_states (ops : List Op) (db : Db) (h : ∀ s, Op.addSpecies s ∈ ops → s.rawState ≠ .Undefined) :
    ∃ db', run db ops = .ok (ops.map (fun _ => true), db') := by
  induction ops generalizing db with
  | nil => exact ⟨db, rfl⟩
  | cons op ops ih =>
    have hstep : ∃ d, step db op = .ok (true, d) := by
      cases op with
      | addElement e => exact ⟨_, rfl⟩
      | clear => exact ⟨_, rfl⟩
      | addSpecies s =>
        obtain ⟨d, hd⟩ := addSpecies_ok db s (h s (by simp))
        exact ⟨d, by simp only [step, hd]⟩
    obtain ⟨d, hd⟩ := hstep
    obtain ⟨d', hd'⟩ := ih d (fun s hs => h s (List.mem_cons_of_mem _ hs))
    exact ⟨d', by simp only [run, hd, Res.bind_ok', hd', List.map_cons]⟩

end Verif.Database
