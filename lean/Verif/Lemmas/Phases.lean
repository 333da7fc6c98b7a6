import Verif.Spec.Phases
import Verif.Lemmas.Database
import Verif.Theorems.Strings
import Mathlib.Data.List.Basic
import Mathlib.Data.List.Nodup
import Mathlib.Data.List.Forall2

/-!
# Lemmas for C30
-/

namespace Verif.Phases

open Chem

theorem contains_iff (c : List Str) (x : Str) : contains c x = true ↔ x ∈ c := by
  unfold contains
  cases c with
  | nil => simp
  | cons a c =>
    rw [show ((a :: c).length != 0) = true from rfl, Bool.true_and, List.any_eq_true]
    constructor
    · rintro ⟨y, hy, h⟩
      rw [← show y = x by simpa using h]; exact hy
    · intro h
      exact ⟨x, h, by simp⟩

theorem contained_iff (a b : List Str) : contained a b = true ↔ ∀ x ∈ a, x ∈ b := by
  simp [contained, contains_iff]

theorem mem_insertSorted (x y : Str) (l : List Str) : y ∈ insertSorted x l ↔ y = x ∨ y ∈ l := by
  induction l with
  | nil => simp [insertSorted]
  | cons a l ih =>
    simp only [insertSorted]
    split_ifs with h1 h2
    · subst h1
      constructor
      · exact .inr
      · rintro (rfl | h)
        · exact List.mem_cons_self
        · exact h
    · simp
    · simp only [List.mem_cons, ih]
      constructor
      · rintro (h | h | h)
        · exact .inr (.inl h)
        · exact .inl h
        · exact .inr (.inr h)
      · rintro (h | h | h)
        · exact .inr (.inl h)
        · exact .inl h
        · exact .inr (.inr h)

theorem mem_merge (a b : List Str) (x : Str) : x ∈ merge a b ↔ x ∈ a ∨ x ∈ b := by
  unfold merge
  rw [← List.mem_append]
  induction a ++ b with
  | nil => simp
  | cons y l ih => rw [List.foldr_cons, mem_insertSorted, ih, List.mem_cons]

theorem getWithName_cases (l : List Species) (n : Str) :
    (∃ s ∈ l, s.name = n ∧ getWithName l n = .ok s) ∨ ((∀ s ∈ l, s.name ≠ n) ∧ getWithName l n = .throw) := by
  unfold getWithName
  dsimp only
  by_cases h : findWithName l n < l.length
  · left
    rw [if_neg (by omega), at!_of_lt l _ h]
    refine ⟨_, List.getElem_mem h, ?_, rfl⟩
    unfold findWithName indexfn at h ⊢
    have := List.findIdx_getElem (w := h)
    simpa using this
  · right
    rw [if_pos (by omega)]
    refine ⟨?_, rfl⟩
    intro s hs hn
    apply h
    unfold findWithName indexfn
    exact List.findIdx_lt_length_of_exists ⟨s, hs, by simpa using hn⟩

theorem withNames_cases (l : List Species) (ns : List Str) :
    (∃ r, withNames l ns = .ok r ∧ r.map Species.name = ns ∧ ∀ s ∈ r, s ∈ l) ∨
    ((∃ n ∈ ns, ∀ s ∈ l, s.name ≠ n) ∧ withNames l ns = .throw) := by
  induction ns with
  | nil => left; exact ⟨[], rfl, rfl, by simp⟩
  | cons n ns ih =>
    simp only [withNames]
    rcases getWithName_cases l n with ⟨s, hs, hn, he⟩ | ⟨hn, he⟩
    · rw [he]
      simp only [Res.bind_ok']
      rcases ih with ⟨r, h1, h2, h3⟩ | ⟨⟨m, hm, hmn⟩, h1⟩
      · left
        rw [h1]
        refine ⟨s :: r, rfl, by simp [hn, h2], ?_⟩
        intro t ht
        rcases List.mem_cons.1 ht with rfl | ht
        · exact hs
        · exact h3 t ht
      · right
        rw [h1]
        exact ⟨⟨m, List.mem_cons_of_mem _ hm, hmn⟩, rfl⟩
    · right
      rw [he]
      exact ⟨⟨n, List.mem_cons_self, hn⟩, rfl⟩

theorem checkStates_ok (st : State) (l : List Species) (h : ∀ s ∈ l, s.aggregateState = .ok st) : checkStates st l = .ok () := by
  induction l with
  | nil => rfl
  | cons s l ih =>
    simp only [checkStates, h s List.mem_cons_self, Res.bind_ok', ne_eq, not_true_eq_false, if_false]
    exact ih (fun t ht => h t (List.mem_cons_of_mem _ ht))

theorem withSpecies_ok (p : Phase) (st : State) (l : List Species) (h : ∀ s ∈ l, s.aggregateState = .ok st) (hne : l ≠ []) :
    p.withSpecies l = .ok { p with species := l } := by
  cases l with
  | nil => exact absurd rfl hne
  | cons s l =>
    unfold Phase.withSpecies
    rw [at!_of_lt _ 0 (by simp)]
    simp only [List.getElem_cons_zero, Res.bind_ok', h s List.mem_cons_self]
    rw [checkStates_ok st _ h]
    rfl

theorem withSpecies_nil (p : Phase) : p.withSpecies [] = .ub := rfl

/-- What the database provides. -/
structure DbOk (db : Database.Db) : Prop where
  names : (db.species.map Species.name).Nodup
  group : ∀ st, Database.speciesWithAggregateState db st = db.species.filter (fun s => s.aggregateState = .ok st)

theorem mem_group {db : Database.Db} (h : DbOk db) (st : State) (s : Species) :
    s ∈ Database.speciesWithAggregateState db st ↔ s ∈ db.species ∧ s.aggregateState = .ok st := by
  rw [h.group, List.mem_filter]
  simp

/-- The selection: either the requested species or, if a named species is missing, an exception. -/
theorem select_cases (db : Database.Db) (hdb : DbOk db) (g : GenericPhase) (hg : Constructible g) (elements : List Str) :
    (∃ r, select db g elements = .ok r ∧ Requested (HasAllTags g.excludetags) db (· ∈ elements) g r ∧
      ∀ s ∈ r, s ∈ db.species ∧ s.aggregateState = .ok g.aggregatestate) ∨
    ((∃ n ∈ g.names, ∀ s ∈ db.species, s.aggregateState = .ok g.aggregatestate → s.name ≠ n) ∧ select db g elements = .throw) := by
  unfold select
  dsimp only
  by_cases hn : g.names = []
  · left
    rw [if_neg (by simp [hn])]
    have key : ∀ symbols : List Str, ∃ r, ((Res.ok (withElements (Database.speciesWithAggregateState db g.aggregatestate) symbols)).bind
        fun species => Res.ok (if g.excludetags.length ≠ 0 then withoutTags species g.excludetags else species)) = .ok r ∧
        r.Sublist db.species ∧ ∀ s, s ∈ r ↔ s ∈ db.species ∧ s.aggregateState = .ok g.aggregatestate ∧
          ¬ HasAllTags g.excludetags s ∧ Allowed (· ∈ symbols) s := by
      intro symbols
      refine ⟨_, rfl, ?_, ?_⟩
      · have h1 : (withElements (Database.speciesWithAggregateState db g.aggregatestate) symbols).Sublist db.species := by
          unfold withElements
          rw [hdb.group]
          exact List.Sublist.trans List.filter_sublist List.filter_sublist
        split
        · unfold withoutTags
          split
          · exact h1
          · exact List.Sublist.trans List.filter_sublist h1
        · exact h1
      · intro s
        have h1 : s ∈ withElements (Database.speciesWithAggregateState db g.aggregatestate) symbols ↔
            s ∈ db.species ∧ s.aggregateState = .ok g.aggregatestate ∧ Allowed (· ∈ symbols) s := by
          unfold withElements
          rw [List.mem_filter, mem_group hdb, contained_iff]
          simp only [Species.symbols, List.mem_map, forall_exists_index, and_imp, forall_apply_eq_imp_iff₂, Allowed]
          tauto
        by_cases ht : g.excludetags = []
        · rw [if_neg (by simp [ht]), h1]
          have : ¬ HasAllTags g.excludetags s := fun h => h.1 ht
          tauto
        · rw [if_pos (by simpa using ht)]
          unfold withoutTags
          rw [if_neg ht, List.mem_filter, h1, Bool.not_eq_true', ← Bool.not_eq_true, contained_iff]
          unfold HasAllTags
          tauto
    by_cases hs : g.symbols = []
    · rw [if_neg (by simp [hs])]
      obtain ⟨r, h1, h2, h3⟩ := key elements
      refine ⟨r, h1, ⟨fun h => absurd hn h, fun _ => ⟨h2, fun s => ?_⟩⟩, fun s hs' => ⟨((h3 s).1 hs').1, ((h3 s).1 hs').2.1⟩⟩
      rw [h3]
      simp [hs]
    · rw [if_pos (by simpa using hs)]
      obtain ⟨r, h1, h2, h3⟩ := key g.symbols
      refine ⟨r, h1, ⟨fun h => absurd hn h, fun _ => ⟨h2, fun s => ?_⟩⟩, fun s hs' => ⟨((h3 s).1 hs').1, ((h3 s).1 hs').2.1⟩⟩
      rw [h3]
      simp [hs]
  · rw [if_pos (by simpa using hn)]
    have ht := hg hn
    rcases withNames_cases (Database.speciesWithAggregateState db g.aggregatestate) g.names with ⟨r, h1, h2, h3⟩ | ⟨⟨n, hm, hmn⟩, h1⟩
    · left
      rw [h1]
      have h4 : ∀ s ∈ r, s ∈ db.species ∧ s.aggregateState = .ok g.aggregatestate := fun s hs => (mem_group hdb _ s).1 (h3 s hs)
      exact ⟨r, by simp [ht], ⟨fun _ => ⟨h2, h4⟩, fun h => absurd h hn⟩, h4⟩
    · right
      rw [h1]
      exact ⟨⟨n, hm, fun s hs hst => hmn s ((mem_group hdb _ s).2 ⟨hs, hst⟩)⟩, rfl⟩

theorem requested_mono (db : Database.Db) (ex : Species → Prop) (all all' : Str → Prop) (h : ∀ x, all x ↔ all' x) (g : GenericPhase)
    (r : List Species) (hr : Requested ex db all g r) : Requested ex db all' g r := by
  have : all = all' := funext fun x => propext (h x)
  rw [← this]; exact hr

/-! ### Symbols -/

theorem mem_mergeSymbols (species : List Species) (result : List Str) (x : Str) :
    x ∈ mergeSymbols result species ↔ x ∈ result ∨ ∃ s ∈ species, ∃ p ∈ s.elements, p.1.symbol = x := by
  unfold mergeSymbols
  induction species generalizing result with
  | nil => simp
  | cons s species ih =>
    rw [List.foldl_cons, ih, mem_merge]
    simp only [Species.symbols, List.mem_map, List.exists_mem_cons_iff]
    exact or_assoc

theorem collectSymbols_cases (db : Database.Db) (hdb : DbOk db) (g : GenericPhase) :
    (∃ r, collectSymbols db g = .ok r ∧ ∀ x, x ∈ r ↔ Mentioned db [g] x) ∨
    ((∃ n ∈ g.names, ∀ s ∈ db.species, s.name ≠ n) ∧ collectSymbols db g = .throw) := by
  unfold collectSymbols
  dsimp only
  have hres : ∀ x, x ∈ (if g.symbols.length ≠ 0 then merge [] g.symbols else []) ↔ x ∈ g.symbols := by
    intro x
    split
    · rw [mem_merge]; simp
    · rename_i h
      have : g.symbols = [] := by simpa using h
      rw [this]
  by_cases hn : g.names = []
  · left
    rw [if_neg (by simp [hn])]
    refine ⟨_, rfl, fun x => ?_⟩
    rw [hres]
    simp [Mentioned, hn]
  · rw [if_pos (by simpa using hn)]
    rcases withNames_cases db.species g.names with ⟨r, h1, h2, h3⟩ | ⟨h0, h1⟩
    · left
      rw [h1]
      refine ⟨_, rfl, fun x => ?_⟩
      rw [mem_mergeSymbols, hres]
      simp only [Mentioned, List.mem_singleton, exists_eq_left]
      constructor
      · rintro (h | ⟨s, hs, h⟩)
        · exact .inl h
        · exact .inr ⟨s, h3 s hs, h2 ▸ List.mem_map.2 ⟨s, hs, rfl⟩, h⟩
      · rintro (h | ⟨s, hs, hsn, h⟩)
        · exact .inl h
        · rw [← h2] at hsn
          obtain ⟨t, ht, hts⟩ := List.mem_map.1 hsn
          have : t = s := List.inj_on_of_nodup_map hdb.names (h3 t ht) hs hts
          exact .inr ⟨s, this ▸ ht, h⟩
    · right
      rw [h1]
      exact ⟨h0, rfl⟩

theorem collectAll_cases (db : Database.Db) (hdb : DbOk db) (defs : List GenericPhase) (symbols : List Str) :
    (∃ r, collectAll db symbols defs = .ok r ∧ ∀ x, x ∈ r ↔ x ∈ symbols ∨ Mentioned db defs x) ∨
    ((∃ g ∈ defs, ∃ n ∈ g.names, ∀ s ∈ db.species, s.name ≠ n) ∧ collectAll db symbols defs = .throw) := by
  induction defs generalizing symbols with
  | nil => left; exact ⟨symbols, rfl, by simp [Mentioned]⟩
  | cons g gs ih =>
    simp only [collectAll]
    rcases collectSymbols_cases db hdb g with ⟨r, h1, h2⟩ | ⟨h0, h1⟩
    · rw [h1]
      simp only [Res.bind_ok']
      rcases ih (merge symbols r) with ⟨q, h3, h4⟩ | ⟨⟨g', hg', h0⟩, h3⟩
      · left
        refine ⟨q, h3, fun x => ?_⟩
        rw [h4, mem_merge, h2]
        simp only [Mentioned, List.mem_singleton, exists_eq_left, List.exists_mem_cons_iff]
        exact or_assoc
      · right; exact ⟨⟨g', List.mem_cons_of_mem _ hg', h0⟩, h3⟩
    · right
      rw [h1]
      exact ⟨⟨g, List.mem_cons_self, h0⟩, rfl⟩

/-! ### Generators -/

theorem trim_noSpace (name : Str) (h : NoSpace name) : Strings.trim name = name := by
  obtain ⟨a, b, h1, h2, h3, -, -⟩ := Strings.C08_trim name
  have hw : ∀ c ∈ name, c ∉ Strings.whiteChars := by
    intro c hc hm
    refine h.2 c hc ?_
    simp only [Strings.whiteChars, List.mem_cons, List.not_mem_nil, or_false] at hm ⊢
    tauto
  have ha : a = [] := by
    cases a with
    | nil => rfl
    | cons x a => exact absurd (h2 x List.mem_cons_self) (hw x (by rw [h1]; simp))
  have hb : b = [] := by
    cases b with
    | nil => rfl
    | cons x b => exact absurd (h3 x List.mem_cons_self) (hw x (by rw [h1]; simp))
  rw [ha, hb] at h1
  simpa using h1.symm

theorem stringList_noSpace (name : Str) (h : NoSpace name) : Strings.stringList name ' ' = [name] := by
  have ht := trim_noSpace name h
  have hj := Strings.C09_stringList_join name ' ' (by rw [ht]; exact h.1)
  rw [ht] at hj
  match hl : Strings.stringList name ' ' with
  | [] => rw [hl] at hj; exact absurd hj.symm h.1
  | [t] => rw [hl] at hj; simp at hj; rw [hj]
  | t :: u :: r =>
    exfalso
    rw [hl] at hj
    have : ' ' ∈ name := by
      rw [← hj]
      simp [List.intercalate, List.intersperse]
    exact h.2 ' ' this (by simp)

/-- The phases generated for a list of species. -/
def generated (st : State) (species : List Species) : List GenericPhase :=
  species.map fun s => { phasename := s.name, aggregatestate := st, names := Strings.stringList s.name ' ' }

theorem convert_ok (db : Database.Db) (hdb : DbOk db) (g : GenericPhase) (hg : Constructible g) (symbols : List Str) (p : Phase)
    (h : g.convert db symbols = .ok p) :
    p.name = g.phasename ∧ g.aggregatestate ≠ .Undefined ∧ Requested (HasAllTags g.excludetags) db (· ∈ symbols) g p.species := by
  unfold GenericPhase.convert at h
  by_cases hu : g.aggregatestate = .Undefined
  · rw [if_pos hu] at h; cases h
  rw [if_neg hu] at h
  rcases select_cases db hdb g hg symbols with ⟨r, h1, h2, h3⟩ | ⟨-, h1⟩
  · rw [h1] at h
    simp only [Res.bind_ok'] at h
    by_cases hr : r = []
    · rw [hr, withSpecies_nil] at h; cases h
    · rw [withSpecies_ok _ g.aggregatestate r (fun s hs => (h3 s hs).2) hr] at h
      cases h
      exact ⟨rfl, hu, h2⟩
  · rw [h1] at h; cases h

theorem generate_ok (db : Database.Db) (hdb : DbOk db) (g : GenericPhase) (hg : Constructible g) (symbols : List Str)
    (r : List GenericPhase) (h : generate db symbols g = .ok r) :
    ∃ species, r = generated g.aggregatestate species ∧ Requested (HasAllTags g.excludetags) db (· ∈ symbols) g species ∧
      ∀ s ∈ species, s ∈ db.species := by
  unfold generate at h
  by_cases hu : g.aggregatestate = .Undefined
  · rw [if_pos hu] at h; cases h
  rw [if_neg hu] at h
  rcases select_cases db hdb g hg symbols with ⟨q, h1, h2, h3⟩ | ⟨-, h1⟩
  · rw [h1] at h
    simp only [Res.bind_ok', Res.ok.injEq] at h
    exact ⟨q, h.symm, h2, fun s hs => (h3 s hs).1⟩
  · rw [h1] at h; cases h

theorem collectPhases_ok (db : Database.Db) (hdb : DbOk db) (symbols : List Str) (gens : List GenericPhase)
    (hg : ∀ g ∈ gens, Constructible g) (acc all : List GenericPhase) (h : collectPhases db symbols acc gens = .ok all) :
    ∃ sel : List (List Species),
      List.Forall₂ (fun g l => Requested (HasAllTags g.excludetags) db (· ∈ symbols) g l ∧ ∀ s ∈ l, s ∈ db.species) gens sel ∧
      all = acc ++ (List.zipWith (fun g l => generated g.aggregatestate l) gens sel).flatten := by
  induction gens generalizing acc with
  | nil =>
    simp only [collectPhases, Res.ok.injEq] at h
    exact ⟨[], .nil, by simp [h]⟩
  | cons g gens ih =>
    simp only [collectPhases] at h
    cases hgen : generate db symbols g <;> rw [hgen] at h <;>
      simp only [Res.bind_ok', Res.bind_throw', Res.bind_ub', reduceCtorEq] at h
    obtain ⟨l, h1, h2, h3⟩ := generate_ok db hdb g (hg g List.mem_cons_self) symbols _ hgen
    obtain ⟨sel, h4, h5⟩ := ih (fun g hg' => hg g (List.mem_cons_of_mem _ hg')) _ h
    exact ⟨l :: sel, .cons ⟨h2, h3⟩ h4, by rw [h5, h1]; simp⟩

theorem convertAll_ok (db : Database.Db) (symbols : List Str) (gs : List GenericPhase) (ps : List Phase)
    (h : convertAll db symbols gs = .ok ps) : List.Forall₂ (fun g p => g.convert db symbols = .ok p) gs ps := by
  induction gens : gs generalizing gs ps with
  | nil => subst gens; simp only [convertAll, Res.ok.injEq] at h; rw [← h]; exact .nil
  | cons g gs' ih =>
    subst gens
    simp only [convertAll] at h
    cases h1 : g.convert db symbols <;> rw [h1] at h <;>
      simp only [Res.bind_ok', Res.bind_throw', Res.bind_ub', reduceCtorEq] at h
    cases h2 : convertAll db symbols gs' <;> rw [h2] at h <;>
      simp only [Res.bind_ok', Res.bind_throw', Res.bind_ub', reduceCtorEq] at h
    cases h
    exact .cons h1 (ih gs' _ h2 rfl)

theorem fixNames_forall (gs : List GenericPhase) :
    List.Forall₂ (fun g g' => (∃ k, g'.phasename = g.phasename ++ Strings.repeated ['!'] k) ∧
      g' = { g with phasename := g'.phasename }) gs (fixNames gs) := by
  rw [List.forall₂_iff_get]
  have hl : (fixNames gs).length = gs.length := by simp [fixNames, Strings.makeunique_length]
  refine ⟨hl.symm, ?_⟩
  intro i h1 h2
  obtain ⟨k, hk⟩ := Strings.makeunique_extends ['!'] (gs.map (·.phasename)) i (by simpa using h1)
  simp only [List.getElem_map] at hk
  have : (fixNames gs)[i] = { gs[i] with phasename := (gs[i]).phasename ++ Strings.repeated ['!'] k } := by
    simp only [fixNames, List.getElem_zipWith, hk]
  simp only [List.get_eq_getElem, this]
  exact ⟨⟨k, rfl⟩, trivial⟩

/-- A phase generated for a species has this species only. -/
theorem generated_convert (db : Database.Db) (hdb : DbOk db) (symbols : List Str) (st : State) (s : Species) (hs : s ∈ db.species)
    (hsp : NoSpace s.name) (name : Str) (p : Phase)
    (h : GenericPhase.convert db symbols { phasename := name, aggregatestate := st, names := Strings.stringList s.name ' ' } = .ok p) :
    p.species = [s] := by
  obtain ⟨-, -, h3, -⟩ := convert_ok db hdb _ (fun _ => rfl) symbols p h
  rw [stringList_noSpace _ hsp] at h3
  obtain ⟨h4, h5⟩ := h3 (by simp)
  dsimp only at h4
  match hp : p.species with
  | [] => rw [hp] at h4; simp at h4
  | [t] =>
    rw [hp] at h4 h5
    simp only [List.map_cons, List.map_nil, List.cons.injEq, and_true] at h4
    rw [List.inj_on_of_nodup_map hdb.names (h5 t List.mem_cons_self).1 hs h4]
  | t :: u :: r => rw [hp] at h4; simp at h4

theorem forall₂_append_left {α β : Type} {R : α → β → Prop} {a a' : List α} {l : List β} (h : List.Forall₂ R (a ++ a') l) :
    ∃ b b', l = b ++ b' ∧ List.Forall₂ R a b ∧ List.Forall₂ R a' b' := by
  induction a generalizing l with
  | nil => exact ⟨[], l, rfl, .nil, h⟩
  | cons x a ih =>
    cases h with
    | cons hx h =>
      obtain ⟨b, b', rfl, h1, h2⟩ := ih h
      exact ⟨_ :: b, b', rfl, .cons hx h1, h2⟩

end Verif.Phases
