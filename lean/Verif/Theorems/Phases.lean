import Verif.Lemmas.Phases
import Verif.Theorems.Database

/-!
# Theorems C30: the species selected by phase definitions

The database is any one made with the calls of C25.
-/

namespace Verif.Phases

open Chem

theorem dbOk (ops : List Database.Op) (flags : List Bool) (db : Database.Db) (h : Database.run {} ops = .ok (flags, db)) : DbOk db := by
  obtain ⟨h1, -, -, h4, -⟩ := Database.C25_database ops flags db h
  exact ⟨h1, h4⟩

theorem checkStates_ok_iff (st : State) (l : List Species) : checkStates st l = .ok () ↔ ∀ s ∈ l, s.aggregateState = .ok st := by
  induction l with
  | nil => simp [checkStates]
  | cons s l ih =>
    unfold checkStates
    cases hs : s.aggregateState with
    | throw => simp [hs, Res.bind]
    | ub => simp [hs, Res.bind]
    | ok st' =>
      simp only [Res.bind_ok', List.mem_cons, forall_eq_or_imp, hs, Res.ok.injEq]
      by_cases he : st' = st
      · rw [if_neg (by simpa using he), ih]; simp [he]
      · rw [if_pos he]; simp [he]

/-- **C30 (aggregate states).** A phase accepts the species of a non-empty list if and only if they have a common aggregate state. -/
theorem C30_common_state (p : Phase) (l : List Species) (hl : l ≠ []) :
    (p.withSpecies l).isOk = true ↔ ∃ st, ∀ s ∈ l, s.aggregateState = .ok st := by
  cases l with
  | nil => exact absurd rfl hl
  | cons s0 l =>
    unfold Phase.withSpecies
    have e : at! (s0 :: l) 0 = .ok s0 := rfl
    rw [e]
    simp only [Res.bind_ok']
    constructor
    · intro h
      cases hs : s0.aggregateState with
      | throw => rw [hs] at h; cases h
      | ub => rw [hs] at h; cases h
      | ok st =>
        rw [hs] at h
        simp only [Res.bind_ok'] at h
        cases hc : checkStates st (s0 :: l) with
        | throw => rw [hc] at h; cases h
        | ub => rw [hc] at h; cases h
        | ok _ => exact ⟨st, (checkStates_ok_iff st _).1 hc⟩
    · rintro ⟨st, h⟩
      rw [h s0 List.mem_cons_self]
      simp only [Res.bind_ok', (checkStates_ok_iff st _).2 h]
      rfl

/-- Two minerals are accepted, a mineral and a gas are not. -/
example : (Phase.withSpecies {} [{ rawName := c!"Quartz", formula := [], elements := [], charge := 0, rawState := .Solid }, { rawName := c!"Lime", formula := [], elements := [], charge := 0, rawState := .Solid }]).isOk = true ∧
    Phase.withSpecies {} [{ rawName := c!"Quartz", formula := [], elements := [], charge := 0, rawState := .Solid }, { rawName := c!"CO2(g)", formula := [], elements := [], charge := 0, rawState := .Gas }] = .throw := by
  decide +kernel

/-- **C30 (one definition).** The possible outcomes of converting a definition with an aggregate state:
* the requested species, if there are any (with the species that carry *all* excluded tags left out, see `C30_exclude_partial`),
* an error exactly if a named species is not in the database with the aggregate state,
* undefined behaviour if no species is selected: the first species of the empty list is read. -/
theorem C30_definition (ops : List Database.Op) (flags : List Bool) (db : Database.Db) (h : Database.run {} ops = .ok (flags, db))
    (g : GenericPhase) (hg : Constructible g) (hst : g.aggregatestate ≠ .Undefined) (symbols : List Str) :
    (∃ species, Requested (HasAllTags g.excludetags) db (· ∈ symbols) g species ∧
      ((species ≠ [] ∧ g.convert db symbols = .ok ⟨g.phasename, species⟩) ∨ (species = [] ∧ g.convert db symbols = .ub))) ∨
    ((∃ n ∈ g.names, ∀ s ∈ db.species, s.aggregateState = .ok g.aggregatestate → s.name ≠ n) ∧ g.convert db symbols = .throw) := by
  have hdb := dbOk ops flags db h
  unfold GenericPhase.convert
  rw [if_neg hst]
  rcases select_cases db hdb g hg symbols with ⟨r, h1, h2, h3⟩ | ⟨h0, h1⟩
  · left
    rw [h1]
    refine ⟨r, h2, ?_⟩
    by_cases hr : r = []
    · right; rw [hr]; exact ⟨rfl, rfl⟩
    · left; exact ⟨hr, withSpecies_ok _ g.aggregatestate r (fun s hs => (h3 s hs).2) hr⟩
  · right
    rw [h1]
    exact ⟨h0, rfl⟩

/-- **C30 (the requested species are unique).** There is at most one list of requested species. -/
theorem C30_requested_unique (ops : List Database.Op) (flags : List Bool) (db : Database.Db)
    (h : Database.run {} ops = .ok (flags, db)) (ex : Species → Prop) (all : Str → Prop) (g : GenericPhase) (a b : List Species)
    (ha : Requested ex db all g a) (hb : Requested ex db all g b) : a = b := by
  have hdb := dbOk ops flags db h
  by_cases hn : g.names = []
  · obtain ⟨a1, a2⟩ := ha.2 hn
    obtain ⟨b1, b2⟩ := hb.2 hn
    have hnd : db.species.Nodup := List.Nodup.of_map _ hdb.names
    have hmem : ∀ s, s ∈ a ↔ s ∈ b := fun s => (a2 s).trans (b2 s).symm
    classical
    have key : ∀ (l a : List Species), l.Nodup → a.Sublist l → a = l.filter (fun s => decide (s ∈ a)) := by
      intro l
      induction l with
      | nil => intro a _ h; rw [List.sublist_nil.1 h]; rfl
      | cons x l ih =>
        intro a hnd h
        rw [List.nodup_cons] at hnd
        cases h with
        | cons _ h =>
          rw [List.filter_cons, if_neg (by simpa using fun hx => hnd.1 (h.subset hx))]
          exact ih a hnd.2 h
        | @cons_cons a' _ _ h =>
          rw [List.filter_cons, if_pos (by simp)]
          congr 1
          have := ih a' hnd.2 h
          rw [this]
          apply List.filter_congr
          intro y hy
          rw [← this]
          have : y ≠ x := fun e => hnd.1 (e ▸ hy)
          simp [this]
    rw [key db.species a hnd a1, key db.species b hnd b1]
    apply List.filter_congr
    intro s _
    simp [hmem s]
  · obtain ⟨a1, a2⟩ := ha.1 hn
    obtain ⟨b1, b2⟩ := hb.1 hn
    have : ∀ (a b : List Species), (∀ s ∈ a, s ∈ db.species) → (∀ s ∈ b, s ∈ db.species) → a.map Species.name = b.map Species.name →
        a = b := by
      intro a
      induction a with
      | nil => intro b _ _ h; exact (List.map_eq_nil_iff.1 h.symm).symm
      | cons x a ih =>
        intro b h1 h2 h3
        match b with
        | [] => cases h3
        | y :: b =>
          rw [List.map_cons, List.map_cons, List.cons.injEq] at h3
          rw [List.inj_on_of_nodup_map hdb.names (h1 x List.mem_cons_self) (h2 y List.mem_cons_self) h3.1,
            ih b (fun s hs => h1 s (List.mem_cons_of_mem _ hs)) (fun s hs => h2 s (List.mem_cons_of_mem _ hs)) h3.2]
    exact this a b (fun s hs => (a2 s hs).1) (fun s hs => (b2 s hs).1) (a1.trans b1.symm)

/-- **C30 (excluded tags, partial).** Full statement: the excluded species are those that carry one of the excluded tags; it is false
(`C30_exclude_several_tags`). It holds for at most one excluded tag. -/
theorem C30_exclude_partial (tags : List Str) (h : tags.length ≤ 1) (s : Species) : HasAllTags tags s ↔ HasSomeTag tags s := by
  match tags, h with
  | [], _ => simp [HasAllTags, HasSomeTag]
  | [t], _ => simp [HasAllTags, HasSomeTag]

/-- **C30 (all definitions, partial).** If a list of definitions and generators is converted, the first phases have the species requested
by the definitions, and then there is one phase for each of the species requested by the generators; the symbols allowed
where there is no restriction are exactly those mentioned in the definitions and generators. The names are the requested
ones, possibly followed by exclamation marks. Missing: names with white space in generators (`C30_generator_splits_names`) and several
excluded tags (see `C30_exclude_partial`). -/
theorem C30_convert_partial (ops : List Database.Op) (flags : List Bool) (db : Database.Db) (h : Database.run {} ops = .ok (flags, db))
    (phases generators : List GenericPhase) (hg : ∀ g ∈ phases ++ generators, Constructible g)
    (hsp : ∀ s ∈ db.species, NoSpace s.name) (result : List Phase) (hr : convert db phases generators = .ok result) :
    ∃ (first rest : List Phase) (sel : List (List Species)), result = first ++ rest ∧
      List.Forall₂ (fun g p => Requested (HasAllTags g.excludetags) db (Mentioned db (phases ++ generators)) g p.species) phases first ∧
      List.Forall₂ (fun g l => Requested (HasAllTags g.excludetags) db (Mentioned db (phases ++ generators)) g l) generators sel ∧
      rest.map (·.species) = sel.flatten.map (fun s => [s]) ∧
      List.Forall₂ (fun n p => ∃ k, p.name = n ++ List.replicate k '!')
        (phases.map (·.phasename) ++ sel.flatten.map Species.name) result := by
  have hdb := dbOk ops flags db h
  unfold convert at hr
  rcases collectAll_cases db hdb (phases ++ generators) [] with ⟨symbols, h1, h2⟩ | ⟨-, h1⟩
  swap
  · rw [h1] at hr; cases hr
  rw [h1] at hr
  simp only [Res.bind_ok'] at hr
  have hsym : ∀ x, x ∈ symbols ↔ Mentioned db (phases ++ generators) x := by intro x; rw [h2]; simp
  cases hc : collectPhases db symbols phases generators <;> rw [hc] at hr <;>
    simp only [Res.bind_ok', Res.bind_throw', Res.bind_ub', reduceCtorEq] at hr
  rename_i all
  obtain ⟨sel, h3, h4⟩ := collectPhases_ok db hdb symbols generators (fun g hg' => hg g (List.mem_append_right _ hg')) _ _ hc
  have h5 := convertAll_ok db symbols _ _ hr
  have h6 := fixNames_forall all
  -- each definition with the phase it becomes
  have h7 : List.Forall₂ (fun g p => (∃ k, p.name = g.phasename ++ List.replicate k '!') ∧
      ∃ name, GenericPhase.convert db symbols { g with phasename := name } = .ok p) all result := by
    rw [List.forall₂_iff_get] at h5 h6 ⊢
    refine ⟨h6.1.trans h5.1, ?_⟩
    intro i a b
    have hi : i < (fixNames all).length := by rw [← h6.1]; exact a
    obtain ⟨⟨k, hk⟩, he⟩ := h6.2 i a hi
    have hcv := h5.2 i hi b
    refine ⟨⟨k, ?_⟩, (fixNames all)[i].phasename, ?_⟩
    · have hnm : (result.get ⟨i, b⟩).name = ((fixNames all).get ⟨i, hi⟩).phasename := by
        have hcv' := hcv
        unfold GenericPhase.convert at hcv'
        split_ifs at hcv'
        cases hs : select db ((fixNames all).get ⟨i, hi⟩) symbols <;> rw [hs] at hcv' <;>
          simp only [Res.bind_ok', Res.bind_throw', Res.bind_ub', reduceCtorEq] at hcv'
        unfold Phase.withSpecies at hcv'
        rename_i sp
        cases h0 : at! sp 0 <;> rw [h0] at hcv' <;>
          simp only [Res.bind_ok', Res.bind_throw', Res.bind_ub', reduceCtorEq] at hcv'
        rename_i s0
        cases h0' : s0.aggregateState <;> rw [h0'] at hcv' <;>
          simp only [Res.bind_ok', Res.bind_throw', Res.bind_ub', reduceCtorEq] at hcv'
        rename_i st0
        cases h0'' : checkStates st0 sp <;> rw [h0''] at hcv' <;>
          simp only [Res.bind_ok', Res.bind_throw', Res.bind_ub', reduceCtorEq, Res.ok.injEq] at hcv'
        rw [← hcv']
      have hrep : Strings.repeated ['!'] k = List.replicate k '!' := by
        clear hk
        induction k with
        | zero => rfl
        | succ k ih => rw [Strings.repeated, ih]; exact (List.replicate_succ' (n := k) (a := '!')).symm
      rw [hnm, hk, hrep]
    · simp only [List.get_eq_getElem] at he hcv ⊢
      rw [← he]
      exact hcv
  rw [h4] at h7
  obtain ⟨first, rest, rfl, h8, h9⟩ := forall₂_append_left h7
  refine ⟨first, rest, sel, rfl, ?_, ?_, ?_, ?_⟩
  · rw [List.forall₂_iff_get] at h8 ⊢
    refine ⟨h8.1, fun i a b => ?_⟩
    obtain ⟨-, name, hcv⟩ := h8.2 i a b
    have hg' := hg (phases.get ⟨i, a⟩) (List.mem_append_left _ (List.get_mem _ _))
    exact requested_mono db _ _ _ hsym _ _ (convert_ok db hdb { phases.get ⟨i, a⟩ with phasename := name } hg' symbols _ hcv).2.2
  · exact h3.imp (fun g l hgl => requested_mono db _ _ _ hsym _ _ hgl.1)
  · clear hr hc h4 h5 h6 h7 h8 hg h1 h2 hsym
    induction h3 generalizing rest with
    | nil => simp only [List.zipWith_nil_left, List.flatten_nil] at h9; cases h9; rfl
    | @cons g l gens sel hgl _ ih =>
      rw [List.zipWith_cons_cons, List.flatten_cons] at h9
      obtain ⟨r1, r2, rfl, h10, h11⟩ := forall₂_append_left h9
      rw [List.map_append, ih r2 h11, List.flatten_cons, List.map_append]
      congr 1
      have hl := hgl.2
      clear hgl ih h9 h11
      induction l generalizing r1 with
      | nil => cases h10; rfl
      | cons s l ihl =>
        simp only [generated, List.map_cons] at h10
        cases h10 with
        | @cons _ p _ r1' hp h10 =>
          obtain ⟨-, name, hcv⟩ := hp
          rw [List.map_cons, List.map_cons, ihl r1' h10 (fun s hs => hl s (List.mem_cons_of_mem _ hs)),
            generated_convert db hdb symbols g.aggregatestate s (hl s List.mem_cons_self) (hsp s (hl s List.mem_cons_self)) name p hcv]
  · have h10 : (phases ++ (List.zipWith (fun g l => generated g.aggregatestate l) generators sel).flatten).map (·.phasename) =
        phases.map (·.phasename) ++ sel.flatten.map Species.name := by
      rw [List.map_append]
      congr 1
      clear hr hc h4 h5 h6 h7 h8 h9 hg h1 h2 hsym
      induction h3 with
      | nil => rfl
      | @cons g l gens sel hgl _ ih =>
        rw [List.zipWith_cons_cons, List.flatten_cons, List.map_append, ih, List.flatten_cons, List.map_append]
        congr 1
        simp [generated, Function.comp_def]
    rw [← h10, List.forall₂_map_left_iff]
    exact h7.imp (fun g p hp => hp.1)

/-- **C30 (missing species).** A definition or generator naming a species that is not in the database is an error. -/
theorem C30_missing_species (ops : List Database.Op) (flags : List Bool) (db : Database.Db) (h : Database.run {} ops = .ok (flags, db))
    (phases generators : List GenericPhase) (g : GenericPhase) (hg : g ∈ phases ++ generators) (n : Str) (hn : n ∈ g.names)
    (hmiss : ∀ s ∈ db.species, s.name ≠ n) : convert db phases generators = .throw := by
  have hdb := dbOk ops flags db h
  unfold convert
  have key : ∀ (defs : List GenericPhase) (acc : List Str), g ∈ defs → collectAll db acc defs = .throw := by
    intro defs
    induction defs with
    | nil => intro _ h; cases h
    | cons d defs ih =>
      intro acc hm
      simp only [collectAll]
      rcases collectSymbols_cases db hdb d with ⟨r, h1, -⟩ | ⟨-, h1⟩
      · rw [h1]
        simp only [Res.bind_ok']
        rcases List.mem_cons.1 hm with rfl | hm
        · exfalso
          unfold collectSymbols at h1
          have hne : g.names ≠ [] := by rintro h0; rw [h0] at hn; cases hn
          rw [if_pos (by simpa using hne)] at h1
          rcases withNames_cases db.species g.names with ⟨q, h2, h3, h4⟩ | ⟨-, h2⟩
          · rw [← h3] at hn
            obtain ⟨s, hs, hsn⟩ := List.mem_map.1 hn
            exact hmiss s (h4 s hs) hsn
          · rw [h2] at h1; cases h1
        · exact ih _ hm
      · rw [h1]; rfl
  rw [key _ [] hg]
  rfl

/-! ### Examples and counterexamples -/

/-- An element of the examples. -/
def el (s : Str) : Element := ⟨s, 1, [], []⟩
/-- A mineral with tags. -/
def mineral (name : Str) (symbols : List Str) (tags : List Str) : Species :=
  ⟨name, name, symbols.map (fun s => (el s, 1)), 0, .Solid, tags, [], []⟩

/-- The calls that make the database of the examples. -/
def exampleOps : List Database.Op :=
  [.addSpecies (mineral c!"Quartz" [c!"Si", c!"O"] [c!"a"]), .addSpecies (mineral c!"Calcite" [c!"Ca", c!"C", c!"O"] [c!"a", c!"b"]),
   .addSpecies (mineral c!"Lime" [c!"Ca", c!"O"] [])]

/-- The observable parts of the conversion. -/
def runConvert (ops : List Database.Op) (phases generators : List GenericPhase) : Res (List (Str × List Str)) :=
  (Database.run {} ops).bind fun r => (convert r.2 phases generators).bind fun ps =>
    .ok (ps.map fun p => (p.name, p.species.map Species.name))

example : runConvert exampleOps [{ phasename := c!"S", aggregatestate := .Solid, names := [c!"Lime", c!"Quartz"] }]
      [{ aggregatestate := .Solid, excludetags := [c!"b"] }] =
    .ok [(c!"S", [c!"Lime", c!"Quartz"]), (c!"Quartz", [c!"Quartz"]), (c!"Lime", [c!"Lime"])] := by decide +kernel

example : Constructible { phasename := c!"S", aggregatestate := .Solid, names := [c!"Lime", c!"Quartz"] } ∧
    NoSpace c!"Lime" := ⟨fun _ => rfl, by decide, by decide⟩

/-- **C30 is false of the code for several excluded tags.** Quartz carries the tag `a`, which is excluded together with `b`, but it is
selected; only Calcite, which carries both, is left out. -/
theorem C30_exclude_several_tags :
    runConvert exampleOps [] [{ aggregatestate := .Solid, symbols := [c!"Si", c!"O", c!"Ca", c!"C"], excludetags := [c!"a", c!"b"] }] =
      .ok [(c!"Quartz", [c!"Quartz"]), (c!"Lime", [c!"Lime"])] ∧
    HasSomeTag [c!"a", c!"b"] (mineral c!"Quartz" [c!"Si", c!"O"] [c!"a"]) := by
  refine ⟨by decide +kernel, ?_⟩
  exact ⟨c!"a", by simp, by simp [mineral]⟩

/-- **C30 is false of the code if no species is selected.** The first species of an empty list is read. -/
theorem C30_empty_selection_ub :
    runConvert exampleOps [{ phasename := c!"Gas", aggregatestate := .Gas, symbols := [c!"O"] }] [] = .ub := by decide +kernel

/-- **C30 is false of the code for generators and names with spaces.** The generated phase looks for the species `Green` and `rust` and
fails. -/
theorem C30_generator_splits_names :
    runConvert [.addSpecies (mineral c!"Green rust" [c!"Fe", c!"O"] [])] [] [{ aggregatestate := .Solid, symbols := [c!"Fe", c!"O"] }] =
      .throw := by decide +kernel

end Verif.Phases
