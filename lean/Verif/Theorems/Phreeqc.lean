import Verif.Lemmas.Phreeqc
import Verif.Theorems.Database

/-!
# Theorems C75: species of a PHREEQC database
-/

namespace Verif.Phreeqc

open Chem

/-! ### Relation to the specification -/

theorem reactantsLoop_spec (db : Phreeqc) (name : Str) (tokens rs : List (Nat × Rat)) (h : reactantsLoop db name tokens = .ok rs) :
    ∃ ts, List.Forall₂ (fun (t : Nat × Rat) (q : PSpecies × Rat) => db.species[t.1]? = some q.1 ∧ t.2 = q.2) tokens ts ∧
      List.Forall₂ (fun (t : Nat × Rat) (q : PSpecies × Rat) => db.species[t.1]? = some q.1 ∧ t.2 = q.2) rs
        (ts.filter fun q => q.1.name ≠ name) := by
  induction tokens generalizing rs with
  | nil => cases h; exact ⟨[], .nil, .nil⟩
  | cons a rest ih =>
    obtain ⟨i, c⟩ := a
    rw [reactantsLoop] at h
    cases hi : db.species[i]? with
    | none => simp [at!, hi] at h
    | some s =>
      simp only [at!, hi, Res.bind_ok'] at h
      cases hr : reactantsLoop db name rest with
      | throw => rw [hr] at h; cases h
      | ub => rw [hr] at h; cases h
      | ok l =>
        rw [hr] at h
        simp only [Res.bind_ok', Res.ok.injEq] at h
        obtain ⟨ts, h1, h2⟩ := ih l hr
        refine ⟨(s, c) :: ts, .cons ⟨hi, rfl⟩ h1, ?_⟩
        by_cases hn : s.name = name
        · rw [if_neg (not_not.2 hn)] at h
          subst h
          rw [List.filter_cons_of_neg (by simp [hn])]
          exact h2
        · rw [if_pos hn] at h
          subst h
          rw [List.filter_cons_of_pos (by simp [hn])]
          exact .cons ⟨hi, rfl⟩ h2

theorem reactantsLoop_of (db : Phreeqc) (name : Str) (tokens : List (Nat × Rat)) (ts : List (PSpecies × Rat))
    (h : List.Forall₂ (fun (t : Nat × Rat) (q : PSpecies × Rat) => db.species[t.1]? = some q.1 ∧ t.2 = q.2) tokens ts) :
    ∃ rs, reactantsLoop db name tokens = .ok rs ∧
      List.Forall₂ (fun (t : Nat × Rat) (q : PSpecies × Rat) => db.species[t.1]? = some q.1 ∧ t.2 = q.2) rs
        (ts.filter fun q => q.1.name ≠ name) := by
  induction h with
  | nil => exact ⟨[], rfl, .nil⟩
  | @cons t q tokens ts h1 _ ih =>
    obtain ⟨i, c⟩ := t
    obtain ⟨s, c'⟩ := q
    obtain ⟨h1, rfl⟩ := h1
    obtain ⟨l, h2, h3⟩ := ih
    refine ⟨_, by rw [reactantsLoop]; simp only [at!, h1, h2, Res.bind_ok']; rfl, ?_⟩
    by_cases hn : s.name = name
    · rw [if_neg (not_not.2 hn), List.filter_cons_of_neg (by simp [hn])]
      exact h3
    · rw [if_pos hn, List.filter_cons_of_pos (by simp [hn])]
      exact .cons ⟨h1, rfl⟩ h3

theorem speciesReactants_spec (db : Phreeqc) (s : PSpecies) (rs : List (Nat × Rat)) (h : speciesReactants db s = .ok rs) :
    ∃ qs, SpeciesReaction db s qs ∧
      List.Forall₂ (fun (t : Nat × Rat) (q : PSpecies × Rat) => db.species[t.1]? = some q.1 ∧ t.2 = q.2) rs qs := by
  unfold speciesReactants at h
  cases hr : s.rxn with
  | none => rw [hr] at h; cases h
  | some tokens =>
    rw [hr] at h
    obtain ⟨ts, h1, h2⟩ := reactantsLoop_spec db s.name tokens rs h
    exact ⟨_, ⟨tokens, ts, hr, h1, rfl⟩, h2⟩

theorem speciesReactants_of (db : Phreeqc) (s : PSpecies) (qs : List (PSpecies × Rat)) (h : SpeciesReaction db s qs) :
    ∃ rs, speciesReactants db s = .ok rs ∧
      List.Forall₂ (fun (t : Nat × Rat) (q : PSpecies × Rat) => db.species[t.1]? = some q.1 ∧ t.2 = q.2) rs qs := by
  obtain ⟨tokens, ts, h1, h2, rfl⟩ := h
  obtain ⟨rs, h3, h4⟩ := reactantsLoop_of db s.name tokens ts h2
  exact ⟨rs, by unfold speciesReactants; rw [h1]; exact h3, h4⟩

theorem master_iff (db : Phreeqc) (s : PSpecies) : Master db s ↔ speciesReactants db s = .ok [] := by
  constructor
  · intro h
    obtain ⟨rs, h1, h2⟩ := speciesReactants_of db s [] h
    cases h2
    exact h1
  · intro h
    obtain ⟨qs, h1, h2⟩ := speciesReactants_spec db s [] h
    cases h2
    exact h1

theorem forall₂_names (db : Phreeqc) (rs : List (Nat × Rat)) (ns : List (Str × Rat)) (qs : List (PSpecies × Rat))
    (h1 : List.Forall₂ (fun (r : Nat × Rat) (n : Str × Rat) => ∃ s, db.species[r.1]? = some s ∧ n = (s.name, r.2)) rs ns)
    (h2 : List.Forall₂ (fun (t : Nat × Rat) (q : PSpecies × Rat) => db.species[t.1]? = some q.1 ∧ t.2 = q.2) rs qs) :
    ns = qs.map fun q => (q.1.name, q.2) := by
  induction h1 generalizing qs with
  | nil => cases h2; rfl
  | @cons r n rs ns ha _ ih =>
    cases h2 with
    | @cons _ q _ qs hb ht =>
      obtain ⟨s, h3, rfl⟩ := ha
      obtain ⟨h4, h5⟩ := hb
      rw [h3] at h4
      cases h4
      rw [ih qs ht, List.map_cons, h5]

theorem hasGasMark_iff (n : Str) : hasGasMark n = true ↔ ∃ a b, n = a ++ c!"(g)" ++ b := by
  induction n with
  | nil => simp [hasGasMark]
  | cons c cs ih =>
    rw [hasGasMark, Bool.or_eq_true, ih, List.isPrefixOf_iff_prefix]
    constructor
    · rintro (⟨b, h⟩ | ⟨a, b, h⟩)
      · exact ⟨[], b, h.symm⟩
      · exact ⟨c :: a, b, by rw [h]; simp⟩
    · rintro ⟨a, b, h⟩
      cases a with
      | nil => exact .inl ⟨b, h.symm⟩
      | cons x a =>
        rw [List.cons_append, List.cons_append, List.cons.injEq] at h
        exact .inr ⟨a, b, h.2⟩

theorem firsts_of_nodup (acc l : List (Str × Rat)) (h : ((acc ++ l).map (·.1)).Nodup) : firsts acc l = acc ++ l := by
  induction l generalizing acc with
  | nil => simp [firsts]
  | cons a l ih =>
    obtain ⟨e, c⟩ := a
    rw [firsts, if_neg ?_, ih (acc ++ [(e, c)]) (by simpa using h)]
    · simp
    · intro hc
      rw [List.map_append, List.nodup_append] at h
      exact h.2.2 e hc e (by simp) rfl

theorem createElements_spec (elements : List Element) (l : List (Str × Rat)) (es : List (Element × Rat)) (h : createElements elements l = .ok es) :
    (es.map fun q => (q.1.symbol, q.2)) = l ∧ ∀ q ∈ es, q.1 ∈ elements := by
  induction l generalizing es with
  | nil => cases h; exact ⟨rfl, by simp⟩
  | cons a l ih =>
    obtain ⟨e, c⟩ := a
    rw [createElements] at h
    cases hf : elements.find? (fun x => x.symbol = e) with
    | none => rw [hf] at h; cases h
    | some x =>
      rw [hf] at h
      cases hr : createElements elements l with
      | throw => rw [hr] at h; cases h
      | ub => rw [hr] at h; cases h
      | ok es' =>
        rw [hr] at h
        cases h
        obtain ⟨i1, i2⟩ := ih es' hr
        have hx : x.symbol = e := of_decide_eq_true (List.find?_some hf :)
        refine ⟨by simp [hx, i1], ?_⟩
        intro q hq
        rcases List.mem_cons.1 hq with rfl | hq
        · exact List.mem_of_find?_eq_some hf
        · exact i2 q hq

theorem addElements_spec (db : Phreeqc) (rest : List PElement) (hrest : ∀ e ∈ rest, e ∈ db.elements) (l l1 : List Element)
    (hl : ∀ x ∈ l, IsElement db x) (h : addElements l rest = .ok l1) : ∀ x ∈ l1, IsElement db x := by
  induction rest generalizing l with
  | nil => cases h; exact hl
  | cons e rest ih =>
    rw [addElements] at h
    cases ha : addElement l e with
    | throw => rw [ha] at h; cases h
    | ub => rw [ha] at h; cases h
    | ok l2 =>
      rw [ha] at h
      refine ih (fun x hx => hrest x (List.mem_cons_of_mem _ hx)) l2 ?_ h
      unfold addElement at ha
      split_ifs at ha with hin
      · cases ha; exact hl
      · cases hm : e.master with
        | none => rw [hm] at ha; cases ha
        | some n =>
          rw [hm] at ha
          cases ha
          intro x hx
          rcases List.mem_append.1 hx with hx | hx
          · exact hl x hx
          · simp only [List.mem_cons, List.not_mem_nil, or_false] at hx
            subst hx
            exact ⟨e, hrest e List.mem_cons_self, rfl, hm.symm, rfl⟩

theorem sameElements (db : Phreeqc) (elements : List Element) (hel : ∀ x ∈ elements, IsElement db x)
    (shuffle : List (Str × Rat) → List (Str × Rat)) (hsh : ∀ l, (shuffle l).Perm l) (elts : List (Str × Rat)) (hn : (elts.map (·.1)).Nodup)
    (es : List (Element × Rat)) (h : createElements elements (shuffle (firsts [] elts)) = .ok es) : SameElements db elts es := by
  obtain ⟨h1, h2⟩ := createElements_spec elements _ es h
  refine ⟨?_, fun q hq => hel _ (h2 q hq)⟩
  rw [h1]
  rw [firsts_of_nodup [] elts (by simpa using hn)]
  exact hsh _

/-- The parts of the construction. -/
theorem build_parts {shuffle : List (Str × Rat) → List (Str × Rat)} {fuel : Nat} {db : Phreeqc} {l : List Entry} (h : build shuffle fuel db = .ok l) :
    ∃ elements l0, addElements [] db.elements = .ok elements ∧
      speciesLoop (addSpecies db elements shuffle fuel) db.species 0 [] = .ok l0 ∧
      phaseLoop (addPhase db elements shuffle fuel) db.phases 0 l0 = .ok l := by
  unfold build at h
  cases h1 : addElements [] db.elements with
  | throw => rw [h1] at h; cases h
  | ub => rw [h1] at h; cases h
  | ok elements =>
    rw [h1] at h
    simp only [Res.bind_ok'] at h
    cases h2 : speciesLoop (addSpecies db elements shuffle fuel) db.species 0 [] with
    | throw => rw [h2] at h; cases h
    | ub => rw [h2] at h; cases h
    | ok l0 =>
      rw [h2] at h
      exact ⟨elements, l0, rfl, h2, h⟩

/-! ### C75 -/

/-- **C75.** A PHREEQC database that can be loaded gives each species and phase once, under its name, with its formula, charge, elements and
aggregate state; a phase with the name of a species is left out. -/
theorem C75_species (shuffle : List (Str × Rat) → List (Str × Rat)) (hsh : ∀ l, (shuffle l).Perm l) (fuel : Nat) (db : Phreeqc)
    (hw : WellFormed db) (l : List Entry) (h : build shuffle fuel db = .ok l) :
    (l.map (·.species.name)).Nodup ∧
    (∀ n, n ∈ l.map (·.species.name) ↔ (∃ s ∈ db.species, s.name = n) ∨ ∃ p ∈ db.phases, p.name = n) ∧
    (∀ e ∈ l, ∀ i, e.src = .species i → ∃ s, db.species[i]? = some s ∧ SameSpecies db s e.species) ∧
    (∀ e ∈ l, ∀ i, e.src = .phase i → ∃ p, db.phases[i]? = some p ∧ SamePhase db p e.species ∧ ∀ s ∈ db.species, s.name ≠ p.name) := by
  obtain ⟨elements, l0, h1, h2, h3⟩ := build_parts h
  have hel := addElements_spec db db.elements (fun _ h => h) [] elements (by simp) h1
  obtain ⟨g1, m1⟩ := speciesLoop_grows (kind := fun src => ∃ i, src = .species i) (fun i => ⟨i, rfl⟩) fuel [] db.species rfl [] l0 h2
  have hrk := rank_of_grows hw.names g1 m1
  have hn1 := speciesLoop_nodup (find l0) (fun i s rs hs hr r hrm s' hs' => hrk i s hs rs hr r hrm s' hs') fuel [] db.species rfl [] l0 h2 (by simp)
  obtain ⟨new, p1, p2, p3⟩ := phaseLoop_present fuel [] db.phases rfl hw.phaseNames l0 l m1 hn1 h3
  obtain ⟨g2, m2⟩ := phaseLoop_grows (kind := fun _ => True) (fun _ => trivial) (fun _ => trivial) fuel [] db.phases rfl hw.phaseNames l0 l h3
  obtain ⟨g3, -⟩ := speciesLoop_grows (kind := fun _ => True) (fun _ => trivial) fuel [] db.species rfl [] l0 h2
  have gall := g3.trans g2
  have hfact : ∀ e ∈ l, ∃ l', Fact db elements shuffle (fun _ => True) l' e := by
    intro e he
    obtain ⟨k, hk, rfl⟩ := List.getElem_of_mem he
    exact ⟨_, gall.fact k _ (List.getElem?_eq_getElem hk)⟩
  have hsp : ∀ e ∈ l, ∀ i, e.src = .species i → ∃ s, db.species[i]? = some s ∧ SameSpecies db s e.species := by
    intro e he i hi
    obtain ⟨l', hf⟩ := hfact e he
    have hd := hf.data
    rw [hi] at hd
    obtain ⟨s, es, d1, d2, d3⟩ := hd
    have hE := sameElements db elements hel shuffle hsh s.elts (hw.speciesElements s (List.mem_of_getElem? d1)) es d2
    refine ⟨s, d1, ?_⟩
    rw [d3]
    refine ⟨rfl, rfl, rfl, hE, ?_, ?_, ?_⟩ <;> simp only [mkSpecies, speciesState] <;> cases s.type <;> simp
  have hph : ∀ e ∈ l, ∀ i, e.src = .phase i → ∃ p, db.phases[i]? = some p ∧ SamePhase db p e.species := by
    intro e he i hi
    obtain ⟨l', hf⟩ := hfact e he
    have hd := hf.data
    rw [hi] at hd
    obtain ⟨p, es, d1, d2, d3⟩ := hd
    have hE := sameElements db elements hel shuffle hsh p.elts (hw.phaseElements p (List.mem_of_getElem? d1)) es d2
    refine ⟨p, d1, ?_⟩
    rw [d3]
    refine ⟨rfl, rfl, rfl, hE, ?_, ?_⟩
    · rw [← hasGasMark_iff]
      simp only [mkSpecies, phaseState]
      split_ifs <;> simp_all
    · rw [← hasGasMark_iff]
      simp only [mkSpecies, phaseState]
      split_ifs <;> simp_all
  refine ⟨p2, ?_, hsp, ?_⟩
  · intro n
    constructor
    · intro hn
      obtain ⟨e, he, rfl⟩ := List.mem_map.1 hn
      cases hs : e.src with
      | species i =>
        obtain ⟨s, a1, a2⟩ := hsp e he i hs
        refine .inl ⟨s, List.mem_of_getElem? a1, ?_⟩
        unfold Species.name
        rw [a2.name, a2.formula]; simp
      | phase i =>
        obtain ⟨p, a1, a2⟩ := hph e he i hs
        have hmem := List.mem_of_getElem? a1
        refine .inr ⟨p, hmem, ?_⟩
        unfold Species.name
        rw [a2.name, if_neg (hw.phaseNames p hmem)]
    · rintro (⟨s, hs, rfl⟩ | ⟨p, hp, rfl⟩)
      · exact g2.mem (m1 s hs)
      · exact m2 p hp
  · intro e he i hi
    obtain ⟨p, a1, a2⟩ := hph e he i hi
    refine ⟨p, a1, a2, ?_⟩
    rw [p1] at he
    rcases List.mem_append.1 he with he | he
    · exfalso
      obtain ⟨k, hk, rfl⟩ := List.getElem_of_mem he
      obtain ⟨j, hj⟩ := (g1.fact k _ (List.getElem?_eq_getElem hk)).kind
      rw [hi] at hj; cases hj
    · obtain ⟨i', p', b1, b2, b3, b4, -⟩ := p3 e he
      rw [hi] at b1
      cases b1
      rw [a1] at b2
      cases b2
      intro s hs hc
      exact b4 (hc ▸ m1 s hs)

/-- **C75, reactions of phases.** The formation reaction of a gas or mineral has the reactants of PHREEQC, with their coefficients. -/
theorem C75_phase_reactants (shuffle : List (Str × Rat) → List (Str × Rat)) (fuel : Nat) (db : Phreeqc)
    (hw : WellFormed db) (l : List Entry) (h : build shuffle fuel db = .ok l) (e : Entry) (he : e ∈ l) (i : Nat) (hi : e.src = .phase i) :
    ∃ p rs, db.phases[i]? = some p ∧ PhaseReaction db p rs ∧ e.species.reactants = rs.map fun q => (q.1.name, q.2) := by
  obtain ⟨elements, l0, h1, h2, h3⟩ := build_parts h
  obtain ⟨g1, m1⟩ := speciesLoop_grows (kind := fun src => ∃ i, src = .species i) (fun i => ⟨i, rfl⟩) fuel [] db.species rfl [] l0 h2
  have hrk := rank_of_grows hw.names g1 m1
  have hn1 := speciesLoop_nodup (find l0) (fun i s rs hs hr r hrm s' hs' => hrk i s hs rs hr r hrm s' hs') fuel [] db.species rfl [] l0 h2 (by simp)
  obtain ⟨new, p1, p2, p3⟩ := phaseLoop_present fuel [] db.phases rfl hw.phaseNames l0 l m1 hn1 h3
  rw [p1] at he
  rcases List.mem_append.1 he with he | he
  · exfalso
    obtain ⟨k, hk, rfl⟩ := List.getElem_of_mem he
    obtain ⟨j, hj⟩ := (g1.fact k _ (List.getElem?_eq_getElem hk)).kind
    rw [hi] at hj; cases hj
  · obtain ⟨i', p, b1, b2, b3, b4, rs, b5, b6⟩ := p3 e he
    rw [hi] at b1
    cases b1
    unfold phaseReactants at b5
    cases hr : p.rxn with
    | none => rw [hr] at b5; cases b5
    | some tokens =>
      rw [hr] at b5
      cases b5
      have key : ∃ qs, List.Forall₂ (fun (t : Nat × Rat) (q : PSpecies × Rat) => db.species[t.1]? = some q.1 ∧ t.2 = q.2) rs qs := by
        clear hr
        generalize e.species.reactants = ns at b6
        induction b6 with
        | nil => exact ⟨[], .nil⟩
        | @cons r _ _ _ ha _ ih =>
          obtain ⟨qs, hq⟩ := ih
          obtain ⟨s, hs, -⟩ := ha
          exact ⟨(s, r.2) :: qs, .cons ⟨hs, rfl⟩ hq⟩
      obtain ⟨qs, hq⟩ := key
      exact ⟨p, qs, b2, ⟨rs, hr, hq⟩, forall₂_names db rs _ qs b6 hq⟩

/-- **C75, reactions of species.** If every species comes after the species of its reaction, other than masters, then its formation reaction has
the reactants of PHREEQC, with their coefficients. -/
theorem C75_reactants_partial (shuffle : List (Str × Rat) → List (Str × Rat)) (fuel : Nat) (db : Phreeqc)
    (hw : WellFormed db) (hord : Ordered db) (l : List Entry) (h : build shuffle fuel db = .ok l) (e : Entry) (he : e ∈ l) (i : Nat) (hi : e.src = .species i) :
    ∃ s rs, db.species[i]? = some s ∧ SpeciesReaction db s rs ∧ e.species.reactants = rs.map fun q => (q.1.name, q.2) := by
  obtain ⟨elements, l0, h1, h2, h3⟩ := build_parts h
  obtain ⟨g1, m1⟩ := speciesLoop_grows (kind := fun src => ∃ i, src = .species i) (fun i => ⟨i, rfl⟩) fuel [] db.species rfl [] l0 h2
  have hrk := rank_of_grows hw.names g1 m1
  have hn1 := speciesLoop_nodup (find l0) (fun i s rs hs hr r hrm s' hs' => hrk i s hs rs hr r hrm s' hs') fuel [] db.species rfl [] l0 h2 (by simp)
  obtain ⟨new, p1, p2, p3⟩ := phaseLoop_present fuel [] db.phases rfl hw.phaseNames l0 l m1 hn1 h3
  have hgood := speciesLoop_good (elements := elements) (shuffle := shuffle) (db := db) (by
    intro i s rs hs hr r hrm s' hs'
    obtain ⟨qs, q1, q2⟩ := speciesReactants_spec db s rs hr
    have hq : ∃ q ∈ qs, q.1 = s' := by
      clear q1 hr
      induction q2 with
      | nil => cases hrm
      | @cons t q _ _ ha _ ih =>
        rcases List.mem_cons.1 hrm with rfl | hrm
        · refine ⟨q, List.mem_cons_self, ?_⟩
          have := ha.1
          rw [hs'] at this
          exact (Option.some.inj this).symm
        · obtain ⟨q', a1, a2⟩ := ih hrm
          exact ⟨q', List.mem_cons_of_mem _ a1, a2⟩
    obtain ⟨q, hq1, rfl⟩ := hq
    rcases hord i s qs hs q1 q hq1 with h | h
    · exact .inl ((master_iff db q.1).1 h)
    · exact .inr h) fuel [] db.species rfl [] l0 (by simp) (by simp) h2
  rw [p1] at he
  rcases List.mem_append.1 he with he | he
  · obtain ⟨k, hk, rfl⟩ := List.getElem_of_mem he
    obtain ⟨s, d1, -⟩ := (g1.fact k _ (List.getElem?_eq_getElem hk)).species_name i hi
    obtain ⟨rs, r1, r2⟩ := hgood _ he i s hi d1
    obtain ⟨qs, q1, q2⟩ := speciesReactants_spec db s rs r1
    exact ⟨s, qs, d1, q1, forall₂_names db rs _ qs r2 q2⟩
  · obtain ⟨i', p, b1, -⟩ := p3 e he
    rw [hi] at b1; cases b1

/-- **C75, cycles.** If a database can be loaded, its reactions have no cycles. -/
theorem C75_acyclic (shuffle : List (Str × Rat) → List (Str × Rat)) (fuel : Nat) (db : Phreeqc)
    (hw : WellFormed db) (l : List Entry) (h : build shuffle fuel db = .ok l) :
    ∃ rank : Str → Nat, ∀ s ∈ db.species, ∃ rs, SpeciesReaction db s rs ∧ ∀ q ∈ rs, rank q.1.name < rank s.name := by
  obtain ⟨elements, l0, h1, h2, h3⟩ := build_parts h
  obtain ⟨g1, m1⟩ := speciesLoop_grows (kind := fun src => ∃ i, src = .species i) (fun i => ⟨i, rfl⟩) fuel [] db.species rfl [] l0 h2
  have hrk := rank_of_grows hw.names g1 m1
  refine ⟨find l0, fun s hs => ?_⟩
  obtain ⟨i, hi, rfl⟩ := List.getElem_of_mem hs
  have hi' := List.getElem?_eq_getElem hi
  have hr : ∃ rs, speciesReactants db db.species[i] = .ok rs := by
    obtain ⟨e, he, hn⟩ := find_spec l0 _ (m1 _ hs)
    have hf := g1.fact _ e he
    obtain ⟨j, hj⟩ := hf.kind
    obtain ⟨s', e1, e2⟩ := hf.species_name j hj
    obtain ⟨rs, e3, -⟩ := hf.reactants
    rw [hj] at e3
    simp only [srcReactants, at!, e1, Res.bind_ok'] at e3
    have : s' = db.species[i] := by
      have hj' := (List.getElem?_eq_some_iff.1 e1).1
      have hij : j = i := by
        apply (List.getElem?_inj (l := db.species.map (·.name)) (by simpa using hj') hw.names).1
        rw [List.getElem?_map, List.getElem?_map, e1, hi', Option.map_some, Option.map_some, ← e2, hn]
      subst hij
      rw [hi'] at e1
      exact (Option.some.inj e1).symm
    exact ⟨rs, this ▸ e3⟩
  obtain ⟨rs, hr⟩ := hr
  obtain ⟨qs, q1, q2⟩ := speciesReactants_spec db _ rs hr
  refine ⟨qs, q1, fun q hq => ?_⟩
  obtain ⟨r, hr1, hr2⟩ : ∃ r ∈ rs, db.species[r.1]? = some q.1 := by
    clear q1 hr
    induction q2 with
    | nil => cases hq
    | @cons t q' _ _ ha _ ih =>
      rcases List.mem_cons.1 hq with rfl | hq
      · exact ⟨t, List.mem_cons_self, ha.1⟩
      · obtain ⟨r, a1, a2⟩ := ih hq
        exact ⟨r, List.mem_cons_of_mem _ a1, a2⟩
  exact hrk i _ hi' rs hr r hr1 q.1 hr2

theorem createElements_ok (elements : List Element) (l : List (Str × Rat)) (h : ∀ q ∈ l, q.1 ∈ elements.map (·.symbol)) :
    ∃ es, createElements elements l = .ok es := by
  induction l with
  | nil => exact ⟨[], rfl⟩
  | cons a l ih =>
    obtain ⟨e, c⟩ := a
    obtain ⟨es, hes⟩ := ih fun q hq => h q (List.mem_cons_of_mem _ hq)
    obtain ⟨x, hx1, hx2⟩ := List.mem_map.1 (h (e, c) List.mem_cons_self)
    rw [createElements]
    cases hf : elements.find? (fun x => x.symbol = e) with
    | none =>
      have := List.find?_eq_none.1 hf x hx1
      simp only [decide_eq_true_eq] at this
      exact absurd hx2 this
    | some y => exact ⟨(y, c) :: es, by rw [hes]; rfl⟩

theorem addElements_ok (l : List Element) (rest : List PElement) (h : ∀ e ∈ rest, e.master ≠ none) :
    ∃ l1, addElements l rest = .ok l1 ∧ (∀ x, x ∈ l.map (·.symbol) → x ∈ l1.map (·.symbol)) ∧ ∀ e ∈ rest, e.name ∈ l1.map (·.symbol) := by
  induction rest generalizing l with
  | nil => exact ⟨l, rfl, fun _ h => h, by simp⟩
  | cons e rest ih =>
    have hrest : ∀ x ∈ rest, x.master ≠ none := fun x hx => h x (List.mem_cons_of_mem _ hx)
    have key : ∃ l2, addElement l e = .ok l2 ∧ (∀ x, x ∈ l.map (·.symbol) → x ∈ l2.map (·.symbol)) ∧ e.name ∈ l2.map (·.symbol) := by
      unfold addElement
      split_ifs with hin
      · exact ⟨l, rfl, fun _ h => h, hin⟩
      · cases hm : e.master with
        | none => exact absurd hm (h e List.mem_cons_self)
        | some n => exact ⟨_, rfl, by intro x hx; simp only [List.map_append, List.mem_append]; exact .inl hx, by simp⟩
    obtain ⟨l2, a1, a2, a3⟩ := key
    obtain ⟨l1, b1, b2, b3⟩ := ih l2 hrest
    refine ⟨l1, by rw [addElements, a1]; exact b1, fun x hx => b2 x (a2 x hx), ?_⟩
    intro x hx
    rcases List.mem_cons.1 hx with rfl | hx
    · exact b2 _ a3
    · exact b3 x hx

theorem createReactants_ok (db : Phreeqc) (add : PSpecies → Nat → List Entry → Res (List Entry))
    (rs : List (Nat × Rat)) (hadd : ∀ r ∈ rs, ∃ s, db.species[r.1]? = some s ∧ ∀ l, s.name ∉ names l → ∃ e new, add s r.1 l = .ok (l ++ e :: new))
    (l : List Entry) : ∃ q, createReactants db add rs l = .ok q := by
  induction rs generalizing l with
  | nil => exact ⟨(l, []), rfl⟩
  | cons a rest ih =>
    obtain ⟨r, c⟩ := a
    obtain ⟨s, h1, h2⟩ := hadd (r, c) List.mem_cons_self
    have hrest := fun l => ih (fun r hr => hadd r (List.mem_cons_of_mem _ hr)) l
    rw [createReactants]
    simp only [at!, h1, Res.bind_ok']
    by_cases hin : s.name ∈ names l
    · rw [if_neg (by have := (find_lt_iff l s.name).2 hin; omega)]
      obtain ⟨e, he, -⟩ := find_spec l s.name hin
      obtain ⟨q, hq⟩ := hrest l
      exact ⟨_, by simp only [Res.bind_ok', he, hq]; rfl⟩
    · rw [if_pos (find_eq_length l s.name hin)]
      obtain ⟨e, new, ha⟩ := h2 l hin
      obtain ⟨q, hq⟩ := hrest (l ++ e :: new)
      refine ⟨(q.1, (e.species.name, c) :: q.2), ?_⟩
      simp only [ha, Res.bind_ok', find_eq_length l s.name hin, hq]
      rw [List.getElem?_append_right (Nat.le_refl _)]
      simp only [Nat.sub_self, List.getElem?_cons_zero, Res.bind_ok']

theorem addSpecies_ok (db : Phreeqc) (elements : List Element) (shuffle : List (Str × Rat) → List (Str × Rat)) (hsh : ∀ l, (shuffle l).Perm l)
    (rank : Str → Nat) (hr : ∀ s ∈ db.species, ∃ rs, SpeciesReaction db s rs ∧ ∀ q ∈ rs, rank q.1.name < rank s.name)
    (hel : ∀ s ∈ db.species, ∀ q ∈ s.elts, q.1 ∈ elements.map (·.symbol)) (fuel : Nat) (s : PSpecies) (hs : s ∈ db.species)
    (hf : rank s.name < fuel) (i : Nat) (hi : db.species[i]? = some s) (l : List Entry) :
    (s.name ∉ names l → ∃ e new, addSpecies db elements shuffle fuel s i l = .ok (l ++ e :: new)) ∧
    ∃ l1, addSpecies db elements shuffle fuel s i l = .ok l1 := by
  suffices hmain : s.name ∉ names l → ∃ l1, addSpecies db elements shuffle fuel s i l = .ok l1 by
    have hex : ∃ l1, addSpecies db elements shuffle fuel s i l = .ok l1 := by
      by_cases hin : s.name ∈ names l
      · cases fuel with
        | zero => omega
        | succ fuel => exact ⟨l, by rw [addSpecies, if_pos hin]⟩
      · exact hmain hin
    refine ⟨fun hin => ?_, hex⟩
    obtain ⟨l1, h1⟩ := hex
    obtain ⟨g, m⟩ := addSpecies_grows (kind := fun _ => True) (fun _ => trivial) fuel s i l l1 hi h1
    obtain ⟨new, rfl⟩ := g.prefix
    cases new with
    | nil => rw [List.append_nil] at m; exact absurd m hin
    | cons e new => exact ⟨e, new, h1⟩
  induction fuel generalizing s i l with
  | zero => omega
  | succ fuel ih =>
    intro hin
    rw [addSpecies, if_neg hin]
    obtain ⟨qs, q1, q2⟩ := hr s hs
    obtain ⟨rs, r1, r2⟩ := speciesReactants_of db s qs q1
    have hsub : ∀ (a : List (Str × Rat)) (b : List (Str × Rat)), ∀ q ∈ firsts a b, q ∈ a ∨ q ∈ b := by
      intro a b
      induction b generalizing a with
      | nil => intro q hq; exact .inl hq
      | cons x b ih =>
        obtain ⟨e, c⟩ := x
        intro q hq
        rw [firsts] at hq
        split_ifs at hq
        · rcases ih _ q hq with h | h
          · exact .inl h
          · exact .inr (List.mem_cons_of_mem _ h)
        · rcases ih _ q hq with h | h
          · rcases List.mem_append.1 h with h | h
            · exact .inl h
            · simp only [List.mem_cons, List.not_mem_nil, or_false] at h
              subst h; exact .inr List.mem_cons_self
          · exact .inr (List.mem_cons_of_mem _ h)
    obtain ⟨es, hes⟩ := createElements_ok elements (shuffle (firsts [] s.elts)) (by
      intro q hq
      rcases hsub [] s.elts q ((hsh _).mem_iff.1 hq) with h | h
      · cases h
      · exact hel s hs q h)
    have hadd : ∀ r ∈ rs, ∃ s', db.species[r.1]? = some s' ∧ ∀ l, s'.name ∉ names l → ∃ e new,
        addSpecies db elements shuffle fuel s' r.1 l = .ok (l ++ e :: new) := by
      intro r hrm
      obtain ⟨q, hq1, hq2⟩ : ∃ q ∈ qs, db.species[r.1]? = some q.1 := by
        clear q1 q2 r1
        induction r2 with
        | nil => cases hrm
        | @cons t q' _ _ ha _ ih =>
          rcases List.mem_cons.1 hrm with rfl | hrm
          · exact ⟨q', List.mem_cons_self, ha.1⟩
          · obtain ⟨q, a1, a2⟩ := ih hrm
            exact ⟨q, List.mem_cons_of_mem _ a1, a2⟩
      refine ⟨q.1, hq2, fun l hl => ?_⟩
      have hlt := q2 q hq1
      obtain ⟨l1, h1⟩ := ih q.1 (List.mem_of_getElem? hq2) (by omega) r.1 hq2 l hl
      obtain ⟨g, m⟩ := addSpecies_grows (kind := fun _ => True) (fun _ => trivial) fuel q.1 r.1 l l1 hq2 h1
      obtain ⟨new, rfl⟩ := g.prefix
      cases new with
      | nil => rw [List.append_nil] at m; exact absurd m hl
      | cons e new => exact ⟨e, new, h1⟩
    obtain ⟨q, hq⟩ := createReactants_ok db _ rs hadd l
    rw [r1]
    simp only [Res.bind_ok', hes, hq]
    exact ⟨_, rfl⟩

/-- **C75, every database.** A database whose reactions have no cycles, and whose elements have masters and are all defined, can be loaded. -/
theorem C75_returns (shuffle : List (Str × Rat) → List (Str × Rat)) (hsh : ∀ l, (shuffle l).Perm l) (fuel : Nat) (db : Phreeqc) (hw : WellFormed db)
    (rank : Str → Nat) (hr : ∀ s ∈ db.species, ∃ rs, SpeciesReaction db s rs ∧ ∀ q ∈ rs, rank q.1.name < rank s.name)
    (hp : ∀ p ∈ db.phases, ∃ rs, PhaseReaction db p rs)
    (hm : ∀ e ∈ db.elements, e.master ≠ none)
    (hes : ∀ s ∈ db.species, ∀ q ∈ s.elts, ∃ e ∈ db.elements, e.name = q.1)
    (hep : ∀ p ∈ db.phases, ∀ q ∈ p.elts, ∃ e ∈ db.elements, e.name = q.1)
    (hfuel : ∀ s ∈ db.species, rank s.name < fuel) : ∃ l, build shuffle fuel db = .ok l := by
  obtain ⟨elements, h1, -, h2⟩ := addElements_ok [] db.elements hm
  have hel : ∀ s ∈ db.species, ∀ q ∈ s.elts, q.1 ∈ elements.map (·.symbol) := by
    intro s hs q hq
    obtain ⟨e, he, hn⟩ := hes s hs q hq
    exact hn ▸ h2 e he
  have hloop : ∀ done rest, db.species = done ++ rest → ∀ l, ∃ l1, speciesLoop (addSpecies db elements shuffle fuel) rest done.length l = .ok l1 := by
    intro done rest
    induction rest generalizing done with
    | nil => intro _ l; exact ⟨l, rfl⟩
    | cons s rest ih =>
      intro hd l
      have hs : s ∈ db.species := by rw [hd]; simp
      obtain ⟨l2, a⟩ := (addSpecies_ok db elements shuffle hsh rank hr hel fuel s hs (hfuel s hs) done.length (by rw [hd]; simp) l).2
      obtain ⟨l1, b⟩ := ih (done ++ [s]) (by rw [hd]; simp) l2
      refine ⟨l1, ?_⟩
      rw [speciesLoop, a]
      simpa using b
  obtain ⟨l0, h3⟩ := hloop [] db.species rfl []
  have hall := (speciesLoop_grows (kind := fun _ => True) (fun _ => trivial) fuel [] db.species rfl [] l0 h3).2
  have hploop : ∀ done rest, db.phases = done ++ rest → ∀ l, (∀ s ∈ db.species, s.name ∈ names l) →
      ∃ l1, phaseLoop (addPhase db elements shuffle fuel) rest done.length l = .ok l1 := by
    intro done rest
    induction rest generalizing done with
    | nil => intro _ l _; exact ⟨l, rfl⟩
    | cons p rest ih =>
      intro hd l hl
      have hpm : p ∈ db.phases := by rw [hd]; simp
      have key : ∃ l2, addPhase db elements shuffle fuel p done.length l = .ok l2 := by
        unfold addPhase
        split_ifs with hin
        · exact ⟨l, rfl⟩
        · obtain ⟨qs, tokens, t1, t2⟩ := hp p hpm
          have hpr : phaseReactants p = .ok tokens := by unfold phaseReactants; rw [t1]
          obtain ⟨es, he⟩ := createElements_ok elements (shuffle (firsts [] p.elts)) (by
            intro q hq
            rw [firsts_of_nodup [] p.elts (by simpa using hw.phaseElements p hpm), List.nil_append] at hq
            obtain ⟨e, a1, a2⟩ := hep p hpm q ((hsh _).mem_iff.1 hq)
            exact a2 ▸ h2 e a1)
          have hidx : ∀ r ∈ tokens, ∃ s, db.species[r.1]? = some s ∧ s.name ∈ names l := by
            clear t1 hpr
            intro r hrm
            induction t2 with
            | nil => cases hrm
            | @cons t q' _ _ ha _ ih =>
              rcases List.mem_cons.1 hrm with rfl | hrm
              · exact ⟨q'.1, ha.1, hl _ (List.mem_of_getElem? ha.1)⟩
              · exact ih hrm
          obtain ⟨ns, c1, -⟩ := createReactants_present (addSpecies db elements shuffle fuel) l tokens hidx
          rw [hpr]
          simp only [Res.bind_ok', he, c1]
          exact ⟨_, rfl⟩
      obtain ⟨l2, a⟩ := key
      obtain ⟨g, -⟩ := addPhase_grows (kind := fun _ => True) (fun _ => trivial) (fun _ => trivial) fuel p done.length l l2 (by rw [hd]; simp)
        (hw.phaseNames p hpm) a
      obtain ⟨l1, b⟩ := ih (done ++ [p]) (by rw [hd]; simp) l2 fun s hs => g.mem (hl s hs)
      refine ⟨l1, ?_⟩
      rw [phaseLoop, a]
      simpa using b
  obtain ⟨l, h4⟩ := hploop [] db.phases rfl l0 hall
  refine ⟨l, ?_⟩
  unfold build
  rw [h1]
  simp only [Res.bind_ok']
  rw [show (0 : Nat) = ([] : List PSpecies).length from rfl, h3]
  exact h4

/-- **C75 is false in other orders.** A species `a` formed from `b`, which is formed from `c`, in this order: the formation reaction of `a` that
Reaktoro has is from `c`. -/
theorem C75_nested_wrong (a b c : Str) (hab : a ≠ b) (hac : a ≠ c) (hbc : b ≠ c) (k₁ k₂ : Rat)
    (shuffle : List (Str × Rat) → List (Str × Rat)) (hsh : ∀ l, (shuffle l).Perm l) (fuel : Nat) (z : Rat) (g m : Nat → Rat) :
    ∃ l, build shuffle (fuel + 3) ⟨[], [⟨a, .aq, z, [], some [(0, -1), (1, k₁)], g, m⟩, ⟨b, .aq, z, [], some [(1, -1), (2, k₂)], g, m⟩,
        ⟨c, .aq, z, [], some [(2, -1)], g, m⟩], []⟩ = .ok l ∧
      l.map (fun e => (e.species.name, e.species.reactants)) = [(c, []), (b, [(c, k₂)]), (a, [(c, k₁)])] := by
  have hs : shuffle [] = [] := (hsh []).eq_nil
  refine ⟨[⟨mkSpecies c c [] z .Aqueous [], .species 2⟩, ⟨mkSpecies b b [] z .Aqueous [(c, k₂)], .species 1⟩,
    ⟨mkSpecies a a [] z .Aqueous [(c, k₁)], .species 0⟩], ?_, ?_⟩
  · have n : ∀ (x : Str) es z st rs, (mkSpecies x x es z st rs).name = x := fun x es z st rs => mkSpecies_name _ _ _ _ _ _ (.inr rfl)
    simp [build, addElements, speciesLoop, addSpecies, speciesReactants, reactantsLoop, at!, createElements, createReactants, find, firsts, hs, n,
      hab, hac, hbc, hab.symm, hbc.symm, speciesState, phaseLoop]
  · have n : ∀ (x : Str) es z st rs, (mkSpecies x x es z st rs).name = x := fun x es z st rs => mkSpecies_name _ _ _ _ _ _ (.inr rfl)
    simp only [List.map_cons, List.map_nil, n]
    rfl

theorem addAll_of_run (l : List Species) (db db' : Database.Db)
    (h : Database.run db (l.map Database.Op.addSpecies) = .ok (l.map (fun _ => true), db')) : addAll db l = .ok (true, db') := by
  induction l generalizing db with
  | nil => cases h; rfl
  | cons s l ih =>
    rw [List.map_cons, Database.run] at h
    rw [addAll]
    simp only [Database.step] at h
    cases hs : Database.addSpecies db s with
    | ub => rw [hs] at h; cases h
    | throw =>
      rw [hs] at h
      simp only [Res.bind_ok'] at h
      cases hr : Database.run db (l.map Database.Op.addSpecies) with
      | ok q => rw [hr] at h; simp at h
      | throw => rw [hr] at h; cases h
      | ub => rw [hr] at h; cases h
    | ok db1 =>
      rw [hs] at h
      simp only [Res.bind_ok'] at h
      cases hr : Database.run db1 (l.map Database.Op.addSpecies) with
      | throw => rw [hr] at h; cases h
      | ub => rw [hr] at h; cases h
      | ok q =>
        rw [hr] at h
        simp only [Res.bind_ok', List.map_cons, Res.ok.injEq, Prod.mk.injEq, List.cons.injEq, true_and] at h
        apply ih
        rw [hr, ← h.1, ← h.2]

theorem accepted_all (l acc : List Species) :
    Database.accepted (l.map Database.Op.addSpecies) (l.map (fun _ => true)) acc = acc ++ l := by
  induction l generalizing acc with
  | nil => simp [Database.accepted]
  | cons s l ih => rw [List.map_cons, List.map_cons, Database.accepted, ih]; simp

/-- Species with states and different names are all stored under their names. -/
theorem addAll_names (l : List Species) (hst : ∀ s ∈ l, s.rawState ≠ .Undefined) (hn : (l.map Species.name).Nodup) :
    ∃ db, addAll {} l = .ok (true, db) ∧ db.species.map Species.name = l.map Species.name := by
  obtain ⟨db, h⟩ := Database.C25_calls_return (l.map Database.Op.addSpecies) (by
    intro s hs
    obtain ⟨x, hx, he⟩ := List.mem_map.1 hs
    cases he
    exact hst _ hx)
  have hmap : (l.map Database.Op.addSpecies).map (fun _ => true) = l.map (fun _ => true) := by simp
  rw [hmap] at h
  refine ⟨db, addAll_of_run l {} db h, ?_⟩
  obtain ⟨-, -, -, -, -, hlen, hstored⟩ := Database.C25_database _ _ db h
  rw [accepted_all, List.nil_append] at hlen hstored
  have key : ∀ i, i ≤ l.length → (db.species.take i).map Species.name = (l.take i).map Species.name := by
    intro i
    induction i with
    | zero => intro _; simp
    | succ i ih =>
      intro hi
      have hi1 : i < l.length := by omega
      have hi2 : i < db.species.length := by omega
      have e1 := hstored i l[i] db.species[i] (List.getElem?_eq_getElem hi1) (List.getElem?_eq_getElem hi2)
      rw [List.take_add_one, List.take_add_one, List.getElem?_eq_getElem hi1, List.getElem?_eq_getElem hi2, List.map_append, List.map_append, ih (by omega)]
      congr 1
      simp only [Option.toList_some, List.map_cons, List.map_nil, List.cons.injEq, and_true]
      apply e1.2.1
      rw [ih (by omega), List.map_take]
      intro hc
      have hd : (l.map Species.name).take (i + 1) = (l.map Species.name).take i ++ [l[i].name] := by
        rw [List.take_add_one]; simp [hi1]
      have := hn.sublist (List.take_sublist (i + 1) _)
      rw [hd, List.nodup_append] at this
      exact this.2.2 _ hc _ (by simp) rfl
  have := key l.length (Nat.le_refl _)
  rwa [List.take_length, hlen, List.take_length] at this

/-- **C75, loading.** If the species cannot be made, `load` throws and the database is as before. -/
theorem C75_load_throw (shuffle : List (Str × Rat) → List (Str × Rat)) (fuel : Nat) (db : Phreeqc) (old : Database.Db)
    (h : build shuffle fuel db = .throw) : load shuffle fuel db old = .ok (false, old) := by
  unfold load; rw [h]

/-- **C75, loading.** Otherwise the contents of the database are replaced: its species have the names of the species and phases of PHREEQC. -/
theorem C75_load (shuffle : List (Str × Rat) → List (Str × Rat)) (hsh : ∀ l, (shuffle l).Perm l) (fuel : Nat) (db : Phreeqc) (hw : WellFormed db)
    (hs : ∀ s ∈ db.species, s.type ≠ .solid) (hp : ∀ p ∈ db.phases, p.type = .solid) (old : Database.Db) (l : List Entry)
    (h : build shuffle fuel db = .ok l) :
    ∃ new, load shuffle fuel db old = .ok (true, new) ∧ (new.species.map Species.name).Nodup ∧
      ∀ n, n ∈ new.species.map Species.name ↔ (∃ s ∈ db.species, s.name = n) ∨ ∃ p ∈ db.phases, p.name = n := by
  obtain ⟨h1, h2, h3, h4⟩ := C75_species shuffle hsh fuel db hw l h
  have e : (l.map (·.species)).map Species.name = l.map (·.species.name) := by simp
  obtain ⟨new, g1, g2⟩ := addAll_names (l.map (·.species)) (by
    intro x hx
    obtain ⟨e, he, rfl⟩ := List.mem_map.1 hx
    intro hu
    cases hsrc : e.src with
    | species i =>
      obtain ⟨s, a1, a2⟩ := h3 e he i hsrc
      have b1 := a2.aqueous
      have b2 := a2.exchange
      have b3 := a2.surface
      have b4 := hs s (List.mem_of_getElem? a1)
      rw [hu] at b1 b2 b3
      revert b1 b2 b3 b4
      cases s.type <;> simp
    | phase i =>
      obtain ⟨p, a1, a2, -⟩ := h4 e he i hsrc
      have b1 := a2.gas
      have b2 := a2.mineral
      have b3 := hp p (List.mem_of_getElem? a1)
      rw [hu] at b1 b2
      simp only [b3, true_and, reduceCtorEq, false_iff, not_not] at b1 b2
      exact b1 b2) (by rw [e]; exact h1)
  refine ⟨new, by unfold load; rw [h]; exact g1, by rw [g2, e]; exact h1, ?_⟩
  rw [g2, e]
  exact h2

/-! ### Examples -/

/-- The equilibrium constant and enthalpy of reaction of `HSO4-`. -/
def exLogk (i : Nat) : Rat := if i = 0 then 1988 / 1000 else if i = 1 then 16108 / 1000 else 0

/-- A part of a database with the species of sulfate and aluminium, in alphabetic order, and two phases. -/
def exDb (order : Bool) : Phreeqc where
  elements := [⟨c!"Al", some c!"Al+3", 26981 / 1000⟩, ⟨c!"H", some c!"H+", 1008 / 1000⟩, ⟨c!"O", some c!"H2O", 16⟩, ⟨c!"S", some c!"SO4-2", 32064 / 1000⟩]
  species :=
    if order then
      [⟨c!"Al+3", .aq, 3, [(c!"Al", 1)], some [(0, -1)], fun _ => 0, fun _ => 0⟩,
       ⟨c!"H+", .hplus, 1, [(c!"H", 1)], some [(1, -1)], fun _ => 0, fun _ => 0⟩,
       ⟨c!"HSO4-", .aq, -1, [(c!"H", 1), (c!"S", 1), (c!"O", 4)], some [(2, -1), (3, 1), (1, 1)], exLogk, fun _ => 0⟩,
       ⟨c!"SO4-2", .aq, -2, [(c!"S", 1), (c!"O", 4)], some [(3, -1)], fun _ => 0, fun _ => 0⟩,
       ⟨c!"AlHSO4+2", .aq, 2, [(c!"Al", 1), (c!"H", 1), (c!"S", 1), (c!"O", 4)], some [(4, -1), (0, 1), (2, 1)], fun _ => 0, fun _ => 0⟩]
    else
      [⟨c!"Al+3", .aq, 3, [(c!"Al", 1)], some [(0, -1)], fun _ => 0, fun _ => 0⟩,
       ⟨c!"AlHSO4+2", .aq, 2, [(c!"Al", 1), (c!"H", 1), (c!"S", 1), (c!"O", 4)], some [(1, -1), (0, 1), (3, 1)], fun _ => 0, fun _ => 0⟩,
       ⟨c!"H+", .hplus, 1, [(c!"H", 1)], some [(2, -1)], fun _ => 0, fun _ => 0⟩,
       ⟨c!"HSO4-", .aq, -1, [(c!"H", 1), (c!"S", 1), (c!"O", 4)], some [(3, -1), (4, 1), (2, 1)], exLogk, fun _ => 0⟩,
       ⟨c!"SO4-2", .aq, -2, [(c!"S", 1), (c!"O", 4)], some [(4, -1)], fun _ => 0, fun _ => 0⟩]
  phases := [⟨c!"H2SO4(g)", c!"H2SO4", .solid, [(c!"H", 2), (c!"S", 1), (c!"O", 4)], some [(if order then 1 else 2, 2), (if order then 3 else 4, 1)], fun _ => 0⟩]

theorem exDb_wellFormed (b : Bool) : WellFormed (exDb b) := by
  constructor <;> cases b <;> decide +kernel

/-- The names of the species and of their reactants. -/
def summary : Res (List Entry) → Option (List (Str × List (Str × Rat)))
  | .ok l => some (l.map fun e => (e.species.name, e.species.reactants))
  | _ => none

/-- In the second order the formation reaction of `AlHSO4+2` is from `Al+3` and `SO4-2`, which does not even conserve charge. -/
example :
    summary (build id 6 (exDb true)) =
      some [(c!"Al+3", []), (c!"H+", []), (c!"SO4-2", []), (c!"HSO4-", [(c!"SO4-2", 1), (c!"H+", 1)]),
        (c!"AlHSO4+2", [(c!"Al+3", 1), (c!"HSO4-", 1)]), (c!"H2SO4(g)", [(c!"H+", 2), (c!"SO4-2", 1)])] ∧
    summary (build id 6 (exDb false)) =
      some [(c!"Al+3", []), (c!"SO4-2", []), (c!"H+", []), (c!"HSO4-", [(c!"SO4-2", 1), (c!"H+", 1)]),
        (c!"AlHSO4+2", [(c!"Al+3", 1), (c!"SO4-2", 1)]), (c!"H2SO4(g)", [(c!"H+", 2), (c!"SO4-2", 1)])] := by
  exact ⟨rfl, rfl⟩

/-- The first database is ordered, so `C75_reactants_partial` applies. -/
theorem exDb_ordered : Ordered (exDb true) ∧ ∃ l, build id 6 (exDb true) = .ok l := by
  refine ⟨?_, ?_⟩
  · intro i s rs hs hr q hq
    obtain ⟨is, h1, h2⟩ := speciesReactants_of _ s rs hr
    obtain ⟨t, ht, ht2⟩ : ∃ t ∈ is, (exDb true).species[t.1]? = some q.1 := by
      clear h1 hr
      induction h2 with
      | nil => cases hq
      | @cons t q' _ _ ha _ ih =>
        rcases List.mem_cons.1 hq with rfl | hq
        · exact ⟨t, List.mem_cons_self, ha.1⟩
        · obtain ⟨r, a1, a2⟩ := ih hq
          exact ⟨r, List.mem_cons_of_mem _ a1, a2⟩
    rw [master_iff]
    have hi : i < 5 := by
      have := (List.getElem?_eq_some_iff.1 hs).1
      simpa [exDb] using this
    have key : ∀ t : Nat × Rat, t ∈ is → (t.1 < i) ∨ t.1 = 3 := by
      match i, hi with
      | 0, _ => cases hs; cases h1; intro t ht; cases ht
      | 1, _ => cases hs; cases h1; intro t ht; cases ht
      | 2, _ => cases hs; cases h1; decide +kernel
      | 3, _ => cases hs; cases h1; intro t ht; cases ht
      | 4, _ => cases hs; cases h1; decide +kernel
    rcases key t ht with h | h
    · exact .inr ⟨t.1, h, ht2⟩
    · left
      rw [h] at ht2
      rw [← Option.some.inj ht2]
      rfl
  · exact ⟨_, rfl⟩

end Verif.Phreeqc
